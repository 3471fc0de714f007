import Verif.Spec.RoundedMesh

/-!
# Specification: the numbers of a file as doubles

This file does not mention the model.
-/

namespace Verif.Spec
variable {K : Type} [Field K] [LinearOrder K] {d : Nat}

/-- The points with every coordinate rounded. -/
def roundPts (rnd : K → K) (pts : List (Fin d → K)) : List (Fin d → K) := pts.map fun p i => rnd (p i)

/-- The fields with every value rounded. -/
def roundFlds (rnd : K → K) (flds : List (String × List K)) : List (String × List K) := flds.map fun fl => (fl.1, fl.2.map rnd)

/-- Two points that differ in a coordinate still differ in it when it is rounded. -/
def Apart (rnd : K → K) (pts : List (Fin d → K)) : Prop := ∀ p ∈ pts, ∀ q ∈ pts, ∀ i, rnd (p i) = rnd (q i) → p i = q i

/-- The cell is at most `κ` times its own extent away from the origin (in every direction, at both ends). -/
def Within (κ : K) (a h : Fin d → K) : Prop := ∀ i, |a i| ≤ κ * h i ∧ |a i + h i| ≤ κ * h i

end Verif.Spec
