import Verif.Spec.Mesh

/-!
# Specification: limits of the bins in one direction
-/

namespace Verif.Spec
variable {K : Type} [Field K] [LinearOrder K] {d : Nat}

/-- `x` is between the (closed) limits of the binned region in direction `i`. -/
def WithinBins (pts : List (Fin d → K)) (i : Fin d) (x : K) : Prop :=
  ∀ lo hi, IsLow pts i lo → IsHigh pts i hi → lo - margin pts i lo hi ≤ x ∧ x ≤ hi + margin pts i lo hi

end Verif.Spec
