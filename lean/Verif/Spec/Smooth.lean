import Verif.Spec.Mesh
import Mathlib.Analysis.Calculus.Deriv.Basic

/-!
# Specification: smooth functions of several variables

Partial derivatives on a set of points, and bounds of second derivatives. This file does not mention the model.
-/

namespace Verif.Spec
variable {d : Nat}

/-- At the points of `S`, `f'` is the partial derivative of `f` in direction `i`. -/
def HasSlope (S : (Fin d → ℝ) → Prop) (f f' : (Fin d → ℝ) → ℝ) (i : Fin d) : Prop :=
  ∀ p, S p → HasDerivAt (fun t => f (Function.update p i t)) (f' p) (p i)

/-- At the points of `S`, `f` has a second partial derivative in direction `i`, and it is at most `M` in magnitude. -/
def CurvatureLe (S : (Fin d → ℝ) → Prop) (f : (Fin d → ℝ) → ℝ) (i : Fin d) (M : ℝ) : Prop :=
  ∃ f' f'', HasSlope S f f' i ∧ HasSlope S f' f'' i ∧ ∀ p, S p → |f'' p| ≤ M

/-- The bounding box of the points. -/
def BoundingBox (pts : List (Fin d → ℝ)) (p : Fin d → ℝ) : Prop := ∀ i lo hi, IsLow pts i lo → IsHigh pts i hi → lo ≤ p i ∧ p i ≤ hi

end Verif.Spec
