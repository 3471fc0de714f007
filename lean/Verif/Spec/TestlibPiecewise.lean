import Verif.Spec.ExprReal
import Verif.Spec.Piecewise

/-!
# Specification: the piecewise function shipped in tests/testlib

`x` for `x < 0`, `x² + y²` in the half disc of radius 1/2 for `x ≥ 0`, `r - 1/4` elsewhere, where `r = √(x² + y²)`.
-/

namespace Verif.Spec

/-- A text is an expression with value `f x y` for all `x`, `y` (variables 0 and 1). -/
def RMeans (n : Notation) (s : Text) (f : ℝ → ℝ → ℝ) : Prop :=
  ∃ a, n.read s = some a ∧ a.vars ≤ 2 ∧ ∀ v : Nat → ℝ, a.eval v = f (v 0) (v 1)

/-- A text is a comparison that holds for just those `x`, `y` that satisfy `P`. -/
def CMeans (n : Notation) (s : Text) (P : ℝ → ℝ → Prop) : Prop :=
  ∃ c, n.readCmp s = some c ∧ c.vars ≤ 2 ∧ ∀ v : Nat → ℝ, c.Holds v ↔ P (v 0) (v 1)

/-- The distance from the origin. -/
noncomputable def radius (x y : ℝ) : ℝ := √(x ^ 2 + y ^ 2)

/-- The components (value, gradient, Hessian) of the piece for `x < 0`. -/
def leftFn : Comp → ℝ → ℝ → ℝ
  | .f => fun x _ => x
  | .g 0 => fun _ _ => 1
  | _ => fun _ _ => 0

/-- The components of the piece in the half disc. -/
def discFn : Comp → ℝ → ℝ → ℝ
  | .f => fun x y => x ^ 2 + y ^ 2
  | .g 0 => fun x _ => 2 * x
  | .g _ => fun _ y => 2 * y
  | .h i j => fun _ _ => if i = j then 2 else 0

/-- The components of the piece outside. -/
noncomputable def outerFn : Comp → ℝ → ℝ → ℝ
  | .f => fun x y => radius x y - 1 / 4
  | .g 0 => fun x y => x / radius x y
  | .g _ => fun x y => y / radius x y
  | .h 0 0 => fun x y => 1 / radius x y - x ^ 2 / radius x y ^ 3
  | .h 1 1 => fun x y => 1 / radius x y - y ^ 2 / radius x y ^ 3
  | .h _ _ => fun x y => - (x * y) / radius x y ^ 3

open Classical in
/-- The piece of a point. -/
noncomputable def pieceOf (x y : ℝ) : Nat := if x < 0 then 0 else if x ^ 2 + y ^ 2 < 1 / 4 then 1 else 2

/-- The components of each piece. -/
noncomputable def pieceFn : Nat → Comp → ℝ → ℝ → ℝ
  | 0 => leftFn
  | 1 => discFn
  | _ => outerFn

/-- The components of the function. -/
noncomputable def pieceWiseFn (c : Comp) (x y : ℝ) : ℝ := pieceFn (pieceOf x y) c x y

end Verif.Spec
