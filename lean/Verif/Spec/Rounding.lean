import Mathlib.Algebra.Order.Field.Basic
import Mathlib.Algebra.Order.Floor.Ring
import Mathlib.Data.Int.Log

/-!
# Specification: floating-point rounding

Every arithmetic operation on doubles gives the exact result rounded (IEEE 754); comparisons and `floor` are exact. What the theorems use
of rounding is in `Rounding`; `nearestEven p` is IEEE rounding to the nearest number with `p` binary digits, ties to even, with an unbounded
exponent (no overflow, no underflow). Binary64 is `p = 53`. This file does not mention the model.
-/

namespace Verif.Spec
variable {K : Type} [Field K] [LinearOrder K]

/-- A rounding with relative error at most `u` (the unit roundoff). -/
structure Rounding (rnd : K → K) (u : K) : Prop where
  mono : ∀ x y, x ≤ y → rnd x ≤ rnd y
  idem : ∀ x, rnd (rnd x) = rnd x
  neg : ∀ x, rnd (-x) = -rnd x
  one : rnd 1 = 1
  err : ∀ x, |rnd x - x| ≤ u * |x|

/-- `x` is a floating-point number. -/
def IsFloat (rnd : K → K) (x : K) : Prop := rnd x = x

variable [FloorRing K]

/-- The integer nearest to `x`; the even one if there are two. -/
def roundEven (x : K) : Int :=
  if x - (⌊x⌋ : K) < 1 / 2 then ⌊x⌋
  else if 1 / 2 < x - (⌊x⌋ : K) then ⌊x⌋ + 1
  else if ⌊x⌋ % 2 = 0 then ⌊x⌋ else ⌊x⌋ + 1

/-- The number with `p` binary digits nearest to a positive `x`: `2^e ≤ x < 2^(e+1)`, and the last digit has the weight `2^(e+1-p)`. -/
def nearestPos (p : Nat) (x : K) : K :=
  (roundEven (x / 2 ^ (Int.log 2 x + 1 - p)) : K) * 2 ^ (Int.log 2 x + 1 - p)

/-- The number with `p` binary digits nearest to `x`, ties to even. -/
def nearestEven (p : Nat) (x : K) : K :=
  if 0 < x then nearestPos p x else if x < 0 then -nearestPos p (-x) else 0

end Verif.Spec
