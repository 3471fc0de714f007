import Verif.Spec.Rounding

/-!
# Specification: decimal rounding

The decimal number with a given number of significant digits nearest to a number. This file does not mention the model.
-/

namespace Verif.Spec
variable {K : Type} [Field K] [LinearOrder K] [FloorRing K]

/-- The number with `P` significant decimal digits nearest to a positive `x`: `10^e ≤ x < 10^(e+1)`, the last digit has the weight
`10^(e+1-P)`; ties to even. -/
def nearestDecimalPos (P : Nat) (x : K) : K :=
  (roundEven (x / 10 ^ (Int.log 10 x + 1 - P)) : K) * 10 ^ (Int.log 10 x + 1 - P)

/-- The number with `P` significant decimal digits nearest to `x`. -/
def nearestDecimal (P : Nat) (x : K) : K :=
  if 0 < x then nearestDecimalPos P x else if x < 0 then -nearestDecimalPos P (-x) else 0

end Verif.Spec
