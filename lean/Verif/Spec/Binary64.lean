import Verif.Spec.Rounding

/-!
# Specification: binary64 with its exponent range

The other specifications round to 53 binary digits with an unbounded exponent. A double has an exponent between -1022 and 1023: smaller numbers
are rounded to multiples of 2^-1074 (gradual underflow), larger ones become infinite. This file does not mention the model.
-/

namespace Verif.Spec
variable {K : Type} [Field K] [LinearOrder K]

/-- `x` is a multiple of `2^-g`. -/
def OnGrid (g : Nat) (x : K) : Prop := ∃ z : Int, x * 2 ^ g = z

/-- `x` is 0, or its magnitude is between `2^-a` and `2^b`. -/
def Sized (a b : Nat) (x : K) : Prop := x = 0 ∨ (1 ≤ |x| * 2 ^ a ∧ |x| ≤ 2 ^ b)

variable [FloorRing K]

/-- Arithmetic on doubles: numbers in the range of normal doubles are rounded to the nearest number with 53 binary digits, ties to even.
What happens to other numbers (gradual underflow or not, infinities) is left open. -/
def IsBinary64 (f : K → K) : Prop := ∀ x, Sized 1022 1023 x → f x = nearestEven 53 x

/-- With gradual underflow, the largest double in place of infinities. -/
def gradual (x : K) : K :=
  if |x| * 2 ^ 1022 < 1 then (roundEven (x * 2 ^ 1074) : K) / 2 ^ 1074
  else if nearestEven 53 x ≤ -2 ^ 1024 then -(2 ^ 1024 - 2 ^ 971)
  else if 2 ^ 1024 ≤ nearestEven 53 x then 2 ^ 1024 - 2 ^ 971
  else nearestEven 53 x

/-- The coordinates of the point are doubles, each 0 or of a magnitude between `2^-a` and `2^m`. -/
def Tame {d : Nat} (a m : Nat) (c : Fin d → K) : Prop := ∀ i, IsFloat (nearestEven 53) (c i) ∧ Sized a m (c i)

end Verif.Spec
