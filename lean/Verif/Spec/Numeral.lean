import Mathlib.Algebra.Ring.Int.Defs
import Mathlib.Algebra.Field.Basic
import Mathlib.Algebra.GroupWithZero.Units.Basic

/-!
# Specification: decimal numerals

The usual notation of numbers in text files: an optional sign, digits with an optional decimal point among them, an optional exponent. This
file does not mention the model.
-/

namespace Verif.Spec

/-- The character of a digit: '0' … '9'. -/
def digitChar (d : Fin 10) : Char := Char.ofNat (48 + d.val)

/-- The number a list of digits stands for. -/
def digitsValue (ds : List (Fin 10)) : Nat := ds.foldl (fun n d => 10 * n + d.val) 0

/-- An optional sign: `none` nothing, `some false` '+', `some true` '-'. -/
def signText : Option Bool → List Char
  | none => []
  | some false => ['+']
  | some true => ['-']

/-- What the sign does to a number. -/
def signed {R : Type} [Ring R] (s : Option Bool) (x : R) : R := if s = some true then -x else x

/-- An exponent: the letter ('E' or 'e'), the sign, the digits. -/
structure Exponent where
  capital : Bool
  sign : Option Bool
  digits : List (Fin 10)

namespace Exponent
def text (x : Exponent) : List Char := (if x.capital then 'E' else 'e') :: (signText x.sign ++ x.digits.map digitChar)
def value (x : Exponent) : Int := signed x.sign (digitsValue x.digits : Int)
end Exponent

/-- A numeral: sign, digits, point and digits behind it, exponent. -/
structure Numeral where
  sign : Option Bool
  whole : List (Fin 10)
  frac : Option (List (Fin 10))
  exp : Option Exponent

namespace Numeral

def text (n : Numeral) : List Char :=
  signText n.sign ++ (n.whole.map digitChar ++ ((match n.frac with | none => [] | some fs => '.' :: fs.map digitChar) ++
    (match n.exp with | none => [] | some x => x.text)))

/-- The number: the digits behind the point count tenths, hundredths, …; the exponent shifts the point. -/
def value {K : Type} [Field K] (n : Numeral) : K :=
  signed n.sign ((digitsValue n.whole : K) + (digitsValue (n.frac.getD []) : K) / 10 ^ (n.frac.getD []).length) *
    10 ^ (match n.exp with | none => 0 | some x => x.value)

/-- There is a digit, and if there is an exponent it has a digit. -/
def WellFormed (n : Numeral) : Prop :=
  (n.whole ≠ [] ∨ n.frac.getD [] ≠ []) ∧ ∀ x, n.exp = some x → x.digits ≠ []

end Numeral
end Verif.Spec
