import Verif.Model.SeriesOps
import Verif.Spec.Rounding
import Mathlib.Data.Int.Log

/-!
# The text of doubles

`sout << x` and `sin >> x` for doubles, as `print_coeff` and `read_coeff` (PSeriesFunction.hh:453, 468) and the vtk reader
(PFieldBase.hh, Mesh.hh) use them: the conversions of the C++ standard library (`std::num_put`, which is `printf("%.Pg")` with the
precision `P` of the stream, 6 unless the client sets it; `std::num_get`, which collects the longest text of the form
sign digits . digits e sign digits and converts it with `strtod`). Conversions are correctly rounded, as the standard and glibc say.
Simplifications: the exponent range is unbounded (no overflow, no subnormal numbers), no infinities or NaN, no negative zero, no
hexadecimal floats, C locale.
-/

namespace Verif
variable {K : Type} [Field K] [LinearOrder K] [FloorRing K]
open Spec

namespace NumText

/-- The optional sign. -/
def scanSign (t : List Char) : Bool × List Char :=
  match t with
  | '-' :: r => (true, r)
  | '+' :: r => (false, r)
  | t => (false, t)

/-- The optional point and the digits behind it. -/
def scanFrac (t : List Char) : List Char × List Char :=
  match t with
  | '.' :: r => (r.takeWhile Char.isDigit, r.dropWhile Char.isDigit)
  | t => ([], t)

/-- `strtod` of sign, integer digits, fraction digits and exponent, rounded to a double by `rnd`. -/
def convert (rnd : K → K) (neg : Bool) (ds fs : List Char) (e : Int) : K :=
  rnd ((if neg then -1 else 1) * (Nat.ofDigitChars 10 (ds ++ fs) 0 : K) * 10 ^ (e - fs.length))

/-- `sin >> x` for a double `x` (PSeriesFunction.hh:468): `std::num_get` and `strtod`. `none`: the conversion fails. -/
def scan (rnd : K → K) (t : List Char) : Option K × List Char :=
  match scanSign t with
  | (neg, t1) =>
    let ds := t1.takeWhile Char.isDigit
    let t2 := t1.dropWhile Char.isDigit
    let fs := (scanFrac t2).1
    let t3 := (scanFrac t2).2
    if ds ++ fs = [] then (none, t3)
    else if t3.head? = some 'e' ∨ t3.head? = some 'E' then
      match scanSign t3.tail with
      | (eneg, t4) =>
        let es := t4.takeWhile Char.isDigit
        let t5 := t4.dropWhile Char.isDigit
        if es = [] then (none, t5)
        else (some (convert rnd neg ds fs ((if eneg then -1 else 1) * (Nat.ofDigitChars 10 es 0 : Int))), t5)
    else (some (convert rnd neg ds fs 0), t3)

/-- The fraction part that is printed: without trailing zeros, and no point without digits. -/
def fraction (fs : List Char) : List Char :=
  match (fs.reverse.dropWhile (fun c => c == '0')).reverse with
  | [] => []
  | gs => '.' :: gs

/-- Exponent digits: at least two. -/
def exponent (e : Int) : List Char :=
  let ds := Nat.toDigits 10 e.natAbs
  (if e < 0 then '-' else '+') :: (if ds.length < 2 then '0' :: ds else ds)

/-- `%.Pg` of the number with the `P` significant digits `m` and the decimal exponent `e`. -/
def layout (P m : Nat) (e : Int) : List Char :=
  let ds := Nat.toDigits 10 m
  if e < -4 ∨ (P : Int) ≤ e then ds.take 1 ++ fraction (ds.drop 1) ++ 'e' :: exponent e
  else if e < 0 then '0' :: fraction (List.replicate (-e - 1).toNat '0' ++ ds)
  else ds.take (e + 1).toNat ++ fraction (ds.drop (e + 1).toNat)

/-- `%.Pg` of a positive number: its `P` significant digits (rounded, with a carry if they are all nines) and their exponent. -/
def printPos (P : Nat) (x : K) : List Char :=
  let e := Int.log 10 x
  let m := roundEven (x / 10 ^ (e + 1 - P))
  if m = 10 ^ P then layout P (10 ^ (P - 1)) (e + 1) else layout P m.toNat e

/-- `sout << x` for a double `x` and a stream of precision `P` (PSeriesFunction.hh:453). -/
def print (P : Nat) (x : K) : List Char :=
  if 0 < x then printPos P x else if x < 0 then '-' :: printPos P (-x) else ['0']

end NumText
end Verif
