import Verif.Model.Core

/-!
# Input streams

A `std::ifstream`/`std::istringstream` as the code uses it: `std::getline`, `>>` into strings, unsigned integers and doubles.
C++11 rules: a failed conversion stores zero and sets the fail bit; an extraction from a stream that is not good, or that meets the
end while skipping blanks, leaves the variable alone. Not modelled: signs, hexadecimal and out-of-range unsigned numbers, I/O errors
after opening. How the characters of a double are converted is a parameter (`scan`).
-/

namespace Verif

/-- The characters still to be read, and the two state bits. -/
structure IStream where
  rest : List Char
  eof : Bool
  fail : Bool
  deriving DecidableEq, Repr

/-- `std::isspace` in the C locale. -/
def isSpace (c : Char) : Bool :=
  c = ' ' || c = '\n' || c = '\t' || c = '\r' || c = '\x0b' || c = '\x0c'

namespace IStream

/-- `std::ios::good()`. -/
def good (s : IStream) : Bool := !s.eof && !s.fail

/-- A stream over the given text (an opened file, or an `istringstream` after `clear()` and `str(text)`). -/
def ofText (t : List Char) : IStream := ⟨t, false, false⟩

/-- `std::ifstream infile(name)` for a file that cannot be opened. -/
def missing : IStream := ⟨[], false, true⟩

/-- `std::getline(s, line)`; `cur` is the old content of `line`. -/
def getline (s : IStream) (cur : List Char) : IStream × List Char :=
  if s.good then
    let l := s.rest.takeWhile (fun c => c != '\n')
    match s.rest.dropWhile (fun c => c != '\n') with
    | [] => (⟨[], true, l.isEmpty⟩, l)
    | _ :: r => (⟨r, false, false⟩, l)
  else ({ s with fail := true }, cur)

/-- `s >> x`; `cur` is the old value of `x` (`none`: uninitialised), `scan` converts a prefix of the text. -/
def extract {α : Type} (scan : List Char → Option α × List Char) (zero : α) (s : IStream) (cur : Option α) :
    IStream × Option α :=
  if s.good then
    match s.rest.dropWhile isSpace with
    | [] => (⟨[], true, true⟩, cur)
    | c :: r =>
      match scan (c :: r) with
      | (some v, r') => (⟨r', r'.isEmpty, false⟩, some v)
      | (none, r') => (⟨r', r'.isEmpty, true⟩, some zero)
  else ({ s with fail := true }, cur)

/-- Conversion of a word: everything up to the next blank. -/
def scanWord (t : List Char) : Option (List Char) × List Char :=
  (some (t.takeWhile fun c => !isSpace c), t.dropWhile fun c => !isSpace c)

/-- Conversion of an unsigned integer: the leading decimal digits. -/
def scanNat (t : List Char) : Option Nat × List Char :=
  let ds := t.takeWhile Char.isDigit
  let r := t.dropWhile Char.isDigit
  if ds = [] then (none, r) else (some (Nat.ofDigitChars 10 ds 0), r)

/-- `s >> w` for a string (never uninitialised). -/
def word (s : IStream) (cur : List Char) : IStream × List Char :=
  match extract scanWord [] s (some cur) with
  | (s', w) => (s', w.getD [])

/-- A loop `for(i) s >> v[i]` over the given old values. -/
def readNums {α : Type} (scan : List Char → Option α × List Char) (zero : α) : List α → IStream → IStream × List α
  | [], s => (s, [])
  | x :: xs, s =>
    match extract scan zero s (some x) with
    | (s', v) =>
      match readNums scan zero xs s' with
      | (s'', vs) => (s'', v.getD zero :: vs)

end IStream
end Verif
