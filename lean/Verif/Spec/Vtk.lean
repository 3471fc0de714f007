import Mathlib.Data.List.Forall2
import Mathlib.Data.List.OfFn

/-!
# Specification: legacy ASCII vtk files

What it means for a text to be a vtk file listing given points, cells and scalar fields. This file does not mention the model.
-/

namespace Verif.Spec

/-- The characters that separate tokens. -/
def Blank (c : Char) : Prop := c ∈ [' ', '\n', '\t', '\r', '\x0b', '\x0c']

/-- The text is not empty and starts with a blank. -/
def StartsBlank (t : List Char) : Prop := ∃ c r, t = c :: r ∧ Blank c

/-- The characters `t` denote the value `x` for the conversion `scan`: `t` does not start with a blank, and `scan` applied to `t`
followed by a blank yields `x` and stops at that blank. -/
structure Denotes {α : Type} (scan : List Char → Option α × List Char) (t : List Char) (x : α) : Prop where
  start : ∃ c r, t = c :: r ∧ ¬ Blank c
  conv : ∀ w, StartsBlank w → scan (t ++ w) = (some x, w)

/-- `text` consists of the given tokens in order, separated and surrounded by any blanks, and ends with a newline. -/
inductive Layout : List (List Char) → List Char → Prop
  | nil (w : List Char) : (∀ c ∈ w, Blank c) → Layout [] (w ++ ['\n'])
  | cons (w t : List Char) (ts : List (List Char)) (x : List Char) : (∀ c ∈ w, Blank c) → StartsBlank x → Layout ts x →
      Layout (t :: ts) (w ++ t ++ x)

/-- Decimal notation. -/
def dec (n : Nat) : List Char := Nat.toDigits 10 n

/-- Lines, each ended by a newline. -/
def linesText (ls : List (List Char)) : List Char := ls.flatMap fun l => l ++ ['\n']

/-- A line that does not start with one of the keywords. -/
def PlainLine (kws : List (List Char)) (l : List Char) : Prop := '\n' ∉ l ∧ ∀ kw ∈ kws, ¬ kw <+: l

/-- The rest of a section line after its number or name: empty or set off by a blank, no newline. -/
def LineEnd (r : List Char) : Prop := '\n' ∉ r ∧ (r = [] ∨ StartsBlank r)

/-- A section line: keyword, number, anything. -/
def sectionLine (kw : String) (n : Nat) (rest : List Char) : List Char := kw.toList ++ ' ' :: dec n ++ rest ++ ['\n']

/-- `row` lists the coordinates of `p`; a 2D point has a third, arbitrary, coordinate. -/
def PointRow {K : Type} {d : Nat} (scan : List Char → Option K × List Char) (p : Fin d → K) (row : List (List Char)) : Prop :=
  ∃ extra : List K, extra.length = (if d = 2 then 1 else 0) ∧ List.Forall₂ (Denotes scan) row (List.ofFn p ++ extra)

/-- The text of the SCALARS sections for the given fields, `n` values each, with any other lines behind the last. -/
inductive FieldsText {K : Type} (scan : List Char → Option K × List Char) (n : Nat) :
    List (String × List K) → List Char → Prop
  | nil (ls : List (List Char)) : (∀ l ∈ ls, PlainLine ["POINT_DATA".toList, "SCALARS".toList] l) →
      FieldsText scan n [] (linesText ls)
  | cons (name : String) (data : List K) (fs : List (String × List K)) (rest table : List Char) (toks : List (List Char))
      (x y : List Char) :
      name ≠ "" → (∀ c ∈ name.toList, ¬ Blank c) → LineEnd rest → '\n' ∉ table →
      data.length = n → List.Forall₂ (Denotes scan) toks data → Layout toks x → FieldsText scan n fs y →
      FieldsText scan n ((name, data) :: fs)
        ("SCALARS".toList ++ ' ' :: name.toList ++ rest ++ ['\n'] ++ (table ++ ['\n']) ++ x ++ y)

/-- `text` is a vtk file with the given points, cells and scalar fields: any lines, POINTS, CELLS, CELL_TYPES (9 or 12), any lines,
POINT_DATA and the fields. -/
def IsVtk {K : Type} {d : Nat} (scan : List Char → Option K × List Char) (pts : List (Fin d → K)) (cells : List (List Nat))
    (flds : List (String × List K)) (text : List Char) : Prop :=
  ∃ (head mid : List (List Char)) (r1 r2 r3 r4 : List Char) (rows : List (List (List Char))) (types : List Nat)
    (xp xc xt xf : List Char),
    (∀ l ∈ head, PlainLine ["POINTS".toList, "CELLS".toList, "CELL_TYPES".toList] l) ∧
    (∀ l ∈ mid, PlainLine ["POINT_DATA".toList, "SCALARS".toList] l) ∧
    LineEnd r1 ∧ LineEnd r2 ∧ LineEnd r3 ∧ LineEnd r4 ∧
    List.Forall₂ (PointRow scan) pts rows ∧ Layout rows.flatten xp ∧
    Layout ((cells.flatMap fun c => c.length :: c).map dec) xc ∧
    types.length = cells.length ∧ (∀ t ∈ types, t = 9 ∨ t = 12) ∧ Layout (types.map dec) xt ∧
    FieldsText scan pts.length flds xf ∧
    text = linesText head ++ sectionLine "POINTS" pts.length r1 ++ xp ++ sectionLine "CELLS" cells.length r2 ++ xc ++
      sectionLine "CELL_TYPES" cells.length r3 ++ xt ++ linesText mid ++ sectionLine "POINT_DATA" pts.length r4 ++ xf

/-- The frame of a vtk file: any lines, POINTS, CELLS, CELL_TYPES with the given numbers, any lines, POINT_DATA with the given number, and the
text `xf` that follows. -/
def VtkFrame {K : Type} {d : Nat} (scan : List Char → Option K × List Char) (pts : List (Fin d → K)) (cells : List (List Nat))
    (types : List Nat) (np : Nat) (xf text : List Char) : Prop :=
  ∃ (head mid : List (List Char)) (r1 r2 r3 r4 : List Char) (rows : List (List (List Char))) (xp xc xt : List Char),
    (∀ l ∈ head, PlainLine ["POINTS".toList, "CELLS".toList, "CELL_TYPES".toList] l) ∧
    (∀ l ∈ mid, PlainLine ["POINT_DATA".toList, "SCALARS".toList] l) ∧
    LineEnd r1 ∧ LineEnd r2 ∧ LineEnd r3 ∧ LineEnd r4 ∧
    List.Forall₂ (PointRow scan) pts rows ∧ Layout rows.flatten xp ∧
    Layout ((cells.flatMap fun c => c.length :: c).map dec) xc ∧
    types.length = cells.length ∧ Layout (types.map dec) xt ∧
    text = linesText head ++ sectionLine "POINTS" pts.length r1 ++ xp ++ sectionLine "CELLS" cells.length r2 ++ xc ++
      sectionLine "CELL_TYPES" cells.length r3 ++ xt ++ linesText mid ++ sectionLine "POINT_DATA" np r4 ++ xf

end Verif.Spec
