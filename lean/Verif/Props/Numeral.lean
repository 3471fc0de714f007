import Verif.Lemmas.Numeral
import Verif.Props.NumText
import Verif.Props.RoundedFile

/-!
# Property C128: the notation of numbers in files

Every number in the usual decimal notation (Spec/Numeral.lean: sign, digits, point, exponent) is read as the value it has, rounded to a
double, and nothing else is read as a number.
-/

namespace Verif
open Spec
variable {K : Type} [Field K] [LinearOrder K] [IsStrictOrderedRing K] [FloorRing K]

/-- **C128** A text is read as the number `x` (in any file, whatever blank follows) exactly if it is a numeral and `x` is its value, rounded. -/
theorem C128_numeral (rnd : K → K) (t : List Char) (x : K) :
    Denotes (NumText.scan rnd) t x ↔ ∃ n : Numeral, n.WellFormed ∧ t = n.text ∧ x = rnd n.value := by
  constructor
  · intro h
    obtain ⟨n, h1, h2, h3⟩ := NumText.scan_only rnd _ _ _ (h.2 [' '] ⟨' ', [], rfl, by decide⟩)
    exact ⟨n, h1, List.append_cancel_right h2, h3⟩
  · rintro ⟨n, h1, rfl, rfl⟩
    exact ⟨NumText.text_start n h1, fun w hw => (NumText.scan_numeral rnd n w hw).1 h1⟩

/-- **C128** Whatever the file contains: what `>>` takes away from it for a number is a numeral, and the number is its value, rounded. -/
theorem C128_taken (rnd : K → K) (t w : List Char) (x : K) (h : NumText.scan rnd t = (some x, w)) :
    ∃ n : Numeral, n.WellFormed ∧ t = n.text ++ w ∧ x = rnd n.value :=
  NumText.scan_only rnd t x w h

/-- **C128** Signs, a point or an exponent without the digits they need are not read as a number: the conversion fails. -/
theorem C128_malformed (rnd : K → K) (n : Numeral) (hn : ¬ n.WellFormed) (w : List Char) (hw : StartsBlank w) :
    (NumText.scan rnd (n.text ++ w)).1 = none :=
  (NumText.scan_numeral rnd n w hw).2 hn

/-- **C128** What `<<` writes for a number is a numeral, whose value is the nearest number with that many digits. -/
theorem C128_printed (P : Nat) (hP : 0 < P) (x : K) : ∃ n : Numeral, n.WellFormed ∧ NumText.print P x = n.text ∧ n.value = nearestDecimal P x := by
  obtain ⟨n, h1, h2, h3⟩ := (C128_numeral id _ _).mp (NumText.denotes_print (K := K) id rfl hP x)
  exact ⟨n, h1, h2, h3.symm⟩

/-- **C128** (vtk files) Two files with the same points, cells and fields, each number in any notation and any layout, give the same body, in
doubles too. -/
theorem C128_same_body {d : Nat} (rnd : K → K) (E : ElemOps K d) (pts : List (Fin d → K)) (cells : List (List Nat))
    (flds : List (String × List K)) (text text' : List Char) (h : IsVtk (NumText.scan id) pts cells flds text)
    (h' : IsVtk (NumText.scan id) pts cells flds text') :
    ∃ N, ∀ fuel ≥ N, Fl.readVtk rnd (NumText.scan rnd) E fuel (some text) Body.empty =
      Fl.readVtk rnd (NumText.scan rnd) E fuel (some text') Body.empty := by
  obtain ⟨N, hN⟩ := C126_read_is_load rnd _ E _ _ _ text (NumText.isVtk_round rnd h)
  obtain ⟨N', hN'⟩ := C126_read_is_load rnd _ E _ _ _ text' (NumText.isVtk_round rnd h')
  refine ⟨max N N', fun fuel hf => ?_⟩
  rw [hN fuel (le_trans (le_max_left _ _) hf), hN' fuel (le_trans (le_max_right _ _) hf)]

namespace NumeralDemo

/-- `-.25E+1`. -/
def n : Numeral := ⟨some true, [], some [2, 5], some ⟨true, some false, [1]⟩⟩

example : n.text = "-.25E+1".toList ∧ (n.value : ℚ) = -5 / 2 ∧ n.WellFormed := by
  refine ⟨by decide, by decide +kernel, by simp [Numeral.WellFormed, n], fun x hx => ?_⟩
  cases hx; simp

/-- `-2.5`, `-250e-2` and `-.25E+1` are the same number. -/
example : Denotes (NumText.scan id) "-2.5".toList (-5 / 2 : ℚ) ∧ Denotes (NumText.scan id) "-250e-2".toList (-5 / 2 : ℚ) ∧
    Denotes (NumText.scan id) "-.25E+1".toList (-5 / 2 : ℚ) := by
  refine ⟨(C128_numeral _ _ _).mpr ⟨⟨some true, [2], some [5], none⟩, ⟨Or.inl (by simp), by simp⟩, by decide, by decide +kernel⟩,
    (C128_numeral _ _ _).mpr ⟨⟨some true, [2, 5, 0], none, some ⟨false, some true, [2]⟩⟩, ⟨Or.inl (by simp), ?_⟩, by decide, by decide +kernel⟩,
    (C128_numeral _ _ _).mpr ⟨n, ⟨Or.inr (by simp [n]), ?_⟩, by decide, by decide +kernel⟩⟩
  · intro x hx; cases hx; simp
  · intro x hx; cases hx; simp

/-- `1e` followed by a blank is not a number, nor is `-.`. -/
example : (NumText.scan (K := ℚ) id "1e 7".toList).1 = none ∧ (NumText.scan (K := ℚ) id "-. ".toList).1 = none := by
  refine ⟨C128_malformed id ⟨none, [1], none, some ⟨false, none, []⟩⟩ (fun h => h.2 _ rfl rfl) " 7".toList (startsBlank_space _),
    C128_malformed id ⟨some true, [], some [], none⟩ (fun h => ?_) " ".toList (startsBlank_space _)⟩
  rcases h.1 with h | h <;> exact h rfl

open FileDemo (num num_ok pts cells flds)

/-- The same file as `FileDemo.text`, with 1/10 written as `1.0E-1`. -/
def num' (x : ℚ) : List Char := if x = 1 / 10 then "1.0E-1".toList else num x

theorem num'_ok (x : ℚ) (h : nearestDecimal 6 x = x) : Denotes (NumText.scan id) (num' x) x := by
  unfold num'
  split
  · rename_i hx; subst hx
    refine (C128_numeral _ _ _).mpr ⟨⟨none, [1], some [0], some ⟨true, some true, [1]⟩⟩, ⟨Or.inl (by simp), ?_⟩, by decide, by decide +kernel⟩
    intro x hx; cases hx; simp
  · exact num_ok x h

def rows' : List (List (List Char)) := pts.map fun p => [num' (p 0), num' (p 1), num' 0]

def fieldText' : List Char :=
  "SCALARS".toList ++ ' ' :: "u".toList ++ " double 1".toList ++ ['\n'] ++ ("LOOKUP_TABLE default".toList ++ ['\n'])
    ++ Demo.lay ([1 / 10, 2 / 10, 7 / 10, -12 / 10].map num') ++ []

def text' : List Char :=
  linesText ["# vtk DataFile Version 3.0".toList, "ASCII".toList] ++ sectionLine "POINTS" 4 " double".toList ++ Demo.lay rows'.flatten
    ++ sectionLine "CELLS" 1 " 5".toList ++ Demo.lay ((cells.flatMap fun c => c.length :: c).map dec)
    ++ sectionLine "CELL_TYPES" 1 [] ++ Demo.lay ([9].map dec) ++ linesText [[]] ++ sectionLine "POINT_DATA" 4 [] ++ fieldText'

example : text' = ("# vtk DataFile Version 3.0\nASCII\nPOINTS 4 double\n 0 0 0 1.0E-1 0 0 1.0E-1 0.3 0 0 0.3 0\nCELLS 1 5\n 4 0 1 2 3\n" ++
    "CELL_TYPES 1\n 9\n\nPOINT_DATA 4\nSCALARS u double 1\nLOOKUP_TABLE default\n 1.0E-1 0.2 0.7 -1.2\n").toList := by decide +kernel

theorem row_ok' (x y : ℚ) (hx : nearestDecimal 6 x = x) (hy : nearestDecimal 6 y = y) :
    PointRow (NumText.scan id) (![x, y] : Fin 2 → ℚ) [num' x, num' y, num' 0] := by
  refine ⟨[0], rfl, ?_⟩
  simp only [List.ofFn_succ, List.ofFn_zero, List.cons_append, List.nil_append]
  exact .cons (num'_ok x hx) (.cons (num'_ok y hy) (.cons (num'_ok 0 (by decide +kernel)) .nil))

theorem isVtk' : IsVtk (NumText.scan id) pts cells flds text' := by
  refine ⟨["# vtk DataFile Version 3.0".toList, "ASCII".toList], [[]], " double".toList, " 5".toList, [], [], rows', [9],
    _, _, _, _, Demo.decP _ _ (by decide), Demo.decP _ _ (by decide), ⟨by decide, Or.inr (startsBlank_space _)⟩,
    ⟨by decide, Or.inr (startsBlank_space _)⟩, ⟨by decide, Or.inl rfl⟩, ⟨by decide, Or.inl rfl⟩, ?_, Demo.layout_lay _, Demo.layout_lay _, rfl,
    by decide, Demo.layout_lay _, ?_, rfl⟩
  · refine .cons (row_ok' 0 0 ?_ ?_) (.cons (row_ok' (1 / 10) 0 ?_ ?_) (.cons (row_ok' (1 / 10) (3 / 10) ?_ ?_) (.cons (row_ok' 0 (3 / 10) ?_ ?_) .nil)))
      <;> decide +kernel
  · refine .cons "u" _ _ _ _ _ _ _ (by decide) (by decide) ⟨by decide, Or.inr (startsBlank_space _)⟩ (by decide) rfl ?_ (Demo.layout_lay _)
      (.nil [] (by simp))
    refine .cons (num'_ok _ ?_) (.cons (num'_ok _ ?_) (.cons (num'_ok _ ?_) (.cons (num'_ok _ ?_) .nil))) <;> decide +kernel

/-- The two files give the same body. -/
example := C128_same_body (nearestEven 53) (Fl.quadOps (nearestEven 53)) pts cells flds FileDemo.text text' FileDemo.isVtk isVtk'

end NumeralDemo
end Verif
