import Verif.Lemmas.Vtk
import Verif.Lemmas.Demo

/-! A concrete conversion of decimal numbers and a concrete vtk file, used by the examples and counterexamples. -/

namespace Verif.Demo
open Spec

/-- Decimal notation without exponent: sign, digits, optional fraction. A stand-in for `std::num_get<double>`. -/
def scanDec (t : List Char) : Option ℚ × List Char :=
  let sg : ℚ := if t.head? = some '-' then -1 else 1
  let t1 := if t.head? = some '-' then t.tail else t
  let ds := t1.takeWhile Char.isDigit
  let r := t1.dropWhile Char.isDigit
  if ds = [] then (none, r)
  else if r.head? = some '.' then
    let fs := r.tail.takeWhile Char.isDigit
    (some (sg * (Nat.ofDigitChars 10 (ds ++ fs) 0 : ℚ) / 10 ^ fs.length), r.tail.dropWhile Char.isDigit)
  else (some (sg * (Nat.ofDigitChars 10 ds 0 : ℚ)), r)

theorem scanDec_shorter (t : List Char) : (scanDec t).2.length ≤ t.length := by
  have h : ∀ (l : List Char), (l.dropWhile Char.isDigit).length ≤ l.length := fun l =>
    (List.dropWhile_sublist Char.isDigit).length_le
  have h1 := h t
  have h2 := h t.tail
  have h3 := h (t.dropWhile Char.isDigit).tail
  have h4 := h (t.tail.dropWhile Char.isDigit).tail
  simp only [List.length_tail] at h2 h3 h4
  simp only [scanDec]
  split_ifs <;> simp only <;> omega

theorem denotes_scanDec (n : Nat) : Denotes scanDec (dec n) (n : ℚ) := by
  have hd := denotes_dec n
  refine ⟨hd.start, fun w hw => ?_⟩
  have h := hd.conv w hw
  have hdig : ∀ c ∈ dec n, c.isDigit = true := fun c hc => Nat.isDigit_of_mem_toDigits (by decide) (by decide) hc
  have hne : dec n ≠ [] := Nat.toDigits_ne_nil
  obtain ⟨c, r, rfl, hc⟩ := hw
  obtain ⟨a, b, hab, _⟩ := hd.start
  have hcd : c.isDigit = false ∧ c ≠ '.' := by
    simp only [Blank, List.mem_cons, List.not_mem_nil, or_false] at hc
    rcases hc with h | h | h | h | h | h <;> subst h <;> decide
  have hh : (dec n ++ c :: r).head? ≠ some '-' := by
    rw [hab]; simp only [List.cons_append, List.head?_cons, ne_eq, Option.some.injEq]
    intro e
    have := hdig a (by simp [hab])
    rw [e] at this; exact absurd this (by decide)
  have h1 : (dec n ++ c :: r).takeWhile Char.isDigit = dec n := by
    rw [List.takeWhile_append_of_pos hdig]; simp [List.takeWhile_cons, hcd.1]
  have h2 : (dec n ++ c :: r).dropWhile Char.isDigit = c :: r := by
    rw [List.dropWhile_append_of_pos hdig]; simp [List.dropWhile_cons, hcd.1]
  have h3 : (c :: r).head? ≠ some '.' := by simpa using hcd.2
  simp only [scanDec, if_neg hh, h1, h2, if_neg hne, if_neg h3, one_mul]
  simp only [dec, Nat.ofDigitChars_ten_toDigits]

/-- One layout of a list of tokens. -/
def lay (ts : List (List Char)) : List Char := ts.flatMap (fun t => ' ' :: t) ++ ['\n']

theorem layout_lay (ts : List (List Char)) : Layout ts (lay ts) := by
  induction ts with
  | nil => exact Layout.nil [] (by simp)
  | cons t ts ih =>
    have hb : StartsBlank (lay ts) := by
      cases ts with
      | nil => exact startsBlank_newline _
      | cons a as => exact startsBlank_space _
    have := Layout.cons [' '] t ts (lay ts) (by simp [Blank]) hb ih
    simpa [lay] using this

/-- The points of the demo mesh as natural numbers, with a third coordinate. -/
def rows : List (List (List Char)) :=
  [[dec 0, dec 0, dec 0], [dec 1, dec 0, dec 0], [dec 3, dec 0, dec 0], [dec 0, dec 1, dec 0], [dec 1, dec 1, dec 0],
   [dec 3, dec 1, dec 0]]

theorem row_ok (x y : Nat) : PointRow scanDec (![(x : ℚ), (y : ℚ)]) [dec x, dec y, dec 0] := by
  refine ⟨[((0 : Nat) : ℚ)], rfl, ?_⟩
  simp only [List.ofFn_succ, List.ofFn_zero, List.cons_append, List.nil_append]
  exact .cons (denotes_scanDec x) (.cons (denotes_scanDec y) (.cons (denotes_scanDec 0) .nil))

theorem rows_ok : List.Forall₂ (PointRow scanDec) pts rows := by
  have h := row_ok
  refine .cons ?_ (.cons ?_ (.cons ?_ (.cons ?_ (.cons ?_ (.cons ?_ .nil)))))
  · exact_mod_cast h 0 0
  · exact_mod_cast h 1 0
  · exact_mod_cast h 3 0
  · exact_mod_cast h 0 1
  · exact_mod_cast h 1 1
  · exact_mod_cast h 3 1

/-- The text of the two SCALARS sections. -/
def fieldText : List Char :=
  "SCALARS".toList ++ ' ' :: "u".toList ++ " double 1".toList ++ ['\n'] ++ ("LOOKUP_TABLE default".toList ++ ['\n'])
    ++ lay ([1, 2, 3, 4, 5, 7].map dec) ++
  ("SCALARS".toList ++ ' ' :: "w".toList ++ [] ++ ['\n'] ++ ("LOOKUP_TABLE default".toList ++ ['\n'])
    ++ lay ([0, 1, 0, 2, 0, 5].map dec) ++ [])

theorem nums_ok (l : List Nat) : List.Forall₂ (Denotes scanDec) (l.map dec) (l.map fun n : Nat => (n : ℚ)) := by
  rw [List.forall₂_map_left_iff, List.forall₂_map_right_iff]
  exact List.forall₂_same.mpr fun n _ => denotes_scanDec n

theorem field_ok : FieldsText scanDec 6 flds fieldText := by
  have e1 : ([1, 2, 3, 4, 5, 7] : List ℚ) = ([1, 2, 3, 4, 5, 7] : List Nat).map fun n : Nat => (n : ℚ) := by norm_num
  have e2 : ([0, 1, 0, 2, 0, 5] : List ℚ) = ([0, 1, 0, 2, 0, 5] : List Nat).map fun n : Nat => (n : ℚ) := by norm_num
  unfold flds fieldText
  rw [e1, e2]
  refine .cons "u" _ _ _ _ _ _ _ (by decide) (by decide) ⟨by decide, Or.inr (startsBlank_space _)⟩ (by decide) rfl
    (nums_ok _) (layout_lay _) ?_
  refine .cons "w" _ _ _ _ _ _ _ (by decide) (by decide) ⟨by decide, Or.inl rfl⟩ (by decide) rfl (nums_ok _)
    (layout_lay _) ?_
  exact .nil [] (by simp)

/-- The whole file. -/
def vtkText : List Char :=
  linesText ["# vtk DataFile Version 3.0".toList, "ASCII".toList] ++ sectionLine "POINTS" 6 " double".toList ++ lay rows.flatten
    ++ sectionLine "CELLS" 2 " 10".toList ++ lay ((cells.flatMap fun c => c.length :: c).map dec)
    ++ sectionLine "CELL_TYPES" 2 [] ++ lay ([9, 9].map dec) ++ linesText [[]] ++ sectionLine "POINT_DATA" 6 [] ++ fieldText

theorem decP (kws ls : List (List Char)) (h : ∀ l ∈ ls, '\n' ∉ l ∧ ∀ kw ∈ kws, ¬ kw <+: l) :
    ∀ l ∈ ls, PlainLine kws l := h

theorem isVtk : IsVtk scanDec pts cells flds vtkText := by
  refine ⟨["# vtk DataFile Version 3.0".toList, "ASCII".toList], [[]], " double".toList, " 10".toList, [], [], rows, [9, 9],
    _, _, _, _, ?_, ?_, ⟨by decide, Or.inr (startsBlank_space _)⟩, ⟨by decide, Or.inr (startsBlank_space _)⟩,
    ⟨by decide, Or.inl rfl⟩, ⟨by decide, Or.inl rfl⟩, rows_ok, layout_lay _, layout_lay _, rfl, by decide, layout_lay _,
    field_ok, rfl⟩
  · exact decP _ _ (by decide)
  · exact decP _ _ (by decide)

end Verif.Demo
