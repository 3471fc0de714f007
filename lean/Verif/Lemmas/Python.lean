import Verif.Model.Python
import Verif.Lemmas.SeriesMore

/-!
# Coefficients printed and read from Python
-/

namespace Verif
open Spec

theorem pyReadline_line (l r : List Char) (h : '\n' ∉ l) : pyReadline (l ++ '\n' :: r) = (l ++ ['\n'], r) := by
  induction l with
  | nil => simp [pyReadline]
  | cons c l ih =>
    simp only [List.mem_cons, not_or] at h
    simp [pyReadline, Ne.symm h.1, ih h.2]

theorem pySplit_word (w : List Char) (hb : ∀ c ∈ w, ¬ Blank c) : ∀ word : List Char, word ++ w ≠ [] →
    pySplitFrom word (w ++ ['\n']) = [word ++ w] := by
  induction w with
  | nil => intro word h; simp at h; simp [pySplitFrom, isSpace, h]
  | cons c w ih =>
    intro word _
    have hc : isSpace c = false := by
      have := hb c (by simp); rw [← isSpace_iff] at this; simpa using this
    have := ih (fun x hx => hb x (by simp [hx])) (word ++ [c]) (by simp)
    simp only [List.cons_append, pySplitFrom, hc, Bool.false_eq_true, if_false, this]
    simp

theorem pySplit_last (l w : List Char) (hw : w ≠ []) (hb : ∀ c ∈ w, ¬ Blank c) : ∀ word : List Char,
    (pySplitFrom word (l ++ ' ' :: (w ++ ['\n']))).getLast? = some w := by
  have base := pySplit_word w hb [] (by simpa using hw)
  rw [List.nil_append] at base
  induction l with
  | nil =>
    intro word
    have hs : isSpace ' ' = true := rfl
    simp only [List.nil_append, pySplitFrom, hs, if_true]
    split <;> rw [base] <;> rfl
  | cons c l ih =>
    intro word
    simp only [List.cons_append, pySplitFrom]
    split
    · split
      · exact ih []
      · have := ih []
        rw [List.getLast?_cons]
        rw [this]; rfl
    · exact ih _

/-- The terms in front of a value. -/
theorem terms_shape (ts : List Int) : (ts.flatMap fun t => showInt t ++ [' ']) = [] ∨
    ∃ l, (ts.flatMap fun t => showInt t ++ [' ']) = l ++ [' '] := by
  induction ts with
  | nil => exact Or.inl rfl
  | cons t ts ih =>
    right
    rw [List.flatMap_cons]
    rcases ih with h | ⟨l, h⟩
    · exact ⟨showInt t, by rw [h]; simp⟩
    · exact ⟨showInt t ++ [' '] ++ l, by rw [h]; simp⟩

theorem toDigits_no_newline (n : Nat) : '\n' ∉ Nat.toDigits 10 n := by
  intro h
  have := Nat.isDigit_of_mem_toDigits (b := 10) (by omega) (by omega) h
  simp [Char.isDigit] at this

theorem terms_no_newline (ts : List Int) : '\n' ∉ (ts.flatMap fun t => showInt t ++ [' ']) := by
  intro h
  obtain ⟨t, _, h⟩ := List.mem_flatMap.mp h
  rcases List.mem_append.mp h with h | h
  · simp only [showInt] at h
    split at h
    · rcases List.mem_cons.mp h with h | h
      · cases h
      · exact toDigits_no_newline _ h
    · exact toDigits_no_newline _ h
  · simp at h

variable {K : Type} [Field K] [LinearOrder K] [FloorRing K]

/-- One printed line: what `readline` and `split()[-1]` make of it. -/
theorem pyLine (fmt : K → List Char) (ts : List Int) (y : K) (rest : List Char) (hw : fmt y ≠ []) (hb : ∀ c ∈ fmt y, ¬ Blank c) :
    ∃ line, pyReadline (Series.printLine fmt ts y ++ rest) = (line, rest) ∧ (pySplit line).getLast? = some (fmt y) := by
  have hnl : '\n' ∉ fmt y := fun h => hb _ h (by simp [Blank])
  refine ⟨(ts.flatMap fun t => showInt t ++ [' ']) ++ fmt y ++ ['\n'], ?_, ?_⟩
  · have := pyReadline_line ((ts.flatMap fun t => showInt t ++ [' ']) ++ fmt y) rest (by
      intro h
      rcases List.mem_append.mp h with h | h
      · exact terms_no_newline ts h
      · exact hnl h)
    rw [← this]
    simp [Series.printLine]
  · rcases terms_shape ts with h | ⟨l, h⟩
    · rw [h, List.nil_append]
      have := pySplit_word (fmt y) hb [] (by simpa using hw)
      rw [pySplit, this]; rfl
    · rw [h]
      have := pySplit_last l (fmt y) hw hb []
      rw [pySplit]
      simpa using this

open Series in
/-- Reading the lines of the coefficients `i ≤ l < i + n`, and then `m` more. -/
theorem pyReadLoop_lines {z e : K} {fs : List (Family K)} {fmt : K → List Char} {parse : List Char → Option K} (src : Nat → K)
    (term : Nat → List Int)
    (b : Nat) (hfmt : ∀ l : Nat, l < b → parse (fmt (src l)) = some (src l) ∧ fmt (src l) ≠ [] ∧ ∀ c ∈ fmt (src l), ¬ Blank c)
    (rest : List Char) (m : Nat) (n : Nat) : ∀ (i : Nat) (s : Series K), WF z e fs s → (i : Int) + n ≤ prod (sizesOf fs) → i + n ≤ b →
    ∃ s', pyReadLoop parse (n + m) i (((List.range n).flatMap fun l => printLine fmt (term (i + l)) (src (i + l))) ++ rest) s =
        pyReadLoop parse m (i + n) rest s' ∧ WF z e fs s' ∧
      (∀ l : Nat, l < i → s'.coeff.val[l]? = s.coeff.val[l]?) ∧ ∀ l : Nat, i ≤ l → l < i + n → s'.coeff.val[l]? = some (src l) := by
  induction n with
  | zero => intro i s h _ _; exact ⟨s, by simp, h, fun _ _ => rfl, fun l h1 h2 => by omega⟩
  | succ n ih =>
    intro i s h hi hb
    have hl := h.shaped.len_eq
    have hi' : i < s.coeff.val.length := by omega
    obtain ⟨p1, p2, p3⟩ := hfmt i (by omega)
    let more : List Char := (List.range n).flatMap (fun l => printLine fmt (term (i + 1 + l)) (src (i + 1 + l))) ++ rest
    have hsplit : ((List.range (n + 1)).flatMap fun l => printLine fmt (term (i + l)) (src (i + l))) ++ rest =
        printLine fmt (term i) (src i) ++ more := by
      rw [List.range_succ_eq_map, List.flatMap_cons, List.flatMap_map]
      have : (fun l : Nat => printLine fmt (term (i + l.succ)) (src (i + l.succ))) =
          fun l => printLine fmt (term (i + 1 + l)) (src (i + 1 + l)) := by
        funext l; rw [show i + 1 + l = i + l.succ by omega]
      rw [this]
      simp only [Nat.add_zero, List.append_assoc, more]
    obtain ⟨line, e1, e2⟩ := pyLine fmt (term i) (src i) more p2 p3
    have hset : s.coeff.setLin i (src i) = .ok { s.coeff with val := s.coeff.val.set i (src i) } := by
      rw [NDArray.setLin, vset_nat _ _ _ hi']; rfl
    have w1 := h.withCoeff (setLin_shaped h.shaped hset)
    have e3 : PySer.sem (.setLinearCoeff i (src i)) s = (.ok .none, { s with coeff := { s.coeff with val := s.coeff.val.set i (src i) } }) := by
      simp only [PySer.sem, pySerC, pyCall, apiSem, XSeries.api, XSeries.voidM, Series.step, hset, ok_bind, XOut.toPy]
    obtain ⟨s', f1, f2, f3, f4⟩ := ih (i + 1) _ w1 (by push_cast; omega) (by omega)
    refine ⟨s', ?_, f2, fun l hl => ?_, fun l h1 h2 => ?_⟩
    · rw [hsplit, show n + 1 + m = (n + m) + 1 by omega]
      simp only [pyReadLoop, e1, e2, p1, e3]
      rw [f1, show i + 1 + n = i + (n + 1) by omega]
    · rw [f3 l (by omega)]
      simp [show i ≠ l by omega]
    · by_cases hil : i = l
      · subst hil
        rw [f3 i (by omega)]; simp [hi']
      · exact f4 l (by omega) (by omega)

open Series in
/-- What `print_coeff` writes from Python. -/
theorem pyPrintLoop_of {z e : K} {fs : List (Family K)} {s : Series K} (fmt : K → List Char) (h : WF z e fs s) (n : Nat) : ∀ (i : Nat),
    (i : Int) + n = prod (sizesOf fs) →
    pyPrintLoop fmt s n i = .ok ((List.range n).flatMap fun l =>
      printLine fmt (digits (sizesOf fs) ((i + l : Nat) : Int)) (s.coeff.val.getD (i + l) 0)) := by
  induction n with
  | zero => intro i _; rfl
  | succ n ih =>
    intro i hi
    have hl := h.shaped.len_eq
    have hi' : i < s.coeff.val.length := by omega
    have hg : pyNum (PySer.sem (.getLinearCoeff i) s) = .ok (s.coeff.val.getD i 0) := by
      have : s.coeff.getLin i = .ok (s.coeff.val.getD i 0) := by
        rw [NDArray.getLin, vget_nat _ _ hi']; simp [hi']
      simp only [PySer.sem, pySerC, pyCall, apiSem, XSeries.api, XSeries.constM, this, Except.map, XOut.toPy, pyNum]
    have htI : pyInts (PySer.sem (.tensorIndices i) s) = .ok (digits (sizesOf fs) (i : Int)) := by
      have := NDArray.tensorIndices_of h.shaped h.good (term := List.replicate s.coeff.order.toNat 0)
        (by rw [h.shaped.order_eq]; simp) (l := (i : Int)) (by omega) (by omega)
      simp only [PySer.sem, pyTensorIndices, pySerC, pyCall, apiSem, XSeries.api, XSeries.constM, Except.map, XOut.toPy, this, pyInts]
    simp only [pyPrintLoop, hg, htI, ih (i + 1) (by push_cast; omega)]
    rw [List.range_succ_eq_map, List.flatMap_cons, List.flatMap_map, Nat.add_zero]
    have : (fun l : Nat => printLine fmt (digits (sizesOf fs) ((i + l.succ : Nat) : Int)) (s.coeff.val.getD (i + l.succ) 0)) =
        fun l => printLine fmt (digits (sizesOf fs) ((i + 1 + l : Nat) : Int)) (s.coeff.val.getD (i + 1 + l) 0) := by
      funext l; rw [show i + 1 + l = i + l.succ by omega]
    rw [this]
    simp only [printLine]
    simp [bind, Except.bind]

end Verif
