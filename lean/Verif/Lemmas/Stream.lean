import Verif.Model.Stream
import Verif.Spec.Vtk

/-!
# Lemmas about streams
-/

namespace Verif
open IStream Spec

instance : DecidablePred Blank := fun c => inferInstanceAs (Decidable (c ∈ _))

theorem isSpace_iff (c : Char) : isSpace c = true ↔ Blank c := by
  simp [isSpace, Blank, or_assoc]

theorem not_isSpace (c : Char) : ¬ Blank c ↔ isSpace c = false := by
  rw [← isSpace_iff]; simp

theorem startsBlank_newline (r : List Char) : StartsBlank ('\n' :: r) := ⟨'\n', r, rfl, by simp [Blank]⟩

theorem startsBlank_space (r : List Char) : StartsBlank (' ' :: r) := ⟨' ', r, rfl, by simp [Blank]⟩

theorem startsBlank_append {x : List Char} (h : StartsBlank x) (r : List Char) : StartsBlank (x ++ r) := by
  obtain ⟨c, y, rfl, hc⟩ := h; exact ⟨c, y ++ r, rfl, hc⟩

theorem layout_startsBlank {x : List Char} (h : Layout [] x) : StartsBlank x := by
  cases h with
  | nil w hw =>
    cases w with
    | nil => exact startsBlank_newline []
    | cons c w => exact ⟨c, w ++ ['\n'], rfl, hw c (by simp)⟩

theorem dropWhile_blanks (w : List Char) (hw : ∀ c ∈ w, Blank c) (r : List Char) :
    (w ++ r).dropWhile isSpace = r.dropWhile isSpace := by
  induction w with
  | nil => rfl
  | cons c w ih =>
    have hc : isSpace c = true := (isSpace_iff c).mpr (hw c (by simp))
    simp only [List.cons_append, List.dropWhile_cons, hc, if_true]
    exact ih fun x hx => hw x (by simp [hx])

theorem takeWhile_line (l r : List Char) (h : '\n' ∉ l) : (l ++ '\n' :: r).takeWhile (fun c => c != '\n') = l := by
  induction l with
  | nil => simp
  | cons c l ih =>
    have : c ≠ '\n' := fun e => h (by simp [e])
    simp only [List.cons_append, List.takeWhile_cons, bne_iff_ne, ne_eq, this, not_false_iff, if_true]
    rw [ih fun hm => h (by simp [hm])]

theorem dropWhile_line (l r : List Char) (h : '\n' ∉ l) : (l ++ '\n' :: r).dropWhile (fun c => c != '\n') = '\n' :: r := by
  induction l with
  | nil => simp
  | cons c l ih =>
    have : c ≠ '\n' := fun e => h (by simp [e])
    simp only [List.cons_append, List.dropWhile_cons, bne_iff_ne, ne_eq, this, not_false_iff, if_true]
    rw [ih fun hm => h (by simp [hm])]

theorem getline_line (l r cur : List Char) (h : '\n' ∉ l) :
    getline (ofText (l ++ '\n' :: r)) cur = (ofText r, l) := by
  simp only [getline, ofText, good, Bool.not_false, Bool.and_self, if_true, takeWhile_line l r h, dropWhile_line l r h]

theorem getline_end (cur : List Char) : getline (ofText []) cur = (⟨[], true, true⟩, []) := rfl

theorem extract_token {α : Type} (scan : List Char → Option α × List Char) (zero : α) (cur : Option α)
    (w t x : List Char) (v : α) (hw : ∀ c ∈ w, Blank c) (hx : StartsBlank x) (ht : Denotes scan t v) :
    extract scan zero (ofText (w ++ t ++ x)) cur = (ofText x, some v) := by
  obtain ⟨c, r, rfl, hc⟩ := ht.start
  have hconv := ht.conv x hx
  have hd : (w ++ (c :: r) ++ x).dropWhile isSpace = c :: (r ++ x) := by
    rw [List.append_assoc, dropWhile_blanks w hw]
    simp [List.dropWhile_cons, (not_isSpace c).mp hc]
  have hxe : x.isEmpty = false := by obtain ⟨a, b, rfl, _⟩ := hx; rfl
  simp only [extract, ofText, good, Bool.not_false, Bool.and_self, if_true, hd]
  rw [List.cons_append] at hconv
  rw [hconv]
  simp [hxe]

theorem denotes_dec (n : Nat) : Denotes scanNat (dec n) n := by
  have hdig : ∀ c ∈ dec n, c.isDigit = true := fun c hc => Nat.isDigit_of_mem_toDigits (by decide) (by decide) hc
  have hne : dec n ≠ [] := Nat.toDigits_ne_nil
  have hsp : ∀ c, Blank c → c.isDigit = false := by
    intro c hc
    simp only [Blank, List.mem_cons, List.not_mem_nil, or_false] at hc
    rcases hc with h | h | h | h | h | h <;> subst h <;> decide
  constructor
  · cases h : dec n with
    | nil => exact absurd h hne
    | cons c r =>
      refine ⟨c, r, rfl, fun hb => ?_⟩
      have := hdig c (by simp [h]); rw [hsp c hb] at this; exact absurd this (by decide)
  · intro w hw
    obtain ⟨c, r, rfl, hc⟩ := hw
    have h1 : (dec n ++ c :: r).takeWhile Char.isDigit = dec n := by
      rw [List.takeWhile_append_of_pos hdig]; simp [List.takeWhile_cons, hsp c hc]
    have h2 : (dec n ++ c :: r).dropWhile Char.isDigit = c :: r := by
      rw [List.dropWhile_append_of_pos hdig]; simp [List.dropWhile_cons, hsp c hc]
    simp only [scanNat, h1, h2, if_neg hne]
    simp only [dec, Nat.ofDigitChars_ten_toDigits]

theorem denotes_word (w : List Char) (hne : w ≠ []) (hw : ∀ c ∈ w, ¬ Blank c) : Denotes scanWord w w := by
  constructor
  · cases w with
    | nil => exact absurd rfl hne
    | cons c r => exact ⟨c, r, rfl, hw c (by simp)⟩
  · intro x hx
    obtain ⟨c, r, rfl, hc⟩ := hx
    have hw' : ∀ c ∈ w, (!isSpace c) = true := fun c hc => by simp [(not_isSpace c).mp (hw c hc)]
    have hc' : isSpace c = true := (isSpace_iff c).mpr hc
    simp only [scanWord]
    rw [List.takeWhile_append_of_pos hw', List.dropWhile_append_of_pos hw']
    simp [List.takeWhile_cons, List.dropWhile_cons, hc']

/-- Taking one token off a text made of tokens, with anything behind. -/
theorem extract_layout {α : Type} (scan : List Char → Option α × List Char) (zero : α) (cur : Option α)
    {t : List Char} {ts : List (List Char)} {x : List Char} {v : α} (hx : Layout (t :: ts) x) (ht : Denotes scan t v) :
    ∃ y, Layout ts y ∧ ∀ r, extract scan zero (ofText (x ++ r)) cur = (ofText (y ++ r), some v) := by
  cases hx with
  | cons w _ _ y hw hy hl =>
    refine ⟨y, hl, fun r => ?_⟩
    have := extract_token scan zero cur w t (y ++ r) v hw (startsBlank_append hy r) ht
    simpa [List.append_assoc] using this

theorem readNums_layout {α : Type} (scan : List Char → Option α × List Char) (zero : α) :
    ∀ (old : List α) (vals : List α) (toks : List (List Char)) (more : List (List Char)) (x : List Char),
      old.length = vals.length → List.Forall₂ (Denotes scan) toks vals → Layout (toks ++ more) x →
      ∃ y, Layout more y ∧ ∀ r, readNums scan zero old (ofText (x ++ r)) = (ofText (y ++ r), vals) := by
  intro old
  induction old with
  | nil =>
    intro vals toks more x hlen hf hx
    have : vals = [] := List.length_eq_zero_iff.mp hlen.symm
    subst this
    cases hf
    exact ⟨x, hx, fun r => rfl⟩
  | cons o old ih =>
    intro vals toks more x hlen hf hx
    cases hf with
    | nil => simp at hlen
    | @cons t v ts vs ht hts =>
      obtain ⟨y, hy, he⟩ := extract_layout scan zero (some o) (by simpa using hx) ht
      obtain ⟨z, hz, he2⟩ := ih vs ts more y (by simpa using hlen) hts hy
      refine ⟨z, hz, fun r => ?_⟩
      simp only [readNums, he r, he2 r, Option.getD_some]

/-- A word followed by a token, on a line of its own (no newline at the end). -/
theorem word_line (w t rest : List Char) (hne : w ≠ []) (hw : ∀ c ∈ w, ¬ Blank c) :
    word (ofText (w ++ ' ' :: (t ++ rest))) [] = (ofText (' ' :: (t ++ rest)), w) := by
  have := extract_token scanWord [] (some []) [] w (' ' :: (t ++ rest)) w (by simp) (startsBlank_space _)
    (denotes_word w hne hw)
  simp only [List.nil_append] at this
  simp only [word, this, Option.getD_some]

/-- The value extracted does not depend on a blank being present at the end of the text. -/
theorem extract_snd_end {t rest : List Char} (n : Nat) (cur : Option Nat) (ht : t = dec n) (hr : rest = [] ∨ StartsBlank rest) :
    (extract scanNat 0 (ofText (' ' :: (t ++ rest))) cur).2 = some n := by
  subst ht
  rcases hr with rfl | hr
  · have hd := denotes_dec n
    obtain ⟨c, r, hcr, hc⟩ := hd.start
    have hdig : ∀ c ∈ dec n, c.isDigit = true := fun c hc => Nat.isDigit_of_mem_toDigits (by decide) (by decide) hc
    have h1 : (dec n).takeWhile Char.isDigit = dec n := by simpa using List.takeWhile_append_of_pos (l₂ := []) hdig
    have hne : dec n ≠ [] := Nat.toDigits_ne_nil
    have hdrop : (' ' :: dec n).dropWhile isSpace = c :: r := by
      rw [hcr]; simp [List.dropWhile_cons, isSpace, (not_isSpace c).mp hc]
      have := (not_isSpace c).mp hc
      simp [isSpace] at this
      simp [this]
    simp only [extract, ofText, good, Bool.not_false, Bool.and_self, if_true, List.append_nil, hdrop]
    have : scanNat (c :: r) = (some n, (dec n).dropWhile Char.isDigit) := by
      rw [← hcr]
      simp only [scanNat, h1, if_neg hne]
      simp only [dec, Nat.ofDigitChars_ten_toDigits]
    rw [this]
  · have := extract_token scanNat 0 cur [' '] (dec n) rest n (by simp [Blank]) hr (denotes_dec n)
    simp only [List.cons_append, List.nil_append] at this
    rw [this]

theorem word_snd_end {t rest : List Char} (cur : List Char) (hne : t ≠ []) (hw : ∀ c ∈ t, ¬ Blank c)
    (hr : rest = [] ∨ StartsBlank rest) : (word (ofText (' ' :: (t ++ rest))) cur).2 = t := by
  rcases hr with rfl | hr
  · have hd := denotes_word t hne hw
    obtain ⟨c, r, hcr, hc⟩ := hd.start
    have hw' : ∀ c ∈ t, (!isSpace c) = true := fun c hc => by simp [(not_isSpace c).mp (hw c hc)]
    have h1 : t.takeWhile (fun c => !isSpace c) = t := by
      simpa using List.takeWhile_append_of_pos (l₂ := []) hw'
    have hdrop : (' ' :: t).dropWhile isSpace = c :: r := by
      rw [hcr, List.dropWhile_cons, if_pos (by decide), List.dropWhile_cons, (not_isSpace c).mp hc]; simp
    simp only [word, extract, ofText, good, Bool.not_false, Bool.and_self, if_true, List.append_nil, hdrop]
    simp only [scanWord, ← hcr, h1, Option.getD_some]
  · have := extract_token scanWord [] (some cur) [' '] t rest t (by simp [Blank]) hr (denotes_word t hne hw)
    simp only [List.cons_append, List.nil_append] at this
    simp only [word, this, Option.getD_some]

/-- A blank text ended by a newline is a list of blank lines. -/
theorem blank_lines (w : List Char) (hw : ∀ c ∈ w, Blank c) :
    ∃ ls, w ++ ['\n'] = linesText ls ∧ ∀ l ∈ ls, '\n' ∉ l ∧ ∀ c ∈ l, Blank c := by
  induction w with
  | nil => exact ⟨[[]], rfl, by simp⟩
  | cons c w ih =>
    obtain ⟨ls, h1, h2⟩ := ih fun x hx => hw x (by simp [hx])
    by_cases hc : c = '\n'
    · refine ⟨[] :: ls, ?_, ?_⟩
      · simp [linesText, hc] ; simpa [linesText] using h1
      · intro l hl
        rcases List.mem_cons.mp hl with rfl | hl
        · simp
        · exact h2 l hl
    · cases ls with
      | nil => simp [linesText] at h1
      | cons l ls =>
        refine ⟨(c :: l) :: ls, ?_, ?_⟩
        · simp only [linesText, List.flatMap_cons, List.cons_append] at h1 ⊢
          rw [h1]
        · intro l' hl'
          rcases List.mem_cons.mp hl' with rfl | hl'
          · have := h2 l (by simp)
            refine ⟨by simp [this.1]; exact fun h => hc h.symm, ?_⟩
            intro x hx
            rcases List.mem_cons.mp hx with rfl | hx
            · exact hw x (by simp)
            · exact this.2 x hx
          · exact h2 l' (by simp [hl'])

end Verif
