import Verif.Lemmas.SeriesMore

/-!
# Coefficients read from any lines, complete or not; printed basis products
-/

namespace Verif
open Spec NDArray IStream

section
variable {K : Type} [Field K] [LinearOrder K] [FloorRing K]

namespace Series
variable {z e : K} {fs : List (Family K)}

/-- Reading `n` lines, whatever terms are written in them, and then `m` more. -/
theorem readLoop_lines {fmt : K → List Char} {scan : List Char → Option K × List Char} (src : Nat → K) (tm : Nat → List Int) (b : Nat)
    (hfmt : ∀ l : Nat, l < b → Denotes scan (fmt (src l)) (src l))
    (htm : ∀ l : Nat, l < b → (tm l).length = fs.length ∧ ∀ t ∈ tm l, 0 ≤ t) (rest : List Char) (m : Nat) (n : Nat) :
    ∀ (i : Nat) (term : List Int) (w : List Char) (s : Series K), WF z e fs s →
    (i : Int) + n ≤ prod (sizesOf fs) → i + n ≤ b → term.length = fs.length → (∀ c ∈ w, Blank c) →
    ∃ term' w' s', readLoop scan (n + m) i term (ofText (w ++ (((List.range n).flatMap fun l =>
        printLine fmt (tm (i + l)) (src (i + l))) ++ rest))) s = readLoop scan m (i + n) term' (ofText (w' ++ rest)) s' ∧
      WF z e fs s' ∧ s' = { s with coeff := s'.coeff } ∧ term'.length = fs.length ∧ (∀ c ∈ w', Blank c) ∧
      (∀ l : Nat, l < i ∨ i + n ≤ l → s'.coeff.val[l]? = s.coeff.val[l]?) ∧ ∀ l : Nat, i ≤ l → l < i + n → s'.coeff.val[l]? = some (src l) := by
  induction n with
  | zero =>
    intro i term w s h _ _ ht hw
    exact ⟨term, w, s, by simp, h, rfl, ht, hw, fun _ _ => rfl, fun l h1 h2 => by omega⟩
  | succ n ih =>
    intro i term w s h hi hb ht hw
    have hl := h.shaped.len_eq
    have hi' : i < s.coeff.val.length := by omega
    have hg : s.coeff.getLin i = .ok (s.coeff.val.getD i 0) := by
      rw [getLin, vget_nat _ _ hi']; simp [hi']
    obtain ⟨htl, hnn⟩ := htm i (by omega)
    let more : List Char := (List.range n).flatMap (fun l => printLine fmt (tm (i + 1 + l)) (src (i + 1 + l))) ++ rest
    have hsplit : ((List.range (n + 1)).flatMap fun l => printLine fmt (tm (i + l)) (src (i + l))) ++ rest =
        ((tm i).flatMap fun t => showInt t ++ [' ']) ++ (fmt (src i) ++ (['\n'] ++ more)) := by
      rw [List.range_succ_eq_map, List.flatMap_cons, List.flatMap_map]
      have : (fun l : Nat => printLine fmt (tm (i + l.succ)) (src (i + l.succ))) =
          fun l => printLine fmt (tm (i + 1 + l)) (src (i + 1 + l)) := by
        funext l; rw [show i + 1 + l = i + l.succ by omega]
      rw [this]
      simp only [printLine, Nat.add_zero, List.append_assoc, more]
    obtain ⟨w', hw', e1⟩ := readTerms term (tm i) w (fmt (src i) ++ (['\n'] ++ more)) hw (by rw [ht, htl]) hnn
    have e2 := extract_token scan 0 (some (s.coeff.val.getD i 0)) w' (fmt (src i)) (['\n'] ++ more) (src i) hw'
      (startsBlank_newline _) (hfmt i (by omega))
    rw [List.append_assoc] at e2
    have hset : s.coeff.setLin i (src i) = .ok { s.coeff with val := s.coeff.val.set i (src i) } := by
      rw [setLin, vset_nat _ _ _ hi']; rfl
    have w1 := h.withCoeff (setLin_shaped h.shaped hset)
    obtain ⟨term', w'', s', f1, f2, f3, f4, f5, f6, f7⟩ := ih (i + 1) (tm i) ['\n'] _ w1 (by push_cast; omega) (by omega) htl
      (by simp [blank_newline])
    refine ⟨term', w'', s', ?_, f2, by rw [f3], f4, f5, fun l hl => ?_, fun l h1 h2 => ?_⟩
    · rw [hsplit, show n + 1 + m = (n + m) + 1 by omega]
      simp only [readLoop, e1, hg, ok_bind, e2, Option.getD_some, hset]
      rw [show i + (n + 1) = i + 1 + n by omega]
      exact f1
    · rw [f6 l (by omega)]; simp only; rw [List.getElem?_set_ne (by omega)]
    · rcases Nat.eq_or_lt_of_le h1 with rfl | hlt
      · rw [f6 i (by omega)]; simp only; rw [List.getElem?_set_self hi']
      · exact f7 l hlt (by omega)

omit [LinearOrder K] [FloorRing K] [Field K] in
theorem extract_bad {α : Type} (scan : List Char → Option α × List Char) (zero : α) (s : IStream) (cur : Option α) (h : s.fail = true) :
    extract scan zero s cur = (s, cur) := by
  simp only [extract, good, h, Bool.not_true, Bool.and_false]
  obtain ⟨r, e, f⟩ := s
  simp only at h
  simp [h]

omit [LinearOrder K] [FloorRing K] [Field K] in
theorem readNums_bad {α : Type} (scan : List Char → Option α × List Char) (zero : α) (l : List α) (s : IStream) (h : s.fail = true) :
    readNums scan zero l s = (s, l) := by
  induction l with
  | nil => rfl
  | cons x xs ih => simp [readNums, extract_bad _ _ _ _ h, ih]

/-- From a stream that has failed, nothing is read and nothing is changed. -/
theorem readLoop_bad (scan : List Char → Option K × List Char) (n : Nat) : ∀ (i : Nat) (term : List Int) (sin : IStream) (s : Series K),
    sin.fail = true → i + n ≤ s.coeff.val.length → readLoop scan n i term sin s = .ok (sin, s) := by
  induction n with
  | zero => intro i term sin s _ _; rfl
  | succ n ih =>
    intro i term sin s hf hi
    have hi' : i < s.coeff.val.length := by omega
    have hg : s.coeff.getLin i = .ok (s.coeff.val[i]) := by rw [getLin, vget_nat _ _ hi']
    have hset : s.coeff.setLin i (s.coeff.val[i]) = .ok { s.coeff with val := s.coeff.val.set i (s.coeff.val[i]) } := by
      rw [setLin, vset_nat _ _ _ hi']; rfl
    simp only [readLoop, readNums_bad _ _ _ _ hf, hg, ok_bind, extract_bad _ _ _ _ hf, Option.getD_some, hset]
    rw [List.set_getElem_self]
    exact ih _ _ _ _ hf (by show _ ≤ s.coeff.val.length; omega)

/-- Only blanks are left: the first extraction fails. -/
theorem readLoop_blank (scan : List Char → Option K × List Char) (n : Nat) (i : Nat) (term : List Int) (w : List Char) (s : Series K)
    (hw : ∀ c ∈ w, Blank c) (hn : 0 < n) (ht : term ≠ []) (hi : i + n ≤ s.coeff.val.length) :
    readLoop scan n i term (ofText w) s = .ok (⟨[], true, true⟩, s) := by
  obtain ⟨k, rfl⟩ : ∃ k, n = k + 1 := ⟨n - 1, by omega⟩
  obtain ⟨t, ts, rfl⟩ := List.exists_cons_of_ne_nil ht
  have hd : w.dropWhile isSpace = [] := by
    rw [← List.takeWhile_append_dropWhile (p := isSpace) (l := w)] at hw
    generalize hd : w.dropWhile isSpace = r at *
    cases r with
    | nil => rfl
    | cons c r =>
      have h1 := (isSpace_iff c).mpr (hw c (by simp))
      have h2 := List.head?_dropWhile_not isSpace w
      rw [hd] at h2
      simp [h1] at h2
  have e1 : readNums scanInt 0 (t :: ts) (ofText w) = (⟨[], true, true⟩, t :: ts) := by
    simp only [readNums, extract, ofText, good, Bool.not_false, Bool.and_self, if_true, hd]
    rw [readNums_bad _ _ _ _ rfl]; rfl
  have hi' : i < s.coeff.val.length := by omega
  have hg : s.coeff.getLin i = .ok (s.coeff.val[i]) := by rw [getLin, vget_nat _ _ hi']
  have hset : s.coeff.setLin i (s.coeff.val[i]) = .ok { s.coeff with val := s.coeff.val.set i (s.coeff.val[i]) } := by
    rw [setLin, vset_nat _ _ _ hi']; rfl
  have hf : (⟨[], true, true⟩ : IStream).fail = true := rfl
  simp only [readLoop, e1, hg, ok_bind, extract_bad _ _ _ _ hf, Option.getD_some, hset]
  rw [List.set_getElem_self]
  exact readLoop_bad scan k _ _ _ _ rfl (by show _ ≤ s.coeff.val.length; omega)

/-- What `print_basis` and its derivatives write. -/
theorem printBasisLoop_of (fmt : K → List Char) {s : Series K} (h : WF z e fs s) {fac : Int → BasisSet K → Int → Res K} {y : List Int → K}
    (hy : ∀ t, InBox (sizesOf fs) t → s.basisGet fac t = .ok (y t)) (n : Nat) : ∀ (i : Nat) (term : List Int),
    (i : Int) + n = prod (sizesOf fs) → term.length = fs.length →
    printBasisLoop fmt fac s n i term = .ok ((List.range n).flatMap fun l =>
      printLine fmt (digits (sizesOf fs) ((i + l : Nat) : Int)) (y (digits (sizesOf fs) ((i + l : Nat) : Int)))) := by
  induction n with
  | zero => intro i term _ _; rfl
  | succ n ih =>
    intro i term hi ht
    have htI := tensorIndices_of h.shaped h.good (term := term) (by rw [ht]; simp [sizesOf]) (l := (i : Int)) (by omega) (by omega)
    have hbox := digits_inBox h.good.2.1 (l := (i : Int)) (by omega) (by omega)
    simp only [printBasisLoop, htI, ok_bind, hy _ hbox, ih (i + 1) (digits (sizesOf fs) (i : Int)) (by push_cast; omega) (by simp [sizesOf])]
    rw [List.range_succ_eq_map, List.flatMap_cons, List.flatMap_map, Nat.add_zero]
    have : (fun l : Nat => printLine fmt (digits (sizesOf fs) ((i + l.succ : Nat) : Int)) (y (digits (sizesOf fs) ((i + l.succ : Nat) : Int)))) =
        fun l => printLine fmt (digits (sizesOf fs) ((i + 1 + l : Nat) : Int)) (y (digits (sizesOf fs) ((i + 1 + l : Nat) : Int))) := by
      funext l; rw [show i + 1 + l = i + l.succ by omega]
    rw [this]; rfl

end Series
end
end Verif
