import Verif.Lemmas.Vtk

/-!
# Files that end early: nothing is read but a suffix of the text, and what the reader makes of missing numbers
-/

namespace Verif.Vtk
open Verif Spec IStream

variable {K : Type} {d : Nat} [Field K] [LinearOrder K] [FloorRing K]

/-- What is left of a stream is a suffix of what was there. -/
def Suf (s s' : IStream) : Prop := s'.rest <:+ s.rest

theorem Suf.refl (s : IStream) : Suf s s := List.suffix_rfl

theorem Suf.trans {a b c : IStream} (h1 : Suf a b) (h2 : Suf b c) : Suf a c := List.IsSuffix.trans h2 h1

/-- `scan` leaves a suffix. -/
def Drops {α : Type} (scan : List Char → Option α × List Char) : Prop := ∀ t, (scan t).2 <:+ t

theorem drops_nat : Drops scanNat := by
  intro t
  have : t.dropWhile Char.isDigit <:+ t := List.dropWhile_suffix _
  simp only [scanNat]; split_ifs <;> simpa using this

theorem drops_word : Drops scanWord := fun _ => List.dropWhile_suffix _

theorem extract_suf {α : Type} {scan : List Char → Option α × List Char} (hs : Drops scan) (zero : α) (s : IStream)
    (cur : Option α) : Suf s (extract scan zero s cur).1 := by
  unfold extract
  have hd : s.rest.dropWhile isSpace <:+ s.rest := List.dropWhile_suffix _
  by_cases hg : s.good = true
  · rw [if_pos hg]
    cases hr : s.rest.dropWhile isSpace with
    | nil => exact List.nil_suffix
    | cons c r =>
      rw [hr] at hd
      have h2 := hs (c :: r)
      simp only
      cases hsc : scan (c :: r) with
      | mk v r' =>
        rw [hsc] at h2
        cases v <;> exact List.IsSuffix.trans h2 hd
  · rw [if_neg hg]
    exact Suf.refl s

theorem getline_suf (s : IStream) (cur : List Char) : Suf s (getline s cur).1 := by
  unfold getline
  have hd : (s.rest.dropWhile fun c => c != '\n') <:+ s.rest := List.dropWhile_suffix _
  by_cases hg : s.good = true
  · rw [if_pos hg]
    simp only
    cases hr : s.rest.dropWhile (fun c => c != '\n') with
    | nil => exact List.nil_suffix
    | cons c r =>
      rw [hr] at hd
      exact List.IsSuffix.trans (List.suffix_cons c r) hd
  · rw [if_neg hg]
    exact Suf.refl s

theorem readNums_suf {α : Type} {scan : List Char → Option α × List Char} (hs : Drops scan) (zero : α) (old : List α) :
    ∀ s, Suf s (readNums scan zero old s).1 := by
  induction old with
  | nil => intro s; exact Suf.refl s
  | cons x xs ih =>
    intro s
    exact (extract_suf hs zero s (some x)).trans (ih _)

omit [LinearOrder K] [FloorRing K] in
theorem readCoord_suf {scan : List Char → Option K × List Char} (hs : Drops scan) (js : List (Fin d)) :
    ∀ s c, Suf s (readCoord scan js s c).1 := by
  induction js with
  | nil => intro s c; exact Suf.refl s
  | cons j js ih => intro s c; exact (extract_suf hs 0 s (c j)).trans (ih _ _)

omit [LinearOrder K] [FloorRing K] in
theorem readPts_suf {scan : List Char → Option K × List Char} (hs : Drops scan) (n : Nat) :
    ∀ s (c : Fin d → Option K), Suf s (readPts scan n s c).2.1 := by
  induction n with
  | zero => intro s c; exact Suf.refl s
  | succ n ih =>
    intro s c
    have h1 := readCoord_suf hs (List.finRange d) s c
    unfold readPts
    cases hrc : readCoord scan (List.finRange d) s c with
    | mk s1 c1 =>
      rw [hrc] at h1
      have h2 : Suf s1 (if d = 2 then (extract scan 0 s1 none).1 else s1) := by
        split_ifs
        · exact extract_suf hs 0 s1 none
        · exact Suf.refl s1
      simp only
      split_ifs
      · exact (h1.trans (by simpa [*] using h2)).trans (ih _ c1)
      · exact (h1.trans (by simpa [*] using h2)).trans (ih _ c1)
      · exact h1.trans (by simpa [*] using h2)
      · exact h1.trans (by simpa [*] using h2)

theorem readCellsTxt_suf (n : Nat) : ∀ s u cn, Suf s (readCellsTxt n s u cn).2.1 := by
  induction n with
  | zero => intro s u cn; exact Suf.refl s
  | succ n ih =>
    intro s u cn
    have h1 := extract_suf drops_nat 0 s u
    unfold readCellsTxt
    cases he : extract scanNat 0 s u with
    | mk s1 v =>
      rw [he] at h1
      cases v with
      | none => exact h1
      | some k => exact (h1.trans (readNums_suf drops_nat 0 (vresize cn k 0) s1)).trans (ih _ (some k) _)

theorem readTypes_suf (n : Nat) : ∀ s u, Suf s (readTypes n s u).2.1 := by
  induction n with
  | zero => intro s u; exact Suf.refl s
  | succ n ih =>
    intro s u
    have h1 := extract_suf drops_nat 0 s u
    unfold readTypes
    cases he : extract scanNat 0 s u with
    | mk s1 v =>
      rw [he] at h1
      cases v with
      | none => exact h1
      | some k =>
        simp only
        split_ifs
        · exact h1
        · exact h1.trans (ih _ (some k))

omit [FloorRing K] in
theorem pointsSection_suf {scan : List Char → Option K × List Char} (hs : Drops scan) (E : MeshOps K d) (st : MSt K d) :
    Suf st.s (pointsSection scan E st).2.s := by
  unfold pointsSection
  cases hdrNat st.line st.npoints with
  | none => exact Suf.refl _
  | some n =>
    have h := readPts_suf hs n st.s st.coord
    simp only
    cases hr : readPts scan n st.s st.coord with
    | mk r q =>
      obtain ⟨s, c⟩ := q
      rw [hr] at h
      cases r with
      | error e => exact h
      | ok pts => simp only; cases E.points st.mesh pts <;> exact h

theorem cellsSection_suf (E : MeshOps K d) (st : MSt K d) : Suf st.s (cellsSection E st).2.s := by
  unfold cellsSection
  cases hdrNat st.line st.ncells with
  | none => exact Suf.refl _
  | some n =>
    have h := readCellsTxt_suf n st.s st.uli st.cellNode
    simp only
    cases hr : readCellsTxt n st.s st.uli st.cellNode with
    | mk r q =>
      obtain ⟨s, u, cn⟩ := q
      rw [hr] at h
      cases r with
      | error e => exact h
      | ok cs => simp only; cases E.cells st.mesh cs <;> exact h

omit [Field K] [LinearOrder K] [FloorRing K] in
theorem typesSection_suf (st : MSt K d) : Suf st.s (typesSection st).2.s := by
  unfold typesSection
  cases hdrNat st.line st.ncells with
  | none => exact Suf.refl _
  | some n =>
    have h := readTypes_suf n st.s st.uli
    simp only
    cases hr : readTypes n st.s st.uli with
    | mk r q =>
      obtain ⟨s, u⟩ := q
      rw [hr] at h
      cases r <;> exact h

theorem meshStep_suf {scan : List Char → Option K × List Char} (hs : Drops scan) (E : MeshOps K d) (st : MSt K d) :
    Suf (getline st.s st.line).1 (meshStep scan E st).2.s := by
  unfold meshStep
  cases hg : getline st.s st.line with
  | mk s line =>
    simp only
    split_ifs
    · exact pointsSection_suf hs E _
    · exact cellsSection_suf E _
    · exact typesSection_suf _
    · exact Suf.refl _

theorem meshLoop_suf {scan : List Char → Option K × List Char} (hs : Drops scan) (E : MeshOps K d) (fuel : Nat) :
    ∀ st : MSt K d, Suf st.s (meshLoop scan E fuel st).2.s := by
  induction fuel with
  | zero => intro st; exact Suf.refl _
  | succ n ih =>
    intro st
    unfold meshLoop
    split_ifs
    · exact Suf.refl _
    · have h2 := (getline_suf st.s st.line).trans (meshStep_suf hs E st)
      cases hms : meshStep scan E st with
      | mk r st' =>
        rw [hms] at h2
        cases r with
        | error e => exact h2
        | ok b =>
          cases b with
          | true => exact h2
          | false => exact h2.trans (ih st')

/-- The line read is a piece of the text. -/
theorem getline_infix (s : IStream) (cur : List Char) (hg : s.good = true) : (getline s cur).2 <:+: s.rest := by
  have h : s.rest.takeWhile (fun c => c != '\n') <:+: s.rest := (List.takeWhile_prefix _).isInfix
  unfold getline
  rw [if_pos hg]
  simp only
  cases s.rest.dropWhile (fun c => c != '\n') <;> exact h

omit [LinearOrder K] [FloorRing K] in
theorem bodyStep_plain {scan : List Char → Option K × List Char} {st st' : BSt K d} (hr : ¬ kwScalars <:+: st.s.rest)
    (hl : ¬ kwScalars <:+: st.line) (h : bodyStep scan st = (.ok (), st')) :
    st'.body = st.body ∧ ¬ kwScalars <:+: st'.s.rest ∧ ¬ kwScalars <:+: st'.line := by
  have h1 := getline_suf st.s st.line
  have h2 : ¬ kwScalars <:+: (getline st.s st.line).2 := by
    by_cases hg : st.s.good = true
    · exact fun h => hr (h.trans (getline_infix st.s st.line hg))
    · unfold getline
      rw [if_neg hg]
      exact hl
  unfold bodyStep at h
  cases hg : getline st.s st.line with
  | mk s line =>
    rw [hg] at h h1 h2
    simp only at h h1 h2
    have h3 : ¬ kwScalars <:+: s.rest := fun h => hr (h.trans h1.isInfix)
    have h4 : kwScalars.isPrefixOf line = false := by
      cases hp : kwScalars.isPrefixOf line with
      | false => rfl
      | true => exact absurd (List.isPrefixOf_iff_prefix.mp hp).isInfix h2
    simp only [h4, Bool.false_eq_true, if_false] at h
    split_ifs at h <;> (obtain rfl := (Prod.mk.injEq _ _ _ _).mp h |>.2; exact ⟨rfl, h3, h2⟩)

omit [LinearOrder K] [FloorRing K] in
/-- Without the keyword, no field is added. -/
theorem bodyLoop_plain {scan : List Char → Option K × List Char} (fuel : Nat) : ∀ {st st' : BSt K d}, ¬ kwScalars <:+: st.s.rest →
    ¬ kwScalars <:+: st.line → bodyLoop scan fuel st = (.ok (), st') → st'.body = st.body := by
  induction fuel with
  | zero => intro st st' _ _ h; simp [bodyLoop] at h
  | succ n ih =>
    intro st st' hr hl h
    unfold bodyLoop at h
    split_ifs at h
    · obtain rfl := (Prod.mk.injEq _ _ _ _).mp h |>.2; rfl
    · cases hs : bodyStep scan st with
      | mk r st1 =>
        rw [hs] at h
        cases r with
        | error e => simp at h
        | ok u =>
          obtain ⟨e1, e2, e3⟩ := bodyStep_plain hr hl hs
          rw [← e1]
          exact ih e2 e3 h

/-! ### Missing numbers -/

theorem readNums_stop {α : Type} (scan : List Char → Option α × List Char) (zero : α) (old : List α) :
    readNums scan zero old ⟨[], true, true⟩ = (⟨[], true, true⟩, old) := by
  induction old with
  | nil => rfl
  | cons x xs ih => simp [readNums, extract, good, ih]

theorem readNums_blank {α : Type} (scan : List Char → Option α × List Char) (zero : α) (x : α) (xs : List α) (w : List Char)
    (hw : ∀ c ∈ w, Blank c) : readNums scan zero (x :: xs) (ofText w) = (⟨[], true, true⟩, x :: xs) := by
  have : w.dropWhile isSpace = [] := by simpa using dropWhile_blanks w hw []
  simp [readNums, extract, ofText, good, this, readNums_stop]

/-- The tokens can be cut off after any number of them, behind a blank: the missing ones leave the old values. -/
theorem cut_blank {α : Type} (scan : List Char → Option α × List Char) (zero : α) (m : Nat) :
    ∀ (old vals : List α) (toks : List (List Char)) (x : List Char), m < vals.length → old.length = vals.length →
      List.Forall₂ (Denotes scan) toks vals → Layout toks x → StartsBlank x →
      ∃ x', x' <+: x ∧ x'.length < x.length ∧ StartsBlank x' ∧
        readNums scan zero old (ofText x') = (⟨[], true, true⟩, vals.take m ++ old.drop m) := by
  induction m with
  | zero =>
    intro old vals toks x hm hlen hf hx hb
    obtain ⟨c, r, rfl, hc⟩ := hb
    cases old with
    | nil => simp at hlen; omega
    | cons o old =>
      refine ⟨[c], by simp, ?_, ⟨c, [], rfl, hc⟩, ?_⟩
      · cases hf with
        | nil => simp at hm
        | cons ht hts =>
          cases hr : r with
          | cons => simp
          | nil =>
            subst hr
            obtain ⟨a, b, rfl, _⟩ := ht.start
            generalize hq : [c] = q at hx
            cases hx with
            | cons w _ _ y _ hy _ =>
              obtain ⟨a', b', rfl, _⟩ := hy
              have := congrArg List.length hq
              simp only [List.length_cons, List.length_append, List.length_nil] at this
              omega
      · exact readNums_blank scan zero o old [c] (by simpa using hc)
  | succ m ih =>
    intro old vals toks x hm hlen hf hx hb
    cases hf with
    | nil => simp at hm
    | @cons t v ts vs ht hts =>
      cases old with
      | nil => simp at hlen
      | cons o old =>
        cases hx with
        | cons w _ _ y hw hy hl =>
          obtain ⟨y', h1, h2, h3, h4⟩ := ih old vs ts y (by simpa using hm) (by simpa using hlen) hts hl hy
          refine ⟨w ++ t ++ y', ?_, ?_, ?_, ?_⟩
          · exact (List.prefix_append_right_inj _).mpr h1
          · simp only [List.length_append]; omega
          · cases w with
            | nil =>
              obtain ⟨c, r, rfl, hc⟩ := ht.start
              obtain ⟨c', r', he, hc'⟩ := hb
              simp only [List.nil_append, List.cons_append, List.cons.injEq] at he
              exact absurd (he.1 ▸ hc') hc
            | cons c w => exact ⟨c, w ++ t ++ y', by simp, hw c (by simp)⟩
          · have := extract_token scan zero (some o) w t y' v hw h3 ht
            simp only [readNums, this, h4, Option.getD_some, List.take_succ_cons, List.cons_append, List.drop_succ_cons]

/-- The same, wherever the first token is. -/
theorem cut_any {α : Type} (scan : List Char → Option α × List Char) (zero : α) (m : Nat)
    (old vals : List α) (toks : List (List Char)) (x : List Char) (hm : m < vals.length) (hlen : old.length = vals.length)
    (hf : List.Forall₂ (Denotes scan) toks vals) (hx : Layout toks x) :
    ∃ x', x' <+: x ∧ x'.length < x.length ∧
        readNums scan zero old (ofText x') = (⟨[], true, true⟩, vals.take m ++ old.drop m) := by
  cases hf with
  | nil => simp at hm
  | @cons t v ts vs ht hts =>
    cases old with
    | nil => simp at hlen
    | cons o old =>
      cases hx with
      | cons w _ _ y hw hy hl =>
        obtain ⟨c, r, rfl, hc⟩ := ht.start
        cases m with
        | zero => exact ⟨[], List.nil_prefix, by simp, readNums_blank scan zero o old [] (by simp)⟩
        | succ m =>
          obtain ⟨y', h1, h2, h3, h4⟩ := cut_blank scan zero m old vs ts y (by simpa using hm) (by simpa using hlen) hts hl hy
          refine ⟨w ++ (c :: r) ++ y', (List.prefix_append_right_inj _).mpr h1, ?_, ?_⟩
          · simp only [List.length_append]; omega
          · have := extract_token scan zero (some o) w (c :: r) y' v hw h3 ht
            simp only [readNums, this, h4, Option.getD_some, List.take_succ_cons, List.cons_append, List.drop_succ_cons]

omit [LinearOrder K] [FloorRing K]

/-- The last section cut off after `m` values. -/
theorem cut_section (scan : List Char → Option K × List Char) (n m : Nat) (name : String) (data : List K)
    (rest table : List Char) (toks : List (List Char)) (x y : List Char)
    (hname : name ≠ "") (hnb : ∀ c ∈ name.toList, ¬ Blank c) (hrest : LineEnd rest) (htab : '\n' ∉ table)
    (hlen : data.length = n) (hf : List.Forall₂ (Denotes scan) toks data) (hx : Layout toks x) (hm : m < n) :
    ∃ t, t <+: ("SCALARS".toList ++ ' ' :: name.toList ++ rest ++ ['\n'] ++ (table ++ ['\n']) ++ x ++ y) ∧
      t.length < ("SCALARS".toList ++ ' ' :: name.toList ++ rest ++ ['\n'] ++ (table ++ ['\n']) ++ x ++ y).length ∧
      ∀ st : BSt K d, st.s = ofText t → st.npoints = some n →
        ∃ k, ∀ fuel, outB (bodyLoop scan (fuel + k) st) =
          st.body.addFields [(name, data.take m ++ List.replicate (n - m) 0)] := by
  have hkw : "SCALARS".toList = kwScalars := by decide
  rw [hkw]
  obtain ⟨x', h1, h2, h3⟩ := cut_any scan 0 m (List.replicate n 0) data toks x (by omega) (by simp [hlen]) hf hx
  rw [List.drop_replicate] at h3
  generalize hvals : data.take m ++ List.replicate (n - m) 0 = vals at h3 ⊢
  refine ⟨kwScalars ++ ' ' :: name.toList ++ rest ++ ['\n'] ++ (table ++ ['\n']) ++ x', ?_, ?_, ?_⟩
  · rw [List.append_assoc (_ ++ (table ++ ['\n'])) x y]
    exact (List.prefix_append_right_inj _).mpr (h1.trans (List.prefix_append x y))
  · simp only [List.length_append]; omega
  · intro st hs hn
    have htxt : kwScalars ++ ' ' :: name.toList ++ rest ++ ['\n'] ++ (table ++ ['\n']) ++ x'
        = (kwScalars ++ ' ' :: name.toList ++ rest) ++ '\n' :: (table ++ '\n' :: x') := by simp
    rw [htxt] at hs
    have hnn : '\n' ∉ kwScalars ++ ' ' :: name.toList ++ rest := by
      simp only [List.mem_append, List.mem_cons, not_or]
      refine ⟨⟨by decide, by decide, fun h => hnb _ h (by simp [Blank])⟩, hrest.1⟩
    have hline := getline_line _ (table ++ '\n' :: x') st.line hnn
    have hline2 := fun cur => getline_line table x' cur htab
    have hne : name.toList ≠ [] := fun h => hname (String.toList_eq_nil_iff.mp h)
    have hnm := hdrName_section kwScalars name.toList rest st.name (by decide) (by decide) hne hnb hrest
    have hpre : kwScalars.isPrefixOf (kwScalars ++ ' ' :: name.toList ++ rest) = true := by
      rw [List.append_assoc]; exact isPrefixOf_append _ _
    have hpre1 : kwData.isPrefixOf (kwScalars ++ ' ' :: name.toList ++ rest) = false := by
      simp [kwData, kwScalars, List.isPrefixOf]
    have hofl : String.ofList name.toList = name := String.ofList_toList
    have hstep : bodyStep scan st =
        match st.body.addField name vals with
        | .error e => (.error e, { st with s := ⟨[], true, true⟩, line := table, name := name.toList })
        | .ok b => (.ok (), { st with s := ⟨[], true, true⟩, line := table, name := name.toList, body := b }) := by
      simp only [bodyStep, hs, hline, hpre, hpre1, Bool.false_eq_true, if_false, if_true, scalarsSection, hline2, hn,
        h3, hnm, hofl]
      cases st.body.addField name vals <;> rfl
    have heof : st.s.eof = false := by rw [hs]; rfl
    cases hadd : st.body.addField name vals with
    | error e =>
      refine ⟨1, fun fuel => ?_⟩
      rw [hadd] at hstep
      simp [bodyLoop, heof, hstep, outB, Body.addFields, hadd, bind, Except.bind]
    | ok b =>
      rw [hadd] at hstep
      refine ⟨2, fun fuel => ?_⟩
      simp [bodyLoop, heof, hstep, outB, Body.addFields, hadd, bind, Except.bind]

/-- The sections of a file, the last of them cut off after `m` values. -/
theorem cut_fields (scan : List Char → Option K × List Char) (n m : Nat) (hm : m < n) (name : String) (data : List K) :
    ∀ (flds : List (String × List K)) (x : List Char), FieldsText scan n (flds ++ [(name, data)]) x →
      ∃ t, t <+: x ∧ t.length < x.length ∧ ∀ st : BSt K d, st.s = ofText t → st.npoints = some n →
        ∃ k, ∀ fuel, outB (bodyLoop scan (fuel + k) st) =
          st.body.addFields (flds ++ [(name, data.take m ++ List.replicate (n - m) 0)]) := by
  intro flds
  induction flds with
  | nil =>
    intro x hx
    cases hx with
    | cons _ _ _ rest table toks x y hname hnb hrest htab hlen hf hx hy =>
      exact cut_section scan n m name data rest table toks x y hname hnb hrest htab hlen hf hx hm
  | cons f fs ih =>
    intro x hx
    cases hx with
    | cons nm dt _ rest table toks x y hname hnb hrest htab hlen hf hx hy =>
      obtain ⟨t, h1, h2, h3⟩ := ih y hy
      refine ⟨"SCALARS".toList ++ ' ' :: nm.toList ++ rest ++ ['\n'] ++ (table ++ ['\n']) ++ x ++ t,
        (List.prefix_append_right_inj _).mpr h1, by simp only [List.length_append]; omega, ?_⟩
      exact field_section scan n nm dt _ rest table toks x t hname hnb hrest htab hlen hf hx h3

end Verif.Vtk
