import Verif.Lemmas.Vtk
import Verif.Lemmas.BinTerm

/-!
# Progress of the vtk reader
-/

namespace Verif.Vtk
open Verif IStream

variable {K : Type} {d : Nat} [Field K] [LinearOrder K] [FloorRing K]

/-- What any reading does to a stream: it never gives characters back, a failed stream that is not at its end stays as it is, and
the end of the file stays reached. -/
def Adv (s s' : IStream) : Prop :=
  s'.rest.length ≤ s.rest.length ∧ (s.fail = true → s.eof = false → s' = s) ∧ (s.eof = true → s'.eof = true)

theorem Adv.refl (s : IStream) : Adv s s := ⟨le_rfl, fun _ _ => rfl, id⟩

theorem Adv.trans {a b c : IStream} (h1 : Adv a b) (h2 : Adv b c) : Adv a c := by
  refine ⟨h2.1.trans h1.1, fun hf he => ?_, fun h => h2.2.2 (h1.2.2 h)⟩
  have := h1.2.1 hf he
  subst this
  exact h2.2.1 hf he

/-- `scan` does not give characters back. -/
def Shrinks {α : Type} (scan : List Char → Option α × List Char) : Prop := ∀ t, (scan t).2.length ≤ t.length

theorem shrinks_nat : Shrinks scanNat := by
  intro t
  have : (t.dropWhile Char.isDigit).length ≤ t.length := (List.dropWhile_sublist _).length_le
  simp only [scanNat]; split_ifs <;> simpa using this

theorem shrinks_word : Shrinks scanWord := fun _ => (List.dropWhile_sublist _).length_le

theorem extract_adv {α : Type} {scan : List Char → Option α × List Char} (hs : Shrinks scan) (zero : α) (s : IStream)
    (cur : Option α) : Adv s (extract scan zero s cur).1 := by
  unfold extract
  have hd : (s.rest.dropWhile isSpace).length ≤ s.rest.length := (List.dropWhile_sublist _).length_le
  by_cases hg : s.good = true
  · have hnf : s.fail = false := by simp [good] at hg; exact hg.2
    have hne : s.eof = false := by simp [good] at hg; exact hg.1
    rw [if_pos hg]
    cases hr : s.rest.dropWhile isSpace with
    | nil => exact ⟨Nat.zero_le _, fun h => by rw [hnf] at h; exact absurd h (by decide), fun _ => rfl⟩
    | cons c r =>
      rw [hr] at hd
      have h2 := hs (c :: r)
      simp only
      cases hsc : scan (c :: r) with
      | mk v r' =>
        rw [hsc] at h2
        cases v <;> exact ⟨h2.trans hd, fun h => by rw [hnf] at h; exact absurd h (by decide),
        fun h => by rw [hne] at h; exact absurd h (by decide)⟩
  · rw [if_neg hg]
    refine ⟨le_rfl, fun hf _ => ?_, fun h => h⟩
    cases s; simp_all

theorem word_adv (s : IStream) (cur : List Char) : Adv s (word s cur).1 := by
  have := extract_adv shrinks_word [] s (some cur)
  simpa [word] using this

theorem readNums_adv {α : Type} {scan : List Char → Option α × List Char} (hs : Shrinks scan) (zero : α) (old : List α) :
    ∀ s, Adv s (readNums scan zero old s).1 := by
  induction old with
  | nil => intro s; exact Adv.refl s
  | cons x xs ih =>
    intro s
    exact (extract_adv hs zero s (some x)).trans (ih _)

theorem getline_adv (s : IStream) (cur : List Char) : Adv s (getline s cur).1 := by
  unfold getline
  have hd : (s.rest.dropWhile fun c => c != '\n').length ≤ s.rest.length := (List.dropWhile_sublist _).length_le
  by_cases hg : s.good = true
  · have hnf : s.fail = false := by simp [good] at hg; exact hg.2
    have hne : s.eof = false := by simp [good] at hg; exact hg.1
    rw [if_pos hg]
    simp only
    cases hr : s.rest.dropWhile (fun c => c != '\n') with
    | nil => exact ⟨Nat.zero_le _, fun h => by rw [hnf] at h; exact absurd h (by decide), fun _ => rfl⟩
    | cons c r =>
      rw [hr] at hd
      simp only [List.length_cons] at hd
      exact ⟨by simp only; omega, fun h => by rw [hnf] at h; exact absurd h (by decide),
        fun h => by rw [hne] at h; exact absurd h (by decide)⟩
  · rw [if_neg hg]
    refine ⟨le_rfl, fun hf _ => ?_, fun h => h⟩
    cases s; simp_all

/-- A good stream loses a character, or comes to its end. -/
theorem getline_progress (s : IStream) (cur : List Char) (hf : s.fail = false) (he : s.eof = false) :
    (getline s cur).1.eof = true ∨ (getline s cur).1.rest.length < s.rest.length := by
  unfold getline
  have hd : (s.rest.dropWhile fun c => c != '\n').length ≤ s.rest.length := (List.dropWhile_sublist _).length_le
  rw [if_pos (by simp [good, hf, he])]
  simp only
  cases hr : s.rest.dropWhile (fun c => c != '\n') with
  | nil => exact Or.inl rfl
  | cons c r =>
    rw [hr] at hd
    simp only [List.length_cons] at hd
    right; simp only; omega

omit [LinearOrder K] [FloorRing K] in
theorem readCoord_adv {scan : List Char → Option K × List Char} (hs : Shrinks scan) (js : List (Fin d)) :
    ∀ s c, Adv s (readCoord scan js s c).1 := by
  induction js with
  | nil => intro s c; exact Adv.refl s
  | cons j js ih => intro s c; exact (extract_adv hs 0 s (c j)).trans (ih _ _)

omit [LinearOrder K] [FloorRing K] in
theorem readPts_adv {scan : List Char → Option K × List Char} (hs : Shrinks scan) (n : Nat) :
    ∀ s (c : Fin d → Option K), Adv s (readPts scan n s c).2.1 := by
  induction n with
  | zero => intro s c; exact Adv.refl s
  | succ n ih =>
    intro s c
    have h1 := readCoord_adv hs (List.finRange d) s c
    unfold readPts
    cases hrc : readCoord scan (List.finRange d) s c with
    | mk s1 c1 =>
      rw [hrc] at h1
      have h2 : Adv s1 (if d = 2 then (extract scan 0 s1 none).1 else s1) := by
        split_ifs
        · exact extract_adv hs 0 s1 none
        · exact Adv.refl s1
      simp only
      split_ifs
      · exact (h1.trans (by simpa [*] using h2)).trans (ih _ c1)
      · exact (h1.trans (by simpa [*] using h2)).trans (ih _ c1)
      · exact h1.trans (by simpa [*] using h2)
      · exact h1.trans (by simpa [*] using h2)

theorem readCellsTxt_adv (n : Nat) : ∀ s u cn, Adv s (readCellsTxt n s u cn).2.1 := by
  induction n with
  | zero => intro s u cn; exact Adv.refl s
  | succ n ih =>
    intro s u cn
    have h1 := extract_adv shrinks_nat 0 s u
    unfold readCellsTxt
    cases he : extract scanNat 0 s u with
    | mk s1 v =>
      rw [he] at h1
      cases v with
      | none => exact h1
      | some k => exact (h1.trans (readNums_adv shrinks_nat 0 (vresize cn k 0) s1)).trans (ih _ (some k) _)

theorem readTypes_adv (n : Nat) : ∀ s u, Adv s (readTypes n s u).2.1 := by
  induction n with
  | zero => intro s u; exact Adv.refl s
  | succ n ih =>
    intro s u
    have h1 := extract_adv shrinks_nat 0 s u
    unfold readTypes
    cases he : extract scanNat 0 s u with
    | mk s1 v =>
      rw [he] at h1
      cases v with
      | none => exact h1
      | some k =>
        simp only
        split_ifs
        · exact h1
        · exact h1.trans (ih _ (some k))

omit [FloorRing K] in
theorem pointsSection_adv {scan : List Char → Option K × List Char} (hs : Shrinks scan) (E : MeshOps K d) (st : MSt K d) :
    Adv st.s (pointsSection scan E st).2.s := by
  unfold pointsSection
  cases hdrNat st.line st.npoints with
  | none => exact Adv.refl _
  | some n =>
    have h := readPts_adv hs n st.s st.coord
    simp only
    cases hr : readPts scan n st.s st.coord with
    | mk r q =>
      obtain ⟨s, c⟩ := q
      rw [hr] at h
      cases r with
      | error e => exact h
      | ok pts => simp only; cases E.points st.mesh pts <;> exact h

theorem cellsSection_adv (E : MeshOps K d) (st : MSt K d) : Adv st.s (cellsSection E st).2.s := by
  unfold cellsSection
  cases hdrNat st.line st.ncells with
  | none => exact Adv.refl _
  | some n =>
    have h := readCellsTxt_adv n st.s st.uli st.cellNode
    simp only
    cases hr : readCellsTxt n st.s st.uli st.cellNode with
    | mk r q =>
      obtain ⟨s, u, cn⟩ := q
      rw [hr] at h
      cases r with
      | error e => exact h
      | ok cs => simp only; cases E.cells st.mesh cs <;> exact h

omit [Field K] [LinearOrder K] [FloorRing K] in
theorem typesSection_adv (st : MSt K d) : Adv st.s (typesSection st).2.s := by
  unfold typesSection
  cases hdrNat st.line st.ncells with
  | none => exact Adv.refl _
  | some n =>
    have h := readTypes_adv n st.s st.uli
    simp only
    cases hr : readTypes n st.s st.uli with
    | mk r q =>
      obtain ⟨s, u⟩ := q
      rw [hr] at h
      cases r <;> exact h

theorem meshStep_adv {scan : List Char → Option K × List Char} (hs : Shrinks scan) (E : MeshOps K d) (st : MSt K d) :
    Adv (getline st.s st.line).1 (meshStep scan E st).2.s := by
  unfold meshStep
  cases hg : getline st.s st.line with
  | mk s line =>
    simp only
    split_ifs
    · exact pointsSection_adv hs E _
    · exact cellsSection_adv E _
    · exact typesSection_adv _
    · exact Adv.refl _

/-- A failed stream that is not at its end. -/
def Stuck (s : IStream) : Prop := s.fail = true ∧ s.eof = false

theorem meshLoop_stuck {scan : List Char → Option K × List Char} (hs : Shrinks scan) (E : MeshOps K d) (fuel : Nat) :
    ∀ st : MSt K d, Stuck st.s → (meshLoop scan E fuel st).1 = .error .diverge → Stuck (meshLoop scan E fuel st).2.s := by
  induction fuel with
  | zero => intro st h _; exact h
  | succ n ih =>
    intro st h hd
    have h1 := (getline_adv st.s st.line).trans (meshStep_adv hs E st)
    have h2 := h1.2.1 h.1 h.2
    unfold meshLoop at hd ⊢
    rw [if_neg (by simp [h.2])] at hd ⊢
    cases hm : meshStep scan E st with
    | mk r st' =>
      rw [hm] at h2 hd
      have h' : Stuck st'.s := by rw [h2]; exact h
      cases r with
      | error e => simpa using h'
      | ok b =>
        cases b with
        | true => simp at hd
        | false => exact ih st' h' hd

/-! ### No section loops for ever -/

omit [Field K] [LinearOrder K] [FloorRing K] in
theorem mapRes_no_diverge {α β : Type} {f : α → Res β} (l : List α) (h : ∀ a ∈ l, f a ≠ .error .diverge) :
    mapRes f l ≠ .error .diverge := by
  induction l with
  | nil => simp [mapRes]
  | cons a l ih =>
    intro hd
    simp only [mapRes] at hd
    cases h1 : f a with
    | error e => rw [h1] at hd; simp only [bind, Except.bind, Except.error.injEq] at hd; exact h a (by simp) (hd ▸ h1)
    | ok b =>
      simp only [h1, ok_bind] at hd
      cases h2 : mapRes f l with
      | error e =>
        rw [h2] at hd; simp only [bind, Except.bind, Except.error.injEq] at hd
        exact ih (fun x hx => h x (by simp [hx])) (hd ▸ h2)
      | ok bs => simp [h2, bind, Except.bind] at hd

theorem bind_no_diverge {α β : Type} {x : Res α} {f : α → Res β} (h1 : x ≠ .error .diverge)
    (h2 : ∀ a, x = .ok a → f a ≠ .error .diverge) : (x >>= f) ≠ .error .diverge := by
  cases x with
  | error e => simpa [bind, Except.bind] using h1
  | ok a => exact h2 a rfl

theorem ok_ne_diverge {α : Type} (a : α) : (.ok a : Res α) ≠ .error .diverge := by simp

omit [FloorRing K] in
theorem axis_no_diverge (v : List K) : Mesh.axis v ≠ .error .diverge :=
  bind_no_diverge (Bin.vget_no_diverge _ _) fun _ _ =>
    bind_no_diverge (Bin.vget_no_diverge _ _) fun _ _ => ok_ne_diverge _

omit [LinearOrder K] [FloorRing K] in
theorem maxLoop_no_diverge (ic : List K) (N : List Int) (ms : List K) : ∀ i, Bin.maxLoop ic N ms i ≠ .error .diverge := by
  induction ms with
  | nil => intro i; simp [Bin.maxLoop]
  | cons m ms ih =>
    intro i
    exact bind_no_diverge (Bin.vget_no_diverge _ _) fun _ _ => bind_no_diverge (Bin.vget_no_diverge _ _) fun _ _ =>
      bind_no_diverge (ih _) fun _ _ => ok_ne_diverge _

theorem volLoop_no_diverge (ds : List Int) : ∀ v, NDArray.volLoop v ds ≠ .error .diverge := by
  induction ds with
  | nil => intro v; simp [NDArray.volLoop]
  | cons d ds ih => intro v; exact bind_no_diverge (Bin.ckInt_no_diverge _) fun _ _ => ih _

theorem unrollLoop_no_diverge (dim : List Int) (k : Nat) : ∀ u, NDArray.unrollLoop dim k u ≠ .error .diverge := by
  induction k with
  | zero => intro u; simp [NDArray.unrollLoop]
  | succ k ih =>
    intro u
    exact bind_no_diverge (Bin.vget_no_diverge _ _) fun _ _ => bind_no_diverge (Bin.vget_no_diverge _ _) fun _ _ =>
      bind_no_diverge (Bin.ckInt_no_diverge _) fun _ _ => bind_no_diverge (Bin.vset_no_diverge _ _ _) fun _ _ => ih _

theorem ofDim_no_diverge {α : Type} (x : α) (dim : List Int) : NDArray.ofDim x dim ≠ .error .diverge := by
  have h1 : NDArray.calcVolume dim ≠ .error .diverge := by
    unfold NDArray.calcVolume; split
    · simp
    · exact volLoop_no_diverge _ _
  have h2 : NDArray.genUnroll dim (NDArray.empty (α := α)).unroll ≠ .error .diverge :=
    bind_no_diverge (Bin.vset_no_diverge _ _ _) fun _ _ => unrollLoop_no_diverge _ _ _
  simp only [NDArray.ofDim, NDArray.resize]
  cases hv : NDArray.calcVolume dim with
  | error e => simp only [ne_eq, Except.error.injEq]; rintro rfl; exact h1 hv
  | ok v =>
    simp only
    split_ifs
    · simp
    · cases hg : NDArray.genUnroll dim (NDArray.empty (α := α)).unroll with
      | error e => simp only [ne_eq, Except.error.injEq]; rintro rfl; exact h2 hg
      | ok u => simp

variable [IsStrictOrderedRing K]

/-- The bins of a mesh can only have been made by the reader. -/
def BinsOk (m : Mesh K d) : Prop := m.bin.item.val = [] ∨ Bin.Ends m.bin

theorem readPoints_no_diverge (m : Mesh K d) (pts : List (Fin d → K)) : m.readPoints pts ≠ .error .diverge := by
  refine bind_no_diverge (mapRes_no_diverge _ fun _ _ => axis_no_diverge _) fun axes _ => ?_
  refine bind_no_diverge ?_ fun _ _ => ok_ne_diverge _
  exact bind_no_diverge (maxLoop_no_diverge _ _ _ _) fun _ _ => bind_no_diverge (ofDim_no_diverge _ _) fun _ _ => ok_ne_diverge _

omit [FloorRing K] [IsStrictOrderedRing K] in
theorem mapRes_mem {α β : Type} {f : α → Res β} : ∀ (l : List α) (bs : List β), mapRes f l = .ok bs →
    ∀ b ∈ bs, ∃ a ∈ l, f a = .ok b := by
  intro l
  induction l with
  | nil => intro bs h b hb; simp [mapRes] at h; subst h; simp at hb
  | cons a l ih =>
    intro bs h b hb
    simp only [mapRes] at h
    cases h1 : f a with
    | error e => simp [h1, bind, Except.bind] at h
    | ok c =>
      simp only [h1, ok_bind] at h
      cases h2 : mapRes f l with
      | error e => simp [h2, bind, Except.bind] at h
      | ok cs =>
        simp only [h2, ok_bind, Except.ok.injEq] at h
        subst h
        rcases List.mem_cons.mp hb with rfl | hb
        · exact ⟨a, by simp, h1⟩
        · obtain ⟨x, hx, hx'⟩ := ih cs h2 b hb
          exact ⟨x, by simp [hx], hx'⟩

theorem readPoints_bins {m m' : Mesh K d} {pts : List (Fin d → K)} (h : m.readPoints pts = .ok m') : BinsOk m' := by
  simp only [Mesh.readPoints] at h
  cases h1 : mapRes (fun j => Mesh.axis (Mesh.distinct pts j)) (List.finRange d) with
  | error e => simp [h1, bind, Except.bind] at h
  | ok axes =>
    simp only [h1, ok_bind] at h
    cases h2 : (Bin.mk' (axes.map Mesh.Axis.min) (axes.map Mesh.Axis.incr) (axes.map Mesh.Axis.N) : Res (Bin (Interp K d) K)) with
    | error e => simp [h2, bind, Except.bind] at h
    | ok b =>
      simp only [h2, ok_bind, Except.ok.injEq] at h
      subst h
      refine Bin.mk'_ends (fun n hn => ?_) h2
      obtain ⟨a, ha, rfl⟩ := List.mem_map.mp hn
      obtain ⟨j, _, hj⟩ := mapRes_mem _ _ h1 a ha
      simp only [Mesh.axis] at hj
      cases e1 : vget ((Mesh.distinct pts j).insertionSort (· ≤ ·)) 0 with
      | error e => simp [e1, bind, Except.bind] at hj
      | ok lo =>
        simp only [e1, ok_bind] at hj
        cases e2 : vget ((Mesh.distinct pts j).insertionSort (· ≤ ·))
            ((((Mesh.distinct pts j).insertionSort (· ≤ ·)).length : Int) - 1) with
        | error e => rw [e2] at hj; simp [bind, Except.bind] at hj
        | ok hi =>
          simp only [e2, ok_bind, Except.ok.injEq] at hj
          rw [← hj]; simp only; omega

theorem addRange_keeps {T : Type} {b : Bin T K} (h : b.item.val = [] ∨ Bin.Ends b) (x : T) (lo hi : List K) :
    (b.addRange x lo hi).2.item.val = [] ∨ Bin.Ends (b.addRange x lo hi).2 := by
  classical
  exact Bin.step_ends h (.addRange x lo hi)

theorem fileAll_no_diverge (qs : List (Interp K d)) : ∀ b : Bin (Interp K d) K, (b.item.val = [] ∨ Bin.Ends b) →
    Mesh.fileAll qs b ≠ .error .diverge ∧ ∀ b', Mesh.fileAll qs b = .ok b' → b'.item.val = [] ∨ Bin.Ends b' := by
  induction qs with
  | nil => intro b h; simp only [Mesh.fileAll]; exact ⟨by simp, fun b' e => by simp at e; rw [← e]; exact h⟩
  | cons q qs ih =>
    intro b h
    have h1 := Bin.addRange_no_diverge h q (List.ofFn q.min) (List.ofFn q.max)
    have h2 := addRange_keeps h q (List.ofFn q.min) (List.ofFn q.max)
    simp only [Mesh.fileAll]
    cases hr : b.addRange q (List.ofFn q.min) (List.ofFn q.max) with
    | mk r b' =>
      rw [hr] at h1 h2
      cases r with
      | error e => exact ⟨by simp only [ne_eq, Except.error.injEq]; rintro rfl; exact h1 rfl, fun b' e => by simp at e⟩
      | ok _ => exact ih b' h2

omit [LinearOrder K] [FloorRing K] [IsStrictOrderedRing K] in
theorem makeCells_no_diverge (E : ElemOps K d) (node : List (Fin d → K)) (cells : List (List Nat)) :
    ∀ el, Mesh.makeCells E node el cells ≠ .error .diverge := by
  induction cells with
  | nil => intro el; simp [Mesh.makeCells]
  | cons c cs ih =>
    intro el
    refine bind_no_diverge ?_ fun _ _ => bind_no_diverge (ih _) fun _ _ => ok_ne_diverge _
    exact bind_no_diverge (Bin.vget_no_diverge _ _) fun _ _ => bind_no_diverge (Bin.vget_no_diverge _ _) fun _ _ =>
      bind_no_diverge (Bin.vget_no_diverge _ _) fun _ _ => bind_no_diverge (Bin.vget_no_diverge _ _) fun _ _ =>
      mapRes_no_diverge _ fun _ _ => bind_no_diverge (Bin.vget_no_diverge _ _) fun _ _ =>
        bind_no_diverge (Bin.vget_no_diverge _ _) fun _ _ => ok_ne_diverge _

theorem readCells_no_diverge (E : ElemOps K d) {m : Mesh K d} (hm : BinsOk m) (cells : List (List Nat)) :
    m.readCells E cells ≠ .error .diverge ∧ ∀ m', m.readCells E cells = .ok m' → BinsOk m' := by
  simp only [Mesh.readCells]
  cases h1 : Mesh.makeCells E m.node 0 cells with
  | error e =>
    exact ⟨by simp only [bind, Except.bind, ne_eq, Except.error.injEq]; rintro rfl; exact makeCells_no_diverge E _ _ _ h1,
      fun m' h => by simp [bind, Except.bind] at h⟩
  | ok new =>
    simp only [ok_bind]
    obtain ⟨g1, g2⟩ := fileAll_no_diverge (m.interp ++ new) m.bin hm
    cases h2 : Mesh.fileAll (m.interp ++ new) m.bin with
    | error e =>
      exact ⟨by simp only [bind, Except.bind, ne_eq, Except.error.injEq]; rintro rfl; exact g1 h2,
        fun m' h => by simp [bind, Except.bind] at h⟩
    | ok bin =>
      simp only [ok_bind]
      exact ⟨by simp, fun m' h => by simp at h; rw [← h]; exact g2 bin h2⟩

omit [LinearOrder K] [FloorRing K] [IsStrictOrderedRing K] in
theorem readPts_no_diverge (scan : List Char → Option K × List Char) (n : Nat) :
    ∀ s (c : Fin d → Option K), (readPts scan n s c).1 ≠ .error .diverge := by
  induction n with
  | zero => intro s c; simp [readPts]
  | succ n ih =>
    intro s c
    unfold readPts
    cases hrc : readCoord scan (List.finRange d) s c with
    | mk s1 c1 =>
      simp only
      generalize (if d = 2 then (extract scan 0 s1 none).1 else s1) = s2
      split_ifs
      · have := ih s2 c1
        cases hr : readPts scan n s2 c1 with
        | mk r q =>
          rw [hr] at this
          cases r <;> simp_all [Except.map]
      · simp

theorem readCellsTxt_no_diverge (n : Nat) : ∀ s u cn, (readCellsTxt n s u cn).1 ≠ .error .diverge := by
  induction n with
  | zero => intro s u cn; simp [readCellsTxt]
  | succ n ih =>
    intro s u cn
    unfold readCellsTxt
    cases he : extract scanNat 0 s u with
    | mk s1 v =>
      cases v with
      | none => simp
      | some k =>
        simp only
        cases hn : readNums scanNat 0 (vresize cn k 0) s1 with
        | mk s2 cn2 =>
          simp only
          have := ih s2 (some k) cn2
          cases hr : readCellsTxt n s2 (some k) cn2 with
          | mk r q =>
            rw [hr] at this
            cases r <;> simp_all [Except.map]

theorem readTypes_no_diverge (n : Nat) : ∀ s u, (readTypes n s u).1 ≠ .error .diverge := by
  induction n with
  | zero => intro s u; simp [readTypes]
  | succ n ih =>
    intro s u
    unfold readTypes
    cases he : extract scanNat 0 s u with
    | mk s1 v =>
      cases v with
      | none => simp
      | some k =>
        simp only
        split_ifs
        · simp
        · exact ih s1 (some k)

/-- The operations on the mesh neither run forever nor leave the meshes satisfying `P`. -/
def Tame (O : MeshOps K d) (P : Mesh K d → Prop) : Prop :=
  (∀ m pts, P m → O.points m pts ≠ .error .diverge ∧ ∀ m', O.points m pts = .ok m' → P m') ∧
  ∀ m cells, P m → O.cells m cells ≠ .error .diverge ∧ ∀ m', O.cells m cells = .ok m' → P m'

theorem exact_tame (E : ElemOps K d) : Tame E.mesh BinsOk :=
  ⟨fun m pts _ => ⟨readPoints_no_diverge m pts, fun _ h => readPoints_bins h⟩, fun _ cells hm => readCells_no_diverge E hm cells⟩

theorem pointsSection_no_diverge (scan : List Char → Option K × List Char) {O : MeshOps K d} {P : Mesh K d → Prop} (T : Tame O P) {st : MSt K d}
    (hm : P st.mesh) : (pointsSection scan O st).1 ≠ .error .diverge ∧ P (pointsSection scan O st).2.mesh := by
  unfold pointsSection
  cases hdrNat st.line st.npoints with
  | none => exact ⟨by simp, hm⟩
  | some n =>
    have h := readPts_no_diverge scan n st.s st.coord
    simp only
    cases hr : readPts scan n st.s st.coord with
    | mk r q =>
      obtain ⟨s, c⟩ := q
      rw [hr] at h
      cases r with
      | error e => exact ⟨by simp only [ne_eq, Except.error.injEq]; rintro rfl; exact h rfl, hm⟩
      | ok pts =>
        simp only
        obtain ⟨g1, g2⟩ := T.1 st.mesh pts hm
        cases h2 : O.points st.mesh pts with
        | error e => exact ⟨by simp only [ne_eq, Except.error.injEq]; rintro rfl; exact g1 h2, hm⟩
        | ok m => exact ⟨by simp, g2 m h2⟩

theorem cellsSection_no_diverge {O : MeshOps K d} {P : Mesh K d → Prop} (T : Tame O P) {st : MSt K d} (hm : P st.mesh) :
    (cellsSection O st).1 ≠ .error .diverge ∧ P (cellsSection O st).2.mesh := by
  unfold cellsSection
  cases hdrNat st.line st.ncells with
  | none => exact ⟨by simp, hm⟩
  | some n =>
    have h := readCellsTxt_no_diverge n st.s st.uli st.cellNode
    simp only
    cases hr : readCellsTxt n st.s st.uli st.cellNode with
    | mk r q =>
      obtain ⟨s, u, cn⟩ := q
      rw [hr] at h
      cases r with
      | error e => exact ⟨by simp only [ne_eq, Except.error.injEq]; rintro rfl; exact h rfl, hm⟩
      | ok cs =>
        simp only
        obtain ⟨g1, g2⟩ := T.2 st.mesh cs hm
        cases h2 : O.cells st.mesh cs with
        | error e => exact ⟨by simp only [ne_eq, Except.error.injEq]; rintro rfl; exact g1 h2, hm⟩
        | ok m => exact ⟨by simp, g2 m h2⟩

omit [FloorRing K] [IsStrictOrderedRing K] [LinearOrder K] [Field K] in
theorem typesSection_no_diverge (st : MSt K d) :
    (typesSection st).1 ≠ .error .diverge ∧ (typesSection st).2.mesh = st.mesh := by
  unfold typesSection
  cases hdrNat st.line st.ncells with
  | none => exact ⟨by simp, rfl⟩
  | some n =>
    have h := readTypes_no_diverge n st.s st.uli
    simp only
    cases hr : readTypes n st.s st.uli with
    | mk r q =>
      obtain ⟨s, u⟩ := q
      rw [hr] at h
      cases r with
      | error e => exact ⟨by simp only [ne_eq, Except.error.injEq]; rintro rfl; exact h rfl, rfl⟩
      | ok _ => exact ⟨by simp, rfl⟩

theorem meshStep_no_diverge (scan : List Char → Option K × List Char) {E : MeshOps K d} {P : Mesh K d → Prop} (T : Tame E P) {st : MSt K d}
    (hm : P st.mesh) : (meshStep scan E st).1 ≠ .error .diverge ∧ P (meshStep scan E st).2.mesh := by
  unfold meshStep
  cases hg : getline st.s st.line with
  | mk s line =>
    simp only
    split_ifs
    · exact pointsSection_no_diverge scan T hm
    · exact cellsSection_no_diverge T hm
    · obtain ⟨h1, h2⟩ := typesSection_no_diverge { st with s := s, line := line }
      exact ⟨h1, by rw [h2]; exact hm⟩
    · exact ⟨by simp, hm⟩

/-- With enough passes, the loop over the mesh sections is only still running if the stream is stuck. -/
theorem meshLoop_progress {scan : List Char → Option K × List Char} (hs : Shrinks scan) {E : MeshOps K d} {P : Mesh K d → Prop} (T : Tame E P)
    (fuel : Nat) : ∀ st : MSt K d, P st.mesh → st.s.rest.length + 2 ≤ fuel → (meshLoop scan E fuel st).1 = .error .diverge →
      Stuck (meshLoop scan E fuel st).2.s := by
  induction fuel with
  | zero => intro st _ h; omega
  | succ n ih =>
    intro st hm hf hd
    by_cases hst : Stuck st.s
    · exact meshLoop_stuck hs E (n + 1) st hst hd
    · unfold meshLoop at hd ⊢
      by_cases he : st.s.eof = true
      · rw [if_pos he] at hd; simp at hd
      · rw [if_neg he] at hd ⊢
        have heof : st.s.eof = false := by simpa using he
        have hfail : st.s.fail = false := by
          cases hfl : st.s.fail with
          | false => rfl
          | true => exact absurd ⟨hfl, heof⟩ hst
        have h1 := getline_progress st.s st.line hfail heof
        have h2 := meshStep_adv hs E st
        obtain ⟨h3, h4⟩ := meshStep_no_diverge scan T hm
        cases hms : meshStep scan E st with
        | mk r st' =>
          rw [hms] at h2 h3 h4 hd
          cases r with
          | error e => simp only at hd h3; exact absurd hd (by simpa using h3)
          | ok b =>
            cases b with
            | true => simp at hd
            | false =>
              simp only at hd ⊢ h2
              by_cases hE : st'.s.eof = true
              · exfalso
                cases n with
                | zero => omega
                | succ n => unfold meshLoop at hd; rw [if_pos hE] at hd; simp at hd
              · refine ih st' h4 ?_ hd
                have h5 : (getline st.s st.line).1.eof = false := by
                  cases hge : (getline st.s st.line).1.eof with
                  | false => rfl
                  | true => exact absurd (h2.2.2 hge) hE
                have h6 := h1.resolve_left (by simp [h5])
                have := h2.1
                omega

theorem meshLoop_adv {scan : List Char → Option K × List Char} (hs : Shrinks scan) (E : MeshOps K d) (fuel : Nat) :
    ∀ st : MSt K d, Adv st.s (meshLoop scan E fuel st).2.s := by
  induction fuel with
  | zero => intro st; exact Adv.refl _
  | succ n ih =>
    intro st
    unfold meshLoop
    split_ifs
    · exact Adv.refl _
    · have h2 := (getline_adv st.s st.line).trans (meshStep_adv hs E st)
      cases hms : meshStep scan E st with
      | mk r st' =>
        rw [hms] at h2
        cases r with
        | error e => exact h2
        | ok b =>
          cases b with
          | true => exact h2
          | false => exact h2.trans (ih st')

/-! ### The second loop -/

omit [LinearOrder K] [FloorRing K] [IsStrictOrderedRing K]

theorem maxSizeLoop_no_diverge {T : Type} (item : NDArray (List T)) (n : Nat) :
    ∀ i m, Bin.maxSizeLoop item n i m ≠ .error .diverge := by
  induction n with
  | zero => intro i m; simp [Bin.maxSizeLoop]
  | succ n ih => intro i m; exact bind_no_diverge (Bin.vget_no_diverge _ _) fun _ _ => ih _ _

theorem addField_no_diverge (b : Body K d) (name : String) (data : List K) : b.addField name data ≠ .error .diverge :=
  bind_no_diverge (bind_no_diverge (maxSizeLoop_no_diverge _ _ _ _) fun _ _ => ok_ne_diverge _) fun _ _ => ok_ne_diverge _

theorem bodyStep_adv {scan : List Char → Option K × List Char} (hs : Shrinks scan) (st : BSt K d) :
    Adv (getline st.s st.line).1 (bodyStep scan st).2.s ∧ (bodyStep scan st).1 ≠ .error .diverge := by
  unfold bodyStep
  cases hg : getline st.s st.line with
  | mk s line =>
    simp only
    split_ifs
    · exact ⟨Adv.refl _, by simp⟩
    · unfold scalarsSection
      have h1 := getline_adv s line
      simp only
      cases hg2 : getline s line with
      | mk s1 line1 =>
        rw [hg2] at h1
        simp only
        cases st.npoints with
        | none => exact ⟨h1, by simp⟩
        | some n =>
          have h2 := readNums_adv hs 0 (List.replicate n 0) s1
          simp only
          cases hn : readNums scan 0 (List.replicate n 0) s1 with
          | mk s2 data =>
            rw [hn] at h2
            simp only
            cases ha : st.body.addField (String.ofList (hdrName line st.name)) data with
            | error e =>
              exact ⟨h1.trans h2, by simp only [ne_eq, Except.error.injEq]; rintro rfl; exact addField_no_diverge _ _ _ ha⟩
            | ok b => exact ⟨h1.trans h2, by simp⟩
    · exact ⟨Adv.refl _, by simp⟩

theorem bodyLoop_stuck {scan : List Char → Option K × List Char} (hs : Shrinks scan) (fuel : Nat) :
    ∀ st : BSt K d, Stuck st.s → (bodyLoop scan fuel st).1 = .error .diverge → Stuck (bodyLoop scan fuel st).2.s := by
  induction fuel with
  | zero => intro st h _; exact h
  | succ n ih =>
    intro st h hd
    have h1 := (getline_adv st.s st.line).trans (bodyStep_adv hs st).1
    have h2 := h1.2.1 h.1 h.2
    unfold bodyLoop at hd ⊢
    rw [if_neg (by simp [h.2])] at hd ⊢
    cases hm : bodyStep scan st with
    | mk r st' =>
      rw [hm] at h2 hd
      have h' : Stuck st'.s := by rw [h2]; exact h
      cases r with
      | error e => simpa using h'
      | ok b => exact ih st' h' hd

theorem bodyLoop_progress {scan : List Char → Option K × List Char} (hs : Shrinks scan) (fuel : Nat) :
    ∀ st : BSt K d, st.s.rest.length + 2 ≤ fuel → (bodyLoop scan fuel st).1 = .error .diverge →
      Stuck (bodyLoop scan fuel st).2.s := by
  induction fuel with
  | zero => intro st h; omega
  | succ n ih =>
    intro st hf hd
    by_cases hst : Stuck st.s
    · exact bodyLoop_stuck hs (n + 1) st hst hd
    · unfold bodyLoop at hd ⊢
      by_cases he : st.s.eof = true
      · rw [if_pos he] at hd; simp at hd
      · rw [if_neg he] at hd ⊢
        have heof : st.s.eof = false := by simpa using he
        have hfail : st.s.fail = false := by
          cases hfl : st.s.fail with
          | false => rfl
          | true => exact absurd ⟨hfl, heof⟩ hst
        have h1 := getline_progress st.s st.line hfail heof
        obtain ⟨h2, h3⟩ := bodyStep_adv hs st
        cases hms : bodyStep scan st with
        | mk r st' =>
          rw [hms] at h2 h3 hd
          cases r with
          | error e => simp only at hd h3; exact absurd hd (by simpa using h3)
          | ok b =>
            simp only at hd ⊢ h2
            by_cases hE : st'.s.eof = true
            · exfalso
              cases n with
              | zero => omega
              | succ n => unfold bodyLoop at hd; rw [if_pos hE] at hd; simp at hd
            · refine ih st' ?_ hd
              have h5 : (getline st.s st.line).1.eof = false := by
                cases hge : (getline st.s st.line).1.eof with
                | false => rfl
                | true => exact absurd (h2.2.2 hge) hE
              have h6 := h1.resolve_left (by simp [h5])
              have := h2.1
              omega

end Verif.Vtk
