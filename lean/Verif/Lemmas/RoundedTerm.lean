import Verif.Lemmas.VtkTerm
import Verif.Model.RoundedVtk
import Verif.Spec.RoundedTerm

/-!
# Termination of insertion and of the vtk reader in rounded arithmetic
-/

namespace Verif.Fl
open Bin Spec NDArray Vtk

section
variable {T K : Type} [Field K] [LinearOrder K] [FloorRing K] (rnd : K → K)

theorem idxAt_no_diverge (mn mx ic c : List K) (i : Nat) : idxAt rnd mn mx ic c i ≠ .error .diverge := by
  unfold idxAt
  refine bind_no_diverge (vget_no_diverge _ _) fun _ _ => bind_no_diverge (vget_no_diverge _ _) fun _ _ => ?_
  split
  · simp
  · refine bind_no_diverge (vget_no_diverge _ _) fun _ _ => ?_
    split
    · simp
    · refine bind_no_diverge (vget_no_diverge _ _) fun _ _ => ?_
      split
      · simp
      · unfold ckInt; split <;> simp

theorem idxLoop_no_diverge (mn mx ic c : List K) (n : Nat) : ∀ i term, (idxLoop rnd mn mx ic c n i term).1 ≠ .error .diverge ∧
    (idxLoop rnd mn mx ic c n i term).2.length = term.length := by
  induction n with
  | zero => intro i term; simp [idxLoop]
  | succ n ih =>
    intro i term
    simp only [idxLoop]
    cases h1 : idxAt rnd mn mx ic c i with
    | error e => exact ⟨by simp only [ne_eq, Except.error.injEq]; rintro rfl; exact idxAt_no_diverge rnd _ _ _ _ _ h1, rfl⟩
    | ok k =>
      simp only
      cases h2 : vset term ((i : Nat) : Int) k with
      | error e =>
        refine ⟨?_, rfl⟩
        simp only [ne_eq, Except.error.injEq]; rintro rfl
        unfold vset at h2; split at h2 <;> simp at h2
      | ok t =>
        simp only
        obtain ⟨g1, g2⟩ := ih (i + 1) t
        refine ⟨g1, g2.trans ?_⟩
        unfold vset at h2; split at h2
        · simp only [Except.ok.injEq] at h2; rw [← h2]; simp
        · simp at h2

/-- Bins whose coordinates have non-negative indices. -/
structure Ends (b : Bin T K) : Prop where
  cnt : Countable b.item
  pos : ∀ (i : Nat) m M d, b.min[i]? = some m → b.max[i]? = some M → b.incr[i]? = some d → 0 ≤ d ∨ M ≤ m

variable {rnd}
variable [IsStrictOrderedRing K]

theorem idxAt_nonneg (R : OrderRounding rnd) {mn mx ic c : List K}
    (hp : ∀ (i : Nat) m M d, mn[i]? = some m → mx[i]? = some M → ic[i]? = some d → 0 ≤ d ∨ M ≤ m) {i : Nat} {k : Int}
    (h : idxAt rnd mn mx ic c i = .ok k) : 0 ≤ k := by
  simp only [idxAt] at h
  cases h1 : vget c ((i : Nat) : Int) with
  | error e => simp [h1, bind, Except.bind] at h
  | ok a =>
    simp only [h1, ok_bind] at h
    cases h2 : vget mn ((i : Nat) : Int) with
    | error e => simp [h2, bind, Except.bind] at h
    | ok lo =>
      simp only [h2, ok_bind] at h
      split at h
      · simp at h
      · next hlo =>
        cases h3 : vget mx ((i : Nat) : Int) with
        | error e => simp [h3, bind, Except.bind] at h
        | ok hi =>
          simp only [h3, ok_bind] at h
          split at h
          · simp at h
          · next hhi =>
            cases h4 : vget ic ((i : Nat) : Int) with
            | error e => simp [h4, bind, Except.bind] at h
            | ok d =>
              simp only [h4, ok_bind] at h
              split at h
              · simp at h
              · next hd =>
                rw [vget_ok] at h2 h3 h4
                have hd0 := hp i lo hi d (by simpa using h2) (by simpa using h3) (by simpa using h4)
                simp only [ckInt] at h
                split at h
                · simp only [Except.ok.injEq] at h
                  rw [← h]
                  have hz : ∀ y : K, 0 ≤ y → 0 ≤ rnd y := fun y hy => R.zero ▸ R.mono 0 y hy
                  refine Int.floor_nonneg.mpr ?_
                  rcases hd0 with hd0 | hM
                  · exact hz _ (div_nonneg (hz _ (sub_nonneg.mpr (not_lt.mp hlo))) hd0)
                  · have : a = lo := le_antisymm ((not_lt.mp hhi).trans hM) (not_lt.mp hlo)
                    rw [this, sub_self, R.zero, zero_div, R.zero]
                · simp at h

theorem idxLoop_nonneg (R : OrderRounding rnd) {mn mx ic c : List K}
    (hp : ∀ (i : Nat) m M d, mn[i]? = some m → mx[i]? = some M → ic[i]? = some d → 0 ≤ d ∨ M ≤ m) (n : Nat) :
    ∀ i term, (∀ a ∈ term, 0 ≤ a) → ∀ a ∈ (idxLoop rnd mn mx ic c n i term).2, 0 ≤ a := by
  induction n with
  | zero => intro i term h; simpa [idxLoop] using h
  | succ n ih =>
    intro i term h
    simp only [idxLoop]
    cases h1 : idxAt rnd mn mx ic c i with
    | error e => simpa using h
    | ok k =>
      simp only
      cases h2 : vset term ((i : Nat) : Int) k with
      | error e => simpa using h
      | ok t =>
        simp only
        refine ih (i + 1) t fun a ha => ?_
        unfold vset at h2; split at h2
        · simp only [Except.ok.injEq] at h2
          rw [← h2] at ha
          rcases List.mem_or_eq_of_mem_set ha with ha | rfl
          · exact h a ha
          · exact idxAt_nonneg R hp h1
        · simp at h2

theorem addRange_no_diverge (R : OrderRounding rnd) {b : Bin T K} (hb : b.item.val = [] ∨ Ends b) (x : T) (lo hi : List K) :
    (addRange rnd b x lo hi).1 ≠ .error .diverge := by
  simp only [addRange]
  have hz : ∀ a ∈ List.replicate b.item.order.toNat (0 : Int), 0 ≤ a := by
    intro a ha; rw [(List.mem_replicate.mp ha).2]
  have l1 := idxLoop_no_diverge rnd b.min b.max b.incr lo b.item.order.toNat 0 (List.replicate b.item.order.toNat (0 : Int))
  have l2 := idxLoop_no_diverge rnd b.min b.max b.incr hi b.item.order.toNat 0 (List.replicate b.item.order.toNat (0 : Int))
  simp only [indicesOf]
  cases h1 : idxLoop rnd b.min b.max b.incr lo b.item.order.toNat 0 (List.replicate b.item.order.toNat (0 : Int)) with
  | mk r1 imin =>
    rw [h1] at l1
    cases r1 with
    | error e => exact l1.1
    | ok _ =>
      simp only
      cases h2 : idxLoop rnd b.min b.max b.incr hi b.item.order.toNat 0 (List.replicate b.item.order.toNat (0 : Int)) with
      | mk r2 imax =>
        rw [h2] at l2
        cases r2 with
        | error e => exact l2.1
        | ok _ =>
          simp only
          have e1 : imin.length = b.item.order.toNat := by simpa using l1.2
          have e2 : imax.length = b.item.order.toNat := by simpa using l2.2
          by_cases hv : b.item.val = []
          · simp only [rangeLoop]
            cases hp : push b.item imin x with
            | error e => simp only [ne_eq, Except.error.injEq]; rintro rfl; exact push_no_diverge b.item imin x hp
            | ok item' => exact (push_empty hv hp).elim
          · obtain ⟨hc, hk⟩ := hb.resolve_left hv
            have n1 := idxLoop_nonneg (c := lo) R hk b.item.order.toNat 0 _ hz
            rw [h1] at n1
            obtain ⟨s1, s2, s3⟩ := hc.strides.resolve_left hv
            refine rangeLoop_ends x b.item.order.toNat n1 e1 e2 _ b.item imin hc (by omega) n1 e1 (by omega) ?_
            have h0 : 0 ≤ base (b.item.volume.toNat : Int) imin := base_nonneg (by omega) n1
            push_cast; omega

omit [FloorRing K] [IsStrictOrderedRing K] in
theorem maxLoop_get {ic : List K} {N : List Int} : ∀ (ms : List K) (i : Nat) (Ms : List K), maxLoop rnd ic N ms i = .ok Ms →
    ∀ j m M, ms[j]? = some m → Ms[j]? = some M → ∃ d n, ic[i + j]? = some d ∧ N[i + j]? = some n ∧ M = rnd (m + rnd (d * (n : K))) := by
  intro ms
  induction ms with
  | nil => intro i Ms h j m M hj; simp at hj
  | cons a ms ih =>
    intro i Ms h j m M hj hJ
    simp only [maxLoop] at h
    cases h1 : vget ic ((i : Nat) : Int) with
    | error e => simp [h1, bind, Except.bind] at h
    | ok d =>
      simp only [h1, ok_bind] at h
      cases h2 : vget N ((i : Nat) : Int) with
      | error e => simp [h2, bind, Except.bind] at h
      | ok n =>
        simp only [h2, ok_bind] at h
        cases h3 : maxLoop rnd ic N ms (i + 1) with
        | error e => simp [h3, bind, Except.bind] at h
        | ok rest =>
          simp only [h3, ok_bind, Except.ok.injEq] at h
          subst h
          cases j with
          | zero =>
            simp only [List.getElem?_cons_zero, Option.some.injEq] at hj hJ
            subst hj; subst hJ
            rw [vget_ok] at h1 h2
            exact ⟨d, n, by simpa using h1, by simpa using h2, rfl⟩
          | succ j =>
            simp only [List.getElem?_cons_succ] at hj hJ
            obtain ⟨d', n', e1, e2, e3⟩ := ih (i + 1) rest h3 j m M hj hJ
            exact ⟨d', n', by rw [show i + (j + 1) = i + 1 + j by omega]; exact e1,
              by rw [show i + (j + 1) = i + 1 + j by omega]; exact e2, e3⟩

theorem mkBin_ends (R : OrderRounding rnd) {min incr : List K} {N : List Int} {b : Bin T K} (hN : ∀ n ∈ N, 0 ≤ n) (hm : ∀ m ∈ min, rnd m = m)
    (h : mkBin rnd min incr N = .ok b) : b.item.val = [] ∨ Ends b := by
  simp only [mkBin] at h
  cases h1 : maxLoop rnd incr N min 0 with
  | error e => simp [h1, bind, Except.bind] at h
  | ok mx =>
    simp only [h1, ok_bind] at h
    cases h2 : NDArray.ofDim ([] : List T) N with
    | error e => simp [h2, bind, Except.bind] at h
    | ok it =>
      simp only [h2, ok_bind, Except.ok.injEq] at h
      subst h
      obtain ⟨hc, hv⟩ := resize_count hN h2
      rcases hv with hv | hpos
      · exact Or.inl hv
      · refine Or.inr ⟨hc, fun i m M d e1 e2 e3 => ?_⟩
        obtain ⟨d', n, f1, f2, f3⟩ := maxLoop_get min 0 mx h1 i m M e1 e2
        rw [Nat.zero_add] at f1 f2
        simp only at e3
        rw [e3, Option.some.injEq] at f1
        subst f1
        rcases le_or_gt 0 d with hd | hd
        · exact Or.inl hd
        · right
          have hn : (0 : K) < n := by exact_mod_cast hpos n (List.mem_of_getElem? f2)
          have h0 : rnd (d * n) ≤ 0 := R.zero ▸ R.mono _ 0 (mul_neg_of_neg_of_pos hd hn).le
          rw [f3, ← hm m (List.mem_of_getElem? e1)]
          refine R.mono _ _ ?_
          rw [hm m (List.mem_of_getElem? e1)]
          linarith

omit [IsStrictOrderedRing K] in
/-- A step changes only the scratch indices and the stored lists. -/
theorem step_ends [DecidableEq T] {b : Bin T K} (h : b.item.val = [] ∨ Ends b) (op : Op T K) :
    (binStep rnd b op).2.item.val = [] ∨ Ends (binStep rnd b op).2 := by
  have key : ∀ it idx, (b.item.val = [] → it = b.item) → (Countable b.item → Countable it) →
      ({ b with item := it, indices := idx } : Bin T K).item.val = [] ∨ Ends { b with item := it, indices := idx } := by
    intro it idx h1 h2
    rcases h with h | h
    · exact Or.inl (by simp only; rw [h1 h]; exact h)
    · exact Or.inr ⟨h2 h.cnt, h.pos⟩
  have keyi : ∀ idx, ({ b with indices := idx } : Bin T K).item.val = [] ∨ Ends { b with indices := idx } :=
    fun idx => key b.item idx (fun _ => rfl) id
  cases op with
  | add x c =>
    simp only [binStep, add]
    cases hi : indicesOf rnd b c b.indices with
    | mk r idx =>
      cases r with
      | error e => exact keyi idx
      | ok _ =>
        simp only
        cases hp : push b.item idx x with
        | error e => exact keyi idx
        | ok it => exact key it idx (fun hv => (push_empty hv hp).elim) fun hc => push_countable hc hp
  | addOnce x c =>
    simp only [binStep, addOnce]
    cases hi : indicesOf rnd b c b.indices with
    | mk r idx =>
      cases r with
      | error e => exact keyi idx
      | ok _ =>
        simp only
        cases hg : b.item.get idx with
        | error e => exact keyi idx
        | ok v =>
          simp only
          split
          · exact keyi idx
          · cases hp : push b.item idx x with
            | error e => exact keyi idx
            | ok it => exact key it idx (fun hv => (push_empty hv hp).elim) fun hc => push_countable hc hp
  | addRange x lo hi =>
    simp only [binStep, addRange]
    cases h1 : indicesOf rnd b lo (List.replicate b.item.order.toNat 0) with
    | mk r1 imin =>
      cases r1 with
      | error e => exact h
      | ok _ =>
        simp only
        cases h2 : indicesOf rnd b hi (List.replicate b.item.order.toNat 0) with
        | mk r2 imax =>
          cases r2 with
          | error e => exact h
          | ok _ =>
            exact key _ _ (fun hv => rangeLoop_empty x _ b.item imin hv) fun hc => rangeLoop_countable x _ b.item imin hc

omit [IsStrictOrderedRing K] in
theorem add_no_diverge (b : Bin T K) (x : T) (c : List K) : (add rnd b x c).1 ≠ .error .diverge := by
  have l1 := idxLoop_no_diverge rnd b.min b.max b.incr c b.item.order.toNat 0 b.indices
  simp only [add, indicesOf]
  cases h1 : idxLoop rnd b.min b.max b.incr c b.item.order.toNat 0 b.indices with
  | mk r idx =>
    rw [h1] at l1
    cases r with
    | error e => exact l1.1
    | ok _ =>
      simp only
      cases hp : push b.item idx x with
      | error e => simp only [ne_eq, Except.error.injEq]; rintro rfl; exact push_no_diverge b.item idx x hp
      | ok it => simp

omit [IsStrictOrderedRing K] in
theorem addOnce_no_diverge [DecidableEq T] (b : Bin T K) (x : T) (c : List K) : (addOnce rnd b x c).1 ≠ .error .diverge := by
  have l1 := idxLoop_no_diverge rnd b.min b.max b.incr c b.item.order.toNat 0 b.indices
  simp only [addOnce, indicesOf]
  cases h1 : idxLoop rnd b.min b.max b.incr c b.item.order.toNat 0 b.indices with
  | mk r idx =>
    rw [h1] at l1
    cases r with
    | error e => exact l1.1
    | ok _ =>
      simp only
      cases hg : b.item.get idx with
      | error e =>
        simp only [ne_eq, Except.error.injEq]; rintro rfl
        simp only [NDArray.get] at hg
        cases hl : b.item.linearIndex idx with
        | error e =>
          rw [hl] at hg; simp only [bind, Except.bind, Except.error.injEq] at hg
          exact linLoop_no_diverge _ _ _ _ (hg ▸ hl)
        | ok l => simp only [hl, ok_bind] at hg; exact vget_no_diverge _ _ hg
      | ok v =>
        simp only
        split
        · simp
        · cases hp : push b.item idx x with
          | error e => simp only [ne_eq, Except.error.injEq]; rintro rfl; exact push_no_diverge b.item idx x hp
          | ok it => simp

end

section
variable {K : Type} {d : Nat} [Field K] [LinearOrder K] [FloorRing K] {rnd : K → K}

/-- The bins of a mesh can only have been made by the reader. -/
def BinsOk (m : Mesh K d) : Prop := m.bin.item.val = [] ∨ Ends m.bin

theorem axis_no_diverge (v : List K) : axis rnd v ≠ .error .diverge :=
  bind_no_diverge (vget_no_diverge _ _) fun _ _ => bind_no_diverge (vget_no_diverge _ _) fun _ _ => ok_ne_diverge _

theorem maxLoop_no_diverge (ic : List K) (N : List Int) (ms : List K) : ∀ i, maxLoop rnd ic N ms i ≠ .error .diverge := by
  induction ms with
  | nil => intro i; simp [maxLoop]
  | cons m ms ih =>
    intro i
    exact bind_no_diverge (vget_no_diverge _ _) fun _ _ => bind_no_diverge (vget_no_diverge _ _) fun _ _ =>
      bind_no_diverge (ih _) fun _ _ => ok_ne_diverge _

theorem readPoints_no_diverge (m : Mesh K d) (pts : List (Fin d → K)) : readPoints rnd m pts ≠ .error .diverge := by
  refine bind_no_diverge (mapRes_no_diverge _ fun _ _ => axis_no_diverge _) fun axes _ => ?_
  refine bind_no_diverge ?_ fun _ _ => ok_ne_diverge _
  exact bind_no_diverge (maxLoop_no_diverge _ _ _ _) fun _ _ => bind_no_diverge (ofDim_no_diverge _ _) fun _ _ => ok_ne_diverge _

theorem makeCells_no_diverge (E : ElemOps K d) (node : List (Fin d → K)) (cells : List (List Nat)) :
    ∀ el, makeCells rnd E node el cells ≠ .error .diverge := by
  induction cells with
  | nil => intro el; simp [makeCells]
  | cons c cs ih =>
    intro el
    refine bind_no_diverge ?_ fun _ _ => bind_no_diverge (ih _) fun _ _ => ok_ne_diverge _
    exact bind_no_diverge (Bin.vget_no_diverge _ _) fun _ _ => bind_no_diverge (Bin.vget_no_diverge _ _) fun _ _ =>
      bind_no_diverge (Bin.vget_no_diverge _ _) fun _ _ => bind_no_diverge (Bin.vget_no_diverge _ _) fun _ _ =>
      mapRes_no_diverge _ fun _ _ => bind_no_diverge (Bin.vget_no_diverge _ _) fun _ _ =>
        bind_no_diverge (Bin.vget_no_diverge _ _) fun _ _ => ok_ne_diverge _

variable [IsStrictOrderedRing K]

theorem readPoints_bins (R : OrderRounding rnd) {m m' : Mesh K d} {pts : List (Fin d → K)} (h : readPoints rnd m pts = .ok m') : BinsOk m' := by
  simp only [readPoints] at h
  cases h1 : mapRes (fun j => axis rnd (Mesh.distinct pts j)) (List.finRange d) with
  | error e => simp [h1, bind, Except.bind] at h
  | ok axes =>
    simp only [h1, ok_bind] at h
    cases h2 : (mkBin rnd (axes.map Mesh.Axis.min) (axes.map Mesh.Axis.incr) (axes.map Mesh.Axis.N) : Res (Bin (Interp K d) K)) with
    | error e => simp [h2, bind, Except.bind] at h
    | ok b =>
      simp only [h2, ok_bind, Except.ok.injEq] at h
      subst h
      have key : ∀ a ∈ axes, 0 ≤ a.N ∧ rnd a.min = a.min := by
        intro a ha
        obtain ⟨j, _, hj⟩ := mapRes_mem _ _ h1 a ha
        simp only [axis] at hj
        cases e1 : vget ((Mesh.distinct pts j).insertionSort (· ≤ ·)) 0 with
        | error e => simp [e1, bind, Except.bind] at hj
        | ok lo =>
          simp only [e1, ok_bind] at hj
          cases e2 : vget ((Mesh.distinct pts j).insertionSort (· ≤ ·))
              ((((Mesh.distinct pts j).insertionSort (· ≤ ·)).length : Int) - 1) with
          | error e => rw [e2] at hj; simp [bind, Except.bind] at hj
          | ok hi =>
            simp only [e2, ok_bind, Except.ok.injEq] at hj
            rw [← hj]
            exact ⟨by simp only; omega, R.idem _⟩
      refine mkBin_ends R (fun n hn => ?_) (fun n hn => ?_) h2
      · obtain ⟨a, ha, rfl⟩ := List.mem_map.mp hn
        exact (key a ha).1
      · obtain ⟨a, ha, rfl⟩ := List.mem_map.mp hn
        exact (key a ha).2

theorem fileAll_no_diverge (R : OrderRounding rnd) (qs : List (Interp K d)) : ∀ b : Bin (Interp K d) K, (b.item.val = [] ∨ Ends b) →
    fileAll rnd qs b ≠ .error .diverge ∧ ∀ b', fileAll rnd qs b = .ok b' → b'.item.val = [] ∨ Ends b' := by
  classical
  induction qs with
  | nil => intro b h; simp only [fileAll]; exact ⟨by simp, fun b' e => by simp at e; rw [← e]; exact h⟩
  | cons q qs ih =>
    intro b h
    have h1 := addRange_no_diverge R h q (List.ofFn (minOf rnd q)) (List.ofFn (maxOf rnd q))
    have h2 : (addRange rnd b q (List.ofFn (minOf rnd q)) (List.ofFn (maxOf rnd q))).2.item.val = [] ∨
        Ends (addRange rnd b q (List.ofFn (minOf rnd q)) (List.ofFn (maxOf rnd q))).2 :=
      step_ends (rnd := rnd) h (.addRange q (List.ofFn (minOf rnd q)) (List.ofFn (maxOf rnd q)))
    simp only [fileAll]
    cases hr : addRange rnd b q (List.ofFn (minOf rnd q)) (List.ofFn (maxOf rnd q)) with
    | mk r b' =>
      rw [hr] at h1 h2
      cases r with
      | error e => exact ⟨by simp only [ne_eq, Except.error.injEq]; rintro rfl; exact h1 rfl, fun b' e => by simp at e⟩
      | ok _ => exact ih b' h2

theorem readCells_no_diverge (R : OrderRounding rnd) (E : ElemOps K d) {m : Mesh K d} (hm : BinsOk m) (cells : List (List Nat)) :
    readCells rnd E m cells ≠ .error .diverge ∧ ∀ m', readCells rnd E m cells = .ok m' → BinsOk m' := by
  simp only [readCells]
  cases h1 : makeCells rnd E m.node 0 cells with
  | error e =>
    exact ⟨by simp only [bind, Except.bind, ne_eq, Except.error.injEq]; rintro rfl; exact makeCells_no_diverge E _ _ _ h1,
      fun m' h => by simp [bind, Except.bind] at h⟩
  | ok new =>
    simp only [ok_bind]
    obtain ⟨g1, g2⟩ := fileAll_no_diverge R (m.interp ++ new) m.bin hm
    cases h2 : fileAll rnd (m.interp ++ new) m.bin with
    | error e =>
      exact ⟨by simp only [bind, Except.bind, ne_eq, Except.error.injEq]; rintro rfl; exact g1 h2,
        fun m' h => by simp [bind, Except.bind] at h⟩
    | ok bin =>
      simp only [ok_bind]
      exact ⟨by simp, fun m' h => by simp at h; rw [← h]; exact g2 bin h2⟩

theorem meshOps_tame (R : OrderRounding rnd) (E : ElemOps K d) : Tame (meshOps rnd E) BinsOk :=
  ⟨fun m pts _ => ⟨readPoints_no_diverge m pts, fun _ h => readPoints_bins R h⟩, fun _ cells hm => readCells_no_diverge R E hm cells⟩

end
end Verif.Fl
