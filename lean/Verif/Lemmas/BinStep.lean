import Verif.Lemmas.Bin

/-! One-step refinement of the bin to its specification. -/

namespace Verif
open Spec NDArray
namespace Bin
variable {T K : Type} [Field K] [LinearOrder K] [FloorRing K] [IsStrictOrderedRing K]

/-- State invariant of a bin over a given grid (lemma-side). -/
structure Inv (b : Bin T K) (min incr : List K) (N : List Int) : Prop where
  min_eq : b.min = min
  incr_eq : b.incr = incr
  max_eq : b.max = gridMax min incr N
  item_ok : Shaped b.item N
  idx_len : b.indices.length = N.length

variable {min incr : List K} {N : List Int}

omit [LinearOrder K] [FloorRing K] [IsStrictOrderedRing K] in
theorem mk'_eq (T : Type) (hl1 : min.length = N.length) (hl2 : incr.length = N.length) (hg : GoodDims N) :
    (mk' min incr N : Res (Bin T K)) = .ok ⟨⟨N, strides N, List.replicate (prod N).toNat [], N.length, prod N⟩,
      min, incr, N, gridMax min incr N, N⟩ := by
  have hm := maxLoop_of [] [] (ms := min) (ds := incr) (ns := N) rfl hl1 hl2
  simp only [List.nil_append, List.length_nil] at hm
  simp [mk', hm, NDArray.ofDim, resize_good _ _ hg, vresize, NDArray.empty]

theorem mk'_inv (hg : GoodGrid min incr N) {b : Bin T K} (h : mk' min incr N = .ok b) :
    Inv b min incr N ∧ ∀ k, cell b.item N k = [] := by
  rw [mk'_eq T hg.1 hg.2.1 hg.2.2.2] at h
  cases h
  have hp := prod_pos hg.2.2.2.2.1
  refine ⟨⟨rfl, rfl, rfl, ⟨rfl, rfl, rfl, rfl, by simp; omega⟩, rfl⟩, ?_⟩
  intro k
  simp only [cell, List.getElem?_replicate]
  split <;> rfl

theorem indicesOf_in (hg : GoodGrid min incr N) {b : Bin T K} (hi : Inv b min incr N) {c : List K}
    (hc : InGrid min incr N c) {term : List Int} (ht : term.length = N.length) :
    b.indicesOf c term = (.ok (), binOf min incr c) := by
  have := idxLoop_in (K := K) [] [] [] [] [] term rfl rfl rfl rfl ht hg.2.2.1 (goodDims_le hg.2.2.2) hc
  simp only [List.nil_append, List.length_nil] at this
  simp only [indicesOf, hi.min_eq, hi.max_eq, hi.incr_eq, hi.item_ok.order_eq, Int.toNat_natCast]
  exact this

theorem indicesOf_out (hg : GoodGrid min incr N) {b : Bin T K} (hi : Inv b min incr N) {c : List K}
    (hc : OutOfGrid min incr N c) {term : List Int} (ht : term.length = N.length) :
    ∃ w, b.indicesOf c term = (.error .domainError, w) ∧ w.length = N.length := by
  obtain ⟨_, i, m, d, n, x, h1, h2, h3, h4, h⟩ := hc
  obtain ⟨w, hw, hl⟩ := idxLoop_out (K := K) [] [] [] [] [] term rfl rfl rfl rfl ht hg.2.2.1 (goodDims_le hg.2.2.2)
    (outRec_of i h1 h2 h3 h4 h)
  simp only [List.nil_append, List.length_nil] at hw hl
  refine ⟨w, ?_, by omega⟩
  simp only [indicesOf, hi.min_eq, hi.max_eq, hi.incr_eq, hi.item_ok.order_eq, Int.toNat_natCast]
  exact hw

omit [FloorRing K] [IsStrictOrderedRing K] in
theorem inGrid_not_out {c : List K} (h : InGrid min incr N c) : ¬ OutOfGrid min incr N c := by
  rintro ⟨_, i, m, d, n, x, h1, h2, h3, h4, h5⟩
  exact inGrid_not_outRec h (outRec_of i h1 h2 h3 h4 h5)

theorem binOf_le (hd : ∀ d ∈ incr, 0 < d) {lo hi : List K} (h : LeAll lo hi)
    (j : Nat) {a b : Int} (ha : (binOf min incr lo)[j]? = some a) (hb : (binOf min incr hi)[j]? = some b) : a ≤ b := by
  induction j generalizing min incr lo hi with
  | zero =>
    cases min <;> cases incr <;> cases lo <;> cases hi <;> simp_all [binOf, LeAll]
    rw [← ha, ← hb]
    exact floor_idx_mono hd.1 h.1
  | succ j ih =>
    cases min with
    | nil => simp [binOf] at ha
    | cons m ms => cases incr with
      | nil => simp [binOf] at ha
      | cons d ds => cases lo with
        | nil => simp [binOf] at ha
        | cons l ls => cases hi with
          | nil => simp [binOf] at hb
          | cons h' hs =>
            simp only [LeAll] at h
            simp only [binOf, List.getElem?_cons_succ] at ha hb
            exact ih (fun x hx => hd x (by simp [hx])) h.2 ha hb

theorem hasItem_iff [DecidableEq T] (x : T) (l : List T) : hasItem x l = true ↔ x ∈ l := by
  induction l with
  | nil => simp [hasItem]
  | cons y ys ih =>
    simp only [hasItem]
    by_cases e : y = x
    · simp [e]
    · simp [e, ih, Ne.symm e, eq_comm]

/-- The model call for a specification request. -/
def toOp : BinReq T K → Op T K
  | .add x c => .add x c
  | .addOnce x c => .addOnce x c
  | .addRange x lo hi => .addRange x lo hi

theorem add_in (hg : GoodGrid min incr N) {b : Bin T K} (hi : Inv b min incr N) (x : T) {c : List K}
    (hc : InGrid min incr N c) :
    ∃ b', b.add x c = (.ok (), b') ∧ Inv b' min incr N ∧
      ∀ k, InBox N k → cell b'.item N k = if k = binOf min incr c then cell b.item N k ++ [x] else cell b.item N k := by
  have hk := inGrid_inBox hg.2.2.1 hc
  obtain ⟨it, hp, hs, hcell⟩ := push_of hi.item_ok hg.2.2.2 hk x
  refine ⟨{ b with indices := binOf min incr c, item := it }, ?_, ?_, hcell⟩
  · simp only [add, indicesOf_in hg hi hc hi.idx_len, hp]
  · exact ⟨hi.min_eq, hi.incr_eq, hi.max_eq, hs, inBox_length hk⟩

theorem add_out (hg : GoodGrid min incr N) {b : Bin T K} (hi : Inv b min incr N) (x : T) {c : List K}
    (hc : OutOfGrid min incr N c) :
    ∃ b', b.add x c = (.error .domainError, b') ∧ Inv b' min incr N ∧ b'.item = b.item := by
  obtain ⟨w, hw, hl⟩ := indicesOf_out hg hi hc hi.idx_len
  refine ⟨{ b with indices := w }, ?_, ?_, rfl⟩
  · simp only [add, hw]
  · exact ⟨hi.min_eq, hi.incr_eq, hi.max_eq, hi.item_ok, hl⟩

theorem addOnce_in [DecidableEq T] (hg : GoodGrid min incr N) {b : Bin T K} (hi : Inv b min incr N) (x : T) {c : List K}
    (hc : InGrid min incr N c) :
    ∃ b', b.addOnce x c = (.ok (), b') ∧ Inv b' min incr N ∧
      ∀ k, InBox N k → cell b'.item N k =
        if k = binOf min incr c ∧ x ∉ cell b.item N k then cell b.item N k ++ [x] else cell b.item N k := by
  have hk := inGrid_inBox hg.2.2.1 hc
  obtain ⟨it, hp, hs, hcell⟩ := push_of hi.item_ok hg.2.2.2 hk x
  have hget := get_cell hi.item_ok hg.2.2.2 hk
  by_cases hx : x ∈ cell b.item N (binOf min incr c)
  · refine ⟨{ b with indices := binOf min incr c }, ?_, ?_, ?_⟩
    · simp only [addOnce, indicesOf_in hg hi hc hi.idx_len, hget, (hasItem_iff _ _).mpr hx, if_true]
    · exact ⟨hi.min_eq, hi.incr_eq, hi.max_eq, hi.item_ok, inBox_length hk⟩
    · intro k _
      have : ¬ (k = binOf min incr c ∧ x ∉ cell b.item N k) := by rintro ⟨rfl, h⟩; exact h hx
      simp [this]
  · have hx' : hasItem x (cell b.item N (binOf min incr c)) = false := by
      rw [← Bool.not_eq_true, hasItem_iff]; exact hx
    refine ⟨{ b with indices := binOf min incr c, item := it }, ?_, ?_, ?_⟩
    · simp [addOnce, indicesOf_in hg hi hc hi.idx_len, hget, hx', hp]
    · exact ⟨hi.min_eq, hi.incr_eq, hi.max_eq, hs, inBox_length hk⟩
    · intro k hk'
      show cell it N k = _
      rw [hcell k hk']
      by_cases e : k = binOf min incr c
      · subst e; simp [hx]
      · simp [e]

theorem addOnce_out [DecidableEq T] (hg : GoodGrid min incr N) {b : Bin T K} (hi : Inv b min incr N) (x : T)
    {c : List K} (hc : OutOfGrid min incr N c) :
    ∃ b', b.addOnce x c = (.error .domainError, b') ∧ Inv b' min incr N ∧ b'.item = b.item := by
  obtain ⟨w, hw, hl⟩ := indicesOf_out hg hi hc hi.idx_len
  refine ⟨{ b with indices := w }, ?_, ?_, rfl⟩
  · simp only [addOnce, hw]
  · exact ⟨hi.min_eq, hi.incr_eq, hi.max_eq, hi.item_ok, hl⟩

theorem addRange_in (hg : GoodGrid min incr N) {b : Bin T K} (hi : Inv b min incr N) (x : T) {lo hi' : List K}
    (hlo : InGrid min incr N lo) (hhi : InGrid min incr N hi') (hle : LeAll lo hi') :
    ∃ b', b.addRange x lo hi' = (.ok (), b') ∧ Inv b' min incr N ∧
      ∀ k, InBox N k → cell b'.item N k =
        if Between (binOf min incr lo) (binOf min incr hi') k then cell b.item N k ++ [x] else cell b.item N k := by
  have hl := inGrid_inBox hg.2.2.1 hlo
  have hh := inGrid_inBox hg.2.2.1 hhi
  have hb := between_low hl hh fun j a b ha hb => binOf_le hg.2.2.1 hle j ha hb
  have hz : (List.replicate b.item.order.toNat (0 : Int)).length = N.length := by simp [hi.item_ok.order_eq]
  have hfuel : total (binOf min incr lo) (binOf min incr hi') - rank (binOf min incr lo) (binOf min incr hi')
      (binOf min incr lo) ≤ ((b.item.volume.toNat ^ b.item.order.toNat + 1 : Nat) : Int) := by
    have := total_le_prod hl hh hb hg.2.2.2.2.1
    have ho : b.item.order.toNat ≠ 0 := by
      rw [hi.item_ok.order_eq, Int.toNat_natCast]
      exact fun h => hg.2.2.2.1 (List.length_eq_zero_iff.mp h)
    have h2 := Nat.le_self_pow ho b.item.volume.toNat
    have h3 : b.item.volume.toNat = (prod N).toNat := by rw [hi.item_ok.vol_eq]
    rw [rank_low hb]; omega
  obtain ⟨it, idx, hr, hs, hlen, hcell⟩ := rangeLoop_of hg.2.2.2 hl hh x _ b.item _ hi.item_ok hb hfuel
  refine ⟨{ b with item := it, indices := idx }, ?_, ?_, ?_⟩
  · simp only [addRange, indicesOf_in hg hi hlo hz, indicesOf_in hg hi hhi hz, hr]
  · exact ⟨hi.min_eq, hi.incr_eq, hi.max_eq, hs, hlen⟩
  · intro k hk
    show cell it N k = _
    rw [hcell k hk, rank_low hb]
    by_cases e : Between (binOf min incr lo) (binOf min incr hi') k
    · simp [e, rank_nonneg e]
    · simp [e]

theorem addRange_out (hg : GoodGrid min incr N) {b : Bin T K} (hi : Inv b min incr N) (x : T) {lo hi' : List K}
    (h : OutOfGrid min incr N lo ∨ (InGrid min incr N lo ∧ OutOfGrid min incr N hi')) :
    b.addRange x lo hi' = (.error .domainError, b) := by
  have hz : (List.replicate b.item.order.toNat (0 : Int)).length = N.length := by simp [hi.item_ok.order_eq]
  rcases h with h | ⟨h1, h2⟩
  · obtain ⟨w, hw, _⟩ := indicesOf_out hg hi h hz
    simp only [addRange, hw]
  · obtain ⟨w, hw, _⟩ := indicesOf_out hg hi h2 hz
    simp only [addRange, indicesOf_in hg hi h1 hz, hw]

theorem contents_in (hg : GoodGrid min incr N) {b : Bin T K} (hi : Inv b min incr N) {c : List K}
    (hc : InGrid min incr N c) :
    ∃ b', b.contents c = (.ok (cell b.item N (binOf min incr c)), b') ∧ Inv b' min incr N ∧ b'.item = b.item := by
  have hk := inGrid_inBox hg.2.2.1 hc
  refine ⟨{ b with indices := binOf min incr c }, ?_, ?_, rfl⟩
  · simp only [contents, indicesOf_in hg hi hc hi.idx_len, get_cell hi.item_ok hg.2.2.2 hk]
  · exact ⟨hi.min_eq, hi.incr_eq, hi.max_eq, hi.item_ok, inBox_length hk⟩

theorem contents_out (hg : GoodGrid min incr N) {b : Bin T K} (hi : Inv b min incr N) {c : List K}
    (hc : OutOfGrid min incr N c) :
    ∃ b', b.contents c = (.error .domainError, b') ∧ Inv b' min incr N ∧ b'.item = b.item := by
  obtain ⟨w, hw, hl⟩ := indicesOf_out hg hi hc hi.idx_len
  refine ⟨{ b with indices := w }, ?_, ?_, rfl⟩
  · simp only [contents, hw]
  · exact ⟨hi.min_eq, hi.incr_eq, hi.max_eq, hi.item_ok, hl⟩

theorem step_spec [DecidableEq T] (hg : GoodGrid min incr N) {b : Bin T K} (hi : Inv b min incr N) (r : BinReq T K)
    (hr : ReqOk min incr N r) :
    Inv (b.step (toOp r)).2 min incr N ∧
    (∀ k, InBox N k → cell (b.step (toOp r)).2.item N k = binStep min incr N k (cell b.item N k) r) ∧
    ((b.step (toOp r)).1 = .ok () ∨ (b.step (toOp r)).1 = .error .domainError) := by
  cases r with
  | add x c =>
    rcases hr with h | h
    · obtain ⟨b', he, h1, h2⟩ := add_in hg hi x h
      simp only [toOp, step, he]
      refine ⟨h1, fun k hk => ?_, by simp⟩
      rw [h2 k hk]; simp [binStep, h, eq_comm]
    · obtain ⟨b', he, h1, h2⟩ := add_out hg hi x h
      simp only [toOp, step, he]
      refine ⟨h1, fun k hk => ?_, by simp⟩
      have : ¬ InGrid min incr N c := fun hh => inGrid_not_out hh h
      simp [binStep, this, h2]
  | addOnce x c =>
    rcases hr with h | h
    · obtain ⟨b', he, h1, h2⟩ := addOnce_in hg hi x h
      simp only [toOp, step, he]
      refine ⟨h1, fun k hk => ?_, by simp⟩
      rw [h2 k hk]; simp [binStep, h, eq_comm]
    · obtain ⟨b', he, h1, h2⟩ := addOnce_out hg hi x h
      simp only [toOp, step, he]
      refine ⟨h1, fun k hk => ?_, by simp⟩
      have : ¬ InGrid min incr N c := fun hh => inGrid_not_out hh h
      simp [binStep, this, h2]
  | addRange x lo hi' =>
    rcases hr with ⟨h1, h2, h3⟩ | h
    · obtain ⟨b', he, h4, h5⟩ := addRange_in hg hi x h1 h2 h3
      simp only [toOp, step, he]
      refine ⟨h4, fun k hk => ?_, by simp⟩
      rw [h5 k hk]; simp [binStep, h1, h2]
    · have he := addRange_out hg hi x h
      simp only [toOp, step, he]
      refine ⟨hi, fun k hk => ?_, by simp⟩
      have : ¬ (InGrid min incr N lo ∧ InGrid min incr N hi' ∧
          Between (binOf min incr lo) (binOf min incr hi') k) := by
        rintro ⟨h1, h2, _⟩
        rcases h with h | ⟨_, h⟩
        · exact inGrid_not_out h1 h
        · exact inGrid_not_out h2 h
      simp [binStep, this]

theorem run_spec [DecidableEq T] (hg : GoodGrid min incr N) (reqs : List (BinReq T K)) {b : Bin T K}
    (hi : Inv b min incr N) (hr : ∀ r ∈ reqs, ReqOk min incr N r) :
    Inv (b.run (reqs.map toOp)) min incr N ∧
    (∀ k, InBox N k → cell (b.run (reqs.map toOp)).item N k = reqs.foldl (binStep min incr N k) (cell b.item N k)) := by
  induction reqs generalizing b with
  | nil => exact ⟨hi, fun k _ => rfl⟩
  | cons r rs ih =>
    obtain ⟨h1, h2, _⟩ := step_spec hg hi r (hr r (by simp))
    have := ih h1 (fun r' hr' => hr r' (by simp [hr']))
    refine ⟨by simpa [run] using this.1, fun k hk => ?_⟩
    simp only [List.map_cons, run, List.foldl_cons]
    rw [this.2 k hk, h2 k hk]

theorem maxSizeLoop_spec {item : NDArray (List T)} (n i : Nat) (m : Int) (h : i + n = item.val.length) :
    ∃ M, maxSizeLoop item n i m = .ok M ∧ m ≤ M ∧
      (∀ j, i ≤ j → ∀ v, item.val[j]? = some v → (v.length : Int) ≤ M) ∧
      (M = m ∨ ∃ j v, i ≤ j ∧ item.val[j]? = some v ∧ (v.length : Int) = M) := by
  induction n generalizing i m with
  | zero =>
    refine ⟨m, rfl, le_refl _, ?_, Or.inl rfl⟩
    intro j hj v hv
    have := (List.getElem?_eq_some_iff.mp hv).1
    omega
  | succ n ih =>
    have hi : i < item.val.length := by omega
    have hv := vget_nat item.val i hi
    obtain ⟨M, h1, h2, h3, h4⟩ := ih (i + 1) (if m < item.val[i].length then item.val[i].length else m) (by omega)
    have hle : m ≤ (if m < (item.val[i].length : Int) then (item.val[i].length : Int) else m) ∧
        (item.val[i].length : Int) ≤ (if m < (item.val[i].length : Int) then (item.val[i].length : Int) else m) := by
      split <;> omega
    refine ⟨M, ?_, by omega, ?_, ?_⟩
    · simp only [maxSizeLoop, NDArray.getLin, hv, ok_bind]; exact h1
    · intro j hj v hvj
      rcases Nat.eq_or_lt_of_le hj with e | e
      · subst e
        rw [List.getElem?_eq_getElem hi] at hvj
        cases hvj; omega
      · exact h3 j e v hvj
    · rcases h4 with h4 | ⟨j, v, hj, hvj, hl⟩
      · split at h4
        · exact Or.inr ⟨i, item.val[i], le_refl _, List.getElem?_eq_getElem hi, h4.symm⟩
        · exact Or.inl h4
      · exact Or.inr ⟨j, v, by omega, hvj, hl⟩

end Bin
end Verif
