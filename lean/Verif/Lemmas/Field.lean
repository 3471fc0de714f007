import Verif.Lemmas.MeshBuild

/-! Helper lemmas: evaluating a field over a built mesh. -/

namespace Verif
open Spec Bin
namespace Mesh
variable {K : Type} {d n : Nat} [Field K] [LinearOrder K] [FloorRing K] [IsStrictOrderedRing K]
variable {E : ElemOps K d} {unit : Fin n → Fin d → K} {R : (a h c : Fin d → K) → Prop}
variable {pts : List (Fin d → K)} {cells : List (List Nat)} {lo hi : Fin d → K} {qs : List (Interp K d)} {m : Mesh K d}

/-- Interpolators in bin `k`. -/
def inBin (pts : List (Fin d → K)) (lo hi : Fin d → K) (qs : List (Interp K d)) (k : List Int) : List (Interp K d) :=
  qs.filter (touches (List.ofFn (gMin pts lo hi)) (List.ofFn (gIncr pts lo hi)) k)

/-- The bin of `c`. -/
def binAt (pts : List (Fin d → K)) (lo hi c : Fin d → K) : List Int :=
  binOf (List.ofFn (gMin pts lo hi)) (List.ofFn (gIncr pts lo hi)) (List.ofFn c)

/-- The buffers are large enough for every bin and hold valid node numbers. -/
structure BufOk (pts : List (Fin d → K)) (lo hi : Fin d → K) (qs : List (Interp K d)) (np : Nat) (b : Buf K) : Prop where
  bf : ∀ k, InBox (List.ofFn (gN pts)) k → (inBin pts lo hi qs k).length ≤ b.bf.length
  ni : ∀ k, InBox (List.ofFn (gN pts)) k → (inBin pts lo hi qs k).length ≤ b.ni.length
  idx : ∀ x ∈ b.ni, x < np

/-- The buffers after a call at `c` whose bin holds `l`. -/
def after (E : ElemOps K d) (wv : Interp K d → K) (c : Fin d → K) (l : List (Interp K d)) (b : Buf K) : Buf K :=
  match firstInRange E c l with
  | none => b
  | some q => ⟨l.map (wt wv q.element) ++ b.bf.drop l.length, l.map Interp.node ++ b.ni.drop l.length⟩

omit [FloorRing K] [LinearOrder K] [IsStrictOrderedRing K] in
theorem after_length (wv : Interp K d → K) (c : Fin d → K) (l : List (Interp K d)) (b : Buf K)
    (h1 : l.length ≤ b.bf.length) (h2 : l.length ≤ b.ni.length) :
    (after E wv c l b).bf.length = b.bf.length ∧ (after E wv c l b).ni.length = b.ni.length := by
  unfold after
  split
  · exact ⟨rfl, rfl⟩
  · simp; omega

omit [IsStrictOrderedRing K] in
theorem BufOk.after {np : Nat} {b : Buf K} (hb : BufOk pts lo hi qs np b) (hq : ∀ q ∈ qs, q.node < np)
    (wv : Interp K d → K) (c : Fin d → K) {k : List Int} (hk : InBox (List.ofFn (gN pts)) k) :
    BufOk pts lo hi qs np (Mesh.after E wv c (inBin pts lo hi qs k) b) := by
  have hl := after_length (E := E) wv c (inBin pts lo hi qs k) b (hb.bf k hk) (hb.ni k hk)
  refine ⟨fun k' hk' => by rw [hl.1]; exact hb.bf k' hk', fun k' hk' => by rw [hl.2]; exact hb.ni k' hk', ?_⟩
  unfold Mesh.after
  split
  · exact hb.idx
  · intro x hx
    simp only [List.mem_append, List.mem_map] at hx
    rcases hx with ⟨q, hq', rfl⟩ | hx
    · exact hq q (List.mem_of_mem_filter hq')
    · exact hb.idx x (List.mem_of_mem_drop hx)

theorem Built.inGrid (hb : Built E unit pts cells lo hi qs m) {c : Fin d → K} (hc : InBins pts c) :
    InGrid (List.ofFn (gMin pts lo hi)) (List.ofFn (gIncr pts lo hi)) (List.ofFn (gN pts)) (List.ofFn c) := by
  rw [inGrid_ofFn]
  intro i
  rw [grid_top i (hb.npos i)]
  exact (inBins_iff hb.grid c).mp hc i

theorem Built.inBox (hb : Built E unit pts cells lo hi qs m) {c : Fin d → K} (hc : InBins pts c) :
    InBox (List.ofFn (gN pts)) (binAt pts lo hi c) := inGrid_inBox hb.good.2.2.1 (hb.inGrid hc)

/-- The effect of `basis_functions` and its two sisters at any point of the binned region. -/
theorem fill_in (hb : Built E unit pts cells lo hi qs m) {np : Nat} {b : Buf K} (hbuf : BufOk pts lo hi qs np b)
    (wv : Interp K d → K) {c : Fin d → K} (hc : InBins pts c) :
    ∃ m', fill E (fun q => .ok (wv q)) m c b = (.ok (inBin pts lo hi qs (binAt pts lo hi c)).length, m',
        after E wv c (inBin pts lo hi qs (binAt pts lo hi c)) b) ∧ Built E unit pts cells lo hi qs m' ∧
        m'.bin.item = m.bin.item := by
  have hk := hb.inBox hc
  obtain ⟨b', e1, e2, e3⟩ := contents_in hb.good hb.inv (hb.inGrid hc)
  have hcont : cell m.bin.item (List.ofFn (gN pts)) (binOf (List.ofFn (gMin pts lo hi)) (List.ofFn (gIncr pts lo hi))
      (List.ofFn c)) = inBin pts lo hi qs (binAt pts lo hi c) := hb.cont _ hk
  rw [hcont] at e1
  refine ⟨{ m with bin := b' }, ?_, hb.withBin e2 e3, e3⟩
  unfold fill after
  rw [e1]
  simp only
  cases hf : firstInRange E c (inBin pts lo hi qs (binAt pts lo hi c)) with
  | none => rfl
  | some q =>
    simp only
    rw [fillLoop_of wv q.element _ 0 b (by have := hbuf.bf _ hk; omega) (by have := hbuf.ni _ hk; omega)]
    simp

/-- Outside the binned region the call throws and the buffers are untouched. -/
theorem fill_out (hb : Built E unit pts cells lo hi qs m) (w : Interp K d → Res K) (b : Buf K) {c : Fin d → K}
    (hc : OutOfBins pts c) :
    ∃ m', fill E w m c b = (.error .domainError, m', b) ∧ Built E unit pts cells lo hi qs m' ∧
      m'.bin.item = m.bin.item := by
  obtain ⟨i, lo', hi', h1, h2, h3⟩ := hc
  rw [isLow_unique h1 (hb.grid.low i), isHigh_unique h2 (hb.grid.high i)] at h3
  have hout : OutOfGrid (List.ofFn (gMin pts lo hi)) (List.ofFn (gIncr pts lo hi)) (List.ofFn (gN pts)) (List.ofFn c) := by
    apply outOfGrid_ofFn (i := i)
    rw [grid_top i (hb.npos i)]
    exact h3
  obtain ⟨b', e1, e2, e3⟩ := contents_out hb.good hb.inv hout
  refine ⟨{ m with bin := b' }, ?_, hb.withBin e2 e3, e3⟩
  unfold fill
  rw [e1]

omit [FloorRing K] [LinearOrder K] [IsStrictOrderedRing K] in
theorem sum_wt (wv : Interp K d → K) (D : Interp K d → K) (el : Nat) (l : List (Interp K d)) :
    (l.map fun q => wt wv el q * D q).sum = ((l.filter fun q => q.element = el).map fun q => wv q * D q).sum := by
  induction l with
  | nil => rfl
  | cons q qs ih =>
    rw [List.map_cons, List.sum_cons, ih, List.filter_cons]
    by_cases h : q.element = el <;> simp [wt, h]

omit [FloorRing K] [LinearOrder K] [IsStrictOrderedRing K] in
/-- The sum over the buffers after a call in which `q` was the first interpolator in range. -/
theorem sum_after (wv : Interp K d → K) {c : Fin d → K} {l : List (Interp K d)} {b : Buf K} {q : Interp K d}
    (hq : firstInRange E c l = some q) (data : List K) (z : K) (h1 : l.length ≤ b.bf.length) (h2 : l.length ≤ b.ni.length)
    (h3 : ∀ x ∈ b.ni, x < data.length) (h4 : ∀ q ∈ l, q.node < data.length) :
    PField.sumLoop data (after E wv c l b) l.length 0 z =
      .ok (z + ((l.filter fun p => p.element = q.element).map fun p => wv p * data.getD p.node 0).sum) := by
  rw [sumLoop_of]
  · congr 2
    rw [← sum_wt]
    simp only [after, hq, List.drop_zero]
    rw [List.take_append_of_le_length (by simp), List.take_append_of_le_length (by simp)]
    rw [List.take_of_length_le (by simp), List.take_of_length_le (by simp)]
    rw [List.zipWith_map_left, List.zipWith_map_right, List.zipWith_self]
  · have := (after_length (E := E) wv c l b h1 h2).1; omega
  · have := (after_length (E := E) wv c l b h1 h2).2; omega
  · intro x hx
    simp only [after, hq, List.mem_append, List.mem_map] at hx
    rcases hx with ⟨p, hp, rfl⟩ | hx
    · exact h4 p hp
    · exact h3 x (List.mem_of_mem_drop hx)

/-- The interpolators of a cell are all filed in the same bins. -/
theorem touches_cell (L : ElemLaw E unit R) {nd el : Nat} {a h : Fin d → K} (j : Fin n) (mn ic : List K) (k : List Int) :
    touches mn ic k (E.make nd el (cornerPos a h (unit j)) h j) =
      decide (Between (binOf mn ic (List.ofFn a)) (binOf mn ic (List.ofFn fun i => a i + h i)) k) := by
  rw [touches, L.min_eq, L.max_eq]

theorem Built.filter_el (L : ElemLaw E unit R) (hb : Built E unit pts cells lo hi qs m) {e : Nat} {cell : List Nat}
    {a h : Fin d → K} (he : cells[e]? = some cell) (hc : CellAt unit pts cell a h) (k : List Int) :
    (inBin pts lo hi qs k).filter (fun q => q.element = e) =
      if Between (binOf (List.ofFn (gMin pts lo hi)) (List.ofFn (gIncr pts lo hi)) (List.ofFn a))
        (binOf (List.ofFn (gMin pts lo hi)) (List.ofFn (gIncr pts lo hi)) (List.ofFn fun i => a i + h i)) k
      then cellInterps E unit e cell a h else [] := by
  obtain ⟨a', h', hc', hf⟩ := hb.ints.filt e cell he
  obtain ⟨rfl, rfl⟩ := cellAt_unique L hc hc'
  rw [Nat.zero_add] at hf
  rw [inBin, List.filter_filter]
  have : (fun q : Interp K d => decide (q.element = e) && touches (List.ofFn (gMin pts lo hi))
      (List.ofFn (gIncr pts lo hi)) k q) = fun q => touches (List.ofFn (gMin pts lo hi))
      (List.ofFn (gIncr pts lo hi)) k q && decide (q.element = e) := by
    funext q; rw [Bool.and_comm]
  rw [this, ← List.filter_filter, hf]
  split
  · next hbt =>
    rw [List.filter_eq_self]
    intro q hq
    simp only [cellInterps, List.mem_ofFn] at hq
    obtain ⟨j, rfl⟩ := hq
    rw [touches_cell L]; simpa using hbt
  · next hbt =>
    rw [List.filter_eq_nil_iff]
    intro q hq
    simp only [cellInterps, List.mem_ofFn] at hq
    obtain ⟨j, rfl⟩ := hq
    rw [touches_cell L]; simpa using hbt

/-- If a cell contains `c`, the bin of `c` is between the bins of the cell's corners. -/
theorem Built.between_of_inCell (hb : Built E unit pts cells lo hi qs m) {a h c : Fin d → K} (hc : InCell a h c) :
    Between (binOf (List.ofFn (gMin pts lo hi)) (List.ofFn (gIncr pts lo hi)) (List.ofFn a))
      (binOf (List.ofFn (gMin pts lo hi)) (List.ofFn (gIncr pts lo hi)) (List.ofFn fun i => a i + h i))
      (binAt pts lo hi c) := by
  rw [binAt, binOf_ofFn, binOf_ofFn, binOf_ofFn, between_ofFn]
  intro i
  have hp := hb.incr_pos i
  exact ⟨floor_idx_mono hp (hc i).1, floor_idx_mono hp (hc i).2⟩

theorem Built.inBins_of_inCell (L : ElemLaw E unit R) (hb : Built E unit pts cells lo hi qs m) {cell : List Nat}
    {a h c : Fin d → K} (hce : CellAt unit pts cell a h) (hc : InCell a h c) : InBins pts c := by
  rw [inBins_iff hb.grid]
  intro i
  obtain ⟨m1, m2⟩ := cellAt_mem L hce
  have h1 := (hb.grid.low i).2 _ m1
  have h2 := (hb.grid.high i).2 _ m2
  have h3 := hc i
  have hp := hb.incr_pos i
  have e : gMin pts lo hi i = lo i - gIncr pts lo hi i := rfl
  rw [e]
  constructor <;> linarith [h3.1, h3.2]

theorem Built.inBins_of_covered (L : ElemLaw E unit R) (hb : Built E unit pts cells lo hi qs m)
    {c : Fin d → K} (hc : Covered unit pts cells c) : InBins pts c := by
  obtain ⟨cell, _, a, h, h1, h2⟩ := hc
  exact hb.inBins_of_inCell L h1 h2

omit [FloorRing K] [IsStrictOrderedRing K] in
theorem cellAt_node_lt {pts : List (Fin d → K)} {cell : List Nat} {a h : Fin d → K} (hc : CellAt unit pts cell a h)
    (j : Fin n) : cell.getD j 0 < pts.length := by
  obtain ⟨p, h1, h2⟩ := hc.2.2 j
  have := (List.getElem?_eq_some_iff.mp h2).1
  simpa [h1] using this

theorem Built.node_lt (L : ElemLaw E unit R) (hb : Built E unit pts cells lo hi qs m) :
    ∀ q ∈ qs, q.node < pts.length := by
  intro q hq
  obtain ⟨e, cell, a, h, he, hce, j, hj⟩ := hb.ints.mem q hq
  rw [hj, L.node]
  exact cellAt_node_lt hce j

omit [FloorRing K] [Field K] [LinearOrder K] [IsStrictOrderedRing K] in
/-- In a list sorted by element, the interpolator found first belongs to the first element with an interpolator in range. -/
theorem firstInRange_least {c : Fin d → K} {l : List (Interp K d)} (hs : l.Pairwise fun q q' => q.element ≤ q'.element) {q : Interp K d}
    (h : firstInRange E c l = some q) : ∀ p ∈ l, E.inRange p c = true → q.element ≤ p.element := by
  induction l with
  | nil => simp
  | cons x xs ih =>
    obtain ⟨s1, s2⟩ := List.pairwise_cons.mp hs
    simp only [firstInRange] at h
    split at h
    · cases h
      intro p hp _
      rcases List.mem_cons.mp hp with rfl | e
      · exact le_refl _
      · exact s1 p e
    · next hx =>
      intro p hp hr
      rcases List.mem_cons.mp hp with rfl | e
      · exact absurd hr hx
      · exact ih s2 h p e hr

/-- Every cell that is filed in the bin of `c` and whose range tests accept `c` has an interpolator in the bin of `c` whose range test accepts `c`. -/
theorem Built.has_inRange (L : ElemLaw E unit R) (hb : Built E unit pts cells lo hi qs m) {c : Fin d → K} {e : Nat} {cell : List Nat}
    {a h : Fin d → K} (he : cells[e]? = some cell) (hce : CellAt unit pts cell a h) (hic : R a h c)
    (hbt : Between (binOf (List.ofFn (gMin pts lo hi)) (List.ofFn (gIncr pts lo hi)) (List.ofFn a))
        (binOf (List.ofFn (gMin pts lo hi)) (List.ofFn (gIncr pts lo hi)) (List.ofFn fun i => a i + h i)) (binAt pts lo hi c)) :
    ∃ p ∈ inBin pts lo hi qs (binAt pts lo hi c), E.inRange p c = true ∧ p.element = e := by
  have hfil := hb.filter_el L he hce (binAt pts lo hi c)
  rw [if_pos hbt] at hfil
  obtain ⟨j, hj⟩ := L.range_all a h c hce.2.1 hic
  refine ⟨E.make (cell.getD j 0) e (cornerPos a h (unit j)) h j, ?_, hj _ _, L.element _ _ _ _ _⟩
  apply List.mem_of_mem_filter (p := fun q => decide (q.element = e))
  rw [hfil]
  exact List.mem_ofFn.mpr ⟨j, rfl⟩

/-- No cell listed before number `e` is filed in the bin of the point and accepts the point. -/
def NoneBefore (R : (a h c : Fin d → K) → Prop) (lo hi : Fin d → K) (unit : Fin n → Fin d → K) (pts : List (Fin d → K)) (cells : List (List Nat))
    (c : Fin d → K) (e : Nat) : Prop :=
  ∀ (e' : Nat) cell a h, cells[e']? = some cell → CellAt unit pts cell a h → R a h c →
    Between (binOf (List.ofFn (gMin pts lo hi)) (List.ofFn (gIncr pts lo hi)) (List.ofFn a))
      (binOf (List.ofFn (gMin pts lo hi)) (List.ofFn (gIncr pts lo hi)) (List.ofFn fun i => a i + h i)) (binAt pts lo hi c) → e ≤ e'

/-- The interpolator found first belongs to the first cell that is filed in the bin of the point and accepts the point. -/
theorem Built.none_before (L : ElemLaw E unit R) (hb : Built E unit pts cells lo hi qs m) {c : Fin d → K} {q : Interp K d}
    (hq : firstInRange E c (inBin pts lo hi qs (binAt pts lo hi c)) = some q) : NoneBefore R lo hi unit pts cells c q.element := by
  intro e' cell a h he hce hic hbt
  obtain ⟨p, h1, h2, h3⟩ := hb.has_inRange L he hce hic hbt
  rw [← h3]
  exact firstInRange_least (List.Pairwise.filter _ hb.ints.sorted) hq p h1 h2

/-- When some cell contains `c`, the interpolator found first belongs to a cell whose range tests accept `c`. -/
theorem Built.found (L : ElemLaw E unit R) (hb : Built E unit pts cells lo hi qs m) {c : Fin d → K}
    (hc : Covered unit pts cells c) :
    ∃ q e cell a h, firstInRange E c (inBin pts lo hi qs (binAt pts lo hi c)) = some q ∧ q.element = e ∧
      cells[e]? = some cell ∧ CellAt unit pts cell a h ∧ R a h c ∧
      Between (binOf (List.ofFn (gMin pts lo hi)) (List.ofFn (gIncr pts lo hi)) (List.ofFn a))
        (binOf (List.ofFn (gMin pts lo hi)) (List.ofFn (gIncr pts lo hi)) (List.ofFn fun i => a i + h i))
        (binAt pts lo hi c) ∧
      (inBin pts lo hi qs (binAt pts lo hi c)).filter (fun p => p.element = q.element) =
        cellInterps E unit e cell a h := by
  cases hf : firstInRange E c (inBin pts lo hi qs (binAt pts lo hi c)) with
  | none =>
    exfalso
    obtain ⟨cell, hcell, a, h, hce, hic⟩ := hc
    obtain ⟨e, hlt, he⟩ := List.mem_iff_getElem.mp hcell
    have he' : cells[e]? = some cell := by rw [List.getElem?_eq_getElem hlt, he]
    have hfil := hb.filter_el L he' hce (binAt pts lo hi c)
    rw [if_pos (hb.between_of_inCell hic)] at hfil
    obtain ⟨j, hj⟩ := L.range_cov a h c hce.2.1 hic
    have hmem : E.make (cell.getD j 0) e (cornerPos a h (unit j)) h j ∈ inBin pts lo hi qs (binAt pts lo hi c) := by
      apply List.mem_of_mem_filter (p := fun q => decide (q.element = e))
      rw [hfil]
      exact List.mem_ofFn.mpr ⟨j, rfl⟩
    have := firstInRange_none hf _ hmem
    rw [hj] at this
    simp at this
  | some q =>
    obtain ⟨h1, h2⟩ := firstInRange_some hf
    have hq : q ∈ qs := List.mem_of_mem_filter h1
    obtain ⟨e, cell, a, h, he, hce, j, hj⟩ := hb.ints.mem q hq
    rw [Nat.zero_add] at hj
    have hel : q.element = e := by rw [hj, L.element]
    have hbt : Between (binOf (List.ofFn (gMin pts lo hi)) (List.ofFn (gIncr pts lo hi)) (List.ofFn a))
        (binOf (List.ofFn (gMin pts lo hi)) (List.ofFn (gIncr pts lo hi)) (List.ofFn fun i => a i + h i))
        (binAt pts lo hi c) := by
      have := List.of_mem_filter h1
      rw [hj, touches_cell L] at this
      simpa using this
    refine ⟨q, e, cell, a, h, rfl, hel, he, hce, ?_, hbt, ?_⟩
    · exact L.range_sub _ _ _ _ _ _ hce.2.1 (hj ▸ h2)
    · rw [hel, hb.filter_el L he hce, if_pos hbt]

/-- Filling and summing at a point of the body: a sum over the corners of one cell accepting the point. The cell depends on the
mesh and the point only. -/
theorem Built.eval_covered (L : ElemLaw E unit R) (hb0 : Built E unit pts cells lo hi qs m)
    {c : Fin d → K} (hc : Covered unit pts cells c) :
    ∃ e cell a h, cells[e]? = some cell ∧ CellAt unit pts cell a h ∧ R a h c ∧
      (Between (binOf (List.ofFn (gMin pts lo hi)) (List.ofFn (gIncr pts lo hi)) (List.ofFn a))
        (binOf (List.ofFn (gMin pts lo hi)) (List.ofFn (gIncr pts lo hi)) (List.ofFn fun i => a i + h i))
        (binAt pts lo hi c) ∧ NoneBefore R lo hi unit pts cells c e) ∧
      ∀ (data : List K), data.length = pts.length → CornerVals data cell (fun j : Fin n => data.getD (cell.getD j 0) 0) ∧
      ∀ (m : Mesh K d) (b : Buf K), Built E unit pts cells lo hi qs m → BufOk pts lo hi qs pts.length b →
      ∀ (wv : Interp K d → K) (z : K), ∃ s m' b',
      fill E (fun q => .ok (wv q)) m c b = (.ok s, m', b') ∧ Built E unit pts cells lo hi qs m' ∧
      m'.bin.item = m.bin.item ∧ BufOk pts lo hi qs pts.length b' ∧
      PField.sumLoop data b' s 0 z =
        .ok (z + ∑ j : Fin n, wv (E.make (cell.getD j 0) e (cornerPos a h (unit j)) h j) * data.getD (cell.getD j 0) 0) := by
  have hin := hb0.inBins_of_covered L hc
  have hk := hb0.inBox hin
  obtain ⟨q, e, cell, a, h, g1, g2, g3, g4, g5, g6, g7⟩ := hb0.found L hc
  refine ⟨e, cell, a, h, g3, g4, g5, ⟨g6, g2 ▸ hb0.none_before L g1⟩, fun data hdat => ⟨?_, ?_⟩⟩
  · intro j
    obtain ⟨p, h1, h2⟩ := g4.2.2 j
    have hlt := (List.getElem?_eq_some_iff.mp h2).1
    refine ⟨p, h1, ?_⟩
    rw [← hdat] at hlt
    simp [h1, hlt]
  · intro m b hb hbuf wv z
    have hnode := hb.node_lt L
    obtain ⟨m', f1, f2, f3⟩ := fill_in hb hbuf wv hin
    refine ⟨_, m', _, f1, f2, f3, hbuf.after hnode wv c hk, ?_⟩
    rw [sum_after wv g1 data z (hbuf.bf _ hk) (hbuf.ni _ hk) (by rw [hdat]; exact hbuf.idx)
      (by rw [hdat]; intro p hp; exact hnode p (List.mem_of_mem_filter hp)), g7]
    congr 2
    rw [cellInterps, List.map_ofFn, List.sum_ofFn]
    apply Finset.sum_congr rfl
    intro j _
    simp [L.node]

/-- Filling and summing is safe everywhere in the binned region. -/
theorem Built.eval_inBins (L : ElemLaw E unit R) (hb : Built E unit pts cells lo hi qs m) {data : List K}
    (hdat : data.length = pts.length) {b : Buf K} (hbuf : BufOk pts lo hi qs pts.length b) (wv : Interp K d → K)
    {c : Fin d → K} (hc : InBins pts c) (z : K) :
    ∃ s m' b' v, fill E (fun q => .ok (wv q)) m c b = (.ok s, m', b') ∧ Built E unit pts cells lo hi qs m' ∧
      m'.bin.item = m.bin.item ∧ BufOk pts lo hi qs pts.length b' ∧ PField.sumLoop data b' s 0 z = .ok v := by
  have hk := hb.inBox hc
  obtain ⟨m', f1, f2, f3⟩ := fill_in hb hbuf wv hc
  have hok := hbuf.after (E := E) (hb.node_lt L) wv c hk
  have hs := sumLoop_of data (after E wv c (inBin pts lo hi qs (binAt pts lo hi c)) b)
    (inBin pts lo hi qs (binAt pts lo hi c)).length 0 z (by have := hok.bf _ hk; omega) (by have := hok.ni _ hk; omega)
    (by rw [hdat]; exact hok.idx)
  exact ⟨_, m', _, _, f1, f2, f3, hok, hs⟩

end Mesh

/-! ### Fields and histories -/

namespace PField
open Mesh
variable {K : Type} {d n : Nat} [Field K] [LinearOrder K] [FloorRing K] [IsStrictOrderedRing K]
variable {E : ElemOps K d} {unit : Fin n → Fin d → K} {R : (a h c : Fin d → K) → Prop}
variable {pts : List (Fin d → K)} {cells : List (List Nat)} {lo hi : Fin d → K} {qs : List (Interp K d)} {m : Mesh K d}

/-- The members of the interpolators return for every component (lemma-side). -/
structure ElemTotal (E : ElemOps K d) : Prop where
  value : ∀ c, ∃ g : Interp K d → K, (fun q => E.value q c) = fun q => .ok (g q)
  grad : ∀ c (di : Fin d), ∃ g : Interp K d → K, (fun q => E.grad q c di) = fun q => .ok (g q)
  hess : ∀ c (di dj : Fin d), ∃ g : Interp K d → K, (fun q => E.hess q c di dj) = fun q => .ok (g q)

/-- Invariant of a field over a built mesh. -/
structure FOk (pts : List (Fin d → K)) (lo hi : Fin d → K) (qs : List (Interp K d)) (f : PField K) : Prop where
  data_len : f.data.length = pts.length
  grad_len : f.grad.length = d
  hess_len : f.hess.length = d
  row_len : ∀ r ∈ f.hess, r.length = d
  buf : BufOk pts lo hi qs pts.length f.buf

/-- What a call leaves alone. -/
structure Same (f f' : PField K) : Prop where
  name : f'.name = f.name
  data : f'.data = f.data
  zero : f'.zero = f.zero

omit [Field K] [LinearOrder K] [FloorRing K] [IsStrictOrderedRing K] in
theorem Same.refl (f : PField K) : Same f f := ⟨rfl, rfl, rfl⟩

omit [Field K] [LinearOrder K] [FloorRing K] [IsStrictOrderedRing K] in
theorem Same.trans {f g h : PField K} (a : Same f g) (b : Same g h) : Same f h :=
  ⟨b.name.trans a.name, b.data.trans a.data, b.zero.trans a.zero⟩

/-- The state of mesh and field after a call, in summary. -/
def StOk (E : ElemOps K d) (unit : Fin n → Fin d → K) (pts : List (Fin d → K)) (cells : List (List Nat)) (lo hi : Fin d → K)
    (qs : List (Interp K d)) (f : PField K) (m : Mesh K d) (m' : Mesh K d) (f' : PField K) : Prop :=
  Built E unit pts cells lo hi qs m' ∧ m'.bin.item = m.bin.item ∧ FOk pts lo hi qs f' ∧ Same f f'

theorem make_ok (hb : Built E unit pts cells lo hi qs m) (hne : pts ≠ []) (name : String) {data : List K} (z : K)
    (hd : data.length = pts.length) :
    ∃ f, make m name data z = .ok f ∧ FOk pts lo hi qs f ∧ f.name = name ∧ f.data = data ∧ f.zero = z ∧ f.val = none := by
  have hi' := hb.inv
  have hp := prod_pos hb.good.2.2.2.2.1
  have hlen := hi'.item_ok.len_eq
  obtain ⟨M, h1, h2, h3, _⟩ := maxSizeLoop_spec (item := m.bin.item) m.bin.item.volume.toNat 0 0
    (by rw [hi'.item_ok.vol_eq]; omega)
  have hall : ∀ k, InBox (List.ofFn (gN pts)) k → (inBin pts lo hi qs k).length ≤ M.toNat := by
    intro k hk
    have hc := hb.cont k hk
    have d0 := dot_nonneg hb.good.2.2.2.2.1 hk
    have d1 := dot_lt hb.good.2.2.2.2.1 hk
    have hlt : (dot (List.ofFn (gN pts)) k).toNat < m.bin.item.val.length := by omega
    have := h3 _ (Nat.zero_le _) _ (List.getElem?_eq_getElem hlt)
    have e : inBin pts lo hi qs k = m.bin.item.val[(dot (List.ofFn (gN pts)) k).toNat] := by
      rw [inBin, ← hc]; simp [cell, List.getElem?_eq_getElem hlt]
    rw [e]; omega
  have hmax : m.bin.maxSize = .ok M := h1
  refine ⟨_, by rw [make, hmax]; rfl, ⟨hd, by simp, by simp, ?_, ⟨?_, ?_, ?_⟩⟩, rfl, rfl, rfl, rfl⟩
  · intro r hr
    rw [(List.mem_replicate.mp hr).2]; simp
  · intro k hk; simpa using hall k hk
  · intro k hk; simpa using hall k hk
  · intro x hx
    rw [(List.mem_replicate.mp hx).2]
    exact List.length_pos_iff.mpr hne

theorem value_in (L : ElemLaw E unit R) (T : ElemTotal E) (hb : Built E unit pts cells lo hi qs m) {f : PField K}
    (hf : FOk pts lo hi qs f) {c : Fin d → K} (hc : InBins pts c) :
    ∃ v m' f', value E m f c = (.ok v, m', f') ∧ StOk E unit pts cells lo hi qs f m m' f' ∧ f'.val = some v ∧
      f'.grad = f.grad ∧ f'.hess = f.hess := by
  obtain ⟨g, hg⟩ := T.value c
  obtain ⟨s, m', b', v, h1, h2, h3, h4, h5⟩ := hb.eval_inBins L hf.data_len hf.buf g hc f.zero
  refine ⟨v, m', { f with buf := b', val := some v }, ?_, ⟨h2, h3, ⟨hf.1, hf.2, hf.3, hf.4, h4⟩, rfl, rfl, rfl⟩, rfl, rfl, rfl⟩
  simp only [value, basisFunctions, hg, h1, h5]

theorem gradAt_in (L : ElemLaw E unit R) (T : ElemTotal E) (hb : Built E unit pts cells lo hi qs m) {f : PField K}
    (hf : FOk pts lo hi qs f) {c : Fin d → K} (hc : InBins pts c) (di : Fin d) :
    ∃ v m' f', gradAt E m f c di = (.ok v, m', f') ∧ StOk E unit pts cells lo hi qs f m m' f' ∧ f'.val = f.val ∧
      f'.grad = f.grad.set di v ∧ f'.hess = f.hess := by
  obtain ⟨g, hg⟩ := T.grad c di
  obtain ⟨s, m', b', v, h1, h2, h3, h4, h5⟩ := hb.eval_inBins L hf.data_len hf.buf g hc f.zero
  have hs := vset_nat f.grad di v (by rw [hf.grad_len]; exact di.isLt)
  refine ⟨v, m', { f with buf := b', grad := f.grad.set di v }, ?_,
    ⟨h2, h3, ⟨hf.1, by simpa using hf.2, hf.3, hf.4, h4⟩, rfl, rfl, rfl⟩, rfl, rfl, rfl⟩
  simp only [gradAt, gradBasisFunctions, hg, h1, h5, hs]

theorem hessAt_in (L : ElemLaw E unit R) (T : ElemTotal E) (hb : Built E unit pts cells lo hi qs m) {f : PField K}
    (hf : FOk pts lo hi qs f) {c : Fin d → K} (hc : InBins pts c) (di dj : Fin d) :
    ∃ v m' f', hessAt E m f c di dj = (.ok v, m', f') ∧ StOk E unit pts cells lo hi qs f m m' f' ∧ f'.val = f.val ∧
      f'.grad = f.grad ∧ f'.hess = f.hess.set di ((f.hess.getD di []).set dj v) := by
  obtain ⟨g, hg⟩ := T.hess c di dj
  obtain ⟨s, m', b', v, h1, h2, h3, h4, h5⟩ := hb.eval_inBins L hf.data_len hf.buf g hc f.zero
  have hlt : (di : Nat) < f.hess.length := by rw [hf.hess_len]; exact di.isLt
  have hr := vget_nat f.hess di hlt
  have hrl : f.hess[(di : Nat)].length = d := hf.row_len _ (List.getElem_mem _)
  have hs := vset_nat f.hess[(di : Nat)] dj v (by rw [hrl]; exact dj.isLt)
  have hs2 := vset_nat f.hess di (f.hess[(di : Nat)].set dj v) hlt
  have e : f.hess.getD di [] = f.hess[(di : Nat)] := by simp [hlt]
  refine ⟨v, m', { f with buf := b', hess := f.hess.set di (f.hess[(di : Nat)].set dj v) }, ?_,
    ⟨h2, h3, ⟨hf.1, hf.2, by simpa using hf.3, ?_, h4⟩, rfl, rfl, rfl⟩, rfl, rfl, by rw [e]⟩
  · simp only [hessAt, hessBasisFunctions, hg, h1, h5, hr, hs, hs2, ok_bind]
  · intro r hr'
    rcases List.mem_or_eq_of_mem_set hr' with h | h
    · exact hf.row_len r h
    · rw [h]; simp [hrl]

theorem fill_out' (hb : Built E unit pts cells lo hi qs m) {f : PField K} (hf : FOk pts lo hi qs f) {c : Fin d → K}
    (hc : OutOfBins pts c) :
    (∃ m', value E m f c = (.error .domainError, m', f) ∧ StOk E unit pts cells lo hi qs f m m' f) ∧
    (∀ di, ∃ m', gradAt E m f c di = (.error .domainError, m', f) ∧ StOk E unit pts cells lo hi qs f m m' f) ∧
    (∀ di dj, ∃ m', hessAt E m f c di dj = (.error .domainError, m', f) ∧ StOk E unit pts cells lo hi qs f m m' f) := by
  refine ⟨?_, fun di => ?_, fun di dj => ?_⟩
  · obtain ⟨m', h1, h2, h3⟩ := fill_out hb (fun q => E.value q c) f.buf hc
    exact ⟨m', by simp only [value, basisFunctions, h1], h2, h3, hf, Same.refl f⟩
  · obtain ⟨m', h1, h2, h3⟩ := fill_out hb (fun q => E.grad q c di) f.buf hc
    exact ⟨m', by simp only [gradAt, gradBasisFunctions, h1], h2, h3, hf, Same.refl f⟩
  · obtain ⟨m', h1, h2, h3⟩ := fill_out hb (fun q => E.hess q c di dj) f.buf hc
    exact ⟨m', by simp only [hessAt, hessBasisFunctions, h1], h2, h3, hf, Same.refl f⟩

theorem StOk.trans {f f' f'' : PField K} {m' m'' : Mesh K d} (h1 : StOk E unit pts cells lo hi qs f m m' f')
    (h2 : StOk E unit pts cells lo hi qs f' m' m'' f'') : StOk E unit pts cells lo hi qs f m m'' f'' :=
  ⟨h2.1, h2.2.1.trans h1.2.1, h2.2.2.1, h1.2.2.2.trans h2.2.2.2⟩

theorem evalGradLoop_in (L : ElemLaw E unit R) (T : ElemTotal E) {c : Fin d → K} (hc : InBins pts c) (ds : List Nat)
    (hds : ∀ x ∈ ds, x < d) {m : Mesh K d} (hb : Built E unit pts cells lo hi qs m) {f : PField K}
    (hf : FOk pts lo hi qs f) :
    ∃ m' f', evalGradLoop E c ds m f = (.ok (), m', f') ∧ StOk E unit pts cells lo hi qs f m m' f' ∧ f'.val = f.val ∧
      f'.hess = f.hess := by
  induction ds generalizing m f with
  | nil => exact ⟨m, f, rfl, ⟨hb, rfl, hf, Same.refl f⟩, rfl, rfl⟩
  | cons x xs ih =>
    obtain ⟨v, m1, f1, h1, h2, h3, _, h5⟩ := gradAt_in L T hb hf hc ⟨x, hds x (by simp)⟩
    obtain ⟨m2, f2, g1, g2, g3, g4⟩ := ih (fun y hy => hds y (by simp [hy])) h2.1 h2.2.2.1
    refine ⟨m2, f2, ?_, h2.trans g2, g3.trans h3, g4.trans h5⟩
    have h1' : gradAt E m f c x = (.ok v, m1, f1) := h1
    simp only [evalGradLoop, h1', g1]

theorem evalHessLoop_in (L : ElemLaw E unit R) (T : ElemTotal E) {c : Fin d → K} (hc : InBins pts c) (ds : List (Nat × Nat))
    (hds : ∀ x ∈ ds, x.1 < d ∧ x.2 < d) {m : Mesh K d} (hb : Built E unit pts cells lo hi qs m) {f : PField K}
    (hf : FOk pts lo hi qs f) :
    ∃ m' f', evalHessLoop E c ds m f = (.ok (), m', f') ∧ StOk E unit pts cells lo hi qs f m m' f' ∧ f'.val = f.val ∧
      f'.grad = f.grad := by
  induction ds generalizing m f with
  | nil => exact ⟨m, f, rfl, ⟨hb, rfl, hf, Same.refl f⟩, rfl, rfl⟩
  | cons x xs ih =>
    have hx := hds x (by simp)
    obtain ⟨v, m1, f1, h1, h2, h3, h4, _⟩ := hessAt_in L T hb hf hc ⟨x.1, hx.1⟩ ⟨x.2, hx.2⟩
    obtain ⟨m2, f2, g1, g2, g3, g4⟩ := ih (fun y hy => hds y (by simp [hy])) h2.1 h2.2.2.1
    refine ⟨m2, f2, ?_, h2.trans g2, g3.trans h3, g4.trans h4⟩
    have h1' : hessAt E m f c x.1 x.2 = (.ok v, m1, f1) := h1
    simp only [evalHessLoop, h1', g1]

theorem range_lt (d : Nat) : ∀ x ∈ List.range d, x < d := fun x hx => List.mem_range.mp hx

theorem pairs_lt (d : Nat) :
    ∀ x ∈ (List.range d).flatMap (fun i => (List.range d).map fun j => (i, j)), x.1 < d ∧ x.2 < d := by
  intro x hx
  simp only [List.mem_flatMap, List.mem_map, List.mem_range] at hx
  obtain ⟨i, hi, j, hj, rfl⟩ := hx
  exact ⟨hi, hj⟩

end PField

namespace Body
open Mesh PField
variable {K : Type} {d n : Nat} [Field K] [LinearOrder K] [FloorRing K] [IsStrictOrderedRing K]
variable {E : ElemOps K d} {unit : Fin n → Fin d → K} {R : (a h c : Fin d → K) → Prop}
variable {pts : List (Fin d → K)} {cells : List (List Nat)} {lo hi : Fin d → K} {qs : List (Interp K d)} {m : Mesh K d}

/-- The coordinate of a call. -/
def Call.coord : Call K d → Fin d → K
  | .value c => c
  | .grad c _ => c
  | .hess c _ _ => c
  | .evalGrad c => c
  | .evalHess c => c

theorem callField_ok (L : ElemLaw E unit R) (T : ElemTotal E) (hb : Built E unit pts cells lo hi qs m) {f : PField K}
    (hf : FOk pts lo hi qs f) (op : Call K d) (hc : InBins pts op.coord ∨ OutOfBins pts op.coord) :
    ∃ r m' f', callField E m f op = (r, m', f') ∧ StOk E unit pts cells lo hi qs f m m' f' ∧
      (InBins pts op.coord → r = .ok ()) ∧ (OutOfBins pts op.coord → r = .error .domainError ∧ f' = f) := by
  have excl : ∀ c, InBins pts c → ¬ OutOfBins pts c := by
    rintro c h ⟨i, lo', hi', h1, h2, h3⟩
    have := h i lo' hi' h1 h2
    rcases h3 with h3 | h3
    · exact absurd this.1 (not_le.mpr h3)
    · exact absurd this.2 (not_lt.mpr h3.le)
  rcases hc with hc | hc
  · have hno := excl _ hc
    cases op with
    | value c =>
      obtain ⟨v, m', f', h1, h2, _⟩ := value_in L T hb hf (c := c) hc
      exact ⟨_, m', f', by simp only [callField, h1]; rfl, h2, fun _ => rfl, fun h => absurd h hno⟩
    | grad c di =>
      obtain ⟨v, m', f', h1, h2, _⟩ := gradAt_in L T hb hf (c := c) hc di
      exact ⟨_, m', f', by simp only [callField, h1]; rfl, h2, fun _ => rfl, fun h => absurd h hno⟩
    | hess c di dj =>
      obtain ⟨v, m', f', h1, h2, _⟩ := hessAt_in L T hb hf (c := c) hc di dj
      exact ⟨_, m', f', by simp only [callField, h1]; rfl, h2, fun _ => rfl, fun h => absurd h hno⟩
    | evalGrad c =>
      obtain ⟨m', f', h1, h2, _⟩ := evalGradLoop_in L T (c := c) hc (List.range d) (range_lt d) hb hf
      exact ⟨_, m', f', by simp only [callField, evalGrad, h1], h2, fun _ => rfl, fun h => absurd h hno⟩
    | evalHess c =>
      obtain ⟨m', f', h1, h2, _⟩ := evalHessLoop_in L T (c := c) hc _ (pairs_lt d) hb hf
      exact ⟨_, m', f', by simp only [callField, evalHess, h1], h2, fun _ => rfl, fun h => absurd h hno⟩
  · have hno : ¬ InBins pts op.coord := fun h => excl _ h hc
    obtain ⟨o1, o2, o3⟩ := fill_out' hb hf hc
    obtain ⟨k, hk⟩ : ∃ k, d = k + 1 := Nat.exists_eq_succ_of_ne_zero L.dpos.ne'
    cases op with
    | value c =>
      obtain ⟨m', h1, h2⟩ := o1
      have h1' : PField.value E m f c = (.error .domainError, m', f) := h1
      exact ⟨_, m', f, by simp only [callField, h1']; rfl, h2, fun h => absurd h hno, fun _ => ⟨rfl, rfl⟩⟩
    | grad c di =>
      obtain ⟨m', h1, h2⟩ := o2 di
      have h1' : gradAt E m f c di = (.error .domainError, m', f) := h1
      exact ⟨_, m', f, by simp only [callField, h1']; rfl, h2, fun h => absurd h hno, fun _ => ⟨rfl, rfl⟩⟩
    | hess c di dj =>
      obtain ⟨m', h1, h2⟩ := o3 di dj
      have h1' : hessAt E m f c di dj = (.error .domainError, m', f) := h1
      exact ⟨_, m', f, by simp only [callField, h1']; rfl, h2, fun h => absurd h hno, fun _ => ⟨rfl, rfl⟩⟩
    | evalGrad c =>
      obtain ⟨m', h1, h2⟩ := o2 0
      have h1' : gradAt E m f c 0 = (.error .domainError, m', f) := h1
      have hr : List.range d = 0 :: (List.range k).map Nat.succ := by rw [hk, List.range_succ_eq_map]
      exact ⟨_, m', f, by simp only [callField, evalGrad, hr, evalGradLoop, h1'], h2, fun h => absurd h hno,
        fun _ => ⟨rfl, rfl⟩⟩
    | evalHess c =>
      obtain ⟨m', h1, h2⟩ := o3 0 0
      have h1' : hessAt E m f c 0 0 = (.error .domainError, m', f) := h1
      have hr : List.range d = 0 :: (List.range k).map Nat.succ := by rw [hk, List.range_succ_eq_map]
      exact ⟨_, m', f, by simp only [callField, evalHess, hr, List.flatMap_cons, List.map_cons, List.cons_append,
        evalHessLoop, h1'], h2, fun h => absurd h hno, fun _ => ⟨rfl, rfl⟩⟩

/-- Invariant of a body loaded with the named data `flds`. -/
structure BOk (E : ElemOps K d) (unit : Fin n → Fin d → K) (pts : List (Fin d → K)) (cells : List (List Nat))
    (lo hi : Fin d → K) (qs : List (Interp K d)) (flds : List (String × List K)) (b : Body K d) : Prop where
  mesh : Built E unit pts cells lo hi qs b.mesh
  fields : List.Forall₂ (fun f fl => f.name = fl.1 ∧ f.data = fl.2 ∧ f.zero = 0 ∧ FOk pts lo hi qs f) b.fields flds

theorem call_ok (L : ElemLaw E unit R) (T : ElemTotal E) {flds : List (String × List K)} {b : Body K d}
    (hb : BOk E unit pts cells lo hi qs flds b) (i : Nat) (op : Call K d)
    (hc : InBins pts op.coord ∨ OutOfBins pts op.coord) : BOk E unit pts cells lo hi qs flds (b.call E i op) := by
  unfold call
  cases hf : b.fields[i]? with
  | none => exact hb
  | some f =>
    obtain ⟨hlt, hfe⟩ := List.getElem?_eq_some_iff.mp hf
    have hl := hb.fields.length_eq
    have hfi := (List.forall₂_iff_get.mp hb.fields).2 i hlt (by omega)
    simp only [List.get_eq_getElem, hfe] at hfi
    obtain ⟨r, m', f', h1, h2, _⟩ := callField_ok L T hb.mesh hfi.2.2.2 op hc
    simp only [h1]
    refine ⟨h2.1, ?_⟩
    rw [List.forall₂_iff_get]
    refine ⟨by simpa using hl, ?_⟩
    intro j hj1 hj2
    simp only [List.get_eq_getElem, List.getElem_set]
    split
    · next e =>
      subst e
      have hs := h2.2.2.2
      exact ⟨hs.name.trans hfi.1, hs.data.trans hfi.2.1, hs.zero.trans hfi.2.2.1, h2.2.2.1⟩
    · have := (List.forall₂_iff_get.mp hb.fields).2 j (by simpa using hj1) hj2
      simpa using this

theorem calls_ok (L : ElemLaw E unit R) (T : ElemTotal E) {flds : List (String × List K)} {b : Body K d}
    (hb : BOk E unit pts cells lo hi qs flds b) (ops : List (Nat × Call K d))
    (hc : ∀ o ∈ ops, InBins pts o.2.coord ∨ OutOfBins pts o.2.coord) :
    BOk E unit pts cells lo hi qs flds (b.calls E ops) := by
  induction ops generalizing b with
  | nil => exact hb
  | cons o os ih =>
    obtain ⟨i, op⟩ := o
    exact ih (call_ok L T hb i op (hc (i, op) (by simp))) fun x hx => hc x (by simp [hx])

theorem addFields_ok {flds0 flds : List (String × List K)} {b : Body K d} (hne : pts ≠ [])
    (hb : BOk E unit pts cells lo hi qs flds0 b) (hl : ∀ fl ∈ flds, fl.2.length = pts.length) :
    ∃ b', addFields b flds = .ok b' ∧ BOk E unit pts cells lo hi qs (flds0 ++ flds) b' := by
  induction flds generalizing flds0 b with
  | nil => exact ⟨b, rfl, by simpa using hb⟩
  | cons fl fls ih =>
    obtain ⟨f, h1, h2, h3, h4, h5, _⟩ := make_ok hb.mesh hne fl.1 (0 : K) (hl fl (by simp))
    have hb' : BOk E unit pts cells lo hi qs (flds0 ++ [fl]) { b with fields := b.fields ++ [f] } :=
      ⟨hb.mesh, List.rel_append hb.fields (List.Forall₂.cons ⟨h3, h4, h5, h2⟩ List.Forall₂.nil)⟩
    obtain ⟨b', g1, g2⟩ := ih hb' fun x hx => hl x (by simp [hx])
    refine ⟨b', ?_, by simpa using g2⟩
    simp only [addFields, addField, h1, ok_bind, g1]

theorem load_ok (L : ElemLaw E unit R) {flds : List (String × List K)} (hm : RectMesh unit pts cells)
    (hl : ∀ fl ∈ flds, fl.2.length = pts.length) :
    ∃ b lo hi qs, load E pts cells flds = .ok b ∧ BOk E unit pts cells lo hi qs flds b := by
  obtain ⟨m, lo, hi, qs, h1, h2⟩ := build_of L hm
  obtain ⟨c0, hc0⟩ := List.exists_mem_of_ne_nil cells hm.nonempty
  obtain ⟨a0, h0, hah0⟩ := hm.rect c0 hc0
  have hne : pts ≠ [] := List.ne_nil_of_mem (cellAt_mem L hah0).1
  obtain ⟨b, g1, g2⟩ := addFields_ok (flds0 := []) (flds := flds) (b := ⟨m, []⟩) hne ⟨h2, List.Forall₂.nil⟩ hl
  exact ⟨b, lo, hi, qs, by simp only [load, h1, ok_bind, g1], by simpa using g2⟩

end Body
end Verif
