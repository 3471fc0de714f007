import Verif.Lemmas.RoundedMesh

/-! Helper lemmas: evaluating a field in floating-point arithmetic. -/

namespace Verif
open Spec Bin
namespace Fl
variable {K : Type} {d n : Nat} [Field K] [LinearOrder K] [FloorRing K] [IsStrictOrderedRing K] {rnd : K → K} {u : K}
variable {E : ElemOps K d} {unit sgn : Fin n → Fin d → K} {tested : Fin d → Prop}
variable {pts : List (Fin d → K)} {cells : List (List Nat)} {lo hi : Fin d → K} {qs : List (Interp K d)} {m : Mesh K d}

/-- Interpolators in bin `k`. -/
def inBin (rnd : K → K) (pts : List (Fin d → K)) (lo hi : Fin d → K) (qs : List (Interp K d)) (k : List Int) : List (Interp K d) :=
  qs.filter (touches rnd (List.ofFn (gMin rnd pts lo hi)) (List.ofFn (gIncr rnd pts lo hi)) k)

/-- The bin of `c`. -/
def binAt (rnd : K → K) (pts : List (Fin d → K)) (lo hi c : Fin d → K) : List Int :=
  flBinOf rnd (List.ofFn (gMin rnd pts lo hi)) (List.ofFn (gIncr rnd pts lo hi)) (List.ofFn c)

/-- The point is in the computed grid. -/
abbrev InG (rnd : K → K) (pts : List (Fin d → K)) (lo hi c : Fin d → K) : Prop :=
  FlInGrid rnd (List.ofFn (gMin rnd pts lo hi)) (List.ofFn (gIncr rnd pts lo hi)) (List.ofFn (Mesh.gN pts)) (List.ofFn c)

/-- The buffers are large enough for every bin and hold valid node numbers. -/
structure BufOk (rnd : K → K) (pts : List (Fin d → K)) (lo hi : Fin d → K) (qs : List (Interp K d)) (b : Mesh.Buf K) : Prop where
  bf : ∀ k, InBox (List.ofFn (Mesh.gN pts)) k → (inBin rnd pts lo hi qs k).length ≤ b.bf.length
  ni : ∀ k, InBox (List.ofFn (Mesh.gN pts)) k → (inBin rnd pts lo hi qs k).length ≤ b.ni.length
  idx : ∀ x ∈ b.ni, x < pts.length

theorem BufOk.after {b : Mesh.Buf K} (hb : BufOk rnd pts lo hi qs b) (hq : ∀ q ∈ qs, q.node < pts.length)
    (wv : Interp K d → K) (c : Fin d → K) {k : List Int} (hk : InBox (List.ofFn (Mesh.gN pts)) k) :
    BufOk rnd pts lo hi qs (Mesh.after E wv c (inBin rnd pts lo hi qs k) b) := by
  have hl := Mesh.after_length (E := E) wv c (inBin rnd pts lo hi qs k) b (hb.bf k hk) (hb.ni k hk)
  refine ⟨fun k' hk' => by rw [hl.1]; exact hb.bf k' hk', fun k' hk' => by rw [hl.2]; exact hb.ni k' hk', ?_⟩
  unfold Mesh.after
  split
  · exact hb.idx
  · intro x hx
    simp only [List.mem_append, List.mem_map] at hx
    rcases hx with ⟨q, hq', rfl⟩ | hx
    · exact hq q (List.mem_of_mem_filter hq')
    · exact hb.idx x (List.mem_of_mem_drop hx)

theorem Built.withBin (hb : Built rnd E unit pts cells lo hi qs m) {b' : Bin (Interp K d) K}
    (h1 : Inv rnd b' (List.ofFn (gMin rnd pts lo hi)) (List.ofFn (gIncr rnd pts lo hi)) (List.ofFn (Mesh.gN pts)))
    (h2 : b'.item = m.bin.item) : Built rnd E unit pts cells lo hi qs { m with bin := b' } :=
  ⟨hb.grid, hb.good, hb.incr_pos, hb.inside, hb.far, hb.ints, h1, fun k hk => by rw [← hb.cont k hk, ← h2]⟩

theorem Built.node_lt (F : FlElem rnd E unit sgn tested) (hb : Built rnd E unit pts cells lo hi qs m) : ∀ q ∈ qs, q.node < pts.length := by
  intro q hq
  obtain ⟨e, cell, a, h, he, hce, j, hj⟩ := hb.ints.mem q hq
  have hj' : q = corner rnd E unit (cell.getD j 0) (0 + e) a h j := hj
  rw [hj', F.corner_eq]
  exact Mesh.cellAt_node_lt hce j

theorem Built.inBox (R : Rounding rnd u) (hb : Built rnd E unit pts cells lo hi qs m) {c : Fin d → K} (hc : InG rnd pts lo hi c) :
    InBox (List.ofFn (Mesh.gN pts)) (binAt rnd pts lo hi c) := flInGrid_inBox R hb.good.2.2.1 hc

theorem fill_in (R : Rounding rnd u) (hb : Built rnd E unit pts cells lo hi qs m) {b : Mesh.Buf K} (hbuf : BufOk rnd pts lo hi qs b)
    (wv : Interp K d → K) {c : Fin d → K} (hc : InG rnd pts lo hi c) :
    ∃ m', fill rnd E (fun q => .ok (wv q)) m c b = (.ok (inBin rnd pts lo hi qs (binAt rnd pts lo hi c)).length, m',
        Mesh.after E wv c (inBin rnd pts lo hi qs (binAt rnd pts lo hi c)) b) ∧ Built rnd E unit pts cells lo hi qs m' := by
  have hk := hb.inBox R hc
  obtain ⟨b', e1, e2, e3⟩ := contents_in R hb.good hb.inv hc
  have hcont : cell m.bin.item (List.ofFn (Mesh.gN pts)) (flBinOf rnd (List.ofFn (gMin rnd pts lo hi)) (List.ofFn (gIncr rnd pts lo hi))
      (List.ofFn c)) = inBin rnd pts lo hi qs (binAt rnd pts lo hi c) := hb.cont _ hk
  rw [hcont] at e1
  refine ⟨{ m with bin := b' }, ?_, hb.withBin e2 e3⟩
  unfold fill Mesh.after
  rw [e1]
  dsimp only
  cases hf : Mesh.firstInRange E c (inBin rnd pts lo hi qs (binAt rnd pts lo hi c)) with
  | none => rfl
  | some q =>
    simp only
    rw [Mesh.fillLoop_of wv q.element _ 0 b (by have := hbuf.bf _ hk; omega) (by have := hbuf.ni _ hk; omega)]
    simp

theorem sumLoop_of (data : List K) (b : Mesh.Buf K) (k i : Nat) (acc : K) (h1 : i + k ≤ b.bf.length) (h2 : i + k ≤ b.ni.length)
    (h3 : ∀ x ∈ b.ni, x < data.length) :
    sumLoop rnd data b k i acc = .ok (rsum rnd acc (((b.bf.drop i).take k).zipWith
      (fun w x => rnd (w * data.getD x 0)) ((b.ni.drop i).take k))) := by
  induction k generalizing i acc with
  | zero => simp [sumLoop, rsum]
  | succ k ih =>
    have hb := vget_nat b.bf i (by omega)
    have hn := vget_nat b.ni i (by omega)
    have hx : b.ni[i] < data.length := h3 _ (List.getElem_mem _)
    have hd := vget_nat data b.ni[i] hx
    simp only [sumLoop, hb, hn, hd, ok_bind]
    rw [ih (i + 1) _ (by omega) (by omega)]
    rw [List.drop_eq_getElem_cons (show i < b.bf.length by omega), List.drop_eq_getElem_cons (show i < b.ni.length by omega)]
    have e : data.getD b.ni[i] 0 = data[b.ni[i]] := by simp [hx]
    simp only [List.take_succ_cons, List.zipWith_cons_cons, rsum, List.foldl_cons, e]

theorem rsum_wt (R : Rounding rnd u) (wv : Interp K d → K) (D : Interp K d → K) (el : Nat) (l : List (Interp K d)) {z : K}
    (hz : IsFloat rnd z) :
    rsum rnd z (l.map fun q => rnd (Mesh.wt wv el q * D q)) =
      rsum rnd z ((l.filter fun q => q.element = el).map fun q => rnd (wv q * D q)) := by
  induction l generalizing z with
  | nil => rfl
  | cons q qs ih =>
    rw [List.map_cons, List.filter_cons]
    by_cases h : q.element = el
    · simp only [h, decide_true, if_true, List.map_cons, rsum, List.foldl_cons, Mesh.wt]
      exact ih (R.isFloat _)
    · simp only [h, decide_false, Bool.false_eq_true, if_false]
      have e : rsum rnd z (rnd (Mesh.wt wv el q * D q) :: qs.map fun q => rnd (Mesh.wt wv el q * D q)) =
          rsum rnd z (qs.map fun q => rnd (Mesh.wt wv el q * D q)) := by
        simp only [rsum, List.foldl_cons, Mesh.wt, h, if_false, zero_mul, R.zero, add_zero]
        rw [show rnd z = z from hz]
      rw [e, ih hz]

theorem sum_after (R : Rounding rnd u) (wv : Interp K d → K) {c : Fin d → K} {l : List (Interp K d)} {b : Mesh.Buf K} {q : Interp K d}
    (hq : Mesh.firstInRange E c l = some q) (data : List K) {z : K} (hz : IsFloat rnd z)
    (h1 : l.length ≤ b.bf.length) (h2 : l.length ≤ b.ni.length)
    (h3 : ∀ x ∈ b.ni, x < data.length) (h4 : ∀ q ∈ l, q.node < data.length) :
    sumLoop rnd data (Mesh.after E wv c l b) l.length 0 z =
      .ok (rsum rnd z ((l.filter fun p => p.element = q.element).map fun p => rnd (wv p * data.getD p.node 0))) := by
  rw [sumLoop_of]
  · congr 1
    rw [← rsum_wt R wv _ _ _ hz]
    simp only [Mesh.after, hq, List.drop_zero]
    rw [List.take_append_of_le_length (by simp), List.take_append_of_le_length (by simp)]
    rw [List.take_of_length_le (by simp), List.take_of_length_le (by simp)]
    rw [List.zipWith_map_left, List.zipWith_map_right, List.zipWith_self]
  · have := (Mesh.after_length (E := E) wv c l b h1 h2).1; omega
  · have := (Mesh.after_length (E := E) wv c l b h1 h2).2; omega
  · intro x hx
    simp only [Mesh.after, hq, List.mem_append, List.mem_map] at hx
    rcases hx with ⟨p, hp, rfl⟩ | hx
    · exact h4 p hp
    · exact h3 x (List.mem_of_mem_drop hx)

/-- Distance of the coordinate from corner `j` (lemma-side). -/
def dist (unit : Fin n → Fin d → K) (a h c : Fin d → K) (j : Fin n) (i : Fin d) : K := if unit j i = 0 then c i - a i else a i + h i - c i

theorem local1_corner (F : FlElem rnd E unit sgn tested) (R : Rounding rnd u) (nd el : Nat) (a h c : Fin d → K) (j : Fin n) (i : Fin d) :
    local1 rnd (c i) ((corner rnd E unit nd el a h j).n i) ((corner rnd E unit nd el a h j).h i) ((corner rnd E unit nd el a h j).s i) =
      frac rnd (dist unit a h c j i) (h i) := by
  have en : (corner rnd E unit nd el a h j).n i = a i + unit j i * h i := by rw [F.corner_eq]; rfl
  have eh : (corner rnd E unit nd el a h j).h i = rnd (h i) := by rw [F.corner_eq]
  have es : (corner rnd E unit nd el a h j).s i = sgn j i := by rw [F.corner_eq]
  rw [en, eh, es]
  rcases F.sign j i with ⟨e1, e2⟩ | ⟨e1, e2⟩
  · rw [e1, e2, local1_plus R, dist, if_pos e1]; simp
  · rw [e1, e2, local1_minus R, dist, if_neg (by rw [e1]; exact one_ne_zero)]; simp

theorem inCell_dist {a h c : Fin d → K} (hc : InCell a h c) (j : Fin n) (i : Fin d) : 0 ≤ dist unit a h c j i ∧ dist unit a h c j i ≤ h i := by
  have := hc i
  unfold dist
  split <;> constructor <;> linarith [this.1, this.2]

theorem inRange_corner (F : FlElem rnd E unit sgn tested) (R : Rounding rnd u) (nd el : Nat) (a h c : Fin d → K) (j : Fin n) :
    E.inRange (corner rnd E unit nd el a h j) c = true ↔
      ∀ i, tested i → 0 ≤ frac rnd (dist unit a h c j i) (h i) ∧ frac rnd (dist unit a h c j i) (h i) < 1 := by
  have hp : ∀ i, passOk rnd (corner rnd E unit nd el a h j) c i = true ↔
      0 ≤ frac rnd (dist unit a h c j i) (h i) ∧ frac rnd (dist unit a h c j i) (h i) < 1 := by
    intro i
    simp only [passOk, local1_corner F R]
    split
    · next h => simp only [Bool.false_eq_true, false_iff, not_and_or, not_le, not_lt]; exact h
    · next h => simp only [true_iff]; rw [not_or, not_lt, ge_iff_le, not_le] at h; exact h
  simp only [F.inRange, hp]

/-- The point is not within the computed extent of corner `j` in direction `i`. -/
def LostAt (unit : Fin n → Fin d → K) (rnd : K → K) (a h c : Fin d → K) (j : Fin n) (i : Fin d) : Prop :=
  (unit j i = 0 ∧ rnd (a i + rnd (h i)) < c i) ∨ (unit j i = 1 ∧ c i < rnd (a i + h i - rnd (h i)))

/-- The point is not within the computed extent of corner `j`. -/
def Lost (unit : Fin n → Fin d → K) (rnd : K → K) (a h c : Fin d → K) (j : Fin n) : Prop := ∃ i, LostAt unit rnd a h c j i

theorem not_lost_touches (F : FlElem rnd E unit sgn tested) (R : Rounding rnd u) {nd el : Nat} {a h c : Fin d → K} {j : Fin n} (hc : InCell a h c) (hl : ¬ Lost unit rnd a h c j)
    {mn ic : Fin d → K} (hi : ∀ i, 0 < ic i) :
    touches rnd (List.ofFn mn) (List.ofFn ic) (flBinOf rnd (List.ofFn mn) (List.ofFn ic) (List.ofFn c)) (corner rnd E unit nd el a h j) = true := by
  unfold touches
  rw [decide_eq_true_iff, flBinOf_ofFn, flBinOf_ofFn, flBinOf_ofFn, between_ofFn]
  intro i
  have hl' := fun h => hl ⟨i, h⟩
  have e1 : minOf rnd (corner rnd E unit nd el a h j) i = _ := minOf_corner F (nd := nd) (el := el) (a := a) (h := h) j i
  have e2 : maxOf rnd (corner rnd E unit nd el a h j) i = _ := maxOf_corner F (nd := nd) (el := el) (a := a) (h := h) j i
  have := hc i
  refine ⟨flBin_mono R (hi i) ?_, flBin_mono R (hi i) ?_⟩
  · rw [e1]
    split
    · exact this.1
    · next hu =>
      have e : unit j i = 1 := by rcases F.sign j i with h | h; exact absurd h.1 hu; exact h.1
      exact not_lt.mp fun hh => hl' (Or.inr ⟨e, hh⟩)
  · rw [e2]
    split
    · next hu => exact not_lt.mp fun hh => hl' (Or.inl ⟨hu, hh⟩)
    · exact this.2

theorem lost_dist (R : Rounding rnd u) {a h c : Fin d → K} {j : Fin n} {i : Fin d} (hf : ∀ i, IsFloat rnd (c i))
    (hl : LostAt unit rnd a h c j i) : rnd (h i) < dist unit a h c j i := by
  obtain ⟨e, hh⟩ | ⟨e, hh⟩ := hl
  · rw [dist, if_pos e]
    by_contra hn
    exact absurd hh (not_lt.mpr (R.ge_of (hf i) (by linarith)))
  · rw [dist, if_neg (by rw [e]; exact one_ne_zero)]
    by_contra hn
    exact absurd hh (not_lt.mpr (R.le_of (hf i) (by linarith)))

theorem Built.filter_el (F : FlElem rnd E unit sgn tested) (hb : Built rnd E unit pts cells lo hi qs m) {e : Nat} {cell : List Nat}
    {a h : Fin d → K} (he : cells[e]? = some cell) (hc : CellAt unit pts cell a h) (k : List Int) :
    (inBin rnd pts lo hi qs k).filter (fun q => q.element = e) =
      (List.ofFn fun j : Fin n => corner rnd E unit (cell.getD j 0) e a h j).filter
        (touches rnd (List.ofFn (gMin rnd pts lo hi)) (List.ofFn (gIncr rnd pts lo hi)) k) := by
  obtain ⟨a', h', hc', hf⟩ := hb.ints.filt e cell he
  obtain ⟨rfl, rfl⟩ := F.cell_unique hc hc'
  rw [Nat.zero_add] at hf
  rw [inBin, List.filter_filter]
  have : (fun q : Interp K d => decide (q.element = e) && touches rnd (List.ofFn (gMin rnd pts lo hi))
      (List.ofFn (gIncr rnd pts lo hi)) k q) = fun q => touches rnd (List.ofFn (gMin rnd pts lo hi))
      (List.ofFn (gIncr rnd pts lo hi)) k q && decide (q.element = e) := by
    funext q; rw [Bool.and_comm]
  rw [this, ← List.filter_filter, hf]
  rfl

/-- Some corner nearest to the point accepts it and is in its bin. -/
theorem near_corner (F : FlElem rnd E unit sgn tested) (R : Rounding rnd u) (hu : u ≤ 1 / 64) {a h c : Fin d → K} (hh : ∀ i, 0 < h i)
    (hc : InCell a h c) (hf : ∀ i, IsFloat rnd (c i)) :
    ∃ j : Fin n, (∀ nd el, E.inRange (corner rnd E unit nd el a h j) c = true) ∧ ¬ Lost unit rnd a h c j := by
  have u0 := R.u_nonneg
  obtain ⟨j, hj⟩ : ∃ j : Fin n, ∀ i, 2 * dist unit a h c j i ≤ h i := by
    obtain ⟨j, hj⟩ := F.every fun i => decide (h i < 2 * (c i - a i))
    refine ⟨j, fun i => ?_⟩
    rw [dist, hj i]
    by_cases hx : h i < 2 * (c i - a i)
    · simp only [hx, decide_true, if_true, one_ne_zero, if_false]; linarith
    · simp only [hx, decide_false, Bool.false_eq_true, if_false, if_true]; linarith
  refine ⟨j, fun nd el => (inRange_corner F R nd el a h c j).mpr fun i _ => ?_, fun hl => ?_⟩
  · have := (inCell_dist (unit := unit) hc j i).1
    exact ⟨frac_nonneg R (by linarith) (hh i) this, frac_half R (by linarith) (hh i) this (hj i)⟩
  · obtain ⟨i, hi'⟩ := hl
    have hi := lost_dist R hf hi'
    have l := R.lower (hh i).le
    have := hj i
    have hp := hh i
    nlinarith

/-- At a floating-point point of the body, the interpolator found first belongs to a cell containing the point in the tested directions. -/
theorem Built.found (F : FlElem rnd E unit sgn tested) (R : Rounding rnd u) (hu : u ≤ 1 / 64) (hb : Built rnd E unit pts cells lo hi qs m)
    {c : Fin d → K} (hc : FloatPoint unit rnd pts cells c) :
    ∃ q e cell a h, Mesh.firstInRange E c (inBin rnd pts lo hi qs (binAt rnd pts lo hi c)) = some q ∧ q.element = e ∧
      cells[e]? = some cell ∧ CellAt unit pts cell a h ∧ (∀ i, tested i → a i ≤ c i ∧ c i ≤ a i + h i) ∧
      ∃ j : Fin n, touches rnd (List.ofFn (gMin rnd pts lo hi)) (List.ofFn (gIncr rnd pts lo hi)) (binAt rnd pts lo hi c)
        (corner rnd E unit (cell.getD j 0) e a h j) = true := by
  cases hf : Mesh.firstInRange E c (inBin rnd pts lo hi qs (binAt rnd pts lo hi c)) with
  | none =>
    exfalso
    obtain ⟨⟨cell, hcell, a, h, hce, hic⟩, hfl⟩ := hc
    obtain ⟨e, hlt, he⟩ := List.mem_iff_getElem.mp hcell
    have he' : cells[e]? = some cell := by rw [List.getElem?_eq_getElem hlt, he]
    have hfil := hb.filter_el F he' hce (binAt rnd pts lo hi c)
    obtain ⟨j, hj, hl⟩ := near_corner F R hu hce.2.1 hic hfl
    have ht := not_lost_touches F R (nd := cell.getD j 0) (el := e) hic hl (mn := gMin rnd pts lo hi) hb.incr_pos
    have hmem : corner rnd E unit (cell.getD j 0) e a h j ∈ inBin rnd pts lo hi qs (binAt rnd pts lo hi c) := by
      apply List.mem_of_mem_filter (p := fun q => decide (q.element = e))
      rw [hfil, List.mem_filter]
      exact ⟨List.mem_ofFn.mpr ⟨j, rfl⟩, ht⟩
    have := Mesh.firstInRange_none hf _ hmem
    rw [hj (cell.getD j 0) e] at this
    cases this
  | some q =>
    obtain ⟨h1, h2⟩ := Mesh.firstInRange_some hf
    have hq : q ∈ qs := List.mem_of_mem_filter h1
    obtain ⟨e, cell, a, h, he, hce, j, hj⟩ := hb.ints.mem q hq
    rw [Nat.zero_add] at hj
    have hj' : q = corner rnd E unit (cell.getD j 0) e a h j := hj
    refine ⟨q, e, cell, a, h, rfl, by rw [hj', F.corner_eq], he, hce, ?_, j, ?_⟩
    · rw [hj', inRange_corner F R] at h2
      intro i hi
      obtain ⟨d0, d1⟩ := frac_accept R (by linarith) (hce.2.1 i) (h2 i hi).1 (h2 i hi).2
      unfold dist at d0 d1
      by_cases hz : unit j i = 0
      · rw [if_pos hz] at d0 d1; constructor <;> linarith
      · rw [if_neg hz] at d0 d1; constructor <;> linarith
    · rw [← hj']
      exact (List.mem_filter.mp h1).2

/-- The interpolators of a cell that are in the bin of the point. -/
noncomputable def present (rnd : K → K) (E : ElemOps K d) (unit : Fin n → Fin d → K) (pts : List (Fin d → K)) (lo hi : Fin d → K) (cell : List Nat) (e : Nat) (a h c : Fin d → K) : List (Fin n) :=
  (List.finRange n).filter fun j : Fin n => touches rnd (List.ofFn (gMin rnd pts lo hi)) (List.ofFn (gIncr rnd pts lo hi))
    (binAt rnd pts lo hi c) (corner rnd E unit (cell.getD j 0) e a h j)

theorem Built.inG_covered (F : FlElem rnd E unit sgn tested) (hb : Built rnd E unit pts cells lo hi qs m) {c : Fin d → K} (hc : FloatPoint unit rnd pts cells c) : InG rnd pts lo hi c := by
  obtain ⟨⟨cell, _, a, h, hce, hic⟩, hf⟩ := hc
  obtain ⟨m1, m2⟩ := F.cell_mem hce
  refine hb.inside c hf fun i => ?_
  have h1 : lo i ≤ a i := (hb.grid.low i).2 _ m1
  have h2 : a i + h i ≤ hi i := (hb.grid.high i).2 _ m2
  constructor <;> linarith [(hic i).1, (hic i).2]

/-- Filling and summing at a floating-point point of the body: one cell is found, and the result is a rounded sum over the corners of it that
are in the point's bin; all corners are, if the cell contains the point, that are not lost. -/
theorem Built.eval_covered (F : FlElem rnd E unit sgn tested) (R : Rounding rnd u) (hu : u ≤ 1 / 64) (hb0 : Built rnd E unit pts cells lo hi qs m)
    {c : Fin d → K} (hc : FloatPoint unit rnd pts cells c) :
    ∃ e cell a h, cells[e]? = some cell ∧ CellAt unit pts cell a h ∧ (∀ i, tested i → a i ≤ c i ∧ c i ≤ a i + h i) ∧
      (∃ j : Fin n, touches rnd (List.ofFn (gMin rnd pts lo hi)) (List.ofFn (gIncr rnd pts lo hi)) (binAt rnd pts lo hi c)
        (corner rnd E unit (cell.getD j 0) e a h j) = true) ∧
      (InCell a h c → ∀ j, ¬ Lost unit rnd a h c j → j ∈ present rnd E unit pts lo hi cell e a h c) ∧
      ∀ (data : List K), data.length = pts.length → CornerVals data cell (fun j : Fin n => data.getD (cell.getD j 0) 0) ∧
      ∀ (m : Mesh K d) (b : Mesh.Buf K), Built rnd E unit pts cells lo hi qs m → BufOk rnd pts lo hi qs b →
      ∀ (wv : Interp K d → K) (z : K), IsFloat rnd z → ∃ s m' b',
      fill rnd E (fun q => .ok (wv q)) m c b = (.ok s, m', b') ∧ Built rnd E unit pts cells lo hi qs m' ∧ BufOk rnd pts lo hi qs b' ∧
      sumLoop rnd data b' s 0 z = .ok (rsum rnd z ((present rnd E unit pts lo hi cell e a h c).map fun j : Fin n =>
        rnd (wv (corner rnd E unit (cell.getD j 0) e a h j) * data.getD (cell.getD j 0) 0))) := by
  have hin := hb0.inG_covered F hc
  have hk := hb0.inBox R hin
  obtain ⟨q, e, cell, a, h, g1, g2, g3, g4, g5, g6⟩ := hb0.found F R hu hc
  refine ⟨e, cell, a, h, g3, g4, g5, g6, ?_, fun data hdat => ⟨?_, ?_⟩⟩
  · intro hic j hj
    rw [present, List.mem_filter]
    exact ⟨List.mem_finRange j, not_lost_touches F R hic hj hb0.incr_pos⟩
  · intro j
    obtain ⟨p, h1, h2⟩ := g4.2.2 j
    have hlt := (List.getElem?_eq_some_iff.mp h2).1
    refine ⟨p, h1, ?_⟩
    rw [← hdat] at hlt
    simp [h1, hlt]
  · intro m b hb hbuf wv z hz
    have hnode := hb.node_lt F
    obtain ⟨m', f1, f2⟩ := fill_in R hb hbuf wv hin
    refine ⟨_, m', _, f1, f2, hbuf.after hnode wv c hk, ?_⟩
    rw [sum_after R wv g1 data hz (hbuf.bf _ hk) (hbuf.ni _ hk) (by rw [hdat]; exact hbuf.idx)
      (by rw [hdat]; intro p hp; exact hnode p (List.mem_of_mem_filter hp)), g2, hb.filter_el F g3 g4]
    congr 2
    rw [List.ofFn_eq_map (f := fun j : Fin n => corner rnd E unit (cell.getD j 0) e a h j), List.filter_map, List.map_map]
    refine List.map_congr_left fun j _ => ?_
    simp only [Function.comp_def, F.corner_eq]

theorem Built.eval_any (F : FlElem rnd E unit sgn tested) (R : Rounding rnd u) (hb : Built rnd E unit pts cells lo hi qs m) {data : List K}
    (hdat : data.length = pts.length) {b : Mesh.Buf K} (hbuf : BufOk rnd pts lo hi qs b) (wv : Interp K d → K)
    {c : Fin d → K} (hc : InG rnd pts lo hi c) (z : K) :
    ∃ s m' b' v, fill rnd E (fun q => .ok (wv q)) m c b = (.ok s, m', b') ∧ Built rnd E unit pts cells lo hi qs m' ∧
      BufOk rnd pts lo hi qs b' ∧ sumLoop rnd data b' s 0 z = .ok v := by
  have hk := hb.inBox R hc
  obtain ⟨m', f1, f2⟩ := fill_in R hb hbuf wv hc
  have hok := BufOk.after (E := E) hbuf (hb.node_lt F) wv c hk
  have hs := sumLoop_of (rnd := rnd) data (Mesh.after E wv c (inBin rnd pts lo hi qs (binAt rnd pts lo hi c)) b)
    (inBin rnd pts lo hi qs (binAt rnd pts lo hi c)).length 0 z (by have := hok.bf _ hk; omega) (by have := hok.ni _ hk; omega)
    (by rw [hdat]; exact hok.idx)
  exact ⟨_, m', _, _, f1, f2, hok, hs⟩

theorem fill_out (R : Rounding rnd u) (hb : Built rnd E unit pts cells lo hi qs m) (w : Interp K d → Res K) (b : Mesh.Buf K) {c : Fin d → K}
    (hc : FlOutOfGrid rnd (List.ofFn (gMin rnd pts lo hi)) (List.ofFn (gIncr rnd pts lo hi)) (List.ofFn (Mesh.gN pts)) (List.ofFn c)) :
    ∃ m', fill rnd E w m c b = (.error .domainError, m', b) ∧ Built rnd E unit pts cells lo hi qs m' := by
  obtain ⟨b', e1, e2, e3⟩ := contents_out R hb.good hb.inv hc
  refine ⟨{ m with bin := b' }, ?_, hb.withBin e2 e3⟩
  unfold fill
  rw [e1]

/-! ### Fields and histories -/

omit [IsStrictOrderedRing K] in
theorem not_out_of_in {ms ds cs : List K} {ns : List Int} (h : FlInGrid rnd ms ds ns cs) : ¬ FlOutOfGrid rnd ms ds ns cs := by
  induction ns generalizing ms ds cs with
  | nil => cases ms <;> cases ds <;> cases cs <;> simp_all [FlInGrid, FlOutOfGrid]
  | cons n ns ih =>
    cases ms with
    | nil => simp [FlInGrid] at h
    | cons m ms => cases ds with
      | nil => simp [FlInGrid] at h
      | cons d ds => cases cs with
        | nil => simp [FlInGrid] at h
        | cons c cs =>
          obtain ⟨h1, h2⟩ := h
          rintro (⟨h3 | h3, _⟩ | ⟨_, h3⟩)
          · exact absurd h1.1.1 (not_le.mpr h3)
          · exact absurd h1.1.2 (not_le.mpr h3)
          · exact ih h2 h3

/-- The coordinate of a call. -/
def Call.coord : Call K d → Fin d → K
  | .value c => c
  | .grad c _ => c
  | .hess c _ _ => c

/-- The point is outside the computed grid. -/
abbrev OutG (rnd : K → K) (pts : List (Fin d → K)) (lo hi c : Fin d → K) : Prop :=
  FlOutOfGrid rnd (List.ofFn (gMin rnd pts lo hi)) (List.ofFn (gIncr rnd pts lo hi)) (List.ofFn (Mesh.gN pts)) (List.ofFn c)

/-- Invariant of a field over a built mesh. -/
structure FOk (rnd : K → K) (pts : List (Fin d → K)) (lo hi : Fin d → K) (qs : List (Interp K d)) (f : PField K) : Prop where
  data_len : f.data.length = pts.length
  grad_len : f.grad.length = d
  hess_len : f.hess.length = d
  row_len : ∀ r ∈ f.hess, r.length = d
  buf : BufOk rnd pts lo hi qs f.buf

theorem make_ok (hb : Built rnd E unit pts cells lo hi qs m) (hne : pts ≠ []) (name : String) {data : List K} (z : K)
    (hd : data.length = pts.length) :
    ∃ f, PField.make m name data z = .ok f ∧ FOk rnd pts lo hi qs f ∧ f.name = name ∧ f.data = data ∧ f.zero = z := by
  have hi' := hb.inv
  have hp := prod_pos hb.good.2.2.2.2.1
  have hlen := hi'.item_ok.len_eq
  obtain ⟨M, h1, h2, h3, _⟩ := maxSizeLoop_spec (item := m.bin.item) m.bin.item.volume.toNat 0 0
    (by rw [hi'.item_ok.vol_eq]; omega)
  have hall : ∀ k, InBox (List.ofFn (Mesh.gN pts)) k → (inBin rnd pts lo hi qs k).length ≤ M.toNat := by
    intro k hk
    have hc := hb.cont k hk
    have d0 := dot_nonneg hb.good.2.2.2.2.1 hk
    have d1 := dot_lt hb.good.2.2.2.2.1 hk
    have hlt : (dot (List.ofFn (Mesh.gN pts)) k).toNat < m.bin.item.val.length := by omega
    have := h3 _ (Nat.zero_le _) _ (List.getElem?_eq_getElem hlt)
    have e : inBin rnd pts lo hi qs k = m.bin.item.val[(dot (List.ofFn (Mesh.gN pts)) k).toNat] := by
      rw [inBin, ← hc]; simp only [cell, List.getD_eq_getElem?_getD, List.getElem?_eq_getElem hlt, Option.getD_some]
    rw [e]; omega
  have hmax : m.bin.maxSize = .ok M := h1
  refine ⟨_, by rw [PField.make, hmax]; rfl, ⟨hd, by simp, by simp, ?_, ⟨?_, ?_, ?_⟩⟩, rfl, rfl, rfl⟩
  · intro r hr
    rw [(List.mem_replicate.mp hr).2]; simp
  · intro k hk; simpa using hall k hk
  · intro k hk; simpa using hall k hk
  · intro x hx
    rw [(List.mem_replicate.mp hx).2]
    exact List.length_pos_iff.mpr hne

/-- The state of mesh and field after a call, in summary. -/
def StOk (rnd : K → K) (E : ElemOps K d) (unit : Fin n → Fin d → K) (pts : List (Fin d → K)) (cells : List (List Nat)) (lo hi : Fin d → K)
    (qs : List (Interp K d)) (f : PField K) (m' : Mesh K d) (f' : PField K) : Prop :=
  Built rnd E unit pts cells lo hi qs m' ∧ FOk rnd pts lo hi qs f' ∧ PField.Same f f'

theorem value_in (F : FlElem rnd E unit sgn tested) (T : PField.ElemTotal E) (R : Rounding rnd u) (hb : Built rnd E unit pts cells lo hi qs m)
    {f : PField K} (hf : FOk rnd pts lo hi qs f) {c : Fin d → K} (hc : InG rnd pts lo hi c) :
    ∃ v m' f', value rnd E m f c = (.ok v, m', f') ∧ StOk rnd E unit pts cells lo hi qs f m' f' := by
  obtain ⟨g, hg⟩ := T.value c
  obtain ⟨s, m', b', v, h1, h2, h3, h4⟩ := hb.eval_any F R hf.data_len hf.buf g hc f.zero
  exact ⟨v, m', { f with buf := b', val := some v }, by simp only [value, basisFunctions, hg, h1, h4], h2,
    ⟨hf.1, hf.2, hf.3, hf.4, h3⟩, ⟨rfl, rfl, rfl⟩⟩

theorem gradAt_in (F : FlElem rnd E unit sgn tested) (T : PField.ElemTotal E) (R : Rounding rnd u) (hb : Built rnd E unit pts cells lo hi qs m)
    {f : PField K} (hf : FOk rnd pts lo hi qs f) {c : Fin d → K} (hc : InG rnd pts lo hi c) (di : Fin d) :
    ∃ v m' f', gradAt rnd E m f c di = (.ok v, m', f') ∧ StOk rnd E unit pts cells lo hi qs f m' f' := by
  obtain ⟨g, hg⟩ := T.grad c di
  obtain ⟨s, m', b', v, h1, h2, h3, h4⟩ := hb.eval_any F R hf.data_len hf.buf g hc f.zero
  have hs := vset_nat f.grad di v (by rw [hf.grad_len]; exact di.isLt)
  exact ⟨v, m', { f with buf := b', grad := f.grad.set di v }, by simp only [gradAt, gradBasisFunctions, hg, h1, h4, hs], h2,
    ⟨hf.1, by simpa using hf.2, hf.3, hf.4, h3⟩, ⟨rfl, rfl, rfl⟩⟩

theorem hessAt_in (F : FlElem rnd E unit sgn tested) (T : PField.ElemTotal E) (R : Rounding rnd u) (hb : Built rnd E unit pts cells lo hi qs m)
    {f : PField K} (hf : FOk rnd pts lo hi qs f) {c : Fin d → K} (hc : InG rnd pts lo hi c) (di dj : Fin d) :
    ∃ v m' f', hessAt rnd E m f c di dj = (.ok v, m', f') ∧ StOk rnd E unit pts cells lo hi qs f m' f' := by
  obtain ⟨g, hg⟩ := T.hess c di dj
  obtain ⟨s, m', b', v, h1, h2, h3, h4⟩ := hb.eval_any F R hf.data_len hf.buf g hc f.zero
  have hlt : (di : Nat) < f.hess.length := by rw [hf.hess_len]; exact di.isLt
  have hr := vget_nat f.hess di hlt
  have hrl : f.hess[(di : Nat)].length = d := hf.row_len _ (List.getElem_mem _)
  have hs := vset_nat f.hess[(di : Nat)] dj v (by rw [hrl]; exact dj.isLt)
  have hs2 := vset_nat f.hess di (f.hess[(di : Nat)].set dj v) hlt
  refine ⟨v, m', { f with buf := b', hess := f.hess.set di (f.hess[(di : Nat)].set dj v) },
    by simp only [hessAt, hessBasisFunctions, hg, h1, h4, hr, hs, hs2, ok_bind], h2,
    ⟨hf.1, hf.2, by simpa using hf.3, ?_, h3⟩, ⟨rfl, rfl, rfl⟩⟩
  intro r hr'
  rcases List.mem_or_eq_of_mem_set hr' with h | h
  · exact hf.row_len r h
  · rw [h]; simp [hrl]

theorem any_out (R : Rounding rnd u) (hb : Built rnd E unit pts cells lo hi qs m) {f : PField K} (hf : FOk rnd pts lo hi qs f) {c : Fin d → K}
    (hc : OutG rnd pts lo hi c) :
    (∃ m', value rnd E m f c = (.error .domainError, m', f) ∧ StOk rnd E unit pts cells lo hi qs f m' f) ∧
    (∀ di, ∃ m', gradAt rnd E m f c di = (.error .domainError, m', f) ∧ StOk rnd E unit pts cells lo hi qs f m' f) ∧
    (∀ di dj, ∃ m', hessAt rnd E m f c di dj = (.error .domainError, m', f) ∧ StOk rnd E unit pts cells lo hi qs f m' f) := by
  refine ⟨?_, fun di => ?_, fun di dj => ?_⟩
  · obtain ⟨m', h1, h2⟩ := fill_out R hb (fun q => E.value q c) f.buf hc
    exact ⟨m', by simp only [value, basisFunctions, h1], h2, hf, PField.Same.refl f⟩
  · obtain ⟨m', h1, h2⟩ := fill_out R hb (fun q => E.grad q c di) f.buf hc
    exact ⟨m', by simp only [gradAt, gradBasisFunctions, h1], h2, hf, PField.Same.refl f⟩
  · obtain ⟨m', h1, h2⟩ := fill_out R hb (fun q => E.hess q c di dj) f.buf hc
    exact ⟨m', by simp only [hessAt, hessBasisFunctions, h1], h2, hf, PField.Same.refl f⟩

theorem StOk.trans {f f' f'' : PField K} {m' m'' : Mesh K d} (h1 : StOk rnd E unit pts cells lo hi qs f m' f')
    (h2 : StOk rnd E unit pts cells lo hi qs f' m'' f'') : StOk rnd E unit pts cells lo hi qs f m'' f'' :=
  ⟨h2.1, h2.2.1, h1.2.2.trans h2.2.2⟩

theorem evalGradLoop_in (F : FlElem rnd E unit sgn tested) (T : PField.ElemTotal E) (R : Rounding rnd u) {c : Fin d → K}
    (hc : InG rnd pts lo hi c) (ds : List Nat) (hds : ∀ x ∈ ds, x < d) {m : Mesh K d} (hb : Built rnd E unit pts cells lo hi qs m) {f : PField K}
    (hf : FOk rnd pts lo hi qs f) :
    ∃ m' f', evalGradLoop rnd E c ds m f = (.ok (), m', f') ∧ StOk rnd E unit pts cells lo hi qs f m' f' := by
  induction ds generalizing m f with
  | nil => exact ⟨m, f, rfl, hb, hf, PField.Same.refl f⟩
  | cons x xs ih =>
    obtain ⟨v, m1, f1, h1, h2⟩ := gradAt_in F T R hb hf hc ⟨x, hds x (by simp)⟩
    obtain ⟨m2, f2, g1, g2⟩ := ih (fun y hy => hds y (by simp [hy])) h2.1 h2.2.1
    refine ⟨m2, f2, ?_, h2.trans g2⟩
    have h1' : gradAt rnd E m f c x = (.ok v, m1, f1) := h1
    simp only [evalGradLoop, h1', g1]

theorem evalHessLoop_in (F : FlElem rnd E unit sgn tested) (T : PField.ElemTotal E) (R : Rounding rnd u) {c : Fin d → K}
    (hc : InG rnd pts lo hi c) (ds : List (Nat × Nat)) (hds : ∀ x ∈ ds, x.1 < d ∧ x.2 < d) {m : Mesh K d}
    (hb : Built rnd E unit pts cells lo hi qs m) {f : PField K} (hf : FOk rnd pts lo hi qs f) :
    ∃ m' f', evalHessLoop rnd E c ds m f = (.ok (), m', f') ∧ StOk rnd E unit pts cells lo hi qs f m' f' := by
  induction ds generalizing m f with
  | nil => exact ⟨m, f, rfl, hb, hf, PField.Same.refl f⟩
  | cons x xs ih =>
    have hx := hds x (by simp)
    obtain ⟨v, m1, f1, h1, h2⟩ := hessAt_in F T R hb hf hc ⟨x.1, hx.1⟩ ⟨x.2, hx.2⟩
    obtain ⟨m2, f2, g1, g2⟩ := ih (fun y hy => hds y (by simp [hy])) h2.1 h2.2.1
    refine ⟨m2, f2, ?_, h2.trans g2⟩
    have h1' : hessAt rnd E m f c x.1 x.2 = (.ok v, m1, f1) := h1
    simp only [evalHessLoop, h1', g1]

theorem queryField_out (R : Rounding rnd u) (hb : Built rnd E unit pts cells lo hi qs m) {f : PField K} (hf : FOk rnd pts lo hi qs f)
    (op : Call K d) (hc : OutG rnd pts lo hi op.coord) : (queryField rnd E m f op).1 = .error .domainError := by
  obtain ⟨o1, o2, o3⟩ := any_out R hb hf hc
  cases op with
  | value c => obtain ⟨m', h1, _⟩ := o1; rw [queryField]; rw [show value rnd E m f c = _ from h1]
  | grad c di => obtain ⟨m', h1, _⟩ := o2 di; rw [queryField]; rw [show gradAt rnd E m f c di = _ from h1]
  | hess c di dj => obtain ⟨m', h1, _⟩ := o3 di dj; rw [queryField]; rw [show hessAt rnd E m f c di dj = _ from h1]

theorem callField_ok (F : FlElem rnd E unit sgn tested) (T : PField.ElemTotal E) (R : Rounding rnd u)
    (hb : Built rnd E unit pts cells lo hi qs m) {f : PField K} (hf : FOk rnd pts lo hi qs f) (op : Body.Call K d)
    (hc : InG rnd pts lo hi op.coord ∨ OutG rnd pts lo hi op.coord) :
    ∃ r m' f', callField rnd E m f op = (r, m', f') ∧ StOk rnd E unit pts cells lo hi qs f m' f' ∧
      (InG rnd pts lo hi op.coord → r = .ok ()) ∧ (OutG rnd pts lo hi op.coord → r = .error .domainError) := by
  rcases hc with hc | hc
  · have hno := not_out_of_in hc
    cases op with
    | value c =>
      obtain ⟨v, m', f', h1, h2⟩ := value_in F T R hb hf (c := c) hc
      exact ⟨_, m', f', by simp only [callField, h1]; rfl, h2, fun _ => rfl, fun h => absurd h hno⟩
    | grad c di =>
      obtain ⟨v, m', f', h1, h2⟩ := gradAt_in F T R hb hf (c := c) hc di
      exact ⟨_, m', f', by simp only [callField, h1]; rfl, h2, fun _ => rfl, fun h => absurd h hno⟩
    | hess c di dj =>
      obtain ⟨v, m', f', h1, h2⟩ := hessAt_in F T R hb hf (c := c) hc di dj
      exact ⟨_, m', f', by simp only [callField, h1]; rfl, h2, fun _ => rfl, fun h => absurd h hno⟩
    | evalGrad c =>
      obtain ⟨m', f', h1, h2⟩ := evalGradLoop_in F T R (c := c) hc (List.range d) (PField.range_lt d) hb hf
      exact ⟨_, m', f', by simp only [callField, h1], h2, fun _ => rfl, fun h => absurd h hno⟩
    | evalHess c =>
      obtain ⟨m', f', h1, h2⟩ := evalHessLoop_in F T R (c := c) hc _ (PField.pairs_lt d) hb hf
      exact ⟨_, m', f', by simp only [callField, h1], h2, fun _ => rfl, fun h => absurd h hno⟩
  · have hno : ¬ InG rnd pts lo hi op.coord := fun h => not_out_of_in h hc
    obtain ⟨o1, o2, o3⟩ := any_out R hb hf hc
    obtain ⟨k, hk⟩ : ∃ k, d = k + 1 := Nat.exists_eq_succ_of_ne_zero F.dpos.ne'
    cases op with
    | value c =>
      obtain ⟨m', h1, h2⟩ := o1
      have h1' : value rnd E m f c = (.error .domainError, m', f) := h1
      exact ⟨_, m', f, by simp only [callField, h1']; rfl, h2, fun h => absurd h hno, fun _ => rfl⟩
    | grad c di =>
      obtain ⟨m', h1, h2⟩ := o2 di
      have h1' : gradAt rnd E m f c di = (.error .domainError, m', f) := h1
      exact ⟨_, m', f, by simp only [callField, h1']; rfl, h2, fun h => absurd h hno, fun _ => rfl⟩
    | hess c di dj =>
      obtain ⟨m', h1, h2⟩ := o3 di dj
      have h1' : hessAt rnd E m f c di dj = (.error .domainError, m', f) := h1
      exact ⟨_, m', f, by simp only [callField, h1']; rfl, h2, fun h => absurd h hno, fun _ => rfl⟩
    | evalGrad c =>
      obtain ⟨m', h1, h2⟩ := o2 0
      have h1' : gradAt rnd E m f c 0 = (.error .domainError, m', f) := h1
      refine ⟨.error .domainError, m', f, ?_, h2, fun h => absurd h hno, fun _ => rfl⟩
      have e : List.range d = 0 :: (List.range k).map (· + 1) := by rw [hk, List.range_succ_eq_map]
      simp only [callField, e, evalGradLoop, h1']
    | evalHess c =>
      obtain ⟨m', h1, h2⟩ := o3 0 0
      have h1' : hessAt rnd E m f c 0 0 = (.error .domainError, m', f) := h1
      refine ⟨.error .domainError, m', f, ?_, h2, fun h => absurd h hno, fun _ => rfl⟩
      have e : List.range d = 0 :: (List.range k).map (· + 1) := by rw [hk, List.range_succ_eq_map]
      simp only [callField, e, List.flatMap_cons, List.map_cons, List.cons_append, evalHessLoop, h1']

/-- Invariant of a body. -/
structure BOk (rnd : K → K) (E : ElemOps K d) (unit : Fin n → Fin d → K) (pts : List (Fin d → K)) (cells : List (List Nat)) (lo hi : Fin d → K) (qs : List (Interp K d))
    (flds : List (String × List K)) (b : Body K d) : Prop where
  mesh : Built rnd E unit pts cells lo hi qs b.mesh
  fields : List.Forall₂ (fun f fl => f.name = fl.1 ∧ f.data = fl.2 ∧ f.zero = 0 ∧ FOk rnd pts lo hi qs f) b.fields flds

theorem addFields_ok {flds0 flds : List (String × List K)} {b : Body K d} (hne : pts ≠ [])
    (hb : BOk rnd E unit pts cells lo hi qs flds0 b) (hl : ∀ fl ∈ flds, fl.2.length = pts.length) :
    ∃ b', Body.addFields b flds = .ok b' ∧ BOk rnd E unit pts cells lo hi qs (flds0 ++ flds) b' := by
  induction flds generalizing flds0 b with
  | nil => exact ⟨b, rfl, by simpa using hb⟩
  | cons fl fls ih =>
    obtain ⟨f, h1, h2, h3, h4, h5⟩ := make_ok hb.mesh hne fl.1 (0 : K) (hl fl (by simp))
    have hb' : BOk rnd E unit pts cells lo hi qs (flds0 ++ [fl]) { b with fields := b.fields ++ [f] } :=
      ⟨hb.mesh, List.rel_append hb.fields (List.Forall₂.cons ⟨h3, h4, h5, h2⟩ List.Forall₂.nil)⟩
    obtain ⟨b', g1, g2⟩ := ih hb' fun x hx => hl x (by simp [hx])
    refine ⟨b', ?_, by simpa using g2⟩
    simp only [Body.addFields, Body.addField, h1, ok_bind, g1]

theorem load_ok (F : FlElem rnd E unit sgn tested) (R : Rounding rnd u) (hu : u ≤ 1 / 64) {flds : List (String × List K)}
    (hm : FloatMesh unit rnd u pts cells) (hl : ∀ fl ∈ flds, fl.2.length = pts.length) :
    ∃ b lo hi qs, load rnd E pts cells flds = .ok b ∧ BOk rnd E unit pts cells lo hi qs flds b := by
  obtain ⟨m, lo, hi, qs, h1, h2⟩ := build_of F R hu hm
  obtain ⟨c0, hc0⟩ := List.exists_mem_of_ne_nil cells hm.rect.nonempty
  obtain ⟨a0, h0, hah0⟩ := hm.rect.rect c0 hc0
  have hne : pts ≠ [] := List.ne_nil_of_mem (F.cell_mem hah0).1
  obtain ⟨b, g1, g2⟩ := addFields_ok (rnd := rnd) (flds0 := []) (flds := flds) (b := ⟨m, []⟩) hne ⟨h2, List.Forall₂.nil⟩ hl
  exact ⟨b, lo, hi, qs, by simp only [load, h1, ok_bind, g1], by simpa using g2⟩

theorem call_ok (F : FlElem rnd E unit sgn tested) (T : PField.ElemTotal E) (R : Rounding rnd u) {flds : List (String × List K)} {b : Body K d}
    (hb : BOk rnd E unit pts cells lo hi qs flds b) (i : Nat) (op : Body.Call K d)
    (hc : InG rnd pts lo hi op.coord ∨ OutG rnd pts lo hi op.coord) : BOk rnd E unit pts cells lo hi qs flds (call rnd E b i op) := by
  unfold call
  cases hf : b.fields[i]? with
  | none => exact hb
  | some f =>
    obtain ⟨hlt, hfe⟩ := List.getElem?_eq_some_iff.mp hf
    have hlen := hb.fields.length_eq
    have hrel := List.forall₂_iff_get.mp hb.fields
    have hfi := hrel.2 i hlt (by omega)
    simp only [List.get_eq_getElem, hfe] at hfi
    obtain ⟨r, m', f', h1, ⟨h2, h3, h4⟩, _⟩ := callField_ok F T R hb.mesh hfi.2.2.2 op hc
    simp only [h1]
    refine ⟨h2, List.forall₂_iff_get.mpr ⟨by simpa using hlen, fun k hk1 hk2 => ?_⟩⟩
    simp only [List.get_eq_getElem, List.getElem_set]
    split
    · next e =>
      subst e
      exact ⟨h4.name.trans hfi.1, h4.data.trans hfi.2.1, h4.zero.trans hfi.2.2.1, h3⟩
    · exact hrel.2 k (by simpa using hk1) hk2

theorem evals_ok (F : FlElem rnd E unit sgn tested) (T : PField.ElemTotal E) (R : Rounding rnd u) {flds : List (String × List K)}
    (ops : List (Nat × Body.Call K d)) (hc : ∀ op ∈ ops, InG rnd pts lo hi op.2.coord ∨ OutG rnd pts lo hi op.2.coord) {b : Body K d}
    (hb : BOk rnd E unit pts cells lo hi qs flds b) : BOk rnd E unit pts cells lo hi qs flds (evals rnd E b ops) := by
  induction ops generalizing b with
  | nil => exact hb
  | cons op ops ih =>
    obtain ⟨i, op⟩ := op
    exact ih (fun o ho => hc o (by simp [ho])) (call_ok F T R hb i op (hc (i, op) (by simp)))

end Fl
end Verif
