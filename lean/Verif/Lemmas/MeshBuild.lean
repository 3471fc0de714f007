import Verif.Lemmas.Mesh

/-! Helper lemmas: a mesh built from rectangular cells, and what filling the buffers and summing gives. -/

namespace Verif
open Spec Bin
namespace Mesh
variable {K : Type} {d n : Nat} [Field K] [LinearOrder K] [FloorRing K] [IsStrictOrderedRing K]
variable {E : ElemOps K d} {unit : Fin n → Fin d → K} {R : (a h c : Fin d → K) → Prop}

/-- The bins of `[q.min, q.max]` include `k`. -/
def touches (mn ic : List K) (k : List Int) (q : Interp K d) : Bool :=
  decide (Between (binOf mn ic (List.ofFn q.min)) (binOf mn ic (List.ofFn q.max)) k)

theorem fileAll_of {mn ic : List K} {N : List Int} (hg : GoodGrid mn ic N) (qs : List (Interp K d))
    (hq : ∀ q ∈ qs, InGrid mn ic N (List.ofFn q.min) ∧ InGrid mn ic N (List.ofFn q.max) ∧ ∀ i, q.min i ≤ q.max i)
    {b : Bin (Interp K d) K} (hi : Bin.Inv b mn ic N) :
    ∃ b', fileAll qs b = .ok b' ∧ Bin.Inv b' mn ic N ∧ ∀ k, InBox N k →
      cell b'.item N k = cell b.item N k ++ qs.filter (touches mn ic k) := by
  induction qs generalizing b with
  | nil => exact ⟨b, rfl, hi, fun k _ => by simp⟩
  | cons q qs ih =>
    obtain ⟨h1, h2, h3⟩ := hq q (by simp)
    obtain ⟨b1, e1, i1, c1⟩ := addRange_in hg hi q h1 h2 ((leAll_ofFn _ _).mpr h3)
    obtain ⟨b2, e2, i2, c2⟩ := ih (fun x hx => hq x (by simp [hx])) i1
    refine ⟨b2, by simp only [fileAll, e1, e2], i2, fun k hk => ?_⟩
    rw [c2 k hk, c1 k hk, List.filter_cons]
    by_cases h : Between (binOf mn ic (List.ofFn q.min)) (binOf mn ic (List.ofFn q.max)) k
    · simp [h, touches]
    · simp [h, touches]

omit [FloorRing K] [IsStrictOrderedRing K] in
theorem isLow_unique {pts : List (Fin d → K)} {i : Fin d} {x y : K} (h1 : IsLow pts i x) (h2 : IsLow pts i y) : x = y := by
  obtain ⟨⟨p, hp, e⟩, h⟩ := h1
  obtain ⟨⟨q, hq, f⟩, g⟩ := h2
  exact le_antisymm (f ▸ h q hq) (e ▸ g p hp)

omit [FloorRing K] [IsStrictOrderedRing K] in
theorem isHigh_unique {pts : List (Fin d → K)} {i : Fin d} {x y : K} (h1 : IsHigh pts i x) (h2 : IsHigh pts i y) :
    x = y := by
  obtain ⟨⟨p, hp, e⟩, h⟩ := h1
  obtain ⟨⟨q, hq, f⟩, g⟩ := h2
  exact le_antisymm (e ▸ g p hp) (f ▸ h q hq)

omit [FloorRing K] [IsStrictOrderedRing K] in
theorem inBins_iff {pts : List (Fin d → K)} {lo hi : Fin d → K} (hg : GridOf pts lo hi) (c : Fin d → K) :
    InBins pts c ↔ ∀ i, gMin pts lo hi i ≤ c i ∧ c i < hi i + gIncr pts lo hi i := by
  constructor
  · intro h i
    exact h i _ _ (hg.low i) (hg.high i)
  · intro h i lo' hi' h1 h2
    rw [isLow_unique h1 (hg.low i), isHigh_unique h2 (hg.high i)]
    exact h i

omit [FloorRing K] in
theorem grid_top {pts : List (Fin d → K)} {lo hi : Fin d → K} (i : Fin d) (hn : 0 < nDistinct pts i) :
    gMin pts lo hi i + gIncr pts lo hi i * (gN pts i : K) = hi i + gIncr pts lo hi i := by
  have : (nDistinct pts i : K) ≠ 0 := by exact_mod_cast hn.ne'
  simp only [gMin, gIncr, gN, margin]
  push_cast
  field_simp
  ring

omit [FloorRing K] [IsStrictOrderedRing K] in
theorem nDistinct_pos {pts : List (Fin d → K)} (h : pts ≠ []) (i : Fin d) : 0 < nDistinct pts i := by
  obtain ⟨p, hp⟩ := List.exists_mem_of_ne_nil pts h
  unfold nDistinct
  apply Finset.card_pos.mpr
  exact ⟨p i, by simp; exact ⟨p, hp, rfl⟩⟩

omit [FloorRing K] [IsStrictOrderedRing K] in
theorem cellAt_mem (L : ElemLaw E unit R) {pts : List (Fin d → K)} {cell : List Nat} {a h : Fin d → K}
    (hc : CellAt unit pts cell a h) : a ∈ pts ∧ (fun i => a i + h i) ∈ pts := by
  obtain ⟨_, _, hj⟩ := hc
  constructor
  · obtain ⟨p, _, h2⟩ := hj ⟨0, L.npos⟩
    have := List.mem_of_getElem? h2
    rw [L.unit_zero] at this
    convert this using 1
    funext i; simp [cornerPos]
  · obtain ⟨p, _, h2⟩ := hj ⟨E.far, L.far⟩
    have := List.mem_of_getElem? h2
    rw [L.unit_far] at this
    convert this using 1
    funext i; simp [cornerPos]

omit [FloorRing K] [IsStrictOrderedRing K] in
theorem cellAt_unique (L : ElemLaw E unit R) {pts : List (Fin d → K)} {cell : List Nat} {a h a' h' : Fin d → K}
    (hc : CellAt unit pts cell a h) (hc' : CellAt unit pts cell a' h') : a = a' ∧ h = h' := by
  obtain ⟨_, _, hj⟩ := hc
  obtain ⟨_, _, hj'⟩ := hc'
  have key : ∀ j, cornerPos a h (unit j) = cornerPos a' h' (unit j) := by
    intro j
    obtain ⟨p, e1, e2⟩ := hj j
    obtain ⟨p', e1', e2'⟩ := hj' j
    rw [e1] at e1'; cases e1'
    rw [e2] at e2'; exact Option.some.inj e2'
  have h0 := key ⟨0, L.npos⟩
  have h1 := key ⟨E.far, L.far⟩
  rw [L.unit_zero] at h0
  rw [L.unit_far] at h1
  have ha : a = a' := by
    funext i
    have := congrFun h0 i
    simpa [cornerPos] using this
  refine ⟨ha, ?_⟩
  funext i
  have := congrFun h1 i
  subst ha
  simpa [cornerPos] using this

/-- Everything the properties need about a built mesh. -/
structure Built (E : ElemOps K d) (unit : Fin n → Fin d → K) (pts : List (Fin d → K)) (cells : List (List Nat))
    (lo hi : Fin d → K) (qs : List (Interp K d)) (m : Mesh K d) : Prop where
  grid : GridOf pts lo hi
  npos : ∀ i, 0 < nDistinct pts i
  good : GoodGrid (List.ofFn (gMin pts lo hi)) (List.ofFn (gIncr pts lo hi)) (List.ofFn (gN pts))
  incr_pos : ∀ i, 0 < gIncr pts lo hi i
  min_eq : m.min = fun i => some (lo i)
  max_eq : m.max = fun i => some (hi i)
  node_eq : m.node = pts
  interp_eq : m.interp = qs
  ints : Interps E unit pts cells 0 qs
  inv : Bin.Inv m.bin (List.ofFn (gMin pts lo hi)) (List.ofFn (gIncr pts lo hi)) (List.ofFn (gN pts))
  cont : ∀ k, InBox (List.ofFn (gN pts)) k → cell m.bin.item (List.ofFn (gN pts)) k =
    qs.filter (touches (List.ofFn (gMin pts lo hi)) (List.ofFn (gIncr pts lo hi)) k)

theorem build_of (L : ElemLaw E unit R) {pts : List (Fin d → K)} {cells : List (List Nat)} (hm : RectMesh unit pts cells) :
    ∃ m lo hi qs, build E pts cells = .ok m ∧ Built E unit pts cells lo hi qs m := by
  obtain ⟨c0, hc0⟩ := List.exists_mem_of_ne_nil cells hm.nonempty
  obtain ⟨a0, h0, hah0⟩ := hm.rect c0 hc0
  have hne : pts ≠ [] := List.ne_nil_of_mem (cellAt_mem L hah0).1
  obtain ⟨lo, hi, hg, hr⟩ := readPoints_eq (K := K) (Mesh.empty) hne
  have hn := nDistinct_pos hne
  have hincr : ∀ i, 0 < gIncr pts lo hi i := by
    intro i
    have h1 := (hg.low i).2 _ (cellAt_mem L hah0).1
    have h2 := (hg.high i).2 _ (cellAt_mem L hah0).2
    have h3 := hah0.2.1 i
    have : (0 : K) < nDistinct pts i := by exact_mod_cast hn i
    exact div_pos (by linarith) this
  have hgd : GoodDims (List.ofFn (gN pts)) := by
    refine ⟨?_, ?_, hm.small⟩
    · intro he
      have := congrArg List.length he
      simp at this
      exact absurd this L.dpos.ne'
    · intro x hx
      obtain ⟨i, rfl⟩ := List.mem_ofFn.mp hx
      simp [gN]; omega
  have hgood : GoodGrid (List.ofFn (gMin pts lo hi)) (List.ofFn (gIncr pts lo hi)) (List.ofFn (gN pts)) := by
    refine ⟨by simp, by simp, ?_, hgd⟩
    intro x hx
    obtain ⟨i, rfl⟩ := List.mem_ofFn.mp hx
    exact hincr i
  have hmk := mk'_eq (Interp K d) hgood.1 hgood.2.1 hgd
  obtain ⟨hinv, hcell⟩ := mk'_inv hgood hmk
  rw [hmk] at hr
  simp only [ok_bind] at hr
  obtain ⟨qs, hq1, hq2⟩ := makeCells_of L cells 0 hm.rect
  have hin : ∀ c : Fin d → K, (∀ i, lo i ≤ c i ∧ c i ≤ hi i) →
      InGrid (List.ofFn (gMin pts lo hi)) (List.ofFn (gIncr pts lo hi)) (List.ofFn (gN pts)) (List.ofFn c) := by
    intro c hc
    rw [inGrid_ofFn]
    intro i
    rw [grid_top i (hn i)]
    have := hincr i
    have h1 := (hc i).1
    have h2 := (hc i).2
    have e : gMin pts lo hi i = lo i - gIncr pts lo hi i := rfl
    rw [e]
    constructor <;> linarith
  have hqs : ∀ q ∈ qs, InGrid (List.ofFn (gMin pts lo hi)) (List.ofFn (gIncr pts lo hi)) (List.ofFn (gN pts))
        (List.ofFn q.min) ∧
      InGrid (List.ofFn (gMin pts lo hi)) (List.ofFn (gIncr pts lo hi)) (List.ofFn (gN pts)) (List.ofFn q.max) ∧
      ∀ i, q.min i ≤ q.max i := by
    intro q hq
    obtain ⟨e, cell, a, h, he, hce, j, hj⟩ := hq2.mem q hq
    have hmin : q.min = a := by rw [hj]; exact L.min_eq _ _ _ _ _
    have hmax : q.max = fun i => a i + h i := by rw [hj]; exact L.max_eq _ _ _ _ _
    obtain ⟨m1, m2⟩ := cellAt_mem L hce
    have hp := hce.2.1
    rw [hmin, hmax]
    refine ⟨hin _ fun i => ⟨(hg.low i).2 _ m1, (hg.high i).2 _ m1⟩, hin _ fun i => ⟨(hg.low i).2 _ m2, (hg.high i).2 _ m2⟩, ?_⟩
    intro i; linarith [hp i]
  obtain ⟨b', f1, f2, f3⟩ := fileAll_of hgood qs hqs hinv
  refine ⟨⟨fun j => some (lo j), fun j => some (hi j), pts, qs, b'⟩, lo, hi, qs, ?_, hg, hn, hgood, hincr, ?_, ?_, ?_, ?_, hq2, f2, ?_⟩
  · unfold build
    rw [hr, ok_bind]
    simp only [readCells, Mesh.empty, List.nil_append, hq1, ok_bind, f1]
  · rfl
  · rfl
  · rfl
  · rfl
  · intro k hk
    rw [f3 k hk, hcell k, List.nil_append]

/-- Changing the scratch indices of the bin keeps everything. -/
theorem Built.withBin {pts : List (Fin d → K)} {cells : List (List Nat)} {lo hi : Fin d → K} {qs : List (Interp K d)}
    {m : Mesh K d} (hb : Built E unit pts cells lo hi qs m) {b : Bin (Interp K d) K}
    (hi' : Bin.Inv b (List.ofFn (gMin pts lo hi)) (List.ofFn (gIncr pts lo hi)) (List.ofFn (gN pts)))
    (he : b.item = m.bin.item) : Built E unit pts cells lo hi qs { m with bin := b } :=
  { hb with inv := hi', cont := fun k hk => by simp only [he]; exact hb.cont k hk }

/-! ### Buffers -/

omit [FloorRing K] [Field K] [LinearOrder K] [IsStrictOrderedRing K] in
theorem firstInRange_some {c : Fin d → K} {l : List (Interp K d)} {q : Interp K d} (h : firstInRange E c l = some q) :
    q ∈ l ∧ E.inRange q c = true := by
  induction l with
  | nil => simp [firstInRange] at h
  | cons x xs ih =>
    simp only [firstInRange] at h
    split at h
    · next hx => cases h; exact ⟨by simp, hx⟩
    · obtain ⟨h1, h2⟩ := ih h; exact ⟨by simp [h1], h2⟩

omit [FloorRing K] [Field K] [LinearOrder K] [IsStrictOrderedRing K] in
theorem firstInRange_none {c : Fin d → K} {l : List (Interp K d)} (h : firstInRange E c l = none) :
    ∀ q ∈ l, E.inRange q c = false := by
  induction l with
  | nil => simp
  | cons x xs ih =>
    simp only [firstInRange] at h
    split at h
    · simp at h
    · next hx =>
      intro q hq
      rcases List.mem_cons.mp hq with e | e
      · rw [e]; simpa using hx
      · exact ih h q e

/-- The weight stored for `q`. -/
def wt (wv : Interp K d → K) (el : Nat) (q : Interp K d) : K := if q.element = el then wv q else 0

omit [FloorRing K] [LinearOrder K] [IsStrictOrderedRing K] in
theorem fillLoop_of (wv : Interp K d → K) (el : Nat) (l : List (Interp K d)) (i : Nat) (b : Buf K)
    (h1 : i + l.length ≤ b.bf.length) (h2 : i + l.length ≤ b.ni.length) :
    fillLoop (fun q => .ok (wv q)) el l i b = (.ok (),
      ⟨b.bf.take i ++ l.map (wt wv el) ++ b.bf.drop (i + l.length),
       b.ni.take i ++ l.map Interp.node ++ b.ni.drop (i + l.length)⟩) := by
  induction l generalizing i b with
  | nil => simp [fillLoop]
  | cons q qs ih =>
    simp only [List.length_cons] at h1 h2
    have hw : (if q.element = el then (.ok (wv q) : Res K) else .ok 0) = .ok (wt wv el q) := by
      unfold wt; split <;> rfl
    have s1 := vset_nat b.bf i (wt wv el q) (by omega)
    have s2 := vset_nat b.ni i q.node (by omega)
    simp only [fillLoop, hw, s1, s2]
    rw [ih]
    · have e1 : i + 1 + qs.length = i + (qs.length + 1) := by omega
      simp only [List.length_cons, List.map_cons]
      rw [List.take_succ_eq_append_getElem (by simp; omega), List.take_succ_eq_append_getElem (by simp; omega), e1]
      simp only [List.getElem_set_self, List.take_set_of_le (le_refl i)]
      rw [List.drop_set_of_lt (by omega), List.drop_set_of_lt (by omega)]
      simp
    · simp; omega
    · simp; omega

omit [FloorRing K] [LinearOrder K] [IsStrictOrderedRing K] in
theorem sumLoop_of (data : List K) (b : Buf K) (k i : Nat) (acc : K) (h1 : i + k ≤ b.bf.length) (h2 : i + k ≤ b.ni.length)
    (h3 : ∀ x ∈ b.ni, x < data.length) :
    PField.sumLoop data b k i acc = .ok (acc + (((b.bf.drop i).take k).zipWith
      (fun w x => w * data.getD x 0) ((b.ni.drop i).take k)).sum) := by
  induction k generalizing i acc with
  | zero => simp [PField.sumLoop]
  | succ k ih =>
    have hb := vget_nat b.bf i (by omega)
    have hn := vget_nat b.ni i (by omega)
    have hx : b.ni[i] < data.length := h3 _ (List.getElem_mem _)
    have hd := vget_nat data b.ni[i] hx
    simp only [PField.sumLoop, hb, hn, hd, ok_bind]
    rw [ih (i + 1) _ (by omega) (by omega)]
    rw [List.drop_eq_getElem_cons (show i < b.bf.length by omega),
      List.drop_eq_getElem_cons (show i < b.ni.length by omega)]
    simp only [List.take_succ_cons, List.zipWith_cons_cons, List.sum_cons]
    rw [add_assoc]
    congr 3
    simp [hx]

end Mesh
end Verif
