import Verif.Props.Field3D

/-!
# Property C29: points inside the binned region but outside every cell
-/

namespace Verif
open Spec Bin Mesh PField Body

section
variable {K : Type} [Field K] [LinearOrder K] [FloorRing K] [IsStrictOrderedRing K]
variable {d n : Nat} {E : ElemOps K d} {unit : Fin n → Fin d → K} {R : (a h c : Fin d → K) → Prop}
variable {pts : List (Fin d → K)} {cells : List (List Nat)} {lo hi : Fin d → K} {qs : List (Interp K d)}

/-- The point is in the region `R` of some cell (the cell itself, or what its range tests accept). -/
def CoveredBy (R : (a h c : Fin d → K) → Prop) (unit : Fin n → Fin d → K) (pts : List (Fin d → K)) (cells : List (List Nat)) (c : Fin d → K) : Prop :=
  ∃ cell ∈ cells, ∃ a h, CellAt unit pts cell a h ∧ R a h c

/-- At a point in the region of no cell the search finds nothing. -/
theorem none_found (L : ElemLaw E unit R) {m : Mesh K d} (hb : Built E unit pts cells lo hi qs m) {c : Fin d → K}
    (hc : ¬ CoveredBy R unit pts cells c) (k : List Int) : firstInRange E c (inBin pts lo hi qs k) = none := by
  cases h : firstInRange E c (inBin pts lo hi qs k) with
  | none => rfl
  | some q =>
    exfalso
    obtain ⟨h1, h2⟩ := firstInRange_some h
    obtain ⟨e, cell, a, hh, he, hce, j, hj⟩ := hb.ints.mem q (List.mem_of_mem_filter h1)
    exact hc ⟨cell, List.mem_of_getElem? he, a, hh, hce, L.range_sub _ _ _ _ _ _ hce.2.1 (hj ▸ h2)⟩

/-- At such a point the buffers are left as they are. -/
theorem fill_uncovered (L : ElemLaw E unit R) {m : Mesh K d} (hb : Built E unit pts cells lo hi qs m) {np : Nat} {b : Buf K}
    (hbuf : BufOk pts lo hi qs np b) (w : Interp K d → K) {c : Fin d → K} (hi' : InBins pts c)
    (hc : ¬ CoveredBy R unit pts cells c) :
    ∃ s m', fill E (fun q => .ok (w q)) m c b = (.ok s, m', b) ∧ Built E unit pts cells lo hi qs m' ∧
      s = (inBin pts lo hi qs (binAt pts lo hi c)).length := by
  obtain ⟨m', h1, h2, _⟩ := fill_in hb hbuf w hi'
  refine ⟨_, m', ?_, h2, rfl⟩
  rw [h1]
  simp [Mesh.after, none_found L hb hc]

theorem gradAt_uncovered (L : ElemLaw E unit R) (T : ElemTotal E) {m : Mesh K d} (hb : Built E unit pts cells lo hi qs m) {f : PField K}
    (hf : FOk pts lo hi qs f) {c : Fin d → K} (hi' : InBins pts c) (hc : ¬ CoveredBy R unit pts cells c) (di : Fin d) :
    ∃ v m' f', gradAt E m f c di = (.ok v, m', f') ∧ StOk E unit pts cells lo hi qs f m m' f' ∧
      f'.buf = f.buf := by
  obtain ⟨g, hg⟩ := T.grad c di
  obtain ⟨v, m', f', h1, h2, _, _, _, _, h3⟩ := gradAt_comp L hb hf hi' di hg
  exact ⟨v, m', f', h1, h2, by rw [h3]; simp [Mesh.after, none_found L hb hc]⟩

theorem hessAt_uncovered (L : ElemLaw E unit R) (T : ElemTotal E) {m : Mesh K d} (hb : Built E unit pts cells lo hi qs m) {f : PField K}
    (hf : FOk pts lo hi qs f) {c : Fin d → K} (hi' : InBins pts c) (hc : ¬ CoveredBy R unit pts cells c) (di dj : Fin d) :
    ∃ v m' f', hessAt E m f c di dj = (.ok v, m', f') ∧ StOk E unit pts cells lo hi qs f m m' f' ∧
      f'.buf = f.buf := by
  obtain ⟨g, hg⟩ := T.hess c di dj
  obtain ⟨v, m', f', h1, h2, _, _, _, _, h3⟩ := hessAt_comp L hb hf hi' di dj hg
  exact ⟨v, m', f', h1, h2, by rw [h3]; simp [Mesh.after, none_found L hb hc]⟩

theorem value_uncovered (L : ElemLaw E unit R) (T : ElemTotal E) {m : Mesh K d} (hb : Built E unit pts cells lo hi qs m) {f : PField K}
    (hf : FOk pts lo hi qs f) {c : Fin d → K} (hi' : InBins pts c) (hc : ¬ CoveredBy R unit pts cells c) :
    ∃ v m' f', PField.value E m f c = (.ok v, m', f') ∧ f'.buf = f.buf ∧
      sumLoop f.data f.buf (inBin pts lo hi qs (binAt pts lo hi c)).length 0 f.zero = .ok v := by
  obtain ⟨g, hg⟩ := T.value c
  obtain ⟨s, m', h1, h2, h3⟩ := fill_uncovered L hb hf.buf g hi' hc
  have hk := hb.inBox hi'
  have hs := sumLoop_of f.data f.buf (inBin pts lo hi qs (binAt pts lo hi c)).length 0 f.zero
    (by have := hf.buf.bf _ hk; omega) (by have := hf.buf.ni _ hk; omega) (by rw [hf.data_len]; exact hf.buf.idx)
  generalize f.zero + _ = v at hs
  refine ⟨v, m', { f with val := some v }, ?_, rfl, hs⟩
  simp only [PField.value, basisFunctions, hg, h1, h3, hs]

theorem evalGradLoop_uncovered (L : ElemLaw E unit R) (T : ElemTotal E) {c : Fin d → K} (hi' : InBins pts c) (hc : ¬ CoveredBy R unit pts cells c) (ds : List Nat)
    (hds : ∀ x ∈ ds, x < d) {m : Mesh K d} (hb : Built E unit pts cells lo hi qs m) {f : PField K}
    (hf : FOk pts lo hi qs f) : (evalGradLoop E c ds m f).2.2.buf = f.buf := by
  induction ds generalizing m f with
  | nil => rfl
  | cons x xs ih =>
    obtain ⟨v, m1, f1, h1, h2, h3⟩ := gradAt_uncovered L T hb hf hi' hc ⟨x, hds x (by simp)⟩
    have h1' : gradAt E m f c x = (.ok v, m1, f1) := h1
    simp only [evalGradLoop, h1']
    rw [ih (fun y hy => hds y (by simp [hy])) h2.1 h2.2.2.1, h3]

theorem evalHessLoop_uncovered (L : ElemLaw E unit R) (T : ElemTotal E) {c : Fin d → K} (hi' : InBins pts c) (hc : ¬ CoveredBy R unit pts cells c) (ds : List (Nat × Nat))
    (hds : ∀ x ∈ ds, x.1 < d ∧ x.2 < d) {m : Mesh K d} (hb : Built E unit pts cells lo hi qs m) {f : PField K}
    (hf : FOk pts lo hi qs f) : (evalHessLoop E c ds m f).2.2.buf = f.buf := by
  induction ds generalizing m f with
  | nil => rfl
  | cons x xs ih =>
    have hx := hds x (by simp)
    obtain ⟨v, m1, f1, h1, h2, h3⟩ := hessAt_uncovered L T hb hf hi' hc ⟨x.1, hx.1⟩ ⟨x.2, hx.2⟩
    have h1' : hessAt E m f c x.1 x.2 = (.ok v, m1, f1) := h1
    simp only [evalHessLoop, h1']
    rw [ih (fun y hy => hds y (by simp [hy])) h2.1 h2.2.2.1, h3]

theorem callField_uncovered (L : ElemLaw E unit R) (T : ElemTotal E) {m : Mesh K d} (hb : Built E unit pts cells lo hi qs m) {f : PField K}
    (hf : FOk pts lo hi qs f) (op : Body.Call K d) (hop : InBins pts op.coord) (hc : ¬ CoveredBy R unit pts cells op.coord) :
    (callField E m f op).2.2.buf = f.buf := by
  cases op with
  | value c =>
    obtain ⟨v, m', f', h1, h2, _⟩ := value_uncovered L T hb hf (c := c) hop hc
    simp only [callField, h1, h2]
  | grad c di =>
    obtain ⟨v, m', f', h1, _, h2⟩ := gradAt_uncovered L T hb hf (c := c) hop hc di
    simp only [callField, h1, h2]
  | hess c di dj =>
    obtain ⟨v, m', f', h1, _, h2⟩ := hessAt_uncovered L T hb hf (c := c) hop hc di dj
    simp only [callField, h1, h2]
  | evalGrad c => exact evalGradLoop_uncovered L T (c := c) hop hc _ (range_lt d) hb hf
  | evalHess c => exact evalHessLoop_uncovered L T (c := c) hop hc _ (pairs_lt d) hb hf

/-- Weights of field `i` stay zero while it is only evaluated at uncovered points. -/
theorem calls_zero (L : ElemLaw E unit R) (T : ElemTotal E) {flds : List (String × List K)} {i : Nat} (ops : List (Nat × Body.Call K d)) (ho : HistOk pts ops)
    (hun : ∀ o ∈ ops, o.1 = i → ¬ CoveredBy R unit pts cells o.2.coord) {b : Body K d}
    (hb : BOk E unit pts cells lo hi qs flds b)
    (hz : ∀ f, b.fields[i]? = some f → ∀ x ∈ f.buf.bf, x = 0) :
    ∀ f, (b.calls E ops).fields[i]? = some f → ∀ x ∈ f.buf.bf, x = 0 := by
  induction ops generalizing b with
  | nil => exact hz
  | cons o os ih =>
    obtain ⟨k, op⟩ := o
    have hop := ho (k, op) (by simp)
    refine ih (fun x hx => ho x (by simp [hx])) (fun x hx => hun x (by simp [hx])) (call_ok L T hb k op hop) ?_
    intro f hf
    unfold call at hf
    cases hk : b.fields[k]? with
    | none => rw [hk] at hf; exact hz f hf
    | some g =>
      simp only [hk] at hf
      by_cases e : k = i
      · subst e
        have hlt := (List.getElem?_eq_some_iff.mp hk).1
        simp only [List.getElem?_set_self hlt, Option.some.injEq] at hf
        have hlen := hb.fields.length_eq
        obtain ⟨g', hg', hok⟩ := field_at hb (i := k) (by omega)
        rw [hk] at hg'; cases hg'
        have hbuf : f.buf = g.buf := by
          rw [← hf]
          rcases hop with hop | hop
          · exact callField_uncovered L T hb.mesh hok op hop (hun (k, op) (by simp) rfl)
          · obtain ⟨r, m', f', h1, _, _, h4⟩ := callField_ok L T hb.mesh hok op (Or.inr hop)
            rw [h1]; simp only; rw [(h4 hop).2]
        rw [hbuf]
        exact hz g hk
      · rw [List.getElem?_set_ne e] at hf
        exact hz f hf

theorem addFields_zero {d : Nat} (flds : List (String × List K)) (b b' : Body K d) (h : Body.addFields b flds = .ok b')
    (hz : ∀ f ∈ b.fields, ∀ x ∈ f.buf.bf, x = (0 : K)) : ∀ f ∈ b'.fields, ∀ x ∈ f.buf.bf, x = (0 : K) := by
  induction flds generalizing b with
  | nil => simp only [addFields, Except.ok.injEq] at h; subst h; exact hz
  | cons fl fls ih =>
    simp only [addFields, addField, PField.make] at h
    cases hm : b.mesh.bin.maxSize with
    | error e => rw [hm] at h; simp [bind, Except.bind] at h
    | ok mx =>
      rw [hm] at h
      simp only [ok_bind] at h
      refine ih _ h ?_
      intro f hf
      simp only [List.mem_append, List.mem_singleton] at hf
      rcases hf with hf | rfl
      · exact hz f hf
      · intro x hx
        exact (List.mem_replicate.mp hx).2

theorem load_zero {d : Nat} {E : ElemOps K d} {pts : List (Fin d → K)} {cells : List (List Nat)} {flds : List (String × List K)}
    {b : Body K d} (h : Body.load E pts cells flds = .ok b) : ∀ f ∈ b.fields, ∀ x ∈ f.buf.bf, x = (0 : K) := by
  unfold Body.load at h
  cases hm : Mesh.build E pts cells with
  | error e => rw [hm] at h; simp [bind, Except.bind] at h
  | ok m =>
    rw [hm] at h
    simp only [ok_bind] at h
    exact addFields_zero flds _ _ h (by simp)

/-- The buffers of a field never evaluated in a cell: every kind of evaluation at a point in the region of no cell gives 0. -/
theorem fresh_zero {d n : Nat} {E : ElemOps K d} {unit : Fin n → Fin d → K} {R : (a h c : Fin d → K) → Prop} (L : ElemLaw E unit R) (T : ElemTotal E)
    {pts : List (Fin d → K)} {cells : List (List Nat)} {lo hi' : Fin d → K} {qs : List (Interp K d)} {flds : List (String × List K)} {b : Body K d}
    (hb : Body.load E pts cells flds = .ok b) (h2 : BOk E unit pts cells lo hi' qs flds b) (i : Nat) (hi : i < flds.length)
    (ops : List (Nat × Body.Call K d)) (ho : HistOk pts ops) (hun : ∀ o ∈ ops, o.1 = i → ¬ CoveredBy R unit pts cells o.2.coord)
    (c : Fin d → K) (hc : InBins pts c) (hcv : ¬ CoveredBy R unit pts cells c) :
    (b.calls E ops).value E i c = .ok 0 ∧ (∀ di : Fin d, (b.calls E ops).grad E i c di = .ok 0) ∧
      ∀ di dj : Fin d, (b.calls E ops).hess E i c di dj = .ok 0 := by
  have hz := calls_zero L T (i := i) ops ho hun h2 (fun f hf => load_zero hb f (List.mem_of_getElem? hf))
  have h3 := calls_ok L T h2 ops ho
  obtain ⟨f, g1, _, _, g2, g3⟩ := loaded_field h3 (i := i) (name := flds[i].1) (data := flds[i].2) (List.getElem?_eq_getElem hi)
  have hk := h3.mesh.inBox hc
  have hsl := sumLoop_of f.data f.buf (inBin pts lo hi' qs (binAt pts lo hi' c)).length 0 f.zero (by have := g3.buf.bf _ hk; omega)
    (by have := g3.buf.ni _ hk; omega) (by rw [g3.data_len]; exact g3.buf.idx)
  have hsum : (((f.buf.bf.drop 0).take (inBin pts lo hi' qs (binAt pts lo hi' c)).length).zipWith (fun w x => w * f.data.getD x 0)
      ((f.buf.ni.drop 0).take (inBin pts lo hi' qs (binAt pts lo hi' c)).length)).sum = 0 := by
    apply List.sum_eq_zero
    intro x hx
    rw [List.zipWith_eq_zipWith_take_min, List.mem_iff_getElem] at hx
    obtain ⟨j, hj, rfl⟩ := hx
    rw [List.getElem_zipWith]
    rw [hz f g1 _ (List.mem_of_mem_drop (i := 0) (List.mem_of_mem_take (List.mem_of_mem_take (List.getElem_mem _)))), zero_mul]
  rw [hsum, g2, zero_add] at hsl
  have hcomp : ∀ g, comp E pts lo hi' qs f.data f.zero c g f.buf = .ok 0 := by
    intro g
    simp only [comp, Mesh.after, none_found L h3.mesh hcv, g2]
    exact hsl
  refine ⟨?_, fun di => ?_, fun di dj => ?_⟩
  · obtain ⟨v, m', f', k1, _, k2⟩ := value_uncovered L T h3.mesh g3 hc hcv
    rw [g2, hsl] at k2
    simp only [Body.value, g1, k1, ← k2]
  · obtain ⟨g, hg⟩ := T.grad c di
    obtain ⟨v, m', f', k1, _, _, _, _, k2, _⟩ := gradAt_comp L h3.mesh g3 hc di hg
    rw [hcomp] at k2
    simp only [Body.grad, g1, k1, ← k2]
  · obtain ⟨g, hg⟩ := T.hess c di dj
    obtain ⟨v, m', f', k1, _, _, _, _, k2, _⟩ := hessAt_comp L h3.mesh g3 hc di dj hg
    rw [hcomp] at k2
    simp only [Body.hess, g1, k1, ← k2]

/-- **C29** (true part) If a field has so far been evaluated only at points in no cell (or not at all), evaluating it at a point of
the binned region that lies in no cell returns 0: value, gradient and Hessian. Missing: after an evaluation inside a cell, the result is
whatever the old weights give (`C29_stale_violated`). -/
theorem C29_fresh_zero_partial (pts : List (Fin 2 → K)) (cells : List (List Nat)) (flds : List (String × List K))
    (hm : RectMesh quadUnit pts cells) (hl : ∀ fl ∈ flds, fl.2.length = pts.length) (b : Body K 2)
    (hb : Body.load (quadOps K) pts cells flds = .ok b) (i : Nat) (hi : i < flds.length) (ops : List (Nat × Body.Call K 2))
    (ho : HistOk pts ops) (hun : ∀ o ∈ ops, o.1 = i → ¬ Covered quadUnit pts cells o.2.coord) (c : Fin 2 → K)
    (hc : InBins pts c) (hcv : ¬ Covered quadUnit pts cells c) :
    (b.calls (quadOps K) ops).value (quadOps K) i c = .ok 0 ∧
      (∀ di : Fin 2, (b.calls (quadOps K) ops).grad (quadOps K) i c di = .ok 0) ∧
      ∀ di dj : Fin 2, (b.calls (quadOps K) ops).hess (quadOps K) i c di dj = .ok 0 := by
  obtain ⟨b0, lo, hi', qs, h1, h2⟩ := load_ok quadLaw hm hl
  rw [hb] at h1; cases h1
  exact fresh_zero quadLaw quadTotal hb h2 i hi ops ho hun c hc hcv

/-- **C29** (3D, true part) The same for points over or under no cell. -/
theorem C29_fresh_zero_3d_partial (pts : List (Fin 3 → K)) (cells : List (List Nat)) (flds : List (String × List K))
    (hm : RectMesh hexUnit pts cells) (hl : ∀ fl ∈ flds, fl.2.length = pts.length) (b : Body K 3)
    (hb : Body.load (hexOps K) pts cells flds = .ok b) (i : Nat) (hi : i < flds.length) (ops : List (Nat × Body.Call K 3))
    (ho : HistOk pts ops)
    (hun : ∀ o ∈ ops, o.1 = i → ¬ ∃ cell ∈ cells, ∃ a h, CellAt hexUnit pts cell a h ∧
      (a 0 ≤ o.2.coord 0 ∧ o.2.coord 0 ≤ a 0 + h 0) ∧ (a 1 ≤ o.2.coord 1 ∧ o.2.coord 1 ≤ a 1 + h 1)) (c : Fin 3 → K)
    (hc : InBins pts c) (hcv : ¬ ∃ cell ∈ cells, ∃ a h, CellAt hexUnit pts cell a h ∧ (a 0 ≤ c 0 ∧ c 0 ≤ a 0 + h 0) ∧ (a 1 ≤ c 1 ∧ c 1 ≤ a 1 + h 1)) :
    (b.calls (hexOps K) ops).value (hexOps K) i c = .ok 0 ∧
      (∀ di : Fin 3, (b.calls (hexOps K) ops).grad (hexOps K) i c di = .ok 0) ∧
      ∀ di dj : Fin 3, (b.calls (hexOps K) ops).hess (hexOps K) i c di dj = .ok 0 := by
  obtain ⟨b0, lo, hi', qs, h1, h2⟩ := load_ok hexLaw hm hl
  rw [hb] at h1; cases h1
  exact fresh_zero hexLaw hexTotal hb h2 i hi ops ho hun c hc hcv

end

/-- **C29, violation** On the demo mesh the point `(3.5, 0.5)` is in the binned region and in no cell. Evaluated first, the field
returns 0 there; after an evaluation at the node `(3, 0)` (whose data value is 3) it returns 3. -/
theorem C29_stale_violated :
    ∃ b, Body.load (quadOps ℚ) Demo.pts Demo.cells Demo.flds = .ok b ∧ RectMesh quadUnit Demo.pts Demo.cells ∧
      InBins Demo.pts ![7 / 2, 1 / 2] ∧ ¬ Covered quadUnit Demo.pts Demo.cells ![7 / 2, 1 / 2] ∧
      HistOk Demo.pts [(0, .value ![3, 0])] ∧
      b.value (quadOps ℚ) 0 ![7 / 2, 1 / 2] = .ok 0 ∧
      (b.calls (quadOps ℚ) [(0, .value ![3, 0])]).value (quadOps ℚ) 0 ![7 / 2, 1 / 2] = .ok 3 := by
  obtain ⟨b, hb, _⟩ := C22_load_2d Demo.pts Demo.cells Demo.flds Demo.rect Demo.lens
  have r1 : (Body.load (quadOps ℚ) Demo.pts Demo.cells Demo.flds >>= fun b => b.value (quadOps ℚ) 0 ![7 / 2, 1 / 2]) = .ok 0 := by
    decide +kernel
  have r2 : (Body.load (quadOps ℚ) Demo.pts Demo.cells Demo.flds >>= fun b =>
      (b.calls (quadOps ℚ) [(0, .value ![3, 0])]).value (quadOps ℚ) 0 ![7 / 2, 1 / 2]) = .ok 3 := by
    decide +kernel
  rw [hb] at r1 r2
  refine ⟨b, hb, Demo.rect, Demo.inBins _ (by simp; norm_num), ?_, ?_, r1, r2⟩
  · rintro ⟨cell, hc, a, h, hah, hin⟩
    simp only [Demo.cells, List.mem_cons, List.not_mem_nil, or_false] at hc
    have h0 := (hin 0).2
    rcases hc with rfl | rfl
    · obtain ⟨rfl, rfl⟩ := Mesh.cellAt_unique quadLaw hah Demo.cell0
      revert h0; decide +kernel
    · obtain ⟨rfl, rfl⟩ := Mesh.cellAt_unique quadLaw hah Demo.cell1
      revert h0; decide +kernel
  · intro o ho
    rw [List.mem_singleton.mp ho]
    exact Or.inl (Demo.inBins _ (by simp [Body.Call.coord]; norm_num))

/-- The 3D hypotheses can be met: beside the two stacked cubes, in the margin of the bins. -/
example : InBins Demo3.pts ![5 / 4, 1 / 2, 1] ∧ ¬ ∃ cell ∈ Demo3.cells, ∃ a h, CellAt hexUnit Demo3.pts cell a h ∧
    (a 0 ≤ (![5 / 4, 1 / 2, 1] : Fin 3 → ℚ) 0 ∧ (![5 / 4, 1 / 2, 1] : Fin 3 → ℚ) 0 ≤ a 0 + h 0) ∧
    (a 1 ≤ (![5 / 4, 1 / 2, 1] : Fin 3 → ℚ) 1 ∧ (![5 / 4, 1 / 2, 1] : Fin 3 → ℚ) 1 ≤ a 1 + h 1) := by
  constructor
  · have low : ∀ i, IsLow Demo3.pts i (0 : ℚ) := by
      intro i
      fin_cases i <;> exact ⟨⟨![0, 0, 0], by simp [Demo3.pts], by simp⟩, by simp [Demo3.pts]⟩
    have high : ∀ i, IsHigh Demo3.pts i (![1, 1, 2] i : ℚ) := by
      intro i
      fin_cases i <;> exact ⟨⟨![1, 1, 2], by simp [Demo3.pts], by simp⟩, by simp [Demo3.pts]⟩
    have nd : nDistinct Demo3.pts 0 = 2 ∧ nDistinct Demo3.pts 1 = 2 ∧ nDistinct Demo3.pts 2 = 3 := by
      refine ⟨?_, ?_, ?_⟩ <;> decide +kernel
    intro i lo hi h1 h2
    rw [isLow_unique h1 (low i), isHigh_unique h2 (high i)]
    fin_cases i
    · simp [margin, nd.1]; norm_num
    · simp [margin, nd.2.1]
    · simp [margin, nd.2.2]; norm_num
  · rintro ⟨cell, hc, a, h, hah, ⟨_, h0⟩, _⟩
    simp only [Demo3.cells, List.mem_cons, List.not_mem_nil, or_false] at hc
    rcases hc with rfl | rfl
    · obtain ⟨rfl, rfl⟩ := Mesh.cellAt_unique hexLaw hah Demo3.cell0
      revert h0; decide +kernel
    · obtain ⟨rfl, rfl⟩ := Mesh.cellAt_unique hexLaw hah Demo3.cell1
      revert h0; decide +kernel

end Verif
