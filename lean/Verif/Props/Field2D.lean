import Verif.Props.Interp
import Verif.Lemmas.Field

/-!
# Properties C22-C27, C30-C34, C37: 2D meshes and fields

`Body.load` is reading a file (its numbers); `Body.calls` is a history of evaluations on any fields of the body, at any coordinate
inside the half-open binned region or outside the closed one (`HistOk`); `Body.value`, `Body.grad`, `Body.hess` are the outcomes
of the next call. Specification: `Spec/Mesh.lean`, `Spec/Cell.lean`.
-/

namespace Verif
open Spec Bin Mesh PField Body
variable {K : Type} [Field K] [LinearOrder K] [FloorRing K] [IsStrictOrderedRing K]

/-- The calls of a history are at coordinates of the half-open binned region or outside the closed one. -/
def HistOk {d : Nat} (pts : List (Fin d → K)) (ops : List (Nat × Body.Call K d)) : Prop :=
  ∀ o ∈ ops, InBins pts o.2.coord ∨ OutOfBins pts o.2.coord

theorem quadLaw : ElemLaw (quadOps K) quadUnit (InCell (K := K)) where
  dpos := by decide
  npos := by decide
  corners := rfl
  far := by show 2 < 4; decide
  unit_far _ := by funext i; fin_cases i <;> simp [quadOps, quadUnit]
  unit_zero _ := by funext i; fin_cases i <;> simp [quadUnit]
  node _ _ _ _ _ := rfl
  element _ _ _ _ _ := rfl
  min_eq nd el a h j := ((C20_bounding_box nd el).1 a h j).1
  max_eq nd el a h j := ((C20_bounding_box nd el).1 a h j).2
  range_sub nd el a h j c hh hr := (C18_quad_range (fun _ => nd) el a h c hh).mp ⟨j, hr⟩
  range_all a h c hh hc := by
    obtain ⟨j, hj⟩ := (C18_quad_range (fun _ => 0) 0 a h c hh).mpr hc
    exact ⟨j, fun nd el => hj⟩
  range_cov a h c hh hc := by
    obtain ⟨j, hj⟩ := (C18_quad_range (fun _ => 0) 0 a h c hh).mpr hc
    exact ⟨j, fun nd el => hj⟩

theorem quadTotal : ElemTotal (quadOps K) where
  value c := ⟨fun q => quadF c q.n q.h q.s, rfl⟩
  grad c di := by
    fin_cases di
    · exact ⟨fun q => -q.s 0 * (1 - q.s 1 * (c 1 - q.n 1) / q.h 1) / q.h 0, rfl⟩
    · exact ⟨fun q => -q.s 1 * (1 - q.s 0 * (c 0 - q.n 0) / q.h 0) / q.h 1, rfl⟩
  hess c di dj := by
    fin_cases di <;> fin_cases dj
    · exact ⟨fun _ => 0, rfl⟩
    · exact ⟨fun q => q.s 0 * q.s 1 / q.h 0 / q.h 1, rfl⟩
    · exact ⟨fun q => q.s 0 * q.s 1 / q.h 0 / q.h 1, rfl⟩
    · exact ⟨fun _ => 0, rfl⟩

/-- **C22** A legal 2D mesh is built without error, and at every point of every cell the bin holds the cell's interpolators. -/
theorem C22_build_2d (pts : List (Fin 2 → K)) (cells : List (List Nat)) (hm : RectMesh quadUnit pts cells) :
    ∃ m, Mesh.build (quadOps K) pts cells = .ok m ∧
      ∀ e cell a h, cells[e]? = some cell → CellAt quadUnit pts cell a h → ∀ c, InCell a h c →
        ∃ content, (m.bin.contents (List.ofFn c)).1 = .ok content ∧
          ∀ (j : Fin 4) p, cell[(j : Nat)]? = some p → quadAt p e a h j ∈ content := by
  obtain ⟨m, lo, hi, qs, h1, hb⟩ := build_of quadLaw hm
  refine ⟨m, h1, ?_⟩
  intro e cell a h he hc c hic
  have hin := hb.inBins_of_inCell quadLaw hc hic
  obtain ⟨b', e1, _⟩ := contents_in hb.good hb.inv (hb.inGrid hin)
  refine ⟨_, by rw [e1], ?_⟩
  intro j p hp
  have hk := hb.cont _ (hb.inBox hin)
  rw [binAt] at hk
  rw [hk]
  have hf := hb.filter_el quadLaw he hc (binAt pts lo hi c)
  rw [if_pos (hb.between_of_inCell hic)] at hf
  apply List.mem_of_mem_filter (p := fun q => decide (q.element = e))
  show _ ∈ List.filter _ (inBin pts lo hi qs (binAt pts lo hi c))
  rw [hf]
  refine List.mem_ofFn.mpr ⟨j, ?_⟩
  simp [quadAt, hp]

/-- **C22** Loading points, cells and data never fails for a legal mesh with one value per point. -/
theorem C22_load_2d (pts : List (Fin 2 → K)) (cells : List (List Nat)) (flds : List (String × List K))
    (hm : RectMesh quadUnit pts cells) (hl : ∀ fl ∈ flds, fl.2.length = pts.length) :
    ∃ b, Body.load (quadOps K) pts cells flds = .ok b ∧ b.mesh.node = pts ∧
      b.fields.map (fun f => (f.name, f.data)) = flds := by
  obtain ⟨b, lo, hi, qs, h1, h2⟩ := load_ok quadLaw hm hl
  refine ⟨b, h1, h2.mesh.node_eq, ?_⟩
  have h3 := h2.fields
  clear h1 h2 hl hm
  generalize b.fields = fs at h3
  induction h3 with
  | nil => rfl
  | cons hd _ ih => simp [hd.1, hd.2.1, ih]

omit [FloorRing K] [IsStrictOrderedRing K] in
theorem sum_bilinear {a h : Fin 2 → K} (hh : ∀ i, h i ≠ 0) (v : Fin 4 → K) (c : Fin 2 → K) :
    ∑ j : Fin 4, quadF c (cornerPos a h (quadUnit j)) h (quadSign j) * v j = bilinear a h v c := by
  simp only [quadF_corner (hh 0) (hh 1), Fin.sum_univ_four, bilinear, loc]

theorem loaded_field {d n : Nat} {E : ElemOps K d} {unit : Fin n → Fin d → K} {pts : List (Fin d → K)}
    {cells : List (List Nat)} {lo hi : Fin d → K} {qs : List (Interp K d)} {flds : List (String × List K)} {b : Body K d}
    (hb : BOk E unit pts cells lo hi qs flds b) {i : Nat} {name : String} {data : List K}
    (hi' : flds[i]? = some (name, data)) :
    ∃ f, b.fields[i]? = some f ∧ f.name = name ∧ f.data = data ∧ f.zero = 0 ∧ FOk pts lo hi qs f := by
  obtain ⟨hlt, he⟩ := List.getElem?_eq_some_iff.mp hi'
  have hl := hb.fields.length_eq
  have := (List.forall₂_iff_get.mp hb.fields).2 i (by omega) hlt
  simp only [List.get_eq_getElem, he] at this
  exact ⟨_, List.getElem?_eq_getElem (by omega), this⟩

/-- All three kinds of evaluation at a point of the body, through the same cell formula; the cell depends only on the mesh and
the point (lemma behind C23-C32). -/
theorem body_eval {d n : Nat} {E : ElemOps K d} {unit : Fin n → Fin d → K} {R : (a h c : Fin d → K) → Prop}
    (L : ElemLaw E unit R) {pts : List (Fin d → K)}
    {cells : List (List Nat)} {lo hi : Fin d → K} {qs : List (Interp K d)} {m : Mesh K d}
    (hm : Built E unit pts cells lo hi qs m) {c : Fin d → K} (hc : Covered unit pts cells c) :
    ∃ e cell a h, cell ∈ cells ∧ CellAt unit pts cell a h ∧ R a h c ∧
      (Between (binOf (List.ofFn (gMin pts lo hi)) (List.ofFn (gIncr pts lo hi)) (List.ofFn a))
        (binOf (List.ofFn (gMin pts lo hi)) (List.ofFn (gIncr pts lo hi)) (List.ofFn fun i => a i + h i))
        (binAt pts lo hi c) ∧ cells[e]? = some cell ∧ NoneBefore R lo hi unit pts cells c e) ∧
      ∀ (flds : List (String × List K)) (b : Body K d), BOk E unit pts cells lo hi qs flds b →
      ∀ (i : Nat) (name : String) (data : List K), flds[i]? = some (name, data) →
      ∃ v, CornerVals data cell v ∧
      (∀ wv : Interp K d → K, (fun q => E.value q c) = (fun q => .ok (wv q)) →
        b.value E i c = .ok (∑ j : Fin n, wv (E.make (cell.getD j 0) e (cornerPos a h (unit j)) h j) * v j)) ∧
      (∀ (di : Fin d) (wv : Interp K d → K), (fun q => E.grad q c di) = (fun q => .ok (wv q)) →
        b.grad E i c di = .ok (∑ j : Fin n, wv (E.make (cell.getD j 0) e (cornerPos a h (unit j)) h j) * v j)) ∧
      (∀ (di dj : Fin d) (wv : Interp K d → K), (fun q => E.hess q c di dj) = (fun q => .ok (wv q)) →
        b.hess E i c di dj = .ok (∑ j : Fin n, wv (E.make (cell.getD j 0) e (cornerPos a h (unit j)) h j) * v j)) := by
  obtain ⟨e, cell, a, h, g1, g2, g3, g4, g5⟩ := hm.eval_covered L hc
  refine ⟨e, cell, a, h, List.mem_of_getElem? g1, g2, g3, ⟨g4.1, g1, g4.2⟩, ?_⟩
  intro flds b hb i name data hi'
  obtain ⟨f, hf, _, hdat, hz, hok⟩ := loaded_field hb hi'
  obtain ⟨k1, k2⟩ := g5 data (by rw [← hdat]; exact hok.data_len)
  have k3 := k2 b.mesh f.buf hb.mesh hok.buf
  clear g5 k2
  refine ⟨_, k1, ?_, ?_, ?_⟩
  · intro wv hw
    obtain ⟨s, m', b', g6, _, _, _, g10⟩ := k3 wv 0
    simp only [Body.value, hf, PField.value, basisFunctions, hw, g6, hz, hdat, g10, zero_add]
  · intro di wv hw
    obtain ⟨s, m', b', g6, _, _, _, g10⟩ := k3 wv 0
    have hs := vset_nat f.grad di (∑ j : Fin n, wv (E.make (cell.getD j 0) e (cornerPos a h (unit j)) h j) *
      data.getD (cell.getD j 0) 0) (by rw [hok.grad_len]; exact di.isLt)
    simp only [Body.grad, hf, PField.gradAt, gradBasisFunctions, hw, g6, hz, hdat, g10, zero_add, hs]
  · intro di dj wv hw
    obtain ⟨s, m', b', g6, _, _, _, g10⟩ := k3 wv 0
    have hlt : (di : Nat) < f.hess.length := by rw [hok.hess_len]; exact di.isLt
    have hr := vget_nat f.hess di hlt
    have hrl : f.hess[(di : Nat)].length = d := hok.row_len _ (List.getElem_mem _)
    have hs := vset_nat f.hess[(di : Nat)] dj
      (∑ j : Fin n, wv (E.make (cell.getD j 0) e (cornerPos a h (unit j)) h j) * data.getD (cell.getD j 0) 0)
      (by rw [hrl]; exact dj.isLt)
    have hs2 := vset_nat f.hess di (f.hess[(di : Nat)].set dj
      (∑ j : Fin n, wv (E.make (cell.getD j 0) e (cornerPos a h (unit j)) h j) * data.getD (cell.getD j 0) 0)) hlt
    simp only [Body.hess, hf, PField.hessAt, hessBasisFunctions, hw, g6, hz, hdat, g10, zero_add, hr, hs, hs2, ok_bind]

/-- The three evaluations of a 2D field at a point of the body: the interpolant of one cell containing the point and the
formulas of its derivatives; the cell depends only on the mesh and the point, and
no cell listed before it contains the point. -/
theorem quad_eval_first (pts : List (Fin 2 → K)) (cells : List (List Nat)) (flds : List (String × List K))
    (hm : RectMesh quadUnit pts cells) (hl : ∀ fl ∈ flds, fl.2.length = pts.length) (b : Body K 2)
    (hb : Body.load (quadOps K) pts cells flds = .ok b) (c : Fin 2 → K) (hc : Covered quadUnit pts cells c) :
    ∃ e cell a h, cells[e]? = some cell ∧ CellAt quadUnit pts cell a h ∧ InCell a h c ∧
      (∀ (e' : Nat) cell a h, cells[e']? = some cell → CellAt quadUnit pts cell a h → InCell a h c → e ≤ e') ∧
      ∀ (ops : List (Nat × Body.Call K 2)), HistOk pts ops →
      ∀ (i : Nat) (name : String) (data : List K), flds[i]? = some (name, data) →
      ∃ v, CornerVals data cell v ∧
      (b.calls (quadOps K) ops).value (quadOps K) i c = .ok (bilinear a h v c) ∧
      (b.calls (quadOps K) ops).grad (quadOps K) i c 0 =
        .ok (((v 1 - v 0) * (1 - (c 1 - a 1) / h 1) + (v 2 - v 3) * ((c 1 - a 1) / h 1)) / h 0) ∧
      (b.calls (quadOps K) ops).grad (quadOps K) i c 1 =
        .ok (((v 3 - v 0) * (1 - (c 0 - a 0) / h 0) + (v 2 - v 1) * ((c 0 - a 0) / h 0)) / h 1) ∧
      (∀ di : Fin 2, (b.calls (quadOps K) ops).hess (quadOps K) i c di di = .ok 0) ∧
      (b.calls (quadOps K) ops).hess (quadOps K) i c 0 1 = .ok ((v 0 - v 1 + v 2 - v 3) / (h 0 * h 1)) ∧
      (b.calls (quadOps K) ops).hess (quadOps K) i c 1 0 = .ok ((v 0 - v 1 + v 2 - v 3) / (h 0 * h 1)) := by
  obtain ⟨b0, lo, hi', qs, h1, h2⟩ := load_ok quadLaw hm hl
  rw [hb] at h1; cases h1
  obtain ⟨e, cell, a, h, g1, g2, g3, ⟨_, g1', g4⟩, g5⟩ := body_eval quadLaw h2.mesh hc
  refine ⟨e, cell, a, h, g1', g2, g3, fun e' x a h k1 k2 k3 => g4 e' x a h k1 k2 k3 (h2.mesh.between_of_inCell k3), ?_⟩
  intro ops ho i name data hi
  obtain ⟨v, gv, k1, k2, k3⟩ := g5 flds _ (calls_ok quadLaw quadTotal h2 ops ho) i name data hi
  have n0 := (g2.2.1 0).ne'
  have n1 := (g2.2.1 1).ne'
  refine ⟨v, gv, ?_, ?_, ?_, ?_, ?_, ?_⟩
  · rw [k1 (fun q => quadF c q.n q.h q.s) rfl, ← sum_bilinear fun i => (g2.2.1 i).ne']
    rfl
  · refine (k2 0 (fun q => -q.s 0 * (1 - q.s 1 * (c 1 - q.n 1) / q.h 1) / q.h 0) rfl).trans ?_
    congr 1
    simp only [Fin.sum_univ_four]
    simp [quadOps, mkQuad, cornerPos, quadUnit, quadSign]
    field_simp
    ring
  · refine (k2 1 (fun q => -q.s 1 * (1 - q.s 0 * (c 0 - q.n 0) / q.h 0) / q.h 1) rfl).trans ?_
    congr 1
    simp only [Fin.sum_univ_four]
    simp [quadOps, mkQuad, cornerPos, quadUnit, quadSign]
    field_simp
    ring
  · intro di
    refine (k3 di di (fun q => 0) (by fin_cases di <;> rfl)).trans ?_
    simp
  · refine (k3 0 1 (fun q => q.s 0 * q.s 1 / q.h 0 / q.h 1) rfl).trans ?_
    congr 1
    simp only [Fin.sum_univ_four]
    simp [quadOps, mkQuad, cornerPos, quadUnit, quadSign]
    field_simp
    ring
  · refine (k3 1 0 (fun q => q.s 0 * q.s 1 / q.h 0 / q.h 1) rfl).trans ?_
    congr 1
    simp only [Fin.sum_univ_four]
    simp [quadOps, mkQuad, cornerPos, quadUnit, quadSign]
    field_simp
    ring

/-- The three evaluations of a 2D field at a point of the body: the interpolant of one cell containing the point and the
formulas of its derivatives; the cell depends only on the mesh and the point. -/
theorem quad_eval (pts : List (Fin 2 → K)) (cells : List (List Nat)) (flds : List (String × List K))
    (hm : RectMesh quadUnit pts cells) (hl : ∀ fl ∈ flds, fl.2.length = pts.length) (b : Body K 2)
    (hb : Body.load (quadOps K) pts cells flds = .ok b) (c : Fin 2 → K) (hc : Covered quadUnit pts cells c) :
    ∃ cell a h, cell ∈ cells ∧ CellAt quadUnit pts cell a h ∧ InCell a h c ∧
      ∀ (ops : List (Nat × Body.Call K 2)), HistOk pts ops →
      ∀ (i : Nat) (name : String) (data : List K), flds[i]? = some (name, data) →
      ∃ v, CornerVals data cell v ∧
      (b.calls (quadOps K) ops).value (quadOps K) i c = .ok (bilinear a h v c) ∧
      (b.calls (quadOps K) ops).grad (quadOps K) i c 0 =
        .ok (((v 1 - v 0) * (1 - (c 1 - a 1) / h 1) + (v 2 - v 3) * ((c 1 - a 1) / h 1)) / h 0) ∧
      (b.calls (quadOps K) ops).grad (quadOps K) i c 1 =
        .ok (((v 3 - v 0) * (1 - (c 0 - a 0) / h 0) + (v 2 - v 1) * ((c 0 - a 0) / h 0)) / h 1) ∧
      (∀ di : Fin 2, (b.calls (quadOps K) ops).hess (quadOps K) i c di di = .ok 0) ∧
      (b.calls (quadOps K) ops).hess (quadOps K) i c 0 1 = .ok ((v 0 - v 1 + v 2 - v 3) / (h 0 * h 1)) ∧
      (b.calls (quadOps K) ops).hess (quadOps K) i c 1 0 = .ok ((v 0 - v 1 + v 2 - v 3) / (h 0 * h 1)) := by
  obtain ⟨e, cell, a, h, g1, g2, g3, _, g4⟩ := quad_eval_first pts cells flds hm hl b hb c hc
  exact ⟨cell, a, h, List.mem_of_getElem? g1, g2, g3, g4⟩

/-- **C23** At any point of the body a field's value is the bilinear interpolant of a cell containing the point; the cell is the
same for every field and after every history. -/
theorem C23_bilinear (pts : List (Fin 2 → K)) (cells : List (List Nat)) (flds : List (String × List K))
    (hm : RectMesh quadUnit pts cells) (hl : ∀ fl ∈ flds, fl.2.length = pts.length) (b : Body K 2)
    (hb : Body.load (quadOps K) pts cells flds = .ok b) (c : Fin 2 → K) (hc : Covered quadUnit pts cells c) :
    ∃ cell a h, cell ∈ cells ∧ CellAt quadUnit pts cell a h ∧ InCell a h c ∧
      ∀ (ops : List (Nat × Body.Call K 2)), HistOk pts ops →
      ∀ (i : Nat) (name : String) (data : List K), flds[i]? = some (name, data) →
      ∃ v, CornerVals data cell v ∧ (b.calls (quadOps K) ops).value (quadOps K) i c = .ok (bilinear a h v c) := by
  obtain ⟨cell, a, h, g1, g2, g3, g4⟩ := quad_eval pts cells flds hm hl b hb c hc
  refine ⟨cell, a, h, g1, g2, g3, ?_⟩
  intro ops ho i name data hi
  obtain ⟨v, k1, k2, _⟩ := g4 ops ho i name data hi
  exact ⟨v, k1, k2⟩

/-- The corner value of the bilinear interpolant. -/
theorem bilinear_corner {a h : Fin 2 → K} (hh : ∀ i, h i ≠ 0) (v : Fin 4 → K) (j : Fin 4) :
    bilinear a h v (cornerPos a h (quadUnit j)) = v j := by
  have h0 := hh 0
  have h1 := hh 1
  fin_cases j <;> simp [bilinear, cornerPos, quadUnit, h0, h1]

/-- Four samples of a bilinear polynomial are interpolated by it, at every point. -/
theorem bilinear_exact {a h : Fin 2 → K} (hh : ∀ i, h i ≠ 0) (p q r s : K) (c : Fin 2 → K) (v : Fin 4 → K)
    (hv : ∀ j, v j = p + q * cornerPos a h (quadUnit j) 0 + r * cornerPos a h (quadUnit j) 1 +
      s * (cornerPos a h (quadUnit j) 0 * cornerPos a h (quadUnit j) 1)) :
    bilinear a h v c = p + q * c 0 + r * c 1 + s * (c 0 * c 1) := by
  have h0 := hh 0
  have h1 := hh 1
  simp only [bilinear, hv]
  simp [cornerPos, quadUnit]
  field_simp
  ring

/-- **C25** (value) If the data sample `p + q x + r y + s x y`, the field equals it at every point of the body. -/
theorem C25_reproduces_bilinear (pts : List (Fin 2 → K)) (cells : List (List Nat)) (flds : List (String × List K))
    (hm : RectMesh quadUnit pts cells) (hl : ∀ fl ∈ flds, fl.2.length = pts.length) (b : Body K 2)
    (hb : Body.load (quadOps K) pts cells flds = .ok b) (ops : List (Nat × Body.Call K 2)) (ho : HistOk pts ops)
    (i : Nat) (name : String) (data : List K) (hi : flds[i]? = some (name, data)) (p q r s : K)
    (hd : data = pts.map fun x => p + q * x 0 + r * x 1 + s * (x 0 * x 1)) (c : Fin 2 → K)
    (hc : Covered quadUnit pts cells c) :
    (b.calls (quadOps K) ops).value (quadOps K) i c = .ok (p + q * c 0 + r * c 1 + s * (c 0 * c 1)) ∧
    (b.calls (quadOps K) ops).grad (quadOps K) i c 0 = .ok (q + s * c 1) ∧
    (b.calls (quadOps K) ops).grad (quadOps K) i c 1 = .ok (r + s * c 0) ∧
    (∀ di : Fin 2, (b.calls (quadOps K) ops).hess (quadOps K) i c di di = .ok 0) ∧
    (b.calls (quadOps K) ops).hess (quadOps K) i c 0 1 = .ok s ∧
    (b.calls (quadOps K) ops).hess (quadOps K) i c 1 0 = .ok s := by
  obtain ⟨cell, a, h, g1, g2, g3, g4⟩ := quad_eval pts cells flds hm hl b hb c hc
  obtain ⟨v, gv, k1, k2, k3, k4, k5, k6⟩ := g4 ops ho i name data hi
  have hval : ∀ j, v j = p + q * cornerPos a h (quadUnit j) 0 + r * cornerPos a h (quadUnit j) 1 +
      s * (cornerPos a h (quadUnit j) 0 * cornerPos a h (quadUnit j) 1) := by
    intro j
    obtain ⟨k, e1, e2⟩ := g2.2.2 j
    obtain ⟨k', f1, f2⟩ := gv j
    rw [e1] at f1; cases f1
    rw [hd, List.getElem?_map, e2] at f2
    simpa using f2.symm
  have n0 := (g2.2.1 0).ne'
  have n1 := (g2.2.1 1).ne'
  refine ⟨?_, ?_, ?_, k4, ?_, ?_⟩
  · rw [k1, bilinear_exact (fun i => (g2.2.1 i).ne') p q r s c v hval]
  · rw [k2]; congr 1
    simp only [hval]
    simp [cornerPos, quadUnit]
    field_simp
    ring
  · rw [k3]; congr 1
    simp only [hval]
    simp [cornerPos, quadUnit]
    field_simp
    ring
  · rw [k5]; congr 1
    simp only [hval]
    simp [cornerPos, quadUnit]
    field_simp
    ring
  · rw [k6]; congr 1
    simp only [hval]
    simp [cornerPos, quadUnit]
    field_simp
    ring

/-- **C26** At every point of the body the value lies between any bounds of the data. -/
theorem C26_bounds (pts : List (Fin 2 → K)) (cells : List (List Nat)) (flds : List (String × List K))
    (hm : RectMesh quadUnit pts cells) (hl : ∀ fl ∈ flds, fl.2.length = pts.length) (b : Body K 2)
    (hb : Body.load (quadOps K) pts cells flds = .ok b) (ops : List (Nat × Body.Call K 2)) (ho : HistOk pts ops)
    (i : Nat) (name : String) (data : List K) (hi : flds[i]? = some (name, data)) (lo hi' : K)
    (hd : ∀ x ∈ data, lo ≤ x ∧ x ≤ hi') (c : Fin 2 → K) (hc : Covered quadUnit pts cells c) :
    ∃ v, (b.calls (quadOps K) ops).value (quadOps K) i c = .ok v ∧ lo ≤ v ∧ v ≤ hi' := by
  obtain ⟨cell, a, h, g1, g2, g3, k⟩ := C23_bilinear pts cells flds hm hl b hb c hc
  obtain ⟨v, g4, g5⟩ := k ops ho i name data hi
  refine ⟨_, g5, ?_⟩
  have hv : ∀ j, lo ≤ v j ∧ v j ≤ hi' := by
    intro j
    obtain ⟨p, _, e⟩ := g4 j
    exact hd _ (List.mem_of_getElem? e)
  have x0 := (loc_nonneg_iff (a := a 0) (g2.2.1 0)).mpr (g3 0).1
  have x1 := (loc_le_one_iff (a := a 0) (g2.2.1 0)).mpr (g3 0).2
  have y0 := (loc_nonneg_iff (a := a 1) (g2.2.1 1)).mpr (g3 1).1
  have y1 := (loc_le_one_iff (a := a 1) (g2.2.1 1)).mpr (g3 1).2
  simp only [loc] at x0 x1 y0 y1
  simp only [bilinear]
  generalize (c 0 - a 0) / h 0 = x at *
  generalize (c 1 - a 1) / h 1 = y at *
  have w0 : 0 ≤ (1 - x) * (1 - y) := mul_nonneg (by linarith) (by linarith)
  have w1 : 0 ≤ x * (1 - y) := mul_nonneg (by linarith) (by linarith)
  have w2 : 0 ≤ x * y := mul_nonneg (by linarith) (by linarith)
  have w3 : 0 ≤ (1 - x) * y := mul_nonneg (by linarith) (by linarith)
  constructor
  · nlinarith [mul_le_mul_of_nonneg_left (hv 0).1 w0, mul_le_mul_of_nonneg_left (hv 1).1 w1,
      mul_le_mul_of_nonneg_left (hv 2).1 w2, mul_le_mul_of_nonneg_left (hv 3).1 w3]
  · nlinarith [mul_le_mul_of_nonneg_left (hv 0).2 w0, mul_le_mul_of_nonneg_left (hv 1).2 w1,
      mul_le_mul_of_nonneg_left (hv 2).2 w2, mul_le_mul_of_nonneg_left (hv 3).2 w3]

end Verif
