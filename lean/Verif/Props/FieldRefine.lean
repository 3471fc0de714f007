import Verif.Props.FieldFirst
import Verif.Props.FieldConform
import Verif.Props.Field3DMore
import Verif.Spec.Refine
import Verif.Lemmas.Demo

/-!
# C149: refining a mesh does not change a field
-/

namespace Verif
open Spec Bin Mesh PField Body
variable {K : Type} [Field K] [LinearOrder K] [FloorRing K] [IsStrictOrderedRing K]

omit [FloorRing K] [LinearOrder K] [IsStrictOrderedRing K] in
theorem corners_exist {n : Nat} {d : Nat} [LinearOrder K] {unit : Fin n → Fin d → K} {pts : List (Fin d → K)} {cell : List Nat} {a h : Fin d → K} (hah : CellAt unit pts cell a h)
    {data : List K} (hlen : data.length = pts.length) : ∃ v : Fin n → K, CornerVals data cell v := by
  have : ∀ j : Fin n, ∃ y, ∃ p, cell[(j : Nat)]? = some p ∧ data[p]? = some y := by
    intro j
    obtain ⟨p, e1, e2⟩ := hah.2.2 j
    have lt := (List.getElem?_eq_some_iff.mp e2).1
    exact ⟨data[p]'(hlen ▸ lt), p, e1, List.getElem?_eq_getElem _⟩
  choose v hv using this
  exact ⟨v, hv⟩

/-- The interpolant of a cell of the refined mesh is that of the cell it is part of, on the smaller cell. -/
theorem refine_cell_2d (pts : List (Fin 2 → K)) (cells : List (List Nat)) (flds : List (String × List K))
    (hm : RectMesh quadUnit pts cells) (hcf : Conforming quadUnit pts cells) (hl : ∀ fl ∈ flds, fl.2.length = pts.length)
    (b : Body K 2) (hb : Body.load (quadOps K) pts cells flds = .ok b) (i : Nat) (name : String) (data : List K) (hi : flds[i]? = some (name, data))
    (pts' : List (Fin 2 → K)) (data' : List K)
    (hdata : ∀ (p : Nat) x y, pts'[p]? = some x → data'[p]? = some y → Covered quadUnit pts cells x →
      ∃ ops, HistOk pts ops ∧ (b.calls (quadOps K) ops).value (quadOps K) i x = .ok y)
    {cell' : List Nat} {a' h' : Fin 2 → K} (hah' : CellAt quadUnit pts' cell' a' h') {v' : Fin 4 → K} (hv' : CornerVals data' cell' v')
    {cell : List Nat} {a h : Fin 2 → K} (hce : cell ∈ cells) (hah : CellAt quadUnit pts cell a h) (hin : ∀ i, a i ≤ a' i ∧ a' i + h' i ≤ a i + h i)
    {v : Fin 4 → K} (hv : CornerVals data cell v) {c : Fin 2 → K} (hc : InCell a' h' c) : bilinear a' h' v' c = bilinear a h v c := by
  refine bilinear_agree v' v a' (fun i => a' i + h' i) c (fun i => (hc i).1) (fun i => (hc i).2) fun u hu => ?_
  have node : ∀ j : Fin 4, bilinear a' h' v' (cornerPos a' h' (quadUnit j)) = bilinear a h v (cornerPos a' h' (quadUnit j)) := by
    intro j
    rw [bilinear_corner (fun i => (hah'.2.1 i).ne')]
    obtain ⟨p, e1, e2⟩ := hv' j
    obtain ⟨p', e1', e2'⟩ := hah'.2.2 j
    rw [e1] at e1'; cases e1'
    have inC : InCell a h (cornerPos a' h' (quadUnit j)) := by
      intro k
      have h0 := hah'.2.1 k
      have := hin k
      have hu : (quadUnit j k : K) = 0 ∨ (quadUnit j k : K) = 1 := by fin_cases j <;> fin_cases k <;> simp [quadUnit]
      unfold cornerPos
      rcases hu with hu | hu <;> rw [hu] <;> constructor <;> linarith
    obtain ⟨ops, ho, e⟩ := hdata p _ _ e2' e2 ⟨cell, hce, a, h, hah, inC⟩
    rw [C27_single_valued pts cells flds hm hcf hl b hb ops ho i name data hi cell hce a h hah v hv _ inC] at e
    exact (Except.ok.inj e).symm
  have : ∃ j : Fin 4, u = cornerPos a' h' (quadUnit j) := by
    rcases hu 0 with h0 | h0 <;> rcases hu 1 with h1 | h1
    · exact ⟨0, by funext k; fin_cases k <;> simp [cornerPos, quadUnit, h0, h1]⟩
    · exact ⟨3, by funext k; fin_cases k <;> simp [cornerPos, quadUnit, h0, h1]⟩
    · exact ⟨1, by funext k; fin_cases k <;> simp [cornerPos, quadUnit, h0, h1]⟩
    · exact ⟨2, by funext k; fin_cases k <;> simp [cornerPos, quadUnit, h0, h1]⟩
  obtain ⟨j, rfl⟩ := this
  exact node j

/-- **C149** (2D) A second body whose cells are parts of the cells of a conforming body, with the values of a field of the first at its nodes as data. At every point
of the second body the values are the same, after any histories. -/
theorem C149_value_2d (pts pts' : List (Fin 2 → K)) (cells cells' : List (List Nat)) (flds flds' : List (String × List K))
    (hm : RectMesh quadUnit pts cells) (hcf : Conforming quadUnit pts cells) (hm' : RectMesh quadUnit pts' cells') (href : Refines quadUnit pts cells pts' cells')
    (hl : ∀ fl ∈ flds, fl.2.length = pts.length) (hl' : ∀ fl ∈ flds', fl.2.length = pts'.length)
    (b b' : Body K 2) (hb : Body.load (quadOps K) pts cells flds = .ok b) (hb' : Body.load (quadOps K) pts' cells' flds' = .ok b')
    (i i' : Nat) (name name' : String) (data data' : List K) (hi : flds[i]? = some (name, data)) (hi' : flds'[i']? = some (name', data'))
    (hdata : ∀ (p : Nat) x y, pts'[p]? = some x → data'[p]? = some y → Covered quadUnit pts cells x →
      ∃ ops, HistOk pts ops ∧ (b.calls (quadOps K) ops).value (quadOps K) i x = .ok y)
    (ops ops' : List (Nat × Body.Call K 2)) (ho : HistOk pts ops) (ho' : HistOk pts' ops') (c : Fin 2 → K) (hc : Covered quadUnit pts' cells' c) :
    ∃ y, (b'.calls (quadOps K) ops').value (quadOps K) i' c = .ok y ∧ (b.calls (quadOps K) ops).value (quadOps K) i c = .ok y := by
  obtain ⟨cell', a', h', g1, g2, g3, g4⟩ := C23_bilinear pts' cells' flds' hm' hl' b' hb' c hc
  obtain ⟨v', gv', k'⟩ := g4 ops' ho' i' name' data' hi'
  obtain ⟨cell, hce, a, h, hah, hin⟩ := href cell' g1 a' h' g2
  obtain ⟨v, hv⟩ := corners_exist hah (hl _ (List.mem_of_getElem? hi))
  have hic : InCell a h c := fun k => ⟨(hin k).1.trans (g3 k).1, (g3 k).2.trans (hin k).2⟩
  refine ⟨_, k', ?_⟩
  rw [C27_single_valued pts cells flds hm hcf hl b hb ops ho i name data hi cell hce a h hah v hv c hic,
    refine_cell_2d pts cells flds hm hcf hl b hb i name data hi pts' data' hdata g2 gv' hce hah hin hv g3]

/-- A step within a cell, in a direction. -/
theorem step_exists {x a h : K} (h0 : 0 < h) (h1 : a ≤ x) (h2 : x ≤ a + h) : ∃ t, t ≠ 0 ∧ a ≤ x + t ∧ x + t ≤ a + h := by
  by_cases e : x = a
  · exact ⟨h, h0.ne', by linarith, by linarith⟩
  · exact ⟨a - x, sub_ne_zero.mpr (Ne.symm e), by linarith, by linarith⟩

omit [FloorRing K] [IsStrictOrderedRing K] in
theorem inCell_update {d : Nat} {a h c : Fin d → K} (hc : InCell a h c) {di : Fin d} {z : K} (h1 : a di ≤ z) (h2 : z ≤ a di + h di) :
    InCell a h (Function.update c di z) := by
  intro k
  by_cases e : k = di
  · subst e; simpa using ⟨h1, h2⟩
  · simpa [e] using hc k

/-- **C149** (2D, derivatives) At points of the second body that are in one cell of the first only, first and second derivatives are the same as well. -/
theorem C149_derivatives_2d (pts pts' : List (Fin 2 → K)) (cells cells' : List (List Nat)) (flds flds' : List (String × List K))
    (hm : RectMesh quadUnit pts cells) (hcf : Conforming quadUnit pts cells) (hm' : RectMesh quadUnit pts' cells') (href : Refines quadUnit pts cells pts' cells')
    (hl : ∀ fl ∈ flds, fl.2.length = pts.length) (hl' : ∀ fl ∈ flds', fl.2.length = pts'.length)
    (b b' : Body K 2) (hb : Body.load (quadOps K) pts cells flds = .ok b) (hb' : Body.load (quadOps K) pts' cells' flds' = .ok b')
    (i i' : Nat) (name name' : String) (data data' : List K) (hi : flds[i]? = some (name, data)) (hi' : flds'[i']? = some (name', data'))
    (hdata : ∀ (p : Nat) x y, pts'[p]? = some x → data'[p]? = some y → Covered quadUnit pts cells x →
      ∃ ops, HistOk pts ops ∧ (b.calls (quadOps K) ops).value (quadOps K) i x = .ok y)
    (ops ops' : List (Nat × Body.Call K 2)) (ho : HistOk pts ops) (ho' : HistOk pts' ops') (c : Fin 2 → K) (hc : Covered quadUnit pts' cells' c)
    (hone : ∀ cell ∈ cells, ∀ cell2 ∈ cells, ∀ a h a2 h2, CellAt quadUnit pts cell a h → CellAt quadUnit pts cell2 a2 h2 → InCell a h c → InCell a2 h2 c →
      cell = cell2) :
    (∀ di : Fin 2, (b'.calls (quadOps K) ops').grad (quadOps K) i' c di = (b.calls (quadOps K) ops).grad (quadOps K) i c di) ∧
    ∀ di dj : Fin 2, (b'.calls (quadOps K) ops').hess (quadOps K) i' c di dj = (b.calls (quadOps K) ops).hess (quadOps K) i c di dj := by
  obtain ⟨e', cell', a', h', g1, g2, g3, g4, g5⟩ := quad_eval_first pts' cells' flds' hm' hl' b' hb' c hc
  obtain ⟨v', gv', _⟩ := g5 ops' ho' i' name' data' hi'
  obtain ⟨cell, hce, a, h, hah, hin⟩ := href cell' (List.mem_of_getElem? g1) a' h' g2
  have hic : InCell a h c := fun k => ⟨(hin k).1.trans (g3 k).1, (g3 k).2.trans (hin k).2⟩
  obtain ⟨e, cell0, a0, h0, q1, q2, q3, q4, q5⟩ := quad_eval_first pts cells flds hm hl b hb c ⟨cell, hce, a, h, hah, hic⟩
  obtain rfl := hone cell hce cell0 (List.mem_of_getElem? q1) a h a0 h0 hah q2 hic q3
  obtain ⟨rfl, rfl⟩ := cellAt_unique quadLaw hah q2
  obtain ⟨v, gv, _⟩ := q5 ops ho i name data hi
  have F' := C139_first_cell_2d pts' cells' flds' hm' hl' b' hb' c e' cell' a' h' g1 g2 g3
    (fun k hk x y z l1 l2 l3 => absurd (g4 k x y z l1 l2 l3) (by omega)) ops' ho' i' name' data' hi' v' gv'
  have F := C139_first_cell_2d pts cells flds hm hl b hb c e cell a h q1 hah hic
    (fun k hk x y z l1 l2 l3 => absurd (q4 k x y z l1 l2 l3) (by omega)) ops ho i name data hi v gv
  have same : ∀ c, InCell a' h' c → bilinear a' h' v' c = bilinear a h v c := fun c hc =>
    refine_cell_2d pts cells flds hm hcf hl b hb i name data hi pts' data' hdata g2 gv' hce hah hin gv hc
  refine ⟨fun di => ?_, fun di dj => ?_⟩
  · obtain ⟨t, t0, t1, t2⟩ := step_exists (g2.2.1 di) (g3 di).1 (g3 di).2
    rw [F'.2.1 di t t0, F.2.1 di t t0, same _ g3, same _ (inCell_update g3 t1 t2)]
  · obtain ⟨t, t0, t1, t2⟩ := step_exists (g2.2.1 di) (g3 di).1 (g3 di).2
    have g6 := inCell_update g3 t1 t2
    by_cases hd : di = dj
    · subst hd
      have z1 := (g5 ops' ho' i' name' data' hi')
      have z2 := (q5 ops ho i name data hi)
      obtain ⟨_, _, _, _, _, z1, _⟩ := z1
      obtain ⟨_, _, _, _, _, z2, _⟩ := z2
      exact (z1 di).trans (z2 di).symm
    obtain ⟨t', t0', t1', t2'⟩ := step_exists (g2.2.1 dj) (g3 dj).1 (g3 dj).2
    rw [F'.2.2 di dj t t' t0 t0', F.2.2 di dj t t' t0 t0', same _ g3, same _ g6, same _ (inCell_update g3 t1' t2')]
    have e1 : Function.update c di (c di + t) dj = c dj := by simp [Ne.symm hd]
    rw [e1, same _ (inCell_update g6 t1' t2')]

/-- 3D: the interpolants of a cell and of a part of it are one function on the part, if the nodes are clear. -/
theorem refine_cell_3d (pts : List (Fin 3 → K)) (cells : List (List Nat)) (flds : List (String × List K))
    (hm : RectMesh hexUnit pts cells) (hcf : Conforming hexUnit pts cells) (hl : ∀ fl ∈ flds, fl.2.length = pts.length)
    (b : Body K 3) (hb : Body.load (hexOps K) pts cells flds = .ok b) (i : Nat) (name : String) (data : List K) (hi : flds[i]? = some (name, data))
    (pts' : List (Fin 3 → K)) (data' : List K)
    (hdata : ∀ (p : Nat) x y, pts'[p]? = some x → data'[p]? = some y → Covered hexUnit pts cells x →
      ∃ ops, HistOk pts ops ∧ (b.calls (hexOps K) ops).value (hexOps K) i x = .ok y)
    (hnodes : ∀ x ∈ pts', Covered hexUnit pts cells x → NearClear pts cells x)
    {cell' : List Nat} {a' h' : Fin 3 → K} (hah' : CellAt hexUnit pts' cell' a' h') {v' : Fin 8 → K} (hv' : CornerVals data' cell' v')
    {cell : List Nat} {a h : Fin 3 → K} (hce : cell ∈ cells) (hah : CellAt hexUnit pts cell a h) (hin : ∀ i, a i ≤ a' i ∧ a' i + h' i ≤ a i + h i)
    {v : Fin 8 → K} (hv : CornerVals data cell v) {c : Fin 3 → K} (hc : InCell a' h' c) : trilinear a' h' v' c = trilinear a h v c := by
  refine trilinear_agree v' v a' (fun i => a' i + h' i) c (fun i => (hc i).1) (fun i => (hc i).2) fun u hu => ?_
  have node : ∀ j : Fin 8, trilinear a' h' v' (cornerPos a' h' (hexUnit j)) = trilinear a h v (cornerPos a' h' (hexUnit j)) := by
    intro j
    rw [trilinear_corner (fun i => (hah'.2.1 i).ne')]
    obtain ⟨p, e1, e2⟩ := hv' j
    obtain ⟨p', e1', e2'⟩ := hah'.2.2 j
    rw [e1] at e1'; cases e1'
    have inC : InCell a h (cornerPos a' h' (hexUnit j)) := by
      intro k
      have h0 := hah'.2.1 k
      have := hin k
      have hu : (hexUnit j k : K) = 0 ∨ (hexUnit j k : K) = 1 := by fin_cases j <;> fin_cases k <;> simp [hexUnit]
      unfold cornerPos
      rcases hu with hu | hu <;> rw [hu] <;> constructor <;> linarith
    have hcov : Covered hexUnit pts cells (cornerPos a' h' (hexUnit j)) := ⟨cell, hce, a, h, hah, inC⟩
    obtain ⟨ops, ho, e⟩ := hdata p _ _ e2' e2 hcov
    rw [C112_single_valued_partial pts cells flds hm hcf hl b hb ops ho i name data hi cell hce a h hah v hv _ inC
      (hnodes _ (List.mem_of_getElem? e2') hcov)] at e
    exact (Except.ok.inj e).symm
  have : ∃ j : Fin 8, u = cornerPos a' h' (hexUnit j) := by
    rcases hu 0 with h0 | h0 <;> rcases hu 1 with h1 | h1 <;> rcases hu 2 with h2 | h2
    · exact ⟨0, by funext k; fin_cases k <;> simp [cornerPos, hexUnit, h0, h1, h2]⟩
    · exact ⟨4, by funext k; fin_cases k <;> simp [cornerPos, hexUnit, h0, h1, h2]⟩
    · exact ⟨3, by funext k; fin_cases k <;> simp [cornerPos, hexUnit, h0, h1, h2]⟩
    · exact ⟨7, by funext k; fin_cases k <;> simp [cornerPos, hexUnit, h0, h1, h2]⟩
    · exact ⟨1, by funext k; fin_cases k <;> simp [cornerPos, hexUnit, h0, h1, h2]⟩
    · exact ⟨5, by funext k; fin_cases k <;> simp [cornerPos, hexUnit, h0, h1, h2]⟩
    · exact ⟨2, by funext k; fin_cases k <;> simp [cornerPos, hexUnit, h0, h1, h2]⟩
    · exact ⟨6, by funext k; fin_cases k <;> simp [cornerPos, hexUnit, h0, h1, h2]⟩
  obtain ⟨j, rfl⟩ := this
  exact node j

/-- **C149** (3D, part) The same for values in 3D, if the nodes of the second body are vertically clear in the first and the point is so in both. -/
theorem C149_value_3d_partial (pts pts' : List (Fin 3 → K)) (cells cells' : List (List Nat)) (flds flds' : List (String × List K))
    (hm : RectMesh hexUnit pts cells) (hcf : Conforming hexUnit pts cells) (hm' : RectMesh hexUnit pts' cells') (href : Refines hexUnit pts cells pts' cells')
    (hl : ∀ fl ∈ flds, fl.2.length = pts.length) (hl' : ∀ fl ∈ flds', fl.2.length = pts'.length)
    (b b' : Body K 3) (hb : Body.load (hexOps K) pts cells flds = .ok b) (hb' : Body.load (hexOps K) pts' cells' flds' = .ok b')
    (i i' : Nat) (name name' : String) (data data' : List K) (hi : flds[i]? = some (name, data)) (hi' : flds'[i']? = some (name', data'))
    (hdata : ∀ (p : Nat) x y, pts'[p]? = some x → data'[p]? = some y → Covered hexUnit pts cells x →
      ∃ ops, HistOk pts ops ∧ (b.calls (hexOps K) ops).value (hexOps K) i x = .ok y)
    (hnodes : ∀ x ∈ pts', Covered hexUnit pts cells x → NearClear pts cells x)
    (ops ops' : List (Nat × Body.Call K 3)) (ho : HistOk pts ops) (ho' : HistOk pts' ops') (c : Fin 3 → K) (hc : Covered hexUnit pts' cells' c)
    (hz : NearClear pts cells c) (hz' : NearClear pts' cells' c) :
    ∃ y, (b'.calls (hexOps K) ops').value (hexOps K) i' c = .ok y ∧ (b.calls (hexOps K) ops).value (hexOps K) i c = .ok y := by
  obtain ⟨cell', a', h', g1, g2, g3, g4⟩ := C28_trilinear_partial pts' cells' flds' hm' hl' b' hb' c hc hz'
  obtain ⟨v', gv', k'⟩ := g4 ops' ho' i' name' data' hi'
  obtain ⟨cell, hce, a, h, hah, hin⟩ := href cell' g1 a' h' g2
  obtain ⟨v, hv⟩ := corners_exist hah (hl _ (List.mem_of_getElem? hi))
  have hic : InCell a h c := fun k => ⟨(hin k).1.trans (g3 k).1, (g3 k).2.trans (hin k).2⟩
  refine ⟨_, k', ?_⟩
  rw [C112_single_valued_partial pts cells flds hm hcf hl b hb ops ho i name data hi cell hce a h hah v hv c hic hz]
  exact congrArg _ (refine_cell_3d pts cells flds hm hcf hl b hb i name data hi pts' data' hdata hnodes g2 gv' hce hah hin hv g3).symm

/-- **C149** (3D, part, derivatives) First derivatives in 3D, at points in one cell of the first body only, under the same conditions. -/
theorem C149_gradient_3d_partial (pts pts' : List (Fin 3 → K)) (cells cells' : List (List Nat)) (flds flds' : List (String × List K))
    (hm : RectMesh hexUnit pts cells) (hcf : Conforming hexUnit pts cells) (hm' : RectMesh hexUnit pts' cells') (href : Refines hexUnit pts cells pts' cells')
    (hl : ∀ fl ∈ flds, fl.2.length = pts.length) (hl' : ∀ fl ∈ flds', fl.2.length = pts'.length)
    (b b' : Body K 3) (hb : Body.load (hexOps K) pts cells flds = .ok b) (hb' : Body.load (hexOps K) pts' cells' flds' = .ok b')
    (i i' : Nat) (name name' : String) (data data' : List K) (hi : flds[i]? = some (name, data)) (hi' : flds'[i']? = some (name', data'))
    (hdata : ∀ (p : Nat) x y, pts'[p]? = some x → data'[p]? = some y → Covered hexUnit pts cells x →
      ∃ ops, HistOk pts ops ∧ (b.calls (hexOps K) ops).value (hexOps K) i x = .ok y)
    (hnodes : ∀ x ∈ pts', Covered hexUnit pts cells x → NearClear pts cells x)
    (ops ops' : List (Nat × Body.Call K 3)) (ho : HistOk pts ops) (ho' : HistOk pts' ops') (c : Fin 3 → K) (hc : Covered hexUnit pts' cells' c)
    (hz : NearClear pts cells c) (hz' : NearClear pts' cells' c)
    (hone : ∀ cell ∈ cells, ∀ cell2 ∈ cells, ∀ a h a2 h2, CellAt hexUnit pts cell a h → CellAt hexUnit pts cell2 a2 h2 → InCell a h c → InCell a2 h2 c →
      cell = cell2) (di : Fin 3) :
    ∃ y, (b'.calls (hexOps K) ops').grad (hexOps K) i' c di = .ok y ∧ (b.calls (hexOps K) ops).grad (hexOps K) i c di = .ok y := by
  obtain ⟨e', cell', a', h', g1, g2, g3r, g4, g5⟩ := hex_eval_first pts' cells' flds' hm' hl' b' hb' c hc
  have g3 := (reaches_iff hm' hz' (List.mem_of_getElem? g1) g2).mp g3r
  obtain ⟨v', gv', _⟩ := g5 ops' ho' i' name' data' hi'
  obtain ⟨cell, hce, a, h, hah, hin⟩ := href cell' (List.mem_of_getElem? g1) a' h' g2
  have hic : InCell a h c := fun k => ⟨(hin k).1.trans (g3 k).1, (g3 k).2.trans (hin k).2⟩
  have hcov : Covered hexUnit pts cells c := ⟨cell, hce, a, h, hah, hic⟩
  obtain ⟨e, cell0, a0, h0, q1, q2, q3r, q4, q5⟩ := hex_eval_first pts cells flds hm hl b hb c hcov
  have q3 := (reaches_iff hm hz (List.mem_of_getElem? q1) q2).mp q3r
  obtain rfl := hone cell hce cell0 (List.mem_of_getElem? q1) a h a0 h0 hah q2 hic q3
  obtain ⟨rfl, rfl⟩ := cellAt_unique hexLaw hah q2
  obtain ⟨v, gv, _⟩ := q5 ops ho i name data hi
  have F' := C139_first_cell_3d pts' cells' flds' hm' hl' b' hb' c hc e' cell' a' h' g1 g2 g3r
    (fun k hk x y z l1 l2 l3 => absurd (g4 k x y z l1 l2 l3) (by omega)) ops' ho' i' name' data' hi' v' gv'
  have F := C139_first_cell_3d pts cells flds hm hl b hb c hcov e cell a h q1 hah q3r
    (fun k hk x y z l1 l2 l3 => absurd (q4 k x y z l1 l2 l3) (by omega)) ops ho i name data hi v gv
  have same : ∀ c, InCell a' h' c → trilinear a' h' v' c = trilinear a h v c := fun c hc =>
    refine_cell_3d pts cells flds hm hcf hl b hb i name data hi pts' data' hdata hnodes g2 gv' hce hah hin gv hc
  obtain ⟨t, t0, t1, t2⟩ := step_exists (g2.2.1 di) (g3 di).1 (g3 di).2
  refine ⟨_, F'.2 di t t0, ?_⟩
  rw [F.2 di t t0, same _ g3, same _ (inCell_update g3 t1 t2)]

namespace RefineDemo

/-- The demo mesh with its right cell cut in two at `x = 2`. -/
def pts : List (Fin 2 → ℚ) := Demo.pts ++ [![2, 0], ![2, 1]]
def cells : List (List Nat) := [[0, 1, 4, 3], [1, 6, 7, 4], [6, 2, 5, 7]]
/-- The values of the field at the nodes. -/
def data : List ℚ := [1, 2, 3, 4, 5, 7, 5 / 2, 6]

theorem cell0 : CellAt quadUnit pts [0, 1, 4, 3] ![0, 0] ![1, 1] := by
  refine ⟨rfl, by decide +kernel, ?_⟩
  intro j
  fin_cases j
  · exact ⟨0, rfl, by decide +kernel⟩
  · exact ⟨1, rfl, by decide +kernel⟩
  · exact ⟨4, rfl, by decide +kernel⟩
  · exact ⟨3, rfl, by decide +kernel⟩

theorem cell1 : CellAt quadUnit pts [1, 6, 7, 4] ![1, 0] ![1, 1] := by
  refine ⟨rfl, by decide +kernel, ?_⟩
  intro j
  fin_cases j
  · exact ⟨1, rfl, by decide +kernel⟩
  · exact ⟨6, rfl, by decide +kernel⟩
  · exact ⟨7, rfl, by decide +kernel⟩
  · exact ⟨4, rfl, by decide +kernel⟩

theorem cell2 : CellAt quadUnit pts [6, 2, 5, 7] ![2, 0] ![1, 1] := by
  refine ⟨rfl, by decide +kernel, ?_⟩
  intro j
  fin_cases j
  · exact ⟨6, rfl, by decide +kernel⟩
  · exact ⟨2, rfl, by decide +kernel⟩
  · exact ⟨5, rfl, by decide +kernel⟩
  · exact ⟨7, rfl, by decide +kernel⟩

theorem rect : RectMesh quadUnit pts cells where
  nonempty := by decide
  rect := by
    intro cell hc
    simp only [cells, List.mem_cons, List.not_mem_nil, or_false] at hc
    rcases hc with rfl | rfl | rfl
    · exact ⟨_, _, cell0⟩
    · exact ⟨_, _, cell1⟩
    · exact ⟨_, _, cell2⟩
  small := by decide +kernel

theorem refines : Refines quadUnit Demo.pts Demo.cells pts cells := by
  intro cell hc a h hah
  simp only [cells, List.mem_cons, List.not_mem_nil, or_false] at hc
  rcases hc with rfl | rfl | rfl
  · obtain ⟨rfl, rfl⟩ := Mesh.cellAt_unique quadLaw hah cell0
    exact ⟨_, by simp [Demo.cells], _, _, Demo.cell0, by decide +kernel⟩
  · obtain ⟨rfl, rfl⟩ := Mesh.cellAt_unique quadLaw hah cell1
    exact ⟨_, by simp [Demo.cells], _, _, Demo.cell1, by decide +kernel⟩
  · obtain ⟨rfl, rfl⟩ := Mesh.cellAt_unique quadLaw hah cell2
    exact ⟨_, by simp [Demo.cells], _, _, Demo.cell1, by decide +kernel⟩

theorem run : ((Body.load (quadOps ℚ) Demo.pts Demo.cells Demo.flds).map fun b => pts.map fun x => b.value (quadOps ℚ) 0 x) = .ok (data.map .ok) := by
  decide +kernel

/-- The hypotheses of `C149_value_2d` and `C149_derivatives_2d`, and what they give at (3/2, 1/2), a point of the first half of the cut cell. -/
example : ∃ b b', Body.load (quadOps ℚ) Demo.pts Demo.cells Demo.flds = .ok b ∧ Body.load (quadOps ℚ) pts cells [("u", data)] = .ok b' ∧
    (∃ y, (b'.calls (quadOps ℚ) []).value (quadOps ℚ) 0 ![3 / 2, 1 / 2] = .ok y ∧ (b.calls (quadOps ℚ) []).value (quadOps ℚ) 0 ![3 / 2, 1 / 2] = .ok y) ∧
    ∀ di : Fin 2, (b'.calls (quadOps ℚ) []).grad (quadOps ℚ) 0 ![3 / 2, 1 / 2] di = (b.calls (quadOps ℚ) []).grad (quadOps ℚ) 0 ![3 / 2, 1 / 2] di := by
  obtain ⟨b, hb, _⟩ := C22_load_2d Demo.pts Demo.cells Demo.flds Demo.rect Demo.lens
  obtain ⟨b', hb', _⟩ := C22_load_2d pts cells [("u", data)] rect (by decide)
  have r := run
  rw [hb] at r
  have hdata : ∀ (p : Nat) x y, pts[p]? = some x → data[p]? = some y → Covered quadUnit Demo.pts Demo.cells x →
      ∃ ops, HistOk Demo.pts ops ∧ (b.calls (quadOps ℚ) ops).value (quadOps ℚ) 0 x = .ok y := by
    intro p x y h1 h2 _
    refine ⟨[], by simp [HistOk], ?_⟩
    have := congrArg (·[p]?) (Except.ok.inj r)
    simp only [List.getElem?_map, h1, h2, Option.map_some] at this
    exact Option.some.inj this
  have hc : Covered quadUnit pts cells ![3 / 2, 1 / 2] := ⟨[1, 6, 7, 4], by simp [cells], _, _, cell1, by intro i; fin_cases i <;> decide +kernel⟩
  refine ⟨b, b', hb, hb', C149_value_2d Demo.pts pts Demo.cells cells Demo.flds _ Demo.rect Demo.conforming rect refines Demo.lens (by decide) b b' hb hb' 0 0 "u" "u"
    _ _ rfl rfl hdata [] [] (by simp [HistOk]) (by simp [HistOk]) _ hc,
    (C149_derivatives_2d Demo.pts pts Demo.cells cells Demo.flds _ Demo.rect Demo.conforming rect refines Demo.lens (by decide) b b' hb hb' 0 0 "u" "u"
    _ _ rfl rfl hdata [] [] (by simp [HistOk]) (by simp [HistOk]) _ hc ?_).1⟩
  intro cell hc cell2 hc2 a h a2 h2 hah hah2 hin hin2
  simp only [Demo.cells, List.mem_cons, List.not_mem_nil, or_false] at hc hc2
  have no : ¬ InCell (![0, 0] : Fin 2 → ℚ) ![1, 1] ![3 / 2, 1 / 2] := fun q => absurd (q 0).2 (by decide +kernel)
  rcases hc with rfl | rfl
  · obtain ⟨rfl, rfl⟩ := Mesh.cellAt_unique quadLaw hah Demo.cell0
    exact absurd hin no
  · rcases hc2 with rfl | rfl
    · obtain ⟨rfl, rfl⟩ := Mesh.cellAt_unique quadLaw hah2 Demo.cell0
      exact absurd hin2 no
    · rfl

/-- Two cubes on top of each other, the upper one cut at the height 5/4. -/
def pts3 : List (Fin 3 → ℚ) := Demo3.pts ++ [![0, 0, 5 / 4], ![1, 0, 5 / 4], ![1, 1, 5 / 4], ![0, 1, 5 / 4]]
def cells3 : List (List Nat) := [[0, 1, 2, 3, 4, 5, 6, 7], [4, 5, 6, 7, 12, 13, 14, 15], [12, 13, 14, 15, 8, 9, 10, 11]]
def data3 : List ℚ := Demo3.data ++ [0, 0, 0, 0]

theorem cube0 : CellAt hexUnit pts3 [0, 1, 2, 3, 4, 5, 6, 7] ![0, 0, 0] ![1, 1, 1] := by
  refine ⟨rfl, by decide +kernel, ?_⟩
  intro j
  fin_cases j
  · exact ⟨0, rfl, by decide +kernel⟩
  · exact ⟨1, rfl, by decide +kernel⟩
  · exact ⟨2, rfl, by decide +kernel⟩
  · exact ⟨3, rfl, by decide +kernel⟩
  · exact ⟨4, rfl, by decide +kernel⟩
  · exact ⟨5, rfl, by decide +kernel⟩
  · exact ⟨6, rfl, by decide +kernel⟩
  · exact ⟨7, rfl, by decide +kernel⟩

theorem cube1 : CellAt hexUnit pts3 [4, 5, 6, 7, 12, 13, 14, 15] ![0, 0, 1] ![1, 1, 1 / 4] := by
  refine ⟨rfl, by decide +kernel, ?_⟩
  intro j
  fin_cases j
  · exact ⟨4, rfl, by decide +kernel⟩
  · exact ⟨5, rfl, by decide +kernel⟩
  · exact ⟨6, rfl, by decide +kernel⟩
  · exact ⟨7, rfl, by decide +kernel⟩
  · exact ⟨12, rfl, by decide +kernel⟩
  · exact ⟨13, rfl, by decide +kernel⟩
  · exact ⟨14, rfl, by decide +kernel⟩
  · exact ⟨15, rfl, by decide +kernel⟩

theorem cube2 : CellAt hexUnit pts3 [12, 13, 14, 15, 8, 9, 10, 11] ![0, 0, 5 / 4] ![1, 1, 3 / 4] := by
  refine ⟨rfl, by decide +kernel, ?_⟩
  intro j
  fin_cases j
  · exact ⟨12, rfl, by decide +kernel⟩
  · exact ⟨13, rfl, by decide +kernel⟩
  · exact ⟨14, rfl, by decide +kernel⟩
  · exact ⟨15, rfl, by decide +kernel⟩
  · exact ⟨8, rfl, by decide +kernel⟩
  · exact ⟨9, rfl, by decide +kernel⟩
  · exact ⟨10, rfl, by decide +kernel⟩
  · exact ⟨11, rfl, by decide +kernel⟩

theorem rect3 : RectMesh hexUnit pts3 cells3 where
  nonempty := by decide
  rect := by
    intro cell hc
    simp only [cells3, List.mem_cons, List.not_mem_nil, or_false] at hc
    rcases hc with rfl | rfl | rfl
    · exact ⟨_, _, cube0⟩
    · exact ⟨_, _, cube1⟩
    · exact ⟨_, _, cube2⟩
  small := by decide +kernel

theorem refines3 : Refines hexUnit Demo3.pts Demo3.cells pts3 cells3 := by
  intro cell hc a h hah
  simp only [cells3, List.mem_cons, List.not_mem_nil, or_false] at hc
  rcases hc with rfl | rfl | rfl
  · obtain ⟨rfl, rfl⟩ := Mesh.cellAt_unique hexLaw hah cube0
    exact ⟨_, by simp [Demo3.cells], _, _, Demo3.cell0, by decide +kernel⟩
  · obtain ⟨rfl, rfl⟩ := Mesh.cellAt_unique hexLaw hah cube1
    exact ⟨_, by simp [Demo3.cells], _, _, Demo3.cell1, by decide +kernel⟩
  · obtain ⟨rfl, rfl⟩ := Mesh.cellAt_unique hexLaw hah cube2
    exact ⟨_, by simp [Demo3.cells], _, _, Demo3.cell1, by decide +kernel⟩

theorem conforming3 : Conforming hexUnit Demo3.pts Demo3.cells := by
  have key : ∀ cell ∈ Demo3.cells, ∀ a h, CellAt hexUnit Demo3.pts cell a h →
      (cell = [0, 1, 2, 3, 4, 5, 6, 7] ∧ a = ![0, 0, 0] ∧ h = ![1, 1, 1]) ∨ (cell = [4, 5, 6, 7, 8, 9, 10, 11] ∧ a = ![0, 0, 1] ∧ h = ![1, 1, 1]) := by
    intro cell hc a h hah
    simp only [Demo3.cells, List.mem_cons, List.not_mem_nil, or_false] at hc
    rcases hc with rfl | rfl
    · exact Or.inl ⟨rfl, Mesh.cellAt_unique hexLaw hah Demo3.cell0⟩
    · exact Or.inr ⟨rfl, Mesh.cellAt_unique hexLaw hah Demo3.cell1⟩
  intro cell hc cell' hc' a h a' h' hah hah' _ u hu
  have ext : ∀ x y z : ℚ, u 0 = x → u 1 = y → u 2 = z → u = ![x, y, z] := by
    intro x y z hx hy hz; funext i; fin_cases i <;> simp [hx, hy, hz]
  have v2 : ∀ a b c : ℚ, (![a, b, c] : Fin 3 → ℚ) 2 = c := fun _ _ _ => rfl
  have n12 : Min.min (1 : ℚ) (1 + 1) = 1 := by norm_num
  have n21 : Min.min ((1 : ℚ) + 1) 1 = 1 := by norm_num
  have e2 : (1 : ℚ) + 1 = 2 := by norm_num
  have h0 := hu 0
  have h1 := hu 1
  have h2 := hu 2
  rcases key cell hc a h hah with ⟨rfl, rfl, rfl⟩ | ⟨rfl, rfl, rfl⟩ <;>
  rcases key cell' hc' a' h' hah' with ⟨rfl, rfl, rfl⟩ | ⟨rfl, rfl, rfl⟩ <;>
  simp [v2, n12, n21, e2] at h0 h1 h2
  · rcases h0 with h0 | h0 <;> rcases h1 with h1 | h1 <;> rcases h2 with h2 | h2 <;> rw [ext _ _ _ h0 h1 h2] <;> simp [Demo3.pts]
  · rcases h0 with h0 | h0 <;> rcases h1 with h1 | h1 <;> rw [ext _ _ _ h0 h1 h2] <;> simp [Demo3.pts]
  · rcases h0 with h0 | h0 <;> rcases h1 with h1 | h1 <;> rw [ext _ _ _ h0 h1 h2] <;> simp [Demo3.pts]
  · rcases h0 with h0 | h0 <;> rcases h1 with h1 | h1 <;> rcases h2 with h2 | h2 <;> rw [ext _ _ _ h0 h1 h2] <;> simp [Demo3.pts]

end RefineDemo

open RefineDemo in
/-- **C149, violation** (3D) Two cubes on top of each other, data 0 up to `z = 1` and 1 at `z = 2`. Cut the upper cube at `z = 5/4` and take the values of the field at
the nodes as data. At `z = 7/4` the value changes from 3/4 to 2/3. -/
theorem C149_stacked_violated : ∃ b b', Body.load (hexOps ℚ) Demo3.pts Demo3.cells [("u", Demo3.data)] = .ok b ∧
    Body.load (hexOps ℚ) pts3 cells3 [("u", data3)] = .ok b' ∧ RectMesh hexUnit Demo3.pts Demo3.cells ∧ Conforming hexUnit Demo3.pts Demo3.cells ∧
    RectMesh hexUnit pts3 cells3 ∧ Refines hexUnit Demo3.pts Demo3.cells pts3 cells3 ∧
    (∀ (p : Nat) x y, pts3[p]? = some x → data3[p]? = some y → b.value (hexOps ℚ) 0 x = .ok y) ∧ Covered hexUnit pts3 cells3 ![1 / 2, 1 / 2, 7 / 4] ∧
    b.value (hexOps ℚ) 0 ![1 / 2, 1 / 2, 7 / 4] = .ok (3 / 4) ∧ b'.value (hexOps ℚ) 0 ![1 / 2, 1 / 2, 7 / 4] = .ok (2 / 3) := by
  obtain ⟨b, hb, _⟩ := C31_load_3d Demo3.pts Demo3.cells [("u", Demo3.data)] Demo3.rect (by decide)
  obtain ⟨b', hb', _⟩ := C31_load_3d pts3 cells3 [("u", data3)] rect3 (by decide)
  have r : ((Body.load (hexOps ℚ) Demo3.pts Demo3.cells [("u", Demo3.data)]).map fun b => (pts3 ++ [![1 / 2, 1 / 2, 7 / 4]]).map fun x => b.value (hexOps ℚ) 0 x) =
      .ok ((data3 ++ [3 / 4]).map .ok) := by decide +kernel
  have r' : ((Body.load (hexOps ℚ) pts3 cells3 [("u", data3)]).map fun b => b.value (hexOps ℚ) 0 ![1 / 2, 1 / 2, 7 / 4]) = .ok (.ok (2 / 3)) := by decide +kernel
  rw [hb] at r
  rw [hb'] at r'
  have r2 := Except.ok.inj r
  simp only [List.map_append] at r2
  obtain ⟨r3, r4⟩ := List.append_inj r2 (by simp only [List.length_map]; decide)
  refine ⟨b, b', hb, hb', Demo3.rect, conforming3, rect3, refines3, ?_, ⟨_, by simp [cells3], _, _, cube2, by intro i; fin_cases i <;> decide +kernel⟩, ?_,
    Except.ok.inj r'⟩
  · intro p x y h1 h2
    have := congrArg (·[p]?) r3
    simp only [List.getElem?_map, h1, h2, Option.map_some] at this
    exact Option.some.inj this
  · simpa using r4

namespace RefineDemo

/-- A unit cube. -/
def ptsC : List (Fin 3 → ℚ) := [![0, 0, 0], ![1, 0, 0], ![1, 1, 0], ![0, 1, 0], ![0, 0, 1], ![1, 0, 1], ![1, 1, 1], ![0, 1, 1]]
def cellsC : List (List Nat) := [[0, 1, 2, 3, 4, 5, 6, 7]]
/-- The cube cut in two at `x = 1/2`. -/
def ptsH : List (Fin 3 → ℚ) := ptsC ++ [![1 / 2, 0, 0], ![1 / 2, 1, 0], ![1 / 2, 0, 1], ![1 / 2, 1, 1]]
def cellsH : List (List Nat) := [[0, 8, 9, 3, 4, 10, 11, 7], [8, 1, 2, 9, 10, 5, 6, 11]]
def dataC : List ℚ := [0, 2, 4, 6, 1, 3, 9, 27]
def dataH : List ℚ := dataC ++ [1, 5, 2, 18]

theorem whole : CellAt hexUnit ptsC [0, 1, 2, 3, 4, 5, 6, 7] ![0, 0, 0] ![1, 1, 1] := by
  refine ⟨rfl, by decide +kernel, ?_⟩
  intro j
  fin_cases j
  · exact ⟨0, rfl, by decide +kernel⟩
  · exact ⟨1, rfl, by decide +kernel⟩
  · exact ⟨2, rfl, by decide +kernel⟩
  · exact ⟨3, rfl, by decide +kernel⟩
  · exact ⟨4, rfl, by decide +kernel⟩
  · exact ⟨5, rfl, by decide +kernel⟩
  · exact ⟨6, rfl, by decide +kernel⟩
  · exact ⟨7, rfl, by decide +kernel⟩

theorem half0 : CellAt hexUnit ptsH [0, 8, 9, 3, 4, 10, 11, 7] ![0, 0, 0] ![1 / 2, 1, 1] := by
  refine ⟨rfl, by decide +kernel, ?_⟩
  intro j
  fin_cases j
  · exact ⟨0, rfl, by decide +kernel⟩
  · exact ⟨8, rfl, by decide +kernel⟩
  · exact ⟨9, rfl, by decide +kernel⟩
  · exact ⟨3, rfl, by decide +kernel⟩
  · exact ⟨4, rfl, by decide +kernel⟩
  · exact ⟨10, rfl, by decide +kernel⟩
  · exact ⟨11, rfl, by decide +kernel⟩
  · exact ⟨7, rfl, by decide +kernel⟩

theorem half1 : CellAt hexUnit ptsH [8, 1, 2, 9, 10, 5, 6, 11] ![1 / 2, 0, 0] ![1 / 2, 1, 1] := by
  refine ⟨rfl, by decide +kernel, ?_⟩
  intro j
  fin_cases j
  · exact ⟨8, rfl, by decide +kernel⟩
  · exact ⟨1, rfl, by decide +kernel⟩
  · exact ⟨2, rfl, by decide +kernel⟩
  · exact ⟨9, rfl, by decide +kernel⟩
  · exact ⟨10, rfl, by decide +kernel⟩
  · exact ⟨5, rfl, by decide +kernel⟩
  · exact ⟨6, rfl, by decide +kernel⟩
  · exact ⟨11, rfl, by decide +kernel⟩

theorem rectC : RectMesh hexUnit ptsC cellsC where
  nonempty := by decide
  rect := by
    intro cell hc
    rw [List.mem_singleton.mp hc]
    exact ⟨_, _, whole⟩
  small := by decide +kernel

theorem rectH : RectMesh hexUnit ptsH cellsH where
  nonempty := by decide
  rect := by
    intro cell hc
    simp only [cellsH, List.mem_cons, List.not_mem_nil, or_false] at hc
    rcases hc with rfl | rfl
    · exact ⟨_, _, half0⟩
    · exact ⟨_, _, half1⟩
  small := by decide +kernel

theorem conformingC : Conforming hexUnit ptsC cellsC := by
  intro cell hc cell' hc' a h a' h' hah hah' _ u hu
  obtain rfl := List.mem_singleton.mp hc
  obtain rfl := List.mem_singleton.mp hc'
  obtain ⟨rfl, rfl⟩ := Mesh.cellAt_unique hexLaw hah whole
  obtain ⟨rfl, rfl⟩ := Mesh.cellAt_unique hexLaw hah' whole
  have ext : ∀ x y z : ℚ, u 0 = x → u 1 = y → u 2 = z → u = ![x, y, z] := by
    intro x y z hx hy hz; funext i; fin_cases i <;> simp [hx, hy, hz]
  have v2 : ∀ a b c : ℚ, (![a, b, c] : Fin 3 → ℚ) 2 = c := fun _ _ _ => rfl
  have h0 := hu 0
  have h1 := hu 1
  have h2 := hu 2
  simp [v2] at h0 h1 h2
  rcases h0 with h0 | h0 <;> rcases h1 with h1 | h1 <;> rcases h2 with h2 | h2 <;> rw [ext _ _ _ h0 h1 h2] <;> simp [ptsC]

theorem refinesC : Refines hexUnit ptsC cellsC ptsH cellsH := by
  intro cell hc a h hah
  simp only [cellsH, List.mem_cons, List.not_mem_nil, or_false] at hc
  rcases hc with rfl | rfl
  · obtain ⟨rfl, rfl⟩ := Mesh.cellAt_unique hexLaw hah half0
    exact ⟨_, by simp [cellsC], _, _, whole, by decide +kernel⟩
  · obtain ⟨rfl, rfl⟩ := Mesh.cellAt_unique hexLaw hah half1
    exact ⟨_, by simp [cellsC], _, _, whole, by decide +kernel⟩

/-- In a mesh of one layer every point of the body is clear. -/
theorem clearC {x : Fin 3 → ℚ} (hx : Covered hexUnit ptsC cellsC x) : NearClear ptsC cellsC x := by
  intro cell hc a h hah _ _
  obtain ⟨cell', hc', a', h', hah', hin⟩ := hx
  obtain rfl := List.mem_singleton.mp hc
  obtain rfl := List.mem_singleton.mp hc'
  obtain ⟨rfl, rfl⟩ := Mesh.cellAt_unique hexLaw hah hah'
  exact hin

/-- `C149_value_3d_partial` applied at (1/4, 1/3, 1/5). -/
example : ∃ b b', Body.load (hexOps ℚ) ptsC cellsC [("u", dataC)] = .ok b ∧ Body.load (hexOps ℚ) ptsH cellsH [("u", dataH)] = .ok b' ∧
    ∃ y, (b'.calls (hexOps ℚ) []).value (hexOps ℚ) 0 ![1 / 4, 1 / 3, 1 / 5] = .ok y ∧ (b.calls (hexOps ℚ) []).value (hexOps ℚ) 0 ![1 / 4, 1 / 3, 1 / 5] = .ok y := by
  obtain ⟨b, hb, _⟩ := C31_load_3d ptsC cellsC [("u", dataC)] rectC (by decide)
  obtain ⟨b', hb', _⟩ := C31_load_3d ptsH cellsH [("u", dataH)] rectH (by decide)
  have r : ((Body.load (hexOps ℚ) ptsC cellsC [("u", dataC)]).map fun b => ptsH.map fun x => b.value (hexOps ℚ) 0 x) = .ok (dataH.map .ok) := by
    decide +kernel
  rw [hb] at r
  have in0 : InCell (![0, 0, 0] : Fin 3 → ℚ) ![1 / 2, 1, 1] ![1 / 4, 1 / 3, 1 / 5] := by intro i; fin_cases i <;> decide +kernel
  refine ⟨b, b', hb, hb', C149_value_3d_partial ptsC ptsH cellsC cellsH _ _ rectC conformingC rectH refinesC (by decide) (by decide) b b' hb hb' 0 0 "u" "u" _ _ rfl rfl
    ?_ (fun x _ hx => clearC hx) [] [] (by simp [HistOk]) (by simp [HistOk]) ![1 / 4, 1 / 3, 1 / 5] ⟨_, by simp [cellsH], _, _, half0, in0⟩
    (clearC ⟨_, by simp [cellsC], _, _, whole, by intro i; fin_cases i <;> decide +kernel⟩) ?_⟩
  · intro p x y h1 h2 _
    refine ⟨[], by simp [HistOk], ?_⟩
    have := congrArg (·[p]?) (Except.ok.inj r)
    simp only [List.getElem?_map, h1, h2, Option.map_some] at this
    exact Option.some.inj this
  · intro cell hc a h hah hin _
    simp only [cellsH, List.mem_cons, List.not_mem_nil, or_false] at hc
    rcases hc with rfl | rfl
    · obtain ⟨rfl, rfl⟩ := Mesh.cellAt_unique hexLaw hah half0
      exact in0
    · obtain ⟨rfl, rfl⟩ := Mesh.cellAt_unique hexLaw hah half1
      exact absurd (hin 0 (by decide)).1 (by decide +kernel)

/-- `C149_gradient_3d_partial` applied at the same point. -/
example : ∃ b b', Body.load (hexOps ℚ) ptsC cellsC [("u", dataC)] = .ok b ∧ Body.load (hexOps ℚ) ptsH cellsH [("u", dataH)] = .ok b' ∧
    ∃ y, (b'.calls (hexOps ℚ) []).grad (hexOps ℚ) 0 ![1 / 4, 1 / 3, 1 / 5] 1 = .ok y ∧ (b.calls (hexOps ℚ) []).grad (hexOps ℚ) 0 ![1 / 4, 1 / 3, 1 / 5] 1 = .ok y := by
  obtain ⟨b, hb, _⟩ := C31_load_3d ptsC cellsC [("u", dataC)] rectC (by decide)
  obtain ⟨b', hb', _⟩ := C31_load_3d ptsH cellsH [("u", dataH)] rectH (by decide)
  have r : ((Body.load (hexOps ℚ) ptsC cellsC [("u", dataC)]).map fun b => ptsH.map fun x => b.value (hexOps ℚ) 0 x) = .ok (dataH.map .ok) := by
    decide +kernel
  rw [hb] at r
  have in0 : InCell (![0, 0, 0] : Fin 3 → ℚ) ![1 / 2, 1, 1] ![1 / 4, 1 / 3, 1 / 5] := by intro i; fin_cases i <;> decide +kernel
  refine ⟨b, b', hb, hb', C149_gradient_3d_partial ptsC ptsH cellsC cellsH _ _ rectC conformingC rectH refinesC (by decide) (by decide) b b' hb hb' 0 0 "u" "u" _ _ rfl rfl
    ?_ (fun x _ hx => clearC hx) [] [] (by simp [HistOk]) (by simp [HistOk]) ![1 / 4, 1 / 3, 1 / 5] ⟨_, by simp [cellsH], _, _, half0, in0⟩
    (clearC ⟨_, by simp [cellsC], _, _, whole, by intro i; fin_cases i <;> decide +kernel⟩) ?_
    (fun _ h1 _ h2 _ _ _ _ _ _ _ _ => (List.mem_singleton.mp h1).trans (List.mem_singleton.mp h2).symm) 1⟩
  · intro p x y h1 h2 _
    refine ⟨[], by simp [HistOk], ?_⟩
    have := congrArg (·[p]?) (Except.ok.inj r)
    simp only [List.getElem?_map, h1, h2, Option.map_some] at this
    exact Option.some.inj this
  · intro cell hc a h hah hin _
    simp only [cellsH, List.mem_cons, List.not_mem_nil, or_false] at hc
    rcases hc with rfl | rfl
    · obtain ⟨rfl, rfl⟩ := Mesh.cellAt_unique hexLaw hah half0
      exact in0
    · obtain ⟨rfl, rfl⟩ := Mesh.cellAt_unique hexLaw hah half1
      exact absurd (hin 0 (by decide)).1 (by decide +kernel)

end RefineDemo

end Verif
