import Verif.Props.FieldFirst
import Verif.Props.Field3DMore
import Verif.Props.FieldHess3D
import Verif.Props.Order

/-!
# C148: data are felt only in the cells around their node
-/

namespace Verif
open Spec Bin Mesh PField Body
variable {K : Type} [Field K] [LinearOrder K] [FloorRing K]

omit [Field K] [LinearOrder K] [FloorRing K] in
theorem cornerVals_congr {n : Nat} {data data' : List K} {cell : List Nat} {v v' : Fin n → K} (h : CornerVals data cell v)
    (h' : CornerVals data' cell v') (hd : ∀ p ∈ cell, data[p]? = data'[p]?) : v = v' := by
  funext j
  obtain ⟨p, e1, e2⟩ := h j
  obtain ⟨p', e1', e2'⟩ := h' j
  rw [e1] at e1'; cases e1'
  rw [hd p (List.mem_of_getElem? e1), e2'] at e2
  exact (Option.some.inj e2).symm

omit [FloorRing K] in
theorem cornerVals_near {n : Nat} {data data' : List K} {cell : List Nat} {v v' : Fin n → K} (h : CornerVals data cell v)
    (h' : CornerVals data' cell v') {ε : K} (hd : ∀ p ∈ cell, ∀ x x', data[p]? = some x → data'[p]? = some x' → |x - x'| ≤ ε) (j : Fin n) :
    |v j - v' j| ≤ ε := by
  obtain ⟨p, e1, e2⟩ := h j
  obtain ⟨p', e1', e2'⟩ := h' j
  rw [e1] at e1'; cases e1'
  exact hd p (List.mem_of_getElem? e1) _ _ e2 e2'

variable [IsStrictOrderedRing K]

/-- The cell used at a point does not depend on the fields. -/
theorem quad_same_cell (pts : List (Fin 2 → K)) (cells : List (List Nat)) (flds flds' : List (String × List K))
    (hm : RectMesh quadUnit pts cells) (hl : ∀ fl ∈ flds, fl.2.length = pts.length) (hl' : ∀ fl ∈ flds', fl.2.length = pts.length) (b b' : Body K 2)
    (hb : Body.load (quadOps K) pts cells flds = .ok b) (hb' : Body.load (quadOps K) pts cells flds' = .ok b') (c : Fin 2 → K)
    (hc : Covered quadUnit pts cells c) (ops ops' : List (Nat × Body.Call K 2)) (ho : HistOk pts ops) (ho' : HistOk pts ops') (i i' : Nat)
    (name name' : String) (data data' : List K) (hi : flds[i]? = some (name, data)) (hi' : flds'[i']? = some (name', data')) :
    ∃ cell ∈ cells, ∃ a h, CellAt quadUnit pts cell a h ∧ InCell a h c ∧ ∃ v v' : Fin 4 → K, CornerVals data cell v ∧ CornerVals data' cell v' ∧
      (b.calls (quadOps K) ops).value (quadOps K) i c = .ok (bilinear a h v c) ∧
      (b'.calls (quadOps K) ops').value (quadOps K) i' c = .ok (bilinear a h v' c) ∧
      (v = v' → (∀ di : Fin 2, (b.calls (quadOps K) ops).grad (quadOps K) i c di = (b'.calls (quadOps K) ops').grad (quadOps K) i' c di) ∧
        ∀ di dj : Fin 2, (b.calls (quadOps K) ops).hess (quadOps K) i c di dj = (b'.calls (quadOps K) ops').hess (quadOps K) i' c di dj) := by
  obtain ⟨e, cell, a, h, g1, g2, g3, g4, g5⟩ := quad_eval_first pts cells flds hm hl b hb c hc
  obtain ⟨e', cell', a', h', g1', g2', g3', g4', g5'⟩ := quad_eval_first pts cells flds' hm hl' b' hb' c hc
  have hee : e = e' := le_antisymm (g4 e' cell' a' h' g1' g2' g3') (g4' e cell a h g1 g2 g3)
  subst hee
  rw [g1] at g1'; cases g1'
  obtain ⟨rfl, rfl⟩ := cellAt_unique quadLaw g2 g2'
  obtain ⟨v, gv, k1, k2, k3, k4, k5, k6⟩ := g5 ops ho i name data hi
  obtain ⟨v', gv', k1', k2', k3', k4', k5', k6'⟩ := g5' ops' ho' i' name' data' hi'
  refine ⟨cell, List.mem_of_getElem? g1, a, h, g2, g3, v, v', gv, gv', k1, k1', ?_⟩
  rintro rfl
  refine ⟨fun di => ?_, fun di dj => ?_⟩
  · fin_cases di
    · exact k2.trans k2'.symm
    · exact k3.trans k3'.symm
  · fin_cases di <;> fin_cases dj
    · exact (k4 0).trans (k4' 0).symm
    · exact k5.trans k5'.symm
    · exact k6.trans k6'.symm
    · exact (k4 1).trans (k4' 1).symm

/-- **C148** (2D) Two fields on one mesh (of one body, or of two bodies). At a point of the body where the data of the two are the same at the nodes of all cells that
contain the point, value, derivatives and second derivatives are the same, whatever was evaluated before. -/
theorem C148_local_2d (pts : List (Fin 2 → K)) (cells : List (List Nat)) (flds flds' : List (String × List K))
    (hm : RectMesh quadUnit pts cells) (hl : ∀ fl ∈ flds, fl.2.length = pts.length) (hl' : ∀ fl ∈ flds', fl.2.length = pts.length) (b b' : Body K 2)
    (hb : Body.load (quadOps K) pts cells flds = .ok b) (hb' : Body.load (quadOps K) pts cells flds' = .ok b') (c : Fin 2 → K)
    (hc : Covered quadUnit pts cells c) (ops ops' : List (Nat × Body.Call K 2)) (ho : HistOk pts ops) (ho' : HistOk pts ops') (i i' : Nat)
    (name name' : String) (data data' : List K) (hi : flds[i]? = some (name, data)) (hi' : flds'[i']? = some (name', data'))
    (hd : ∀ cell ∈ cells, ∀ a h, CellAt quadUnit pts cell a h → InCell a h c → ∀ p ∈ cell, data[p]? = data'[p]?) :
    (∃ y, (b.calls (quadOps K) ops).value (quadOps K) i c = .ok y ∧ (b'.calls (quadOps K) ops').value (quadOps K) i' c = .ok y) ∧
    (∀ di : Fin 2, (b.calls (quadOps K) ops).grad (quadOps K) i c di = (b'.calls (quadOps K) ops').grad (quadOps K) i' c di) ∧
    ∀ di dj : Fin 2, (b.calls (quadOps K) ops).hess (quadOps K) i c di dj = (b'.calls (quadOps K) ops').hess (quadOps K) i' c di dj := by
  obtain ⟨cell, g1, a, h, g2, g3, v, v', gv, gv', k1, k2, k3⟩ := quad_same_cell pts cells flds flds' hm hl hl' b b' hb hb' c hc ops ops' ho ho' i i' name name'
    data data' hi hi'
  have hv := cornerVals_congr gv gv' (hd cell g1 a h g2 g3)
  exact ⟨⟨_, k1, hv ▸ k2⟩, k3 hv⟩

/-- **C148** (2D) If the data of the two differ by at most `ε` at the nodes of the cells that contain the point, so do the values there. -/
theorem C148_bound_2d (pts : List (Fin 2 → K)) (cells : List (List Nat)) (flds flds' : List (String × List K))
    (hm : RectMesh quadUnit pts cells) (hl : ∀ fl ∈ flds, fl.2.length = pts.length) (hl' : ∀ fl ∈ flds', fl.2.length = pts.length) (b b' : Body K 2)
    (hb : Body.load (quadOps K) pts cells flds = .ok b) (hb' : Body.load (quadOps K) pts cells flds' = .ok b') (c : Fin 2 → K)
    (hc : Covered quadUnit pts cells c) (ops ops' : List (Nat × Body.Call K 2)) (ho : HistOk pts ops) (ho' : HistOk pts ops') (i i' : Nat)
    (name name' : String) (data data' : List K) (hi : flds[i]? = some (name, data)) (hi' : flds'[i']? = some (name', data')) (ε : K)
    (hd : ∀ cell ∈ cells, ∀ a h, CellAt quadUnit pts cell a h → InCell a h c → ∀ p ∈ cell, ∀ x x', data[p]? = some x → data'[p]? = some x' → |x - x'| ≤ ε) :
    ∃ y y', (b.calls (quadOps K) ops).value (quadOps K) i c = .ok y ∧ (b'.calls (quadOps K) ops').value (quadOps K) i' c = .ok y' ∧ |y - y'| ≤ ε := by
  obtain ⟨cell, g1, a, h, g2, g3, v, v', gv, gv', k1, k2, k3⟩ := quad_same_cell pts cells flds flds' hm hl hl' b b' hb hb' c hc ops ops' ho ho' i i' name name'
    data data' hi hi'
  refine ⟨_, _, k1, k2, ?_⟩
  have hv := cornerVals_near gv gv' (hd cell g1 a h g2 g3)
  have x0 := (loc_nonneg_iff (a := a 0) (g2.2.1 0)).mpr (g3 0).1
  have x1 := (loc_le_one_iff (a := a 0) (g2.2.1 0)).mpr (g3 0).2
  have y0 := (loc_nonneg_iff (a := a 1) (g2.2.1 1)).mpr (g3 1).1
  have y1 := (loc_le_one_iff (a := a 1) (g2.2.1 1)).mpr (g3 1).2
  simp only [loc] at x0 x1 y0 y1
  simp only [bilinear]
  generalize (c 0 - a 0) / h 0 = x at *
  generalize (c 1 - a 1) / h 1 = y at *
  have w0 : 0 ≤ (1 - x) * (1 - y) := mul_nonneg (by linarith) (by linarith)
  have w1 : 0 ≤ x * (1 - y) := mul_nonneg (by linarith) (by linarith)
  have w2 : 0 ≤ x * y := mul_nonneg x0 y0
  have w3 : 0 ≤ (1 - x) * y := mul_nonneg (by linarith) (by linarith)
  have h0 := abs_le.mp (hv 0)
  have h1 := abs_le.mp (hv 1)
  have h2 := abs_le.mp (hv 2)
  have h3 := abs_le.mp (hv 3)
  have e : (1 - x) * (1 - y) + x * (1 - y) + x * y + (1 - x) * y = 1 := by ring
  rw [abs_le]
  constructor
  · nlinarith [mul_le_mul_of_nonneg_left h0.1 w0, mul_le_mul_of_nonneg_left h1.1 w1, mul_le_mul_of_nonneg_left h2.1 w2, mul_le_mul_of_nonneg_left h3.1 w3]
  · nlinarith [mul_le_mul_of_nonneg_left h0.2 w0, mul_le_mul_of_nonneg_left h1.2 w1, mul_le_mul_of_nonneg_left h2.2 w2, mul_le_mul_of_nonneg_left h3.2 w3]

theorem hex_same_cell (pts : List (Fin 3 → K)) (cells : List (List Nat)) (flds flds' : List (String × List K))
    (hm : RectMesh hexUnit pts cells) (hl : ∀ fl ∈ flds, fl.2.length = pts.length) (hl' : ∀ fl ∈ flds', fl.2.length = pts.length) (b b' : Body K 3)
    (hb : Body.load (hexOps K) pts cells flds = .ok b) (hb' : Body.load (hexOps K) pts cells flds' = .ok b') (c : Fin 3 → K)
    (hc : Covered hexUnit pts cells c) (ops ops' : List (Nat × Body.Call K 3)) (ho : HistOk pts ops) (ho' : HistOk pts ops') (i i' : Nat)
    (name name' : String) (data data' : List K) (hi : flds[i]? = some (name, data)) (hi' : flds'[i']? = some (name', data')) :
    ∃ cell ∈ cells, ∃ a h, CellAt hexUnit pts cell a h ∧ Reaches pts a h c ∧
      (∀ lo hi, IsLow pts 2 lo → IsHigh pts 2 hi → a 2 - margin pts 2 lo hi < c 2 ∧ c 2 < a 2 + h 2 + margin pts 2 lo hi) ∧
      ∃ v v' : Fin 8 → K, CornerVals data cell v ∧ CornerVals data' cell v' ∧
      (b.calls (hexOps K) ops).value (hexOps K) i c = .ok (trilinear a h v c) ∧
      (b'.calls (hexOps K) ops').value (hexOps K) i' c = .ok (trilinear a h v' c) ∧
      (v = v' → (∀ di : Fin 3, (b.calls (hexOps K) ops).grad (hexOps K) i c di = (b'.calls (hexOps K) ops').grad (hexOps K) i' c di) ∧
        ∀ di dj : Fin 3, (b.calls (hexOps K) ops).hess (hexOps K) i c di dj = (b'.calls (hexOps K) ops').hess (hexOps K) i' c di dj) := by
  obtain ⟨e, cell, a, h, g1, g2, g3, g4, g5⟩ := hex_eval_first pts cells flds hm hl b hb c hc
  have first : ∀ (flds' : List (String × List K)) (b' : Body K 3), (∀ fl ∈ flds', fl.2.length = pts.length) → Body.load (hexOps K) pts cells flds' = .ok b' →
      ∀ (ops' : List (Nat × Body.Call K 3)), HistOk pts ops' → ∀ (i' : Nat) (name' : String) (data' : List K), flds'[i']? = some (name', data') →
      ∃ v' : Fin 8 → K, CornerVals data' cell v' ∧ (b'.calls (hexOps K) ops').value (hexOps K) i' c = .ok (trilinear a h v' c) ∧
        (∀ di : Fin 3, (b'.calls (hexOps K) ops').grad (hexOps K) i' c di = .ok (∑ j : Fin 8,
        (match di with
          | 0 => -hexSign j 0 * (1 - hexSign j 1 * (c 1 - cornerPos a h (hexUnit j) 1) / h 1) *
              (1 - hexSign j 2 * (c 2 - cornerPos a h (hexUnit j) 2) / h 2) / h 0
          | 1 => -hexSign j 1 * (1 - hexSign j 0 * (c 0 - cornerPos a h (hexUnit j) 0) / h 0) *
              (1 - hexSign j 2 * (c 2 - cornerPos a h (hexUnit j) 2) / h 2) / h 1
          | 2 => -hexSign j 2 * (1 - hexSign j 0 * (c 0 - cornerPos a h (hexUnit j) 0) / h 0) *
              (1 - hexSign j 1 * (c 1 - cornerPos a h (hexUnit j) 1) / h 1) / h 2) * v' j)) ∧
        ∀ di dj : Fin 3, (b'.calls (hexOps K) ops').hess (hexOps K) i' c di dj = .ok (∑ j : Fin 8,
          (if di = dj then 0 else hexSign j di * hexSign j dj / h di / h dj) * v' j) := by
    intro flds' b' hl' hb' ops' ho' i' name' data' hi'
    obtain ⟨e', cell', a', h', g1', g2', g3', g4', g5'⟩ := hex_eval_first pts cells flds' hm hl' b' hb' c hc
    have hee : e = e' := le_antisymm (g4 e' cell' a' h' g1' g2' g3') (g4' e cell a h g1 g2 g3)
    subst hee
    rw [g1] at g1'; cases g1'
    obtain ⟨rfl, rfl⟩ := cellAt_unique hexLaw g2 g2'
    obtain ⟨e', cell', a', h', q1, q2, q3, q4, q5⟩ := hex_hess_first pts cells flds' hm hl' b' hb' c hc
    have hee : e = e' := le_antisymm (g4 e' cell' a' h' q1 q2 q3) (q4 e cell a h g1 g2 g3)
    subst hee
    rw [g1] at q1; cases q1
    obtain ⟨rfl, rfl⟩ := cellAt_unique hexLaw g2 q2
    obtain ⟨v', gv', k1, k2⟩ := g5' ops' ho' i' name' data' hi'
    obtain ⟨v2, gv2, k3⟩ := q5 ops' ho' i' name' data' hi'
    rw [cornerVals_unique gv2 gv'] at k3
    exact ⟨v', gv', k1, k2, k3⟩
  obtain ⟨v, gv, k1, k2, k3⟩ := first flds b hl hb ops ho i name data hi
  obtain ⟨v', gv', k1', k2', k3'⟩ := first flds' b' hl' hb' ops' ho' i' name' data' hi'
  refine ⟨cell, List.mem_of_getElem? g1, a, h, g2, g3, ?_, v, v', gv, gv', k1, k1', ?_⟩
  · obtain ⟨b0, lo, hi', qs, h1, h2⟩ := load_ok hexLaw hm hl
    rw [hb] at h1; cases h1
    intro lo2 hi2 l1 l2
    have hp := h2.mesh.incr_pos 2
    obtain ⟨q1, q2⟩ := g3.2 _ _ l1 l2
    rw [isLow_unique l1 (h2.mesh.grid.low 2), isHigh_unique l2 (h2.mesh.grid.high 2)] at q1 q2 ⊢
    have r1 := floor_near hp q1
    have r2 := floor_near hp q2
    have e : gIncr pts lo hi' 2 = margin pts 2 (lo 2) (hi' 2) := rfl
    rw [e] at r1 r2
    constructor <;> linarith
  · rintro rfl
    exact ⟨fun di => (k2 di).trans (k2' di).symm, fun di dj => (k3 di dj).trans (k3' di dj).symm⟩

/-- **C148** (3D, part) The same for cells over or under the point (or around it) that reach the layer of the point. -/
theorem C148_local_3d_partial (pts : List (Fin 3 → K)) (cells : List (List Nat)) (flds flds' : List (String × List K))
    (hm : RectMesh hexUnit pts cells) (hl : ∀ fl ∈ flds, fl.2.length = pts.length) (hl' : ∀ fl ∈ flds', fl.2.length = pts.length) (b b' : Body K 3)
    (hb : Body.load (hexOps K) pts cells flds = .ok b) (hb' : Body.load (hexOps K) pts cells flds' = .ok b') (c : Fin 3 → K)
    (hc : Covered hexUnit pts cells c) (ops ops' : List (Nat × Body.Call K 3)) (ho : HistOk pts ops) (ho' : HistOk pts ops') (i i' : Nat)
    (name name' : String) (data data' : List K) (hi : flds[i]? = some (name, data)) (hi' : flds'[i']? = some (name', data'))
    (hd : ∀ cell ∈ cells, ∀ a h, CellAt hexUnit pts cell a h → Reaches pts a h c → ∀ p ∈ cell, data[p]? = data'[p]?) :
    (∃ y, (b.calls (hexOps K) ops).value (hexOps K) i c = .ok y ∧ (b'.calls (hexOps K) ops').value (hexOps K) i' c = .ok y) ∧
    (∀ di : Fin 3, (b.calls (hexOps K) ops).grad (hexOps K) i c di = (b'.calls (hexOps K) ops').grad (hexOps K) i' c di) ∧
    ∀ di dj : Fin 3, (b.calls (hexOps K) ops).hess (hexOps K) i c di dj = (b'.calls (hexOps K) ops').hess (hexOps K) i' c di dj := by
  obtain ⟨cell, g1, a, h, g2, g3, _, v, v', gv, gv', k1, k2, k3⟩ := hex_same_cell pts cells flds flds' hm hl hl' b b' hb hb' c hc ops ops' ho ho' i i' name name'
    data data' hi hi'
  have hv := cornerVals_congr gv gv' (hd cell g1 a h g2 g3)
  exact ⟨⟨_, k1, hv ▸ k2⟩, k3 hv⟩

/-- **C148** (3D, part) At points such that every cell over or under the point whose vertical range comes near it contains it, only the cells that contain the point
count: both statements. -/
theorem C148_clear_3d_partial (pts : List (Fin 3 → K)) (cells : List (List Nat)) (flds flds' : List (String × List K))
    (hm : RectMesh hexUnit pts cells) (hl : ∀ fl ∈ flds, fl.2.length = pts.length) (hl' : ∀ fl ∈ flds', fl.2.length = pts.length) (b b' : Body K 3)
    (hb : Body.load (hexOps K) pts cells flds = .ok b) (hb' : Body.load (hexOps K) pts cells flds' = .ok b') (c : Fin 3 → K)
    (hc : Covered hexUnit pts cells c) (hz : NearClear pts cells c) (ops ops' : List (Nat × Body.Call K 3)) (ho : HistOk pts ops) (ho' : HistOk pts ops')
    (i i' : Nat) (name name' : String) (data data' : List K) (hi : flds[i]? = some (name, data)) (hi' : flds'[i']? = some (name', data')) :
    ((∀ cell ∈ cells, ∀ a h, CellAt hexUnit pts cell a h → InCell a h c → ∀ p ∈ cell, data[p]? = data'[p]?) →
      (∃ y, (b.calls (hexOps K) ops).value (hexOps K) i c = .ok y ∧ (b'.calls (hexOps K) ops').value (hexOps K) i' c = .ok y) ∧
      (∀ di : Fin 3, (b.calls (hexOps K) ops).grad (hexOps K) i c di = (b'.calls (hexOps K) ops').grad (hexOps K) i' c di) ∧
      ∀ di dj : Fin 3, (b.calls (hexOps K) ops).hess (hexOps K) i c di dj = (b'.calls (hexOps K) ops').hess (hexOps K) i' c di dj) ∧
    ∀ ε, (∀ cell ∈ cells, ∀ a h, CellAt hexUnit pts cell a h → InCell a h c → ∀ p ∈ cell, ∀ x x', data[p]? = some x → data'[p]? = some x' → |x - x'| ≤ ε) →
      ∃ y y', (b.calls (hexOps K) ops).value (hexOps K) i c = .ok y ∧ (b'.calls (hexOps K) ops').value (hexOps K) i' c = .ok y' ∧ |y - y'| ≤ ε := by
  obtain ⟨cell, g1, a, h, g2, g3, g4, v, v', gv, gv', k1, k2, k3⟩ := hex_same_cell pts cells flds flds' hm hl hl' b b' hb hb' c hc ops ops' ho ho' i i' name name'
    data data' hi hi'
  have hin : InCell a h c := hz cell g1 a h g2 g3.1 g4
  refine ⟨fun hd => ?_, fun ε hd => ⟨_, _, k1, k2, ?_⟩⟩
  · have hv := cornerVals_congr gv gv' (hd cell g1 a h g2 hin)
    exact ⟨⟨_, k1, hv ▸ k2⟩, k3 hv⟩
  · have hv := cornerVals_near gv gv' (hd cell g1 a h g2 hin)
    have e : trilinear a h v c - trilinear a h v' c = trilinear a h (fun j => v j - v' j) c := by
      simp only [trilinear]; ring
    rw [e, abs_le]
    exact trilinear_bounds g2.2.1 hin fun j => abs_le.mp (hv j)

namespace Fl
variable {rnd : K → K} {u : K} {d n : Nat}

/-- In floating-point arithmetic an evaluation depends only on the data at the nodes of one cell, which depends on the mesh and the point alone. -/
theorem local_eval {E : ElemOps K d} {unit sgn : Fin n → Fin d → K} {tested : Fin d → Prop} (F : FlElem rnd E unit sgn tested) (T : PField.ElemTotal E)
    (R : Rounding rnd u) (hu : u ≤ 1 / 64) {pts : List (Fin d → K)} {cells : List (List Nat)} (flds flds' : List (String × List K))
    (hm : FloatMesh unit rnd u pts cells) (hl : ∀ fl ∈ flds, fl.2.length = pts.length) (hl' : ∀ fl ∈ flds', fl.2.length = pts.length) (b b' : Body K d)
    (hb : load rnd E pts cells flds = .ok b) (hb' : load rnd E pts cells flds' = .ok b')
    (hB : ∃ B, load rnd E pts cells (flds ++ flds') = .ok B)
    (ops ops' : List (Nat × Body.Call K d)) (ho : HistOk rnd pts ops) (ho' : HistOk rnd pts ops') (i i' : Nat) (name name' : String) (data data' : List K)
    (hi : flds[i]? = some (name, data)) (hi' : flds'[i']? = some (name', data')) (c : Fin d → K) (hc : FloatPoint unit rnd pts cells c)
    (hd : ∀ cell ∈ cells, ∀ a h, CellAt unit pts cell a h → (∀ i, tested i → a i ≤ c i ∧ c i ≤ a i + h i) →
      (∀ e lo hi, Mesh.GridOf pts lo hi → (∃ j : Fin n, touches rnd (List.ofFn (gMin rnd pts lo hi)) (List.ofFn (gIncr rnd pts lo hi)) (binAt rnd pts lo hi c)
        (corner rnd E unit (cell.getD j 0) e a h j) = true) → ∀ p ∈ cell, data[p]? = data'[p]?)) (op : Call K d) (hop : op.coord = c) :
    eval rnd E (evals rnd E b ops) i op = eval rnd E (evals rnd E b' ops') i' op := by
  have li := (List.getElem?_eq_some_iff.mp hi).1
  have li' := (List.getElem?_eq_some_iff.mp hi').1
  rw [eval_free F T R hu flds hm hl b hb ops ho i li op (hop ▸ hc), eval_free F T R hu flds' hm hl' b' hb' ops' ho' i' li' op (hop ▸ hc)]
  have hll : ∀ fl ∈ flds ++ flds', fl.2.length = pts.length := fun fl h => (List.mem_append.mp h).elim (hl fl) (hl' fl)
  obtain ⟨B, hB⟩ := hB
  have j1 : (flds ++ flds')[i]? = some (name, data) := by rw [List.getElem?_append_left li, hi]
  have j2 : (flds ++ flds')[flds.length + i']? = some (name', data') := by rw [List.getElem?_append_right (by omega)]; simpa using hi'
  rw [eval_alone hb hB hi j1, eval_alone hb' hB hi' j2]
  obtain ⟨cell, a, h, e, lo, hi2, p, g1, g2, g3, gg, gt, _, g5⟩ := elem_eval F T R hu _ hm hll B hB c hc
  obtain ⟨v, k1, k2, k3, k4⟩ := g5 [] (by simp [HistOk]) i _ _ j1
  obtain ⟨v', k1', k2', k3', k4'⟩ := g5 [] (by simp [HistOk]) _ _ _ j2
  obtain rfl := cornerVals_congr k1 k1' (hd cell g1 a h g2 g3 e lo hi2 gg gt)
  cases op with
  | value c' =>
    subst hop
    obtain ⟨g, hg⟩ := T.value c'
    have hw := fun q => congrFun hg q
    exact (k2 _ fun j => hw _).trans (k2' _ fun j => hw _).symm
  | grad c' di =>
    subst hop
    obtain ⟨g, hg⟩ := T.grad c' di
    have hw := fun q => congrFun hg q
    exact (k3 di _ fun j => hw _).trans (k3' di _ fun j => hw _).symm
  | hess c' di dj =>
    subst hop
    obtain ⟨g, hg⟩ := T.hess c' di dj
    have hw := fun q => congrFun hg q
    exact (k4 di dj _ fun j => hw _).trans (k4' di dj _ fun j => hw _).symm

end Fl

/-- **C148** (2D, floating-point arithmetic) The first statement for computed numbers: value, derivatives and second derivatives are the same numbers. -/
theorem C148_rounded_2d {rnd : K → K} {u : K} (R : Rounding rnd u) (hu : u ≤ 1 / 64) (pts : List (Fin 2 → K)) (cells : List (List Nat))
    (flds flds' : List (String × List K)) (hm : FloatMesh quadUnit rnd u pts cells) (hl : ∀ fl ∈ flds, fl.2.length = pts.length)
    (hl' : ∀ fl ∈ flds', fl.2.length = pts.length) (b b' : Body K 2) (hb : Fl.load rnd (Fl.quadOps rnd) pts cells flds = .ok b)
    (hb' : Fl.load rnd (Fl.quadOps rnd) pts cells flds' = .ok b') (ops ops' : List (Nat × Body.Call K 2)) (ho : Fl.HistOk rnd pts ops)
    (ho' : Fl.HistOk rnd pts ops') (i i' : Nat) (name name' : String) (data data' : List K) (hi : flds[i]? = some (name, data))
    (hi' : flds'[i']? = some (name', data')) (c : Fin 2 → K) (hc : FloatPoint quadUnit rnd pts cells c)
    (hd : ∀ cell ∈ cells, ∀ a h, CellAt quadUnit pts cell a h → InCell a h c → ∀ p ∈ cell, data[p]? = data'[p]?) (op : Fl.Call K 2) (hop : op.coord = c) :
    Fl.eval rnd (Fl.quadOps rnd) (Fl.evals rnd (Fl.quadOps rnd) b ops) i op = Fl.eval rnd (Fl.quadOps rnd) (Fl.evals rnd (Fl.quadOps rnd) b' ops') i' op := by
  have hll : ∀ fl ∈ flds ++ flds', fl.2.length = pts.length := fun fl h => (List.mem_append.mp h).elim (hl fl) (hl' fl)
  exact Fl.local_eval Fl.flQuad Fl.flQuadTotal R hu flds flds' hm hl hl' b b' hb hb' (C94_loads R hu pts cells (flds ++ flds') hm hll) ops ops' ho ho' i i' name
    name' data data' hi hi' c hc (fun cell h1 a h h2 h3 _ _ _ _ _ => hd cell h1 a h h2 fun i => h3 i trivial) op hop

/-- **C148** (3D, floating-point arithmetic, part) The same at vertically clear points. -/
theorem C148_rounded_3d_partial {rnd : K → K} {u : K} (R : Rounding rnd u) (hu : u ≤ 1 / 64) (pts : List (Fin 3 → K)) (cells : List (List Nat))
    (flds flds' : List (String × List K)) (hm : FloatMesh hexUnit rnd u pts cells) (hl : ∀ fl ∈ flds, fl.2.length = pts.length)
    (hl' : ∀ fl ∈ flds', fl.2.length = pts.length) (b b' : Body K 3) (hb : Fl.load rnd (Fl.hexOps rnd) pts cells flds = .ok b)
    (hb' : Fl.load rnd (Fl.hexOps rnd) pts cells flds' = .ok b') (ops ops' : List (Nat × Body.Call K 3)) (ho : Fl.HistOk rnd pts ops)
    (ho' : Fl.HistOk rnd pts ops') (i i' : Nat) (name name' : String) (data data' : List K) (hi : flds[i]? = some (name, data))
    (hi' : flds'[i']? = some (name', data')) (c : Fin 3 → K) (hc : FloatPoint hexUnit rnd pts cells c) (hcl : VerticallyClear pts cells c)
    (hd : ∀ cell ∈ cells, ∀ a h, CellAt hexUnit pts cell a h → InCell a h c → ∀ p ∈ cell, data[p]? = data'[p]?) (op : Fl.Call K 3) (hop : op.coord = c) :
    Fl.eval rnd (Fl.hexOps rnd) (Fl.evals rnd (Fl.hexOps rnd) b ops) i op = Fl.eval rnd (Fl.hexOps rnd) (Fl.evals rnd (Fl.hexOps rnd) b' ops') i' op := by
  have hll : ∀ fl ∈ flds ++ flds', fl.2.length = pts.length := fun fl h => (List.mem_append.mp h).elim (hl fl) (hl' fl)
  refine Fl.local_eval Fl.flHex Fl.flHexTotal R hu flds flds' hm hl hl' b b' hb hb' (C107_loads R hu pts cells (flds ++ flds') hm hll) ops ops' ho ho' i i' name
    name' data data' hi hi' c hc (fun cell g1 a h g2 g3 e lo hi gg gt => hd cell g1 a h g2 ?_) op hop
  obtain ⟨j, gt⟩ := gt
  apply hcl cell g1 a h g2 g3
  intro lo2 hi2 l1 l2
  rw [Mesh.isLow_unique l1 (gg.low 2), Mesh.isHigh_unique l2 (gg.high 2)]
  refine Fl.touches_near Fl.flHex R hu hm gg g2 (fun i => ?_) gt 2
  obtain ⟨⟨cell', _, a', h', hce', hin⟩, _⟩ := hc
  obtain ⟨m1, m2⟩ := (Fl.flHex (rnd := rnd)).cell_mem hce'
  have h1 : lo i ≤ a' i := (gg.low i).2 _ m1
  have h2 : a' i + h' i ≤ hi i := (gg.high i).2 _ m2
  exact ⟨h1.trans (hin i).1, (hin i).2.trans h2⟩

/-- **C148, violation** (3D) Two cubes on top of each other. The data of two fields differ only at node 0, a corner of the lower cube that the upper one does not have.
At a point which only the upper cube contains, their values are different. -/
theorem C148_stacked_violated : ∃ data data' : List ℚ, (∀ p ≠ 0, data[p]? = data'[p]?) ∧ RectMesh hexUnit Demo3.pts Demo3.cells ∧
    ∃ b, Body.load (hexOps ℚ) Demo3.pts Demo3.cells [("u", data), ("v", data')] = .ok b ∧ Covered hexUnit Demo3.pts Demo3.cells ![1 / 2, 1 / 2, 5 / 4] ∧
      (∀ cell ∈ Demo3.cells, ∀ a h, CellAt hexUnit Demo3.pts cell a h → InCell a h ![1 / 2, 1 / 2, 5 / 4] → 0 ∉ cell) ∧
      b.value (hexOps ℚ) 0 ![1 / 2, 1 / 2, 5 / 4] = .ok 0 ∧ b.value (hexOps ℚ) 1 ![1 / 2, 1 / 2, 5 / 4] = .ok (-1 / 16) := by
  refine ⟨List.replicate 12 0, 1 :: List.replicate 11 0, ?_, Demo3.rect, ?_⟩
  · intro p hp
    cases p with
    | zero => exact absurd rfl hp
    | succ p => simp [List.replicate_succ]
  obtain ⟨b, hb, _⟩ := C31_load_3d Demo3.pts Demo3.cells [("u", List.replicate 12 0), ("v", 1 :: List.replicate 11 0)] Demo3.rect (by decide)
  refine ⟨b, hb, ⟨_, by simp [Demo3.cells], _, _, Demo3.cell1, by intro i; fin_cases i <;> decide +kernel⟩, ?_, ?_⟩
  · intro cell hc a h hah hin
    simp only [Demo3.cells, List.mem_cons, List.not_mem_nil, or_false] at hc
    rcases hc with rfl | rfl
    · exfalso
      obtain ⟨rfl, rfl⟩ := Mesh.cellAt_unique hexLaw hah Demo3.cell0
      have := (hin 2).2
      revert this
      decide +kernel
    · decide
  · have r : ((Body.load (hexOps ℚ) Demo3.pts Demo3.cells [("u", List.replicate 12 0), ("v", 1 :: List.replicate 11 0)]).map fun b =>
        (b.value (hexOps ℚ) 0 ![1 / 2, 1 / 2, 5 / 4], b.value (hexOps ℚ) 1 ![1 / 2, 1 / 2, 5 / 4])) = .ok (.ok 0, .ok (-1 / 16)) := by decide +kernel
    rw [hb] at r
    have := Except.ok.inj r
    exact ⟨congrArg Prod.fst this, congrArg Prod.snd this⟩

namespace LocalDemo

/-- A point of the left cell of the demo mesh. -/
def c : Fin 2 → ℚ := ![1 / 2, 1 / 4]

/-- Only the left cell contains it, and node 2 is not a node of that cell. -/
theorem agree : ∀ cell ∈ Demo.cells, ∀ a h, CellAt quadUnit Demo.pts cell a h → InCell a h c → ∀ p ∈ cell,
    ([1, 2, 3, 4, 5, 7] : List ℚ)[p]? = [1, 2, 30, 4, 5, 7][p]? := by
  intro cell hc a h hah hin
  simp only [Demo.cells, List.mem_cons, List.not_mem_nil, or_false] at hc
  rcases hc with rfl | rfl
  · decide +kernel
  · exfalso
    obtain ⟨rfl, rfl⟩ := Mesh.cellAt_unique quadLaw hah Demo.cell1
    have := (hin 0).1
    revert this
    decide +kernel

theorem covered : Covered quadUnit Demo.pts Demo.cells c :=
  ⟨_, List.mem_cons_self, _, _, Demo.cell0, by intro i; fin_cases i <;> decide +kernel⟩

/-- `C148_local_2d` applied: the value at node 2 changed from 3 to 30, in two bodies with different histories and numbers of fields. -/
example : ∃ b b', Body.load (quadOps ℚ) Demo.pts Demo.cells [("u", [1, 2, 3, 4, 5, 7])] = .ok b ∧
    Body.load (quadOps ℚ) Demo.pts Demo.cells [("x", [0, 0, 0, 0, 0, 0]), ("u", [1, 2, 30, 4, 5, 7])] = .ok b' ∧
    (∃ y, (b.calls (quadOps ℚ) []).value (quadOps ℚ) 0 c = .ok y ∧ (b'.calls (quadOps ℚ) [(0, .grad ![0, 1] 1)]).value (quadOps ℚ) 1 c = .ok y) := by
  obtain ⟨b, hb, _⟩ := C22_load_2d Demo.pts Demo.cells [("u", [1, 2, 3, 4, 5, 7])] Demo.rect (by decide)
  obtain ⟨b', hb', _⟩ := C22_load_2d Demo.pts Demo.cells [("x", [0, 0, 0, 0, 0, 0]), ("u", [1, 2, 30, 4, 5, 7])] Demo.rect (by decide)
  refine ⟨b, b', hb, hb', ?_⟩
  refine (C148_local_2d Demo.pts Demo.cells _ _ Demo.rect (by decide) (by decide) b b' hb hb' c covered [] [(0, .grad ![0, 1] 1)] (by simp [HistOk]) ?_ 0 1
    "u" "u" _ _ rfl rfl agree).1
  intro x hx
  simp only [List.mem_cons, List.not_mem_nil, or_false] at hx
  subst hx
  refine Or.inl fun i lo hi h1 h2 => ?_
  fin_cases i
  · have l : IsLow Demo.pts 0 0 := by unfold IsLow; decide +kernel
    have h : IsHigh Demo.pts 0 3 := by unfold IsHigh; decide +kernel
    obtain rfl := isLow_unique h1 l
    obtain rfl := isHigh_unique h2 h
    decide +kernel
  · have l : IsLow Demo.pts 1 0 := by unfold IsLow; decide +kernel
    have h : IsHigh Demo.pts 1 1 := by unfold IsHigh; decide +kernel
    obtain rfl := isLow_unique h1 l
    obtain rfl := isHigh_unique h2 h
    decide +kernel

/-- The same in binary64. -/
example : ∃ b b', Fl.load FlDemo.r (Fl.quadOps FlDemo.r) Demo.pts Demo.cells [("u", [1, 2, 3, 4, 5, 7])] = .ok b ∧
    Fl.load FlDemo.r (Fl.quadOps FlDemo.r) Demo.pts Demo.cells [("u", [1, 2, 30, 4, 5, 7])] = .ok b' ∧
    ∀ op : Fl.Call ℚ 2, op.coord = c → Fl.eval FlDemo.r (Fl.quadOps FlDemo.r) (Fl.evals FlDemo.r (Fl.quadOps FlDemo.r) b []) 0 op =
      Fl.eval FlDemo.r (Fl.quadOps FlDemo.r) (Fl.evals FlDemo.r (Fl.quadOps FlDemo.r) b' []) 0 op := by
  obtain ⟨b, hb⟩ := C94_loads FlDemo.rounding (by norm_num) Demo.pts Demo.cells [("u", [1, 2, 3, 4, 5, 7])] FlDemo.mesh2 (by decide)
  obtain ⟨b', hb'⟩ := C94_loads FlDemo.rounding (by norm_num) Demo.pts Demo.cells [("u", [1, 2, 30, 4, 5, 7])] FlDemo.mesh2 (by decide)
  exact ⟨b, b', hb, hb', C148_rounded_2d FlDemo.rounding (by norm_num) Demo.pts Demo.cells _ _ FlDemo.mesh2 (by decide) (by decide) b b' hb hb' [] []
    (by simp [Fl.HistOk]) (by simp [Fl.HistOk]) 0 0 "u" "u" _ _ rfl rfl c ⟨covered, by unfold IsFloat; decide +kernel⟩ agree⟩

/-- 3D: a point of the lower cube, a quarter above its bottom. Data that differ at node 8, a corner of the upper cube. -/
example : Covered hexUnit Demo3.pts Demo3.cells ![1 / 2, 1 / 2, 1 / 4] ∧ NearClear Demo3.pts Demo3.cells ![1 / 2, 1 / 2, 1 / 4] ∧
    (∀ cell ∈ Demo3.cells, ∀ a h, CellAt hexUnit Demo3.pts cell a h → InCell a h ![1 / 2, 1 / 2, 1 / 4] → ∀ p ∈ cell,
      (List.replicate 12 (0 : ℚ))[p]? = (List.replicate 8 (0 : ℚ) ++ [1, 0, 0, 0])[p]?) ∧
    ∀ cell ∈ Demo3.cells, ∀ a h, CellAt hexUnit Demo3.pts cell a h → Reaches Demo3.pts a h ![1 / 2, 1 / 2, 1 / 4] → ∀ p ∈ cell,
      (List.replicate 12 (0 : ℚ))[p]? = (List.replicate 8 (0 : ℚ) ++ [1, 0, 0, 0])[p]? := by
  have l : IsLow Demo3.pts 2 0 := by unfold IsLow; decide +kernel
  have h' : IsHigh Demo3.pts 2 2 := by unfold IsHigh; decide +kernel
  have only : ∀ cell ∈ Demo3.cells, ∀ a h, CellAt hexUnit Demo3.pts cell a h →
      (cell = [0, 1, 2, 3, 4, 5, 6, 7] ∧ a = ![0, 0, 0] ∧ h = ![1, 1, 1]) ∨ (cell = [4, 5, 6, 7, 8, 9, 10, 11] ∧ a = ![0, 0, 1] ∧ h = ![1, 1, 1]) := by
    intro cell hc a h hah
    simp only [Demo3.cells, List.mem_cons, List.not_mem_nil, or_false] at hc
    rcases hc with rfl | rfl
    · exact Or.inl ⟨rfl, Mesh.cellAt_unique hexLaw hah Demo3.cell0⟩
    · exact Or.inr ⟨rfl, Mesh.cellAt_unique hexLaw hah Demo3.cell1⟩
  have inC : InCell (![0, 0, 0] : Fin 3 → ℚ) ![1, 1, 1] ![1 / 2, 1 / 2, 1 / 4] := by intro i; fin_cases i <;> decide +kernel
  refine ⟨⟨_, by simp [Demo3.cells], _, _, Demo3.cell0, inC⟩, ?_, ?_, ?_⟩
  · intro cell hc a h hah _ hn
    rcases only cell hc a h hah with ⟨rfl, rfl, rfl⟩ | ⟨rfl, rfl, rfl⟩
    · exact inC
    · exfalso
      have := (hn 0 2 l h').1
      revert this
      decide +kernel
  · intro cell hc a h hah hin
    rcases only cell hc a h hah with ⟨rfl, rfl, rfl⟩ | ⟨rfl, rfl, rfl⟩
    · decide +kernel
    · exfalso
      have := (hin 2).1
      revert this
      decide +kernel
  · intro cell hc a h hah hin
    rcases only cell hc a h hah with ⟨rfl, rfl, rfl⟩ | ⟨rfl, rfl, rfl⟩
    · decide +kernel
    · exfalso
      have := (hin.2 0 2 l h').1
      revert this
      decide +kernel

end LocalDemo

end Verif
