import Verif.Props.FieldState

/-!
# Properties C28, C29 and C70: 3D fields, and points outside every cell
-/

namespace Verif
open Spec Bin Mesh PField Body

section
variable {K : Type} [Field K] [LinearOrder K] [FloorRing K] [IsStrictOrderedRing K]

theorem sum_trilinear {a h : Fin 3 → K} (hh : ∀ i, h i ≠ 0) (v : Fin 8 → K) (c : Fin 3 → K) :
    ∑ j : Fin 8, hexF c (cornerPos a h (hexUnit j)) h (hexSign j) * v j = trilinear a h v c := by
  simp only [hexF_corner (hh 0) (hh 1) (hh 2), Fin.sum_univ_eight, trilinear, loc]
  ring

/-- A bin between those of two coordinates is within one increment of them. -/
theorem floor_near {mn ic x y : K} (hic : 0 < ic) (h : ⌊(x - mn) / ic⌋ ≤ ⌊(y - mn) / ic⌋) : x - ic < y := by
  have h1 : (x - mn) / ic < ⌊(x - mn) / ic⌋ + 1 := Int.lt_floor_add_one _
  have h2 : (⌊(y - mn) / ic⌋ : K) ≤ (y - mn) / ic := Int.floor_le _
  have h3 : ((⌊(x - mn) / ic⌋ : Int) : K) ≤ ⌊(y - mn) / ic⌋ := by exact_mod_cast h
  have h4 : (x - mn) / ic < (y - mn) / ic + 1 := by linarith
  have h5 : (x - mn) / ic * ic < ((y - mn) / ic + 1) * ic := mul_lt_mul_of_pos_right h4 hic
  rw [div_mul_cancel₀ _ hic.ne', add_mul, div_mul_cancel₀ _ hic.ne'] at h5
  linarith

/-- The value and gradient of a 3D field at a point of the body (lemma behind C28 and C70): the trilinear formula of one cell
whose column contains the point and whose vertical range is within one margin of it. -/
theorem hex_eval_first (pts : List (Fin 3 → K)) (cells : List (List Nat)) (flds : List (String × List K))
    (hm : RectMesh hexUnit pts cells) (hl : ∀ fl ∈ flds, fl.2.length = pts.length) (b : Body K 3)
    (hb : Body.load (hexOps K) pts cells flds = .ok b) (c : Fin 3 → K) (hc : Covered hexUnit pts cells c) :
    ∃ e cell a h, cells[e]? = some cell ∧ CellAt hexUnit pts cell a h ∧ Reaches pts a h c ∧
      (∀ (e' : Nat) cell a h, cells[e']? = some cell → CellAt hexUnit pts cell a h → Reaches pts a h c → e ≤ e') ∧
      ∀ (ops : List (Nat × Body.Call K 3)), HistOk pts ops →
      ∀ (i : Nat) (name : String) (data : List K), flds[i]? = some (name, data) →
      ∃ v, CornerVals data cell v ∧
      (b.calls (hexOps K) ops).value (hexOps K) i c = .ok (trilinear a h v c) ∧
      ∀ di : Fin 3, (b.calls (hexOps K) ops).grad (hexOps K) i c di = .ok (∑ j : Fin 8,
        (match di with
          | 0 => -hexSign j 0 * (1 - hexSign j 1 * (c 1 - cornerPos a h (hexUnit j) 1) / h 1) *
              (1 - hexSign j 2 * (c 2 - cornerPos a h (hexUnit j) 2) / h 2) / h 0
          | 1 => -hexSign j 1 * (1 - hexSign j 0 * (c 0 - cornerPos a h (hexUnit j) 0) / h 0) *
              (1 - hexSign j 2 * (c 2 - cornerPos a h (hexUnit j) 2) / h 2) / h 1
          | 2 => -hexSign j 2 * (1 - hexSign j 0 * (c 0 - cornerPos a h (hexUnit j) 0) / h 0) *
              (1 - hexSign j 1 * (c 1 - cornerPos a h (hexUnit j) 1) / h 1) / h 2) * v j) := by
  obtain ⟨b0, lo, hi', qs, h1, h2⟩ := load_ok hexLaw hm hl
  rw [hb] at h1; cases h1
  obtain ⟨e, cell, a, h, g1, g2, g3, ⟨g4, g1', gf⟩, g5⟩ := body_eval hexLaw h2.mesh hc
  have bt : ∀ a h : Fin 3 → K, InColumn a h c → (Between (binOf (List.ofFn (gMin pts lo hi')) (List.ofFn (gIncr pts lo hi')) (List.ofFn a))
      (binOf (List.ofFn (gMin pts lo hi')) (List.ofFn (gIncr pts lo hi')) (List.ofFn fun i => a i + h i)) (binAt pts lo hi' c) ↔ Reaches pts a h c) := by
    intro a h hcol
    rw [binAt, binOf_ofFn, binOf_ofFn, binOf_ofFn, between_ofFn]
    constructor
    · intro q
      refine ⟨?_, ?_⟩
      · intro i hi
        fin_cases i
        · exact hcol.1
        · exact hcol.2
        · exact absurd rfl hi
      · intro lo2 hi2 l1 l2
        rw [isLow_unique l1 (h2.mesh.grid.low 2), isHigh_unique l2 (h2.mesh.grid.high 2)]
        exact q 2
    · intro q i
      have hp := h2.mesh.incr_pos i
      fin_cases i
      · exact ⟨floor_idx_mono hp hcol.1.1, floor_idx_mono hp hcol.1.2⟩
      · exact ⟨floor_idx_mono hp hcol.2.1, floor_idx_mono hp hcol.2.2⟩
      · exact q.2 _ _ (h2.mesh.grid.low 2) (h2.mesh.grid.high 2)
  refine ⟨e, cell, a, h, g1', g2, (bt a h g3).mp g4, ?_, ?_⟩
  · intro e' x a h k1 k2 k3
    have hcol : InColumn a h c := ⟨k3.1 0 (by decide), k3.1 1 (by decide)⟩
    exact gf e' x a h k1 k2 hcol ((bt a h hcol).mpr k3)
  · intro ops ho i name data hi
    obtain ⟨v, gv, k1, k2, k3⟩ := g5 flds _ (calls_ok hexLaw hexTotal h2 ops ho) i name data hi
    refine ⟨v, gv, ?_, ?_⟩
    · rw [k1 (fun q => hexF c q.n q.h q.s) rfl, ← sum_trilinear fun i => (g2.2.1 i).ne']
      rfl
    · intro di
      fin_cases di
      · exact k2 0 (fun q => -q.s 0 * (1 - q.s 1 * (c 1 - q.n 1) / q.h 1) * (1 - q.s 2 * (c 2 - q.n 2) / q.h 2) / q.h 0) rfl
      · exact k2 1 (fun q => -q.s 1 * (1 - q.s 0 * (c 0 - q.n 0) / q.h 0) * (1 - q.s 2 * (c 2 - q.n 2) / q.h 2) / q.h 1) rfl
      · exact k2 2 (fun q => -q.s 2 * (1 - q.s 0 * (c 0 - q.n 0) / q.h 0) * (1 - q.s 1 * (c 1 - q.n 1) / q.h 1) / q.h 2) rfl

/-- The value and gradient of a 3D field at a point of the body (lemma behind C28 and C70): the trilinear formula of one cell
whose column contains the point and whose vertical range is within one margin of it. -/
theorem hex_eval (pts : List (Fin 3 → K)) (cells : List (List Nat)) (flds : List (String × List K))
    (hm : RectMesh hexUnit pts cells) (hl : ∀ fl ∈ flds, fl.2.length = pts.length) (b : Body K 3)
    (hb : Body.load (hexOps K) pts cells flds = .ok b) (c : Fin 3 → K) (hc : Covered hexUnit pts cells c) :
    ∃ cell a h, cell ∈ cells ∧ CellAt hexUnit pts cell a h ∧ InColumn a h c ∧
      (∀ lo hi, IsLow pts 2 lo → IsHigh pts 2 hi →
        a 2 - margin pts 2 lo hi < c 2 ∧ c 2 < a 2 + h 2 + margin pts 2 lo hi) ∧
      ∀ (ops : List (Nat × Body.Call K 3)), HistOk pts ops →
      ∀ (i : Nat) (name : String) (data : List K), flds[i]? = some (name, data) →
      ∃ v, CornerVals data cell v ∧
      (b.calls (hexOps K) ops).value (hexOps K) i c = .ok (trilinear a h v c) ∧
      ∀ di : Fin 3, (b.calls (hexOps K) ops).grad (hexOps K) i c di = .ok (∑ j : Fin 8,
        (match di with
          | 0 => -hexSign j 0 * (1 - hexSign j 1 * (c 1 - cornerPos a h (hexUnit j) 1) / h 1) *
              (1 - hexSign j 2 * (c 2 - cornerPos a h (hexUnit j) 2) / h 2) / h 0
          | 1 => -hexSign j 1 * (1 - hexSign j 0 * (c 0 - cornerPos a h (hexUnit j) 0) / h 0) *
              (1 - hexSign j 2 * (c 2 - cornerPos a h (hexUnit j) 2) / h 2) / h 1
          | 2 => -hexSign j 2 * (1 - hexSign j 0 * (c 0 - cornerPos a h (hexUnit j) 0) / h 0) *
              (1 - hexSign j 1 * (c 1 - cornerPos a h (hexUnit j) 1) / h 1) / h 2) * v j) := by
  obtain ⟨b0, lo, hi', qs, h1, h2⟩ := load_ok hexLaw hm hl
  rw [hb] at h1; cases h1
  obtain ⟨e, cell, a, h, g1, g2, g3, _, g4⟩ := hex_eval_first pts cells flds hm hl b hb c hc
  refine ⟨cell, a, h, List.mem_of_getElem? g1, g2, ⟨g3.1 0 (by decide), g3.1 1 (by decide)⟩, ?_, g4⟩
  intro lo2 hi2 l1 l2
  have hp := h2.mesh.incr_pos 2
  obtain ⟨q1, q2⟩ := g3.2 _ _ l1 l2
  rw [isLow_unique l1 (h2.mesh.grid.low 2), isHigh_unique l2 (h2.mesh.grid.high 2)] at q1 q2 ⊢
  have r1 := floor_near hp q1
  have r2 := floor_near hp q2
  have e : gIncr pts lo hi' 2 = margin pts 2 (lo 2) (hi' 2) := rfl
  rw [e] at r1 r2
  constructor <;> linarith

/-- **C28** (true part) The value of a 3D field at a point of the body is the trilinear interpolant of a cell containing the point,
provided every cell over or under the point whose vertical range comes within one bin margin of it contains it. Missing: without
the proviso the code may extrapolate from a cell above or below (`C28_3d_violated`). -/
theorem C28_trilinear_partial (pts : List (Fin 3 → K)) (cells : List (List Nat)) (flds : List (String × List K))
    (hm : RectMesh hexUnit pts cells) (hl : ∀ fl ∈ flds, fl.2.length = pts.length) (b : Body K 3)
    (hb : Body.load (hexOps K) pts cells flds = .ok b) (c : Fin 3 → K) (hc : Covered hexUnit pts cells c)
    (hz : ∀ cell ∈ cells, ∀ a h, CellAt hexUnit pts cell a h → (∀ i : Fin 3, i ≠ 2 → a i ≤ c i ∧ c i ≤ a i + h i) →
      (∀ lo hi, IsLow pts 2 lo → IsHigh pts 2 hi →
        a 2 - margin pts 2 lo hi < c 2 ∧ c 2 < a 2 + h 2 + margin pts 2 lo hi) → InCell a h c) :
    ∃ cell a h, cell ∈ cells ∧ CellAt hexUnit pts cell a h ∧ InCell a h c ∧
      ∀ (ops : List (Nat × Body.Call K 3)), HistOk pts ops →
      ∀ (i : Nat) (name : String) (data : List K), flds[i]? = some (name, data) →
      ∃ v, CornerVals data cell v ∧ (b.calls (hexOps K) ops).value (hexOps K) i c = .ok (trilinear a h v c) := by
  obtain ⟨cell, a, h, g1, g2, g3, g4, g5⟩ := hex_eval pts cells flds hm hl b hb c hc
  refine ⟨cell, a, h, g1, g2, hz cell g1 a h g2 ?_ g4, ?_⟩
  · intro i hi
    fin_cases i
    · exact g3.1
    · exact g3.2
    · exact absurd rfl hi
  · intro ops ho i name data hi
    obtain ⟨v, gv, k, _⟩ := g5 ops ho i name data hi
    exact ⟨v, gv, k⟩

/-- **C28** (one layer) For a mesh whose cells all have the same vertical range, the value of a 3D field at every point of the body
is the trilinear interpolant of a cell containing the point. -/
theorem C28_one_layer_partial (pts : List (Fin 3 → K)) (cells : List (List Nat)) (flds : List (String × List K))
    (hm : RectMesh hexUnit pts cells) (hl : ∀ fl ∈ flds, fl.2.length = pts.length) (b : Body K 3)
    (hb : Body.load (hexOps K) pts cells flds = .ok b) (z dz : K)
    (hz : ∀ cell ∈ cells, ∀ a h, CellAt hexUnit pts cell a h → a 2 = z ∧ h 2 = dz)
    (c : Fin 3 → K) (hc : Covered hexUnit pts cells c) :
    ∃ cell a h, cell ∈ cells ∧ CellAt hexUnit pts cell a h ∧ InCell a h c ∧
      ∀ (ops : List (Nat × Body.Call K 3)), HistOk pts ops →
      ∀ (i : Nat) (name : String) (data : List K), flds[i]? = some (name, data) →
      ∃ v, CornerVals data cell v ∧ (b.calls (hexOps K) ops).value (hexOps K) i c = .ok (trilinear a h v c) := by
  apply C28_trilinear_partial pts cells flds hm hl b hb c hc
  intro cell hce a h hah hxy _
  obtain ⟨cell', hce', a', h', hah', hin⟩ := hc
  intro i
  by_cases hi : i = 2
  · subst hi
    obtain ⟨e1, e2⟩ := hz cell hce a h hah
    obtain ⟨e3, e4⟩ := hz cell' hce' a' h' hah'
    rw [e1, e2, ← e3, ← e4]
    exact hin 2
  · exact hxy i hi

/-- Eight samples of a trilinear polynomial are interpolated by it, at every point (inside the cell or not). -/
theorem trilinear_exact {a h : Fin 3 → K} (hh : ∀ i, h i ≠ 0) (k : Fin 8 → K) (c : Fin 3 → K) (v : Fin 8 → K)
    (P : (Fin 3 → K) → K) (hP : ∀ x, P x = k 0 + k 1 * x 0 + k 2 * x 1 + k 3 * x 2 + k 4 * (x 0 * x 1) + k 5 * (x 0 * x 2) +
      k 6 * (x 1 * x 2) + k 7 * (x 0 * x 1 * x 2))
    (hv : ∀ j, v j = P (cornerPos a h (hexUnit j))) : trilinear a h v c = P c := by
  have h0 := hh 0
  have h1 := hh 1
  have h2 := hh 2
  simp only [trilinear, hv, hP]
  simp [cornerPos, hexUnit]
  field_simp
  ring

/-- **C70** If the nodal data sample a trilinear polynomial, the 3D field equals it at every point of the body and its gradient is
the polynomial's gradient: the wrong choice of cell (C28) does no harm then. -/
theorem C70_reproduces_trilinear (pts : List (Fin 3 → K)) (cells : List (List Nat)) (flds : List (String × List K))
    (hm : RectMesh hexUnit pts cells) (hl : ∀ fl ∈ flds, fl.2.length = pts.length) (b : Body K 3)
    (hb : Body.load (hexOps K) pts cells flds = .ok b) (ops : List (Nat × Body.Call K 3)) (ho : HistOk pts ops)
    (i : Nat) (name : String) (data : List K) (hi : flds[i]? = some (name, data)) (k : Fin 8 → K) (P : (Fin 3 → K) → K)
    (hP : ∀ x, P x = k 0 + k 1 * x 0 + k 2 * x 1 + k 3 * x 2 + k 4 * (x 0 * x 1) + k 5 * (x 0 * x 2) +
      k 6 * (x 1 * x 2) + k 7 * (x 0 * x 1 * x 2))
    (hd : data = pts.map P) (c : Fin 3 → K) (hc : Covered hexUnit pts cells c) :
    (b.calls (hexOps K) ops).value (hexOps K) i c = .ok (P c) ∧
    (b.calls (hexOps K) ops).grad (hexOps K) i c 0 = .ok (k 1 + k 4 * c 1 + k 5 * c 2 + k 7 * (c 1 * c 2)) ∧
    (b.calls (hexOps K) ops).grad (hexOps K) i c 1 = .ok (k 2 + k 4 * c 0 + k 6 * c 2 + k 7 * (c 0 * c 2)) ∧
    (b.calls (hexOps K) ops).grad (hexOps K) i c 2 = .ok (k 3 + k 5 * c 0 + k 6 * c 1 + k 7 * (c 0 * c 1)) := by
  obtain ⟨cell, a, h, g1, g2, g3, _, g5⟩ := hex_eval pts cells flds hm hl b hb c hc
  obtain ⟨v, gv, k1, k2⟩ := g5 ops ho i name data hi
  have hval : ∀ j, v j = P (cornerPos a h (hexUnit j)) := by
    intro j
    obtain ⟨p, e1, e2⟩ := g2.2.2 j
    obtain ⟨p', f1, f2⟩ := gv j
    rw [e1] at f1; cases f1
    rw [hd, List.getElem?_map, e2] at f2
    simpa using f2.symm
  have n0 := (g2.2.1 0).ne'
  have n1 := (g2.2.1 1).ne'
  have n2 := (g2.2.1 2).ne'
  refine ⟨?_, ?_, ?_, ?_⟩
  · rw [k1, trilinear_exact (fun i => (g2.2.1 i).ne') k c v P hP hval]
  · refine (k2 0).trans ?_
    congr 1
    simp only [hval, hP, Fin.sum_univ_eight]
    simp [cornerPos, hexUnit, hexSign]
    field_simp
    ring
  · refine (k2 1).trans ?_
    congr 1
    simp only [hval, hP, Fin.sum_univ_eight]
    simp [cornerPos, hexUnit, hexSign]
    field_simp
    ring
  · refine (k2 2).trans ?_
    congr 1
    simp only [hval, hP, Fin.sum_univ_eight]
    simp [cornerPos, hexUnit, hexSign]
    field_simp
    ring

end

/-! ### The stacked cells of the violation -/

namespace Demo3

/-- Two unit cubes on top of each other. -/
def pts : List (Fin 3 → ℚ) := [![0, 0, 0], ![1, 0, 0], ![1, 1, 0], ![0, 1, 0], ![0, 0, 1], ![1, 0, 1], ![1, 1, 1], ![0, 1, 1],
  ![0, 0, 2], ![1, 0, 2], ![1, 1, 2], ![0, 1, 2]]
def cells : List (List Nat) := [[0, 1, 2, 3, 4, 5, 6, 7], [4, 5, 6, 7, 8, 9, 10, 11]]
/-- 0 at and below `z = 1`, 1 at `z = 2`. -/
def data : List ℚ := [0, 0, 0, 0, 0, 0, 0, 0, 1, 1, 1, 1]

theorem cell0 : CellAt hexUnit pts [0, 1, 2, 3, 4, 5, 6, 7] ![0, 0, 0] ![1, 1, 1] := by
  refine ⟨rfl, by decide +kernel, ?_⟩
  intro j
  fin_cases j
  · exact ⟨0, rfl, by simp [pts]; decide +kernel⟩
  · exact ⟨1, rfl, by simp [pts]; decide +kernel⟩
  · exact ⟨2, rfl, by simp [pts]; decide +kernel⟩
  · exact ⟨3, rfl, by simp [pts]; decide +kernel⟩
  · exact ⟨4, rfl, by simp [pts]; decide +kernel⟩
  · exact ⟨5, rfl, by simp [pts]; decide +kernel⟩
  · exact ⟨6, rfl, by simp [pts]; decide +kernel⟩
  · exact ⟨7, rfl, by simp [pts]; decide +kernel⟩

theorem cell1 : CellAt hexUnit pts [4, 5, 6, 7, 8, 9, 10, 11] ![0, 0, 1] ![1, 1, 1] := by
  refine ⟨rfl, by decide +kernel, ?_⟩
  intro j
  fin_cases j
  · exact ⟨4, rfl, by simp [pts]; decide +kernel⟩
  · exact ⟨5, rfl, by simp [pts]; decide +kernel⟩
  · exact ⟨6, rfl, by simp [pts]; decide +kernel⟩
  · exact ⟨7, rfl, by simp [pts]; decide +kernel⟩
  · exact ⟨8, rfl, by simp [pts]; decide +kernel⟩
  · exact ⟨9, rfl, by simp [pts]; decide +kernel⟩
  · exact ⟨10, rfl, by simp [pts]; decide +kernel⟩
  · exact ⟨11, rfl, by simp [pts]; decide +kernel⟩

theorem rect : RectMesh hexUnit pts cells where
  nonempty := by decide
  rect := by
    intro cell hc
    simp only [cells, List.mem_cons, List.not_mem_nil, or_false] at hc
    rcases hc with rfl | rfl
    · exact ⟨_, _, cell0⟩
    · exact ⟨_, _, cell1⟩
  small := by decide +kernel

theorem run : (Body.load (hexOps ℚ) pts cells [("u", data)] >>= fun b => b.value (hexOps ℚ) 0 ![1 / 2, 1 / 2, 6 / 5]) = .ok 0 := by
  decide +kernel

end Demo3

/-- **C28, violation** Two stacked unit cubes, data 0 up to `z = 1` and 1 at `z = 2`. The point `(0.5, 0.5, 1.2)` lies in the upper
cube only, whose interpolant is 0.2 there; the code returns 0, extrapolated from the lower cube. -/
theorem C28_3d_violated :
    ∃ b, Body.load (hexOps ℚ) Demo3.pts Demo3.cells [("u", Demo3.data)] = .ok b ∧ RectMesh hexUnit Demo3.pts Demo3.cells ∧
      Covered hexUnit Demo3.pts Demo3.cells ![1 / 2, 1 / 2, 6 / 5] ∧
      b.value (hexOps ℚ) 0 ![1 / 2, 1 / 2, 6 / 5] = .ok 0 ∧
      ∀ cell ∈ Demo3.cells, ∀ a h v, CellAt hexUnit Demo3.pts cell a h → InCell a h ![1 / 2, 1 / 2, 6 / 5] →
        CornerVals Demo3.data cell v → trilinear a h v ![1 / 2, 1 / 2, 6 / 5] = 1 / 5 := by
  obtain ⟨b, hb, _⟩ := C31_load_3d Demo3.pts Demo3.cells [("u", Demo3.data)] Demo3.rect (by decide)
  refine ⟨b, hb, Demo3.rect, ⟨_, by simp [Demo3.cells], _, _, Demo3.cell1, by intro i; fin_cases i <;> decide +kernel⟩, ?_, ?_⟩
  · have := Demo3.run
    rw [hb] at this
    exact this
  · intro cell hc a h v hah hin hv
    simp only [Demo3.cells, List.mem_cons, List.not_mem_nil, or_false] at hc
    rcases hc with rfl | rfl
    · exfalso
      obtain ⟨rfl, rfl⟩ := Mesh.cellAt_unique hexLaw hah Demo3.cell0
      have := (hin 2).2
      revert this
      decide +kernel
    · obtain ⟨rfl, rfl⟩ := Mesh.cellAt_unique hexLaw hah Demo3.cell1
      have e : v = ![0, 0, 0, 0, 1, 1, 1, 1] := by
        funext j
        obtain ⟨p, p1, p2⟩ := hv j
        fin_cases j <;> simp at p1 <;> subst p1 <;> simpa [Demo3.data] using p2.symm
      subst e
      simp [trilinear]
      norm_num

/-- Non-vacuity of C28 (true part): the proviso holds at `(0.5, 0.5, 1.9)` on the stacked cubes. -/
example : Covered hexUnit Demo3.pts Demo3.cells ![1 / 2, 1 / 2, 19 / 10] ∧
    ∀ cell ∈ Demo3.cells, ∀ a h, CellAt hexUnit Demo3.pts cell a h →
      (∀ i : Fin 3, i ≠ 2 → a i ≤ (![1 / 2, 1 / 2, 19 / 10] : Fin 3 → ℚ) i ∧ (![1 / 2, 1 / 2, 19 / 10] : Fin 3 → ℚ) i ≤ a i + h i) →
      (∀ lo hi, IsLow Demo3.pts 2 lo → IsHigh Demo3.pts 2 hi →
        a 2 - margin Demo3.pts 2 lo hi < 19 / 10 ∧ (19 / 10 : ℚ) < a 2 + h 2 + margin Demo3.pts 2 lo hi) →
      InCell a h ![1 / 2, 1 / 2, 19 / 10] := by
  have hin : InCell (![0, 0, 1] : Fin 3 → ℚ) ![1, 1, 1] ![1 / 2, 1 / 2, 19 / 10] := by intro i; fin_cases i <;> decide +kernel
  refine ⟨⟨_, by simp [Demo3.cells], _, _, Demo3.cell1, hin⟩, ?_⟩
  intro cell hc a h hah _ hz
  have h2 := hz 0 2 ⟨⟨![0, 0, 0], by simp [Demo3.pts], by simp⟩, by simp [Demo3.pts]⟩
    ⟨⟨![0, 0, 2], by simp [Demo3.pts], by simp⟩, by simp [Demo3.pts]⟩
  have hn : nDistinct Demo3.pts 2 = 3 := by decide +kernel
  simp only [Demo3.cells, List.mem_cons, List.not_mem_nil, or_false] at hc
  rcases hc with rfl | rfl
  · exfalso
    obtain ⟨rfl, rfl⟩ := Mesh.cellAt_unique hexLaw hah Demo3.cell0
    have := h2.2
    simp [margin, hn] at this
    norm_num at this
  · obtain ⟨rfl, rfl⟩ := Mesh.cellAt_unique hexLaw hah Demo3.cell1
    exact hin

/-- Non-vacuity of C70: where C28 fails, trilinear data are still reproduced. -/
example : ∃ b, Body.load (hexOps ℚ) Demo3.pts Demo3.cells [("u", Demo3.pts.map fun x => 1 + x 0 * x 2)] = .ok b ∧
    b.value (hexOps ℚ) 0 ![1 / 2, 1 / 2, 6 / 5] = .ok (8 / 5) := by
  obtain ⟨b, hb, _⟩ := C31_load_3d Demo3.pts Demo3.cells [("u", Demo3.pts.map fun x => 1 + x 0 * x 2)] Demo3.rect
    (by simp)
  refine ⟨b, hb, ?_⟩
  have := (C70_reproduces_trilinear _ _ _ Demo3.rect (by simp) b hb [] (by simp [HistOk]) 0 "u" _ rfl ![1, 0, 0, 0, 0, 1, 0, 0]
    (fun x => 1 + x 0 * x 2) (by intro x; simp) rfl ![1 / 2, 1 / 2, 6 / 5]
    ⟨_, by simp [Demo3.cells], _, _, Demo3.cell1, by intro i; fin_cases i <;> decide +kernel⟩).1
  have e : (b.calls (hexOps ℚ) []) = b := rfl
  rw [e] at this
  rw [this]
  simp
  norm_num

end Verif
