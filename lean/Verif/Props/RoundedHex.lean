import Verif.Lemmas.RoundedHex
import Verif.Props.RoundedField

/-!
# Properties C107-C109: 3D fields in floating-point arithmetic

As C94-C96, for hexahedra. The range test of a hexahedron does not look at the third direction, so the theorems have the proviso of C28:
a cell over or under the point that comes near it (within two bin margins, because of the rounding) contains it.
-/

namespace Verif
open Spec
variable {K : Type} [Field K] [LinearOrder K] [FloorRing K] [IsStrictOrderedRing K] {rnd : K → K} {u : K}

/-- In a mesh of one layer every point of the body is vertically clear. -/
theorem clear_of_layer {pts : List (Fin 3 → K)} {cells : List (List Nat)} {z dz : K}
    (hz : ∀ cell ∈ cells, ∀ a h, CellAt hexUnit pts cell a h → a 2 = z ∧ h 2 = dz) {c : Fin 3 → K} (hc : Covered hexUnit pts cells c) :
    VerticallyClear pts cells c := by
  intro cell hce a h hah hxy _
  obtain ⟨cell', hce', a', h', hah', hin⟩ := hc
  intro i
  by_cases hi : i = 2
  · subst hi
    obtain ⟨e1, e2⟩ := hz cell hce a h hah
    obtain ⟨e3, e4⟩ := hz cell' hce' a' h' hah'
    rw [e1, e2, ← e3, ← e4]
    exact hin 2
  · exact hxy i hi

namespace Fl

/-- What the three members compute at a floating-point point of the body that is vertically clear. -/
theorem hex_eval (R : Rounding rnd u) (hu : u ≤ 1 / 64) (pts : List (Fin 3 → K)) (cells : List (List Nat)) (flds : List (String × List K))
    (hm : FloatMesh hexUnit rnd u pts cells) (hl : ∀ fl ∈ flds, fl.2.length = pts.length) (b : Body K 3)
    (hb : load rnd (hexOps rnd) pts cells flds = .ok b) (c : Fin 3 → K) (hc : FloatPoint hexUnit rnd pts cells c)
    (hcl : VerticallyClear pts cells c) :
    ∃ cell a h e, ∃ p : Fin 8 → Bool, cell ∈ cells ∧ CellAt hexUnit pts cell a h ∧ InCell a h c ∧
      (∀ j, ¬ Lost hexUnit rnd a h c j → p j = true) ∧
      ∀ (ops : List (Nat × Body.Call K 3)), HistOk rnd pts ops →
      ∀ (i : Nat) (name : String) (data : List K), flds[i]? = some (name, data) →
      ∃ v : Fin 8 → K, CornerVals data cell v ∧
        eval rnd (hexOps rnd) (evals rnd (hexOps rnd) b ops) i (.value c) = .ok (rsum rnd 0 (((List.finRange 8).filter p).map fun j =>
          rnd (rnd (rnd (cfac rnd a h c j 0 * cfac rnd a h c j 1) * cfac rnd a h c j 2) * v j))) ∧
        (∀ (di : Fin 3) (W : Fin 8 → K), (∀ j : Fin 8, hexGrad rnd c (corner rnd (hexOps rnd) hexUnit (cell.getD j 0) e a h j).n
            (corner rnd (hexOps rnd) hexUnit (cell.getD j 0) e a h j).h (corner rnd (hexOps rnd) hexUnit (cell.getD j 0) e a h j).s di = .ok (W j)) →
          eval rnd (hexOps rnd) (evals rnd (hexOps rnd) b ops) i (.grad c di) =
            .ok (rsum rnd 0 (((List.finRange 8).filter p).map fun j => rnd (W j * v j)))) := by
  obtain ⟨cell, a, h, e, lo, hi, p, g1, g2, g3, gg, ⟨j, gt⟩, g4, g5⟩ := elem_eval flHex flHexTotal R hu flds hm hl b hb c hc
  have hic : InCell a h c := by
    apply hcl cell g1 a h g2 g3
    intro lo2 hi2 l1 l2
    rw [Mesh.isLow_unique l1 (gg.low 2), Mesh.isHigh_unique l2 (gg.high 2)]
    refine touches_near flHex R hu hm gg g2 (fun i => ?_) gt 2
    obtain ⟨⟨cell', _, a', h', hce', hin⟩, _⟩ := hc
    obtain ⟨m1, m2⟩ := (flHex (rnd := rnd)).cell_mem hce'
    have h1 : lo i ≤ a' i := (gg.low i).2 _ m1
    have h2 : a' i + h' i ≤ hi i := (gg.high i).2 _ m2
    exact ⟨h1.trans (hin i).1, (hin i).2.trans h2⟩
  refine ⟨cell, a, h, e, p, g1, g2, hic, g4 hic, fun ops ho i name data hi' => ?_⟩
  obtain ⟨v, k1, k2, k3, _⟩ := g5 ops ho i name data hi'
  exact ⟨v, k1, k2 _ fun j => congrArg _ (hexF_eq R _ _ _ _ _ _), k3⟩

end Fl

/-- **C107** Every resolved 3D mesh of floating-point points is read without an error. -/
theorem C107_loads (R : Rounding rnd u) (hu : u ≤ 1 / 64) (pts : List (Fin 3 → K)) (cells : List (List Nat)) (flds : List (String × List K))
    (hm : FloatMesh hexUnit rnd u pts cells) (hl : ∀ fl ∈ flds, fl.2.length = pts.length) :
    ∃ b, Fl.load rnd (Fl.hexOps rnd) pts cells flds = .ok b := by
  obtain ⟨b, _, _, _, h, _⟩ := Fl.load_ok Fl.flHex R hu hm hl
  exact ⟨b, h⟩

/-- **C107** Well outside the body every evaluation throws `domain_error`, after any history. -/
theorem C107_outside (R : Rounding rnd u) (hu : u ≤ 1 / 64) (pts : List (Fin 3 → K)) (cells : List (List Nat)) (flds : List (String × List K))
    (hm : FloatMesh hexUnit rnd u pts cells) (hl : ∀ fl ∈ flds, fl.2.length = pts.length) (b : Body K 3)
    (hb : Fl.load rnd (Fl.hexOps rnd) pts cells flds = .ok b) (ops : List (Nat × Body.Call K 3)) (ho : Fl.HistOk rnd pts ops) (i : Nat)
    (hi : i < flds.length) (op : Fl.Call K 3) (hc : FloatFar rnd pts op.coord) :
    Fl.eval rnd (Fl.hexOps rnd) (Fl.evals rnd (Fl.hexOps rnd) b ops) i op = .error .domainError :=
  Fl.elem_outside Fl.flHex Fl.flHexTotal R hu flds hm hl b hb ops ho i hi op hc

/-- **C107** (part) At every floating-point point of the body that is vertically clear, after any history, the value computed is within 256
roundoffs of the trilinear interpolant of a cell containing the point (relative to the largest corner value). Missing: points that
are not vertically clear, where it is false (`C107_3d_violated`). -/
theorem C107_value_error_partial (R : Rounding rnd u) (hu : u ≤ 1 / 64) (pts : List (Fin 3 → K)) (cells : List (List Nat))
    (flds : List (String × List K)) (hm : FloatMesh hexUnit rnd u pts cells) (hl : ∀ fl ∈ flds, fl.2.length = pts.length)
    (hfl : ∀ fl ∈ flds, ∀ y ∈ fl.2, IsFloat rnd y) (b : Body K 3) (hb : Fl.load rnd (Fl.hexOps rnd) pts cells flds = .ok b) (c : Fin 3 → K)
    (hc : FloatPoint hexUnit rnd pts cells c) (hcl : VerticallyClear pts cells c) :
    ∃ cell a h, cell ∈ cells ∧ CellAt hexUnit pts cell a h ∧ InCell a h c ∧
      ∀ (ops : List (Nat × Body.Call K 3)), Fl.HistOk rnd pts ops →
      ∀ (i : Nat) (name : String) (data : List K), flds[i]? = some (name, data) →
      ∃ v y, CornerVals data cell v ∧ Fl.eval rnd (Fl.hexOps rnd) (Fl.evals rnd (Fl.hexOps rnd) b ops) i (.value c) = .ok y ∧
        ∀ M, (∀ j, |v j| ≤ M) → |y - trilinear a h v c| ≤ 256 * u * M := by
  obtain ⟨cell, a, h, e, p, g1, g2, g3, g4, g5⟩ := Fl.hex_eval R hu pts cells flds hm hl b hb c hc hcl
  refine ⟨cell, a, h, g1, g2, g3, fun ops ho i name data hi => ?_⟩
  obtain ⟨v, k1, k2, _⟩ := g5 ops ho i name data hi
  have hv : ∀ j, IsFloat rnd (v j) := by
    intro j
    obtain ⟨q, _, hq⟩ := k1 j
    exact hfl _ (List.mem_of_getElem? hi) _ (List.mem_of_getElem? hq)
  exact ⟨v, _, k1, k2, fun M hM => Fl.value_close3 R hu g2.2.1 g3 hc.2 p g4 v hv hM⟩

/-- **C107** (one layer) For a mesh whose cells all have the same vertical range the bound holds at every floating-point point of the body. -/
theorem C107_one_layer_partial (R : Rounding rnd u) (hu : u ≤ 1 / 64) (pts : List (Fin 3 → K)) (cells : List (List Nat))
    (flds : List (String × List K)) (hm : FloatMesh hexUnit rnd u pts cells) (hl : ∀ fl ∈ flds, fl.2.length = pts.length)
    (hfl : ∀ fl ∈ flds, ∀ y ∈ fl.2, IsFloat rnd y) (b : Body K 3) (hb : Fl.load rnd (Fl.hexOps rnd) pts cells flds = .ok b) (z dz : K)
    (hz : ∀ cell ∈ cells, ∀ a h, CellAt hexUnit pts cell a h → a 2 = z ∧ h 2 = dz) (c : Fin 3 → K)
    (hc : FloatPoint hexUnit rnd pts cells c) :
    ∃ cell a h, cell ∈ cells ∧ CellAt hexUnit pts cell a h ∧ InCell a h c ∧
      ∀ (ops : List (Nat × Body.Call K 3)), Fl.HistOk rnd pts ops →
      ∀ (i : Nat) (name : String) (data : List K), flds[i]? = some (name, data) →
      ∃ v y, CornerVals data cell v ∧ Fl.eval rnd (Fl.hexOps rnd) (Fl.evals rnd (Fl.hexOps rnd) b ops) i (.value c) = .ok y ∧
        ∀ M, (∀ j, |v j| ≤ M) → |y - trilinear a h v c| ≤ 256 * u * M :=
  C107_value_error_partial R hu pts cells flds hm hl hfl b hb c hc (clear_of_layer hz hc.1)

/-! ### C108: nodal values -/

namespace Fl

theorem hex_unit_inj (j j0 : Fin 8) (h : ∀ i, (hexUnit j i : K) = hexUnit j0 i) : j = j0 := by
  have h0 := h 0
  have h1 := h 1
  have h2 := h 2
  fin_cases j <;> fin_cases j0 <;> simp [hexUnit] at h0 h1 h2 ⊢

/-- At a corner the computed factors are exactly one and zero. -/
theorem cfac_corner (R : Rounding rnd u) (hu : u ≤ 1 / 64) {a h : Fin 3 → K} (hh : ∀ i, 0 < h i) (j0 j : Fin 8) (i : Fin 3) :
    cfac rnd a h (cornerPos a h (hexUnit j0)) j i = if (hexUnit j i : K) = hexUnit j0 i then 1 else 0 := by
  have f0 : frac rnd 0 (h i) = 0 := by simp [frac, R.zero]
  have f1 : frac rnd (h i) (h i) = 1 := by
    rw [frac, div_self (R.pos (by linarith) (hh i)).ne', R.one]
  rw [cfac, dist_corner (flHex (rnd := rnd))]
  split
  · rw [f0, sub_zero, R.one]
  · rw [f1, sub_self, R.zero]

theorem hex_weight_corner (R : Rounding rnd u) (hu : u ≤ 1 / 64) {a h : Fin 3 → K} (hh : ∀ i, 0 < h i) (j0 j : Fin 8) :
    rnd (rnd (cfac rnd a h (cornerPos a h (hexUnit j0)) j 0 * cfac rnd a h (cornerPos a h (hexUnit j0)) j 1) *
      cfac rnd a h (cornerPos a h (hexUnit j0)) j 2) = if j = j0 then 1 else 0 := by
  simp only [cfac_corner R hu hh]
  by_cases e : j = j0
  · subst e; simp [R.one]
  · rw [if_neg (c := j = j0) e]
    obtain ⟨i, hi⟩ : ∃ i, (hexUnit j i : K) ≠ hexUnit j0 i := by
      by_contra hn
      exact e (hex_unit_inj (K := K) j j0 fun i => by by_contra h; exact hn ⟨i, h⟩)
    have three : i = 0 ∨ i = 1 ∨ i = 2 := by fin_cases i <;> simp
    rcases three with rfl | rfl | rfl
    · rw [if_neg (c := (hexUnit j 0 : K) = hexUnit j0 0) hi]; simp [R.zero]
    · rw [if_neg (c := (hexUnit j 1 : K) = hexUnit j0 1) hi]; simp [R.zero]
    · rw [if_neg (c := (hexUnit j 2 : K) = hexUnit j0 2) hi]; simp [R.zero]

theorem corner_of {pts : List (Fin 3 → K)} {x : Fin 3 → K} {cell : List Nat} {a h : Fin 3 → K} (hah : CellAt hexUnit pts cell a h) {p : Nat}
    (hp : p ∈ cell) (hx : pts[p]? = some x) : ∃ j : Fin 8, cell[(j : Nat)]? = some p ∧ x = cornerPos a h (hexUnit j) := by
  obtain ⟨j, hj, hje⟩ := List.mem_iff_getElem.mp hp
  have hj4 : j < 8 := by rw [← hah.1]; exact hj
  obtain ⟨k, e1, e2⟩ := hah.2.2 ⟨j, hj4⟩
  simp only [List.getElem?_eq_getElem hj, hje, Option.some.injEq] at e1
  subst e1
  rw [hx] at e2
  exact ⟨⟨j, hj4⟩, by simp [hj, hje], Option.some.inj e2⟩

/-- Nodes of a cell at the same position are the same. -/
theorem node_unique {pts : List (Fin 3 → K)} {x : Fin 3 → K} {cell : List Nat} {a h : Fin 3 → K} (hah : CellAt hexUnit pts cell a h) {p q : Nat}
    (hp : p ∈ cell) (hq : q ∈ cell) (hpx : pts[p]? = some x) (hqx : pts[q]? = some x) : p = q := by
  obtain ⟨j, e1, e2⟩ := corner_of hah hp hpx
  obtain ⟨k, f1, f2⟩ := corner_of hah hq hqx
  have : j = k := by
    apply hex_unit_inj (K := K)
    intro i
    have := congrFun (e2.symm.trans f2) i
    simp only [cornerPos, add_right_inj] at this
    exact mul_right_cancel₀ (hah.2.1 i).ne' this
  subst this
  rw [e1] at f1
  exact Option.some.inj f1

end Fl

/-- **C108** (part) On a conforming 3D mesh the value computed at a node of a cell is exactly the node's data value, whatever the rounding,
provided the node is vertically clear. Missing: nodes that are not, where it is false (`C108_nodal_violated`). -/
theorem C108_nodal_exact_partial (R : Rounding rnd u) (hu : u ≤ 1 / 64) (pts : List (Fin 3 → K)) (cells : List (List Nat))
    (flds : List (String × List K)) (hm : FloatMesh hexUnit rnd u pts cells) (hcf : Conforming hexUnit pts cells)
    (hl : ∀ fl ∈ flds, fl.2.length = pts.length) (hfl : ∀ fl ∈ flds, ∀ y ∈ fl.2, IsFloat rnd y) (b : Body K 3)
    (hb : Fl.load rnd (Fl.hexOps rnd) pts cells flds = .ok b) (ops : List (Nat × Body.Call K 3)) (ho : Fl.HistOk rnd pts ops) (i : Nat)
    (name : String) (data : List K) (hi : flds[i]? = some (name, data)) (p : Nat) (cell : List Nat) (hce : cell ∈ cells)
    (hp : p ∈ cell) (x : Fin 3 → K) (hx : pts[p]? = some x) (y : K) (hy : data[p]? = some y) (hcl : VerticallyClear pts cells x) :
    Fl.eval rnd (Fl.hexOps rnd) (Fl.evals rnd (Fl.hexOps rnd) b ops) i (.value x) = .ok y := by
  obtain ⟨a, h, hah⟩ := hm.rect.rect cell hce
  obtain ⟨j1, _, hj1⟩ := Fl.corner_of hah hp hx
  have hin : InCell a h x := by
    intro i
    have hh := (hah.2.1 i).le
    rw [hj1, cornerPos]
    rcases (Fl.flHex (rnd := rnd)).sign j1 i with ⟨e, _⟩ | ⟨e, _⟩ <;> rw [e] <;> constructor <;> linarith
  have hf : ∀ i, IsFloat rnd (x i) := hm.float x (List.mem_of_getElem? hx)
  obtain ⟨cell', a', h', e, pr, g1, g2, g3, g4, g5⟩ :=
    Fl.hex_eval R hu pts cells flds hm hl b hb x ⟨⟨cell, hce, a, h, hah, hin⟩, hf⟩ hcl
  obtain ⟨v, k1, k2, _⟩ := g5 ops ho i name data hi
  obtain ⟨p', p1, p2, p3⟩ := hcf cell hce cell' g1 a h a' h' hah g2 ⟨x, hin, g3⟩ x (by
    intro i
    have hh := (hah.2.1 i).le
    have b1 := g3 i
    rw [hj1, cornerPos] at b1 ⊢
    rcases (Fl.flHex (rnd := rnd)).sign j1 i with ⟨e, _⟩ | ⟨e, _⟩ <;> rw [e] at b1 ⊢
    · left; rw [max_eq_left (by linarith [b1.1])]; ring
    · right; rw [min_eq_left (by linarith [b1.2])]; ring)
  obtain rfl := Fl.node_unique hah hp p1 hx p3
  obtain ⟨j0, hc0, hj0⟩ := Fl.corner_of g2 p2 p3
  have hv0 : v j0 = y := by
    obtain ⟨q, e1, e2⟩ := k1 j0
    rw [hc0] at e1
    obtain rfl := Option.some.inj e1
    rw [hy] at e2
    exact (Option.some.inj e2).symm
  have hfy : IsFloat rnd y := hfl _ (List.mem_of_getElem? hi) _ (List.mem_of_getElem? hy)
  have hpj : pr j0 = true := by
    apply g4
    rintro ⟨i, hl⟩
    have := Fl.lost_dist R hf hl
    rw [hj0, Fl.dist_corner (Fl.flHex (rnd := rnd)), if_pos rfl] at this
    exact absurd this (not_lt.mpr (R.nonneg (g2.2.1 i).le))
  rw [k2]
  congr 1
  have key := Fl.rsum_single R (fun j : Fin 8 => rnd ((if j = j0 then 1 else 0) * v j)) j0 (R.isFloat _)
    (fun j hj => by simp [hj, R.zero]) ((List.finRange 8).filter pr) ((List.nodup_finRange 8).filter _)
    (List.mem_filter.mpr ⟨List.mem_finRange _, hpj⟩)
  simp only [if_true, one_mul, hv0] at key
  rw [show rnd y = y from hfy] at key
  rw [← key]
  congr 2
  funext j
  rw [hj0, Fl.hex_weight_corner R hu g2.2.1]

/-! ### C109: derivatives -/

namespace Fl

/-- The exact gradient as a sum over corners. -/
theorem slope_wgt3 {a h : Fin 3 → K} (hh : ∀ i, 0 < h i) (v : Fin 8 → K) (c : Fin 3 → K) (di : Fin 3) :
    cellSlope3 a h v c di = ∑ j : Fin 8, (-hexSign (j : Nat) di * (fac a h c j (oth di).1 * fac a h c j (oth di).2) / h di) * v j := by
  have h0 := (hh 0).ne'
  have h1 := (hh 1).ne'
  have h2 := (hh 2).ne'
  have three : di = 0 ∨ di = 1 ∨ di = 2 := by fin_cases di <;> simp
  rcases three with rfl | rfl | rfl
  · simp only [cellSlope3, trilinear, fac, dist, oth, Fin.sum_univ_eight, hexUnit, hexSign]
    simp
    field_simp
    ring
  · simp only [cellSlope3, trilinear, fac, dist, oth, Fin.sum_univ_eight, hexUnit, hexSign]
    simp
    field_simp
    ring
  · simp only [cellSlope3, trilinear, fac, dist, oth, Fin.sum_univ_eight, hexUnit, hexSign]
    simp
    field_simp
    ring

end Fl

/-- **C109** (part) The computed gradient component `di` at a vertically clear point is within 384 roundoffs of the slope of the trilinear
interpolant of a cell containing the point (relative to the largest corner value divided by the extent), provided the point is within the
computed extent of that cell in direction `di`. Without the provisos it is false (`C109_grad_violated`; for cell edges `C96_grad_violated`). -/
theorem C109_grad_error_partial (R : Rounding rnd u) (hu : u ≤ 1 / 64) (pts : List (Fin 3 → K)) (cells : List (List Nat))
    (flds : List (String × List K)) (hm : FloatMesh hexUnit rnd u pts cells) (hl : ∀ fl ∈ flds, fl.2.length = pts.length)
    (b : Body K 3) (hb : Fl.load rnd (Fl.hexOps rnd) pts cells flds = .ok b) (c : Fin 3 → K)
    (hc : FloatPoint hexUnit rnd pts cells c) (hcl : VerticallyClear pts cells c) :
    ∃ cell a h, cell ∈ cells ∧ CellAt hexUnit pts cell a h ∧ InCell a h c ∧
      ∀ (ops : List (Nat × Body.Call K 3)), Fl.HistOk rnd pts ops →
      ∀ (i : Nat) (name : String) (data : List K), flds[i]? = some (name, data) →
      ∃ v, CornerVals data cell v ∧ ∀ di, ∃ y, Fl.eval rnd (Fl.hexOps rnd) (Fl.evals rnd (Fl.hexOps rnd) b ops) i (.grad c di) = .ok y ∧
        (Reach rnd a h c di → ∀ M, (∀ j, |v j| ≤ M) → |y - cellSlope3 a h v c di| ≤ 384 * u * (M / h di)) := by
  have u0 := R.u_nonneg
  obtain ⟨cell, a, h, e, p, g1, g2, g3, g4, g5⟩ := Fl.hex_eval R hu pts cells flds hm hl b hb c hc hcl
  refine ⟨cell, a, h, g1, g2, g3, fun ops ho i name data hi => ?_⟩
  obtain ⟨v, k1, _, k2⟩ := g5 ops ho i name data hi
  refine ⟨v, k1, fun di => ?_⟩
  choose W hW1 hW2 hW3 using fun j : Fin 8 => Fl.grad_weight3 R hu g2.2.1 g3 (cell.getD j 0) e j di
  refine ⟨_, k2 di W hW1, fun hr M hM => ?_⟩
  have M0 : 0 ≤ M := (abs_nonneg _).trans (hM 0)
  have hd := g2.2.1 di
  have g0 : 0 ≤ 1 / h di := by positivity
  have mg : 0 ≤ M * (1 / h di) := mul_nonneg M0 g0
  have umg : 0 ≤ u * (M * (1 / h di)) := mul_nonneg u0 mg
  rw [Fl.slope_wgt3 g2.2.1]
  have tb := fun j => Fl.dterm_err R hu g0 (hW2 j) (hW3 j) (hM j)
  have key := Fl.sum_close R (n := 8) (by push_cast; linarith) p (fun j => rnd (W j * v j)) (fun j : Fin 8 => (-hexSign (j : Nat) di *
    (Fl.fac a h c j (Fl.oth di).1 * Fl.fac a h c j (Fl.oth di).2) / h di) * v j) (A := 17 * (u * (M * (1 / h di)))) (by linarith)
    (fun j => (tb j).1) (fun j _ => (tb j).2) ?_
  · have e : M / h di = M * (1 / h di) := by ring
    rw [e]
    push_cast at key
    linarith
  · intro j hj
    obtain ⟨i', hl'⟩ : Fl.Lost hexUnit rnd a h c j := by
      by_contra hn
      rw [g4 j hn] at hj
      cases hj
    have hne : i' ≠ di := by rintro rfl; exact Fl.not_lostAt hr j hl'
    have hio : i' = (Fl.oth di).1 ∨ i' = (Fl.oth di).2 := by
      revert hne
      revert i' di
      intro di; fin_cases di <;> intros <;> rename_i i' _ _ <;> fin_cases i' <;> simp_all [Fl.oth]
    have l := Fl.lost_fac3 R g2.2.1 hc.2 hl'
    have f1 := Fl.fac_bounds3 g2.2.1 g3 j (Fl.oth di).1
    have f2 := Fl.fac_bounds3 g2.2.1 g3 j (Fl.oth di).2
    have fl : Fl.fac a h c j (Fl.oth di).1 * Fl.fac a h c j (Fl.oth di).2 ≤ u := by
      rcases hio with rfl | rfl
      · calc _ ≤ u * 1 := mul_le_mul l f2.2 f2.1 u0
          _ = u := mul_one u
      · calc _ ≤ 1 * u := mul_le_mul f1.2 l f2.1 zero_le_one
          _ = u := one_mul u
    have hw : |(-hexSign (j : Nat) di * (Fl.fac a h c j (Fl.oth di).1 * Fl.fac a h c j (Fl.oth di).2) / h di : K)| ≤ u * (1 / h di) := by
      have hs : |(hexSign (j : Nat) di : K)| = 1 := by
        rcases (Fl.flHex (rnd := rnd)).sign j di with e | e <;> rw [e.2] <;> simp
      rw [mul_div_assoc, abs_mul, abs_neg, hs, one_mul, abs_of_nonneg (div_nonneg (mul_nonneg f1.1 f2.1) hd.le), div_eq_mul_one_div]
      exact mul_le_mul_of_nonneg_right fl g0
    have := Fl.abs_wv hw (hM j)
    linarith

/-- **C109** The computed pure second derivatives are exactly zero at every floating-point point of the body. -/
theorem C109_pure_second_zero (R : Rounding rnd u) (hu : u ≤ 1 / 64) (pts : List (Fin 3 → K)) (cells : List (List Nat))
    (flds : List (String × List K)) (hm : FloatMesh hexUnit rnd u pts cells) (hl : ∀ fl ∈ flds, fl.2.length = pts.length)
    (b : Body K 3) (hb : Fl.load rnd (Fl.hexOps rnd) pts cells flds = .ok b) (c : Fin 3 → K) (hc : FloatPoint hexUnit rnd pts cells c)
    (ops : List (Nat × Body.Call K 3)) (ho : Fl.HistOk rnd pts ops) (i : Nat) (hi : i < flds.length) (di : Fin 3) :
    Fl.eval rnd (Fl.hexOps rnd) (Fl.evals rnd (Fl.hexOps rnd) b ops) i (.hess c di di) = .ok 0 := by
  obtain ⟨cell, a, h, e, lo, hi', p, _, _, _, _, _, _, g5⟩ := Fl.elem_eval Fl.flHex Fl.flHexTotal R hu flds hm hl b hb c hc
  obtain ⟨v, _, _, _, k⟩ := g5 ops ho i flds[i].1 flds[i].2 (List.getElem?_eq_getElem hi)
  rw [k di di (fun _ => 0) (by intro j; fin_cases di <;> rfl)]
  congr 1
  exact Fl.rsum_zeros R R.zero _ _ fun j _ => by simp [R.zero]

/-! ### Witnesses and non-vacuity, in binary64 -/

namespace FlDemo3

/-- Three cells on top of each other over the unit square: from 0 to 1/8, from 1/8 to 1/4, and from 1/4 to 4. -/
def pts : List (Fin 3 → ℚ) := [![0, 0, 0], ![1, 0, 0], ![1, 1, 0], ![0, 1, 0],
  ![0, 0, 1 / 8], ![1, 0, 1 / 8], ![1, 1, 1 / 8], ![0, 1, 1 / 8], ![0, 0, 1 / 4], ![1, 0, 1 / 4], ![1, 1, 1 / 4], ![0, 1, 1 / 4],
  ![0, 0, 4], ![1, 0, 4], ![1, 1, 4], ![0, 1, 4]]
def cells : List (List Nat) := [[0, 1, 2, 3, 4, 5, 6, 7], [4, 5, 6, 7, 8, 9, 10, 11], [8, 9, 10, 11, 12, 13, 14, 15]]
/-- `u` is 1 on the top only, `w` is 1 from the third level upwards. -/
def flds : List (String × List ℚ) :=
  [("u", [0, 0, 0, 0, 0, 0, 0, 0, 0, 0, 0, 0, 1, 1, 1, 1]), ("w", [0, 0, 0, 0, 0, 0, 0, 0, 1, 1, 1, 1, 1, 1, 1, 1])]

theorem cell0 : CellAt hexUnit pts [0, 1, 2, 3, 4, 5, 6, 7] ![0, 0, 0] ![1, 1, 1 / 8] := by
  refine ⟨rfl, by decide +kernel, fun j => ⟨j, ?_, ?_⟩⟩ <;> revert j <;> decide +kernel

theorem cell1 : CellAt hexUnit pts [4, 5, 6, 7, 8, 9, 10, 11] ![0, 0, 1 / 8] ![1, 1, 1 / 8] := by
  refine ⟨rfl, by decide +kernel, fun j => ⟨j + 4, ?_, ?_⟩⟩ <;> revert j <;> decide +kernel

theorem cell2 : CellAt hexUnit pts [8, 9, 10, 11, 12, 13, 14, 15] ![0, 0, 1 / 4] ![1, 1, 15 / 4] := by
  refine ⟨rfl, by decide +kernel, fun j => ⟨j + 8, ?_, ?_⟩⟩ <;> revert j <;> decide +kernel

theorem only (cell : List Nat) (hc : cell ∈ cells) (a h : Fin 3 → ℚ) (hah : CellAt hexUnit pts cell a h) :
    (cell, a, h) ∈ [([0, 1, 2, 3, 4, 5, 6, 7], (![0, 0, 0] : Fin 3 → ℚ), (![1, 1, 1 / 8] : Fin 3 → ℚ)),
      ([4, 5, 6, 7, 8, 9, 10, 11], ![0, 0, 1 / 8], ![1, 1, 1 / 8]), ([8, 9, 10, 11, 12, 13, 14, 15], ![0, 0, 1 / 4], ![1, 1, 15 / 4])] := by
  simp only [cells, List.mem_cons, List.not_mem_nil, or_false] at hc
  rcases hc with rfl | rfl | rfl
  · obtain ⟨rfl, rfl⟩ := Mesh.cellAt_unique hexLaw hah cell0
    simp
  · obtain ⟨rfl, rfl⟩ := Mesh.cellAt_unique hexLaw hah cell1
    simp
  · obtain ⟨rfl, rfl⟩ := Mesh.cellAt_unique hexLaw hah cell2
    simp

theorem conforming : Conforming hexUnit pts cells := by
  intro cell hc cell' hc' a h a' h' hah hah' hx u hu
  obtain ⟨x, hx1, hx2⟩ := hx
  have key : ∀ t ∈ [([0, 1, 2, 3, 4, 5, 6, 7], (![0, 0, 0] : Fin 3 → ℚ), (![1, 1, 1 / 8] : Fin 3 → ℚ)),
      ([4, 5, 6, 7, 8, 9, 10, 11], ![0, 0, 1 / 8], ![1, 1, 1 / 8]), ([8, 9, 10, 11, 12, 13, 14, 15], ![0, 0, 1 / 4], ![1, 1, 15 / 4])],
      ∀ t' ∈ [([0, 1, 2, 3, 4, 5, 6, 7], (![0, 0, 0] : Fin 3 → ℚ), (![1, 1, 1 / 8] : Fin 3 → ℚ)),
      ([4, 5, 6, 7, 8, 9, 10, 11], ![0, 0, 1 / 8], ![1, 1, 1 / 8]), ([8, 9, 10, 11, 12, 13, 14, 15], ![0, 0, 1 / 4], ![1, 1, 15 / 4])],
      (max (t.2.1 2) (t'.2.1 2) ≤ min (t.2.1 2 + t.2.2 2) (t'.2.1 2 + t'.2.2 2)) →
      ∀ s : Fin 3 → Bool, ∃ p ∈ t.1, p ∈ t'.1 ∧ pts[p]? = some fun i => if s i then max (t.2.1 i) (t'.2.1 i) else
        min (t.2.1 i + t.2.2 i) (t'.2.1 i + t'.2.2 i) := by
    decide +kernel
  have hov : max (a 2) (a' 2) ≤ min (a 2 + h 2) (a' 2 + h' 2) :=
    (max_le (hx1 2).1 (hx2 2).1).trans (le_min (hx1 2).2 (hx2 2).2)
  obtain ⟨p, p1, p2, p3⟩ := key _ (only cell hc a h hah) _ (only cell' hc' a' h' hah') hov (fun i => decide (u i = max (a i) (a' i)))
  refine ⟨p, p1, p2, p3.trans ?_⟩
  congr 1
  funext i
  by_cases e : u i = max (a i) (a' i)
  · simp [e]
  · simp only [e, decide_false, Bool.false_eq_true, if_false]
    exact ((hu i).resolve_left e).symm

open FlDemo (r rounding)

theorem low (i : Fin 3) : IsLow pts i 0 := by revert i; unfold IsLow; decide +kernel
theorem high (i : Fin 3) : IsHigh pts i (![1, 1, 4] i) := by revert i; unfold IsHigh; decide +kernel

theorem mesh : FloatMesh hexUnit r ((2 : ℚ) ^ (-53 : Int)) pts cells where
  rect := ⟨by decide, by
    intro cell hc
    simp only [cells, List.mem_cons, List.not_mem_nil, or_false] at hc
    rcases hc with rfl | rfl | rfl
    exacts [⟨_, _, cell0⟩, ⟨_, _, cell1⟩, ⟨_, _, cell2⟩], by decide +kernel⟩
  float := by unfold IsFloat; decide +kernel
  resolved := by
    intro i lo hi h1 h2
    rw [Mesh.isLow_unique h1 (low i), Mesh.isHigh_unique h2 (high i)]
    clear h1 h2
    revert i
    decide +kernel

/-- The data of the third cell. -/
theorem vals {k : Nat} {name : String} {data : List ℚ} (hk : flds[k]? = some (name, data)) {v : Fin 8 → ℚ}
    (hv : CornerVals data [8, 9, 10, 11, 12, 13, 14, 15] v) : ∀ j : Fin 8, data[(j : Nat) + 8]? = some (v j) := by
  intro j
  obtain ⟨p, p1, p2⟩ := hv j
  have : p = j + 8 := by
    revert p1; clear p2; revert j; intro j; fin_cases j <;> intro p1 <;> simpa using p1.symm
  rw [← this]; exact p2

/-- The only cell containing a point between 1/4 and 4 is the third. -/
theorem third {cell : List Nat} (hc : cell ∈ cells) {a h : Fin 3 → ℚ} (hah : CellAt hexUnit pts cell a h) {x : Fin 3 → ℚ} (hx : InCell a h x)
    (h2 : 1 / 4 < x 2) : cell = [8, 9, 10, 11, 12, 13, 14, 15] ∧ a = ![0, 0, 1 / 4] ∧ h = ![1, 1, 15 / 4] := by
  have := only cell hc a h hah
  have h3 := (hx 2).2
  simp only [List.mem_cons, Prod.mk.injEq, List.not_mem_nil, or_false] at this
  rcases this with ⟨rfl, rfl, rfl⟩ | ⟨rfl, rfl, rfl⟩ | h
  · simp at h3; linarith
  · simp at h3; linarith
  · exact h

end FlDemo3

open FlDemo (r rounding) in
open FlDemo3 in
/-- **C107** is false without the proviso: in binary64, at the point (1/2, 1/2, 3/4) of the third cell, whose interpolant is 2/15 there, the value
computed is 0, extrapolated from the first cell. -/
theorem C107_3d_violated :
    FloatMesh hexUnit r ((2 : ℚ) ^ (-53 : Int)) FlDemo3.pts FlDemo3.cells ∧ FloatPoint hexUnit r FlDemo3.pts FlDemo3.cells ![1 / 2, 1 / 2, 3 / 4] ∧
    (∀ cell ∈ FlDemo3.cells, ∀ a h v, CellAt hexUnit FlDemo3.pts cell a h → InCell a h ![1 / 2, 1 / 2, 3 / 4] →
      CornerVals [0, 0, 0, 0, 0, 0, 0, 0, 0, 0, 0, 0, 1, 1, 1, 1] cell v → trilinear a h v ![1 / 2, 1 / 2, 3 / 4] = 2 / 15) ∧
    ∃ b, Fl.load r (Fl.hexOps r) FlDemo3.pts FlDemo3.cells FlDemo3.flds = .ok b ∧
      Fl.eval r (Fl.hexOps r) b 0 (.value ![1 / 2, 1 / 2, 3 / 4]) = .ok 0 := by
  refine ⟨mesh, ⟨⟨_, by simp [cells], _, _, cell2, by unfold InCell; decide +kernel⟩, by unfold IsFloat; decide +kernel⟩, ?_, ?_⟩
  · intro cell hc a h v hah hin hv
    obtain ⟨rfl, rfl, rfl⟩ := third hc hah hin (by decide +kernel)
    have e := vals (k := 0) rfl hv
    have e : v = ![0, 0, 0, 0, 1, 1, 1, 1] := by
      funext j
      have := e j
      fin_cases j <;> simpa using this.symm
    subst e
    decide +kernel
  · obtain ⟨b, hb⟩ := C107_loads rounding (by decide +kernel) FlDemo3.pts FlDemo3.cells FlDemo3.flds mesh (by decide)
    refine ⟨b, hb, ?_⟩
    have : (Fl.load r (Fl.hexOps r) FlDemo3.pts FlDemo3.cells FlDemo3.flds >>= fun b => Fl.eval r (Fl.hexOps r) b 0 (.value ![1 / 2, 1 / 2, 3 / 4])) =
        .ok 0 := by decide +kernel
    rw [hb] at this
    exact this

open FlDemo (r rounding) in
open FlDemo3 in
/-- **C108** is false without the proviso: on a conforming mesh in binary64, node 8 has data 1 and the value computed at its position is 0. -/
theorem C108_nodal_violated :
    FloatMesh hexUnit r ((2 : ℚ) ^ (-53 : Int)) FlDemo3.pts FlDemo3.cells ∧ Conforming hexUnit FlDemo3.pts FlDemo3.cells ∧
    FlDemo3.pts[8]? = some ![0, 0, 1 / 4] ∧ (∃ data, FlDemo3.flds[1]? = some ("w", data) ∧ data[8]? = some 1) ∧
    ∃ b, Fl.load r (Fl.hexOps r) FlDemo3.pts FlDemo3.cells FlDemo3.flds = .ok b ∧
      Fl.eval r (Fl.hexOps r) b 1 (.value ![0, 0, 1 / 4]) = .ok 0 := by
  refine ⟨mesh, conforming, rfl, ⟨_, rfl, rfl⟩, ?_⟩
  obtain ⟨b, hb⟩ := C107_loads rounding (by decide +kernel) FlDemo3.pts FlDemo3.cells FlDemo3.flds mesh (by decide)
  refine ⟨b, hb, ?_⟩
  have : (Fl.load r (Fl.hexOps r) FlDemo3.pts FlDemo3.cells FlDemo3.flds >>= fun b => Fl.eval r (Fl.hexOps r) b 1 (.value ![0, 0, 1 / 4])) =
      .ok 0 := by decide +kernel
  rw [hb] at this
  exact this

open FlDemo (r rounding) in
open FlDemo3 in
/-- **C109** is false without the proviso: at the same point the slope in the third direction is 4/15 and the value computed is 0. -/
theorem C109_grad_violated :
    (∀ cell ∈ FlDemo3.cells, ∀ a h v, CellAt hexUnit FlDemo3.pts cell a h → InCell a h ![1 / 2, 1 / 2, 3 / 4] →
      CornerVals [0, 0, 0, 0, 0, 0, 0, 0, 0, 0, 0, 0, 1, 1, 1, 1] cell v → cellSlope3 a h v ![1 / 2, 1 / 2, 3 / 4] 2 = 4 / 15) ∧
    ∃ b, Fl.load r (Fl.hexOps r) FlDemo3.pts FlDemo3.cells FlDemo3.flds = .ok b ∧
      Fl.eval r (Fl.hexOps r) b 0 (.grad ![1 / 2, 1 / 2, 3 / 4] 2) = .ok 0 := by
  refine ⟨?_, ?_⟩
  · intro cell hc a h v hah hin hv
    obtain ⟨rfl, rfl, rfl⟩ := third hc hah hin (by decide +kernel)
    have e := vals (k := 0) rfl hv
    have e : v = ![0, 0, 0, 0, 1, 1, 1, 1] := by
      funext j
      have := e j
      fin_cases j <;> simpa using this.symm
    subst e
    decide +kernel
  · obtain ⟨b, hb⟩ := C107_loads rounding (by decide +kernel) FlDemo3.pts FlDemo3.cells FlDemo3.flds mesh (by decide)
    refine ⟨b, hb, ?_⟩
    have : (Fl.load r (Fl.hexOps r) FlDemo3.pts FlDemo3.cells FlDemo3.flds >>= fun b =>
        Fl.eval r (Fl.hexOps r) b 0 (.grad ![1 / 2, 1 / 2, 3 / 4] 2)) = .ok 0 := by decide +kernel
    rw [hb] at this
    exact this

open FlDemo (r rounding) in
open FlDemo3 in
/-- Hypotheses of the theorems above: the three cells in binary64, a history with a point that throws, the point (0.1, 0.7, 3.3) (vertically clear,
within reach of its cell) and the node (0, 0, 4) (vertically clear). -/
example :
    Rounding r ((2 : ℚ) ^ (-53 : Int)) ∧ (2 : ℚ) ^ (-53 : Int) ≤ 1 / 64 ∧
    FloatMesh hexUnit r ((2 : ℚ) ^ (-53 : Int)) FlDemo3.pts FlDemo3.cells ∧ Conforming hexUnit FlDemo3.pts FlDemo3.cells ∧
    (∀ fl ∈ FlDemo3.flds, fl.2.length = FlDemo3.pts.length) ∧ (∀ fl ∈ FlDemo3.flds, ∀ y ∈ fl.2, IsFloat r y) ∧
    FloatPoint hexUnit r FlDemo3.pts FlDemo3.cells ![r (1 / 10), r (7 / 10), r (33 / 10)] ∧
    VerticallyClear FlDemo3.pts FlDemo3.cells ![r (1 / 10), r (7 / 10), r (33 / 10)] ∧
    VerticallyClear FlDemo3.pts FlDemo3.cells ![0, 0, 4] ∧
    (∀ i, Reach r ![0, 0, 1 / 4] ![1, 1, 15 / 4] ![r (1 / 10), r (7 / 10), r (33 / 10)] i) ∧
    Fl.HistOk r FlDemo3.pts [(0, .value ![r (1 / 10), 1, 1]), (1, .grad ![1, 1, 1] 1), (0, .value ![0, 1, -7])] := by
  have clear : ∀ x : Fin 3 → ℚ, InCell ![0, 0, 1 / 4] ![1, 1, 15 / 4] x → 3 ≤ x 2 → VerticallyClear FlDemo3.pts FlDemo3.cells x := by
    intro x hx h3 cell hc a h hah _ hn
    have h4 := (hn 0 4 (low 2) (high 2)).2
    have hm : margin FlDemo3.pts 2 0 4 = 1 := by decide +kernel
    rw [hm] at h4
    have := only cell hc a h hah
    simp only [List.mem_cons, Prod.mk.injEq, List.not_mem_nil, or_false] at this
    rcases this with ⟨rfl, rfl, rfl⟩ | ⟨rfl, rfl, rfl⟩ | ⟨rfl, rfl, rfl⟩
    · simp at h4; linarith
    · simp at h4; linarith
    · exact hx
  refine ⟨rounding, by decide +kernel, mesh, conforming, by decide, by unfold IsFloat; decide +kernel,
    ⟨⟨_, by simp [cells], _, _, cell2, by unfold InCell; decide +kernel⟩, by unfold IsFloat; decide +kernel⟩,
    clear _ (by unfold InCell; decide +kernel) (by decide +kernel), clear _ (by unfold InCell; decide +kernel) (by decide +kernel),
    by unfold Reach; decide +kernel, ?_⟩
  have box : ∀ c : Fin 3 → ℚ, (∀ i, r (c i) = c i ∧ 0 ≤ c i ∧ c i ≤ ![1, 1, 4] i) → FloatInBox r FlDemo3.pts c := by
    intro c hc i
    refine ⟨(hc i).1, fun lo hi hl hh => ?_⟩
    rw [Mesh.isLow_unique hl (low i), Mesh.isHigh_unique hh (high i)]
    exact (hc i).2
  intro op hop
  simp only [List.mem_cons, List.not_mem_nil, or_false] at hop
  rcases hop with rfl | rfl | rfl
  · exact Or.inl (box _ (by decide +kernel))
  · exact Or.inl (box _ (by decide +kernel))
  · refine Or.inr ⟨2, ⟨0, 4, low 2, high 2, Or.inl (by decide +kernel)⟩, fun j hj => ?_⟩
    have e : ∀ j : Fin 3, j < 2 → r ((![0, 1, -7] : Fin 3 → ℚ) j) = ![0, 1, -7] j ∧ (0 : ℚ) ≤ ![0, 1, -7] j ∧
        (![0, 1, -7] : Fin 3 → ℚ) j ≤ ![1, 1, 4] j := by decide +kernel
    refine ⟨(e j hj).1, fun lo hi hl hh => ?_⟩
    rw [Mesh.isLow_unique hl (low j), Mesh.isHigh_unique hh (high j)]
    exact (e j hj).2

end Verif
