import Verif.Props.FieldConform
import Verif.Props.Field3D
import Verif.Props.RoundedHex

/-!
# Property C112: 3D fields interpolate the nodal data, stay within their range and are single-valued
-/

namespace Verif
open Spec Bin Mesh PField Body

section
variable {K : Type} [Field K] [LinearOrder K] [FloorRing K] [IsStrictOrderedRing K]

omit [FloorRing K] in
/-- A function of three numbers that is affine in each and vanishes at the corners of a box vanishes in the box. -/
theorem multiaffine_zero {f : K → K → K → K} (f0 : ∀ y z, ∃ p q, ∀ x, f x y z = p + q * x) (f1 : ∀ x z, ∃ p q, ∀ y, f x y z = p + q * y)
    (f2 : ∀ x y, ∃ p q, ∀ z, f x y z = p + q * z) (l r c : Fin 3 → K) (h1 : ∀ i, l i ≤ c i) (h2 : ∀ i, c i ≤ r i)
    (hz : ∀ x y z, (x = l 0 ∨ x = r 0) → (y = l 1 ∨ y = r 1) → (z = l 2 ∨ z = r 2) → f x y z = 0) : f (c 0) (c 1) (c 2) = 0 := by
  have e : ∀ y z, (y = l 1 ∨ y = r 1) → (z = l 2 ∨ z = r 2) → f (c 0) y z = 0 := by
    intro y z hy hzz
    obtain ⟨p, q, g⟩ := f0 y z
    have a1 := hz _ y z (Or.inl rfl) hy hzz
    have a2 := hz _ y z (Or.inr rfl) hy hzz
    rw [g] at a1 a2 ⊢
    exact affine_zero a1 a2 (h1 0) (h2 0)
  have e2 : ∀ z, (z = l 2 ∨ z = r 2) → f (c 0) (c 1) z = 0 := by
    intro z hzz
    obtain ⟨p, q, g⟩ := f1 (c 0) z
    have a1 := e _ z (Or.inl rfl) hzz
    have a2 := e _ z (Or.inr rfl) hzz
    rw [g] at a1 a2 ⊢
    exact affine_zero a1 a2 (h1 1) (h2 1)
  obtain ⟨p, q, g⟩ := f2 (c 0) (c 1)
  have a1 := e2 _ (Or.inl rfl)
  have a2 := e2 _ (Or.inr rfl)
  rw [g] at a1 a2 ⊢
  exact affine_zero a1 a2 (h1 2) (h2 2)

omit [FloorRing K] in
/-- Two trilinear interpolants agreeing at the corners of a box agree in the box. -/
theorem trilinear_agree {a h a' h' : Fin 3 → K} (v v' : Fin 8 → K) (l r c : Fin 3 → K) (h1 : ∀ i, l i ≤ c i) (h2 : ∀ i, c i ≤ r i)
    (hagree : ∀ u : Fin 3 → K, (∀ i, u i = l i ∨ u i = r i) → trilinear a h v u = trilinear a' h' v' u) :
    trilinear a h v c = trilinear a' h' v' c := by
  have A0 : ∀ (a h : Fin 3 → K) (v : Fin 8 → K) (y z : K), ∃ p q, ∀ x, trilinear a h v ![x, y, z] = p + q * x := by
    intro a h v y z
    refine ⟨trilinear a h v ![0, y, z], trilinear a h v ![1, y, z] - trilinear a h v ![0, y, z], fun x => ?_⟩
    simp only [trilinear, Matrix.cons_val, div_eq_mul_inv]
    ring
  have A1 : ∀ (a h : Fin 3 → K) (v : Fin 8 → K) (x z : K), ∃ p q, ∀ y, trilinear a h v ![x, y, z] = p + q * y := by
    intro a h v x z
    refine ⟨trilinear a h v ![x, 0, z], trilinear a h v ![x, 1, z] - trilinear a h v ![x, 0, z], fun y => ?_⟩
    simp only [trilinear, Matrix.cons_val, div_eq_mul_inv]
    ring
  have A2 : ∀ (a h : Fin 3 → K) (v : Fin 8 → K) (x y : K), ∃ p q, ∀ z, trilinear a h v ![x, y, z] = p + q * z := by
    intro a h v x y
    refine ⟨trilinear a h v ![x, y, 0], trilinear a h v ![x, y, 1] - trilinear a h v ![x, y, 0], fun z => ?_⟩
    simp only [trilinear, Matrix.cons_val, div_eq_mul_inv]
    ring
  have diff : ∀ {g g' : K → K}, (∃ p q, ∀ x, g x = p + q * x) → (∃ p q, ∀ x, g' x = p + q * x) → ∃ p q, ∀ x, g x - g' x = p + q * x := by
    rintro g g' ⟨p, q, e⟩ ⟨p', q', e'⟩
    exact ⟨p - p', q - q', fun x => by rw [e, e']; ring⟩
  have hc : c = ![c 0, c 1, c 2] := by funext i; fin_cases i <;> rfl
  have key := multiaffine_zero (f := fun x y z => trilinear a h v ![x, y, z] - trilinear a' h' v' ![x, y, z])
    (fun y z => diff (A0 a h v y z) (A0 a' h' v' y z)) (fun x z => diff (A1 a h v x z) (A1 a' h' v' x z))
    (fun x y => diff (A2 a h v x y) (A2 a' h' v' x y)) l r c h1 h2 (fun x y z hx hy hz => by
      rw [sub_eq_zero]
      exact hagree _ (by intro i; fin_cases i <;> simpa))
  rw [hc]
  exact sub_eq_zero.mp key

omit [LinearOrder K] [FloorRing K] [IsStrictOrderedRing K] in
/-- The corner value of the trilinear interpolant. -/
theorem trilinear_corner {a h : Fin 3 → K} (hh : ∀ i, h i ≠ 0) (v : Fin 8 → K) (j : Fin 8) :
    trilinear a h v (cornerPos a h (hexUnit j)) = v j := by
  have h0 := hh 0
  have h1 := hh 1
  have h2 := hh 2
  fin_cases j <;> simp [trilinear, cornerPos, hexUnit, h0, h1, h2]

/-- A node of a cell carries the value of the interpolant. -/
theorem trilinear_node {pts : List (Fin 3 → K)} {cell : List Nat} {a h : Fin 3 → K} (hc : CellAt hexUnit pts cell a h) {data : List K}
    {v : Fin 8 → K} (hv : CornerVals data cell v) {p : Nat} (hp : p ∈ cell) {u : Fin 3 → K} (hu : pts[p]? = some u) :
    data[p]? = some (trilinear a h v u) := by
  obtain ⟨j, e1, e2⟩ := Fl.corner_of hc hp hu
  obtain ⟨q, q1, q2⟩ := hv j
  rw [e1] at q1
  cases q1
  rw [q2, e2, trilinear_corner fun i => (hc.2.1 i).ne']

/-- The trilinear interpolants of two cells of a conforming mesh agree wherever both cells contain the point. -/
theorem conforming_agree3 {pts : List (Fin 3 → K)} {cells : List (List Nat)} (hcf : Conforming hexUnit pts cells)
    {cell cell' : List Nat} (h1 : cell ∈ cells) (h2 : cell' ∈ cells) {a h a' h' : Fin 3 → K}
    (k1 : CellAt hexUnit pts cell a h) (k2 : CellAt hexUnit pts cell' a' h') {data : List K} {v v' : Fin 8 → K}
    (g1 : CornerVals data cell v) (g2 : CornerVals data cell' v') {c : Fin 3 → K} (i1 : InCell a h c) (i2 : InCell a' h' c) :
    trilinear a h v c = trilinear a' h' v' c := by
  apply trilinear_agree v v' (fun i => max (a i) (a' i)) (fun i => min (a i + h i) (a' i + h' i)) c
    (fun i => max_le (i1 i).1 (i2 i).1) (fun i => le_min (i1 i).2 (i2 i).2)
  intro u hu
  obtain ⟨p, p1, p2, p3⟩ := hcf cell h1 cell' h2 a h a' h' k1 k2 ⟨c, i1, i2⟩ u hu
  have e1 := trilinear_node k1 g1 p1 p3
  have e2 := trilinear_node k2 g2 p2 p3
  rw [e1] at e2
  exact Option.some.inj e2

/-- **C112** (part) On a conforming 3D mesh the value at a vertically clear point is the trilinear interpolant of *every* cell containing it.
Missing: points that are not, where it is false (`C112_*_violated`). -/
theorem C112_single_valued_partial (pts : List (Fin 3 → K)) (cells : List (List Nat)) (flds : List (String × List K))
    (hm : RectMesh hexUnit pts cells) (hcf : Conforming hexUnit pts cells) (hl : ∀ fl ∈ flds, fl.2.length = pts.length) (b : Body K 3)
    (hb : Body.load (hexOps K) pts cells flds = .ok b) (ops : List (Nat × Body.Call K 3)) (ho : HistOk pts ops) (i : Nat) (name : String)
    (data : List K) (hi : flds[i]? = some (name, data)) (cell : List Nat) (hce : cell ∈ cells) (a h : Fin 3 → K)
    (hah : CellAt hexUnit pts cell a h) (v : Fin 8 → K) (hv : CornerVals data cell v) (c : Fin 3 → K) (hc : InCell a h c)
    (hcl : NearClear pts cells c) : (b.calls (hexOps K) ops).value (hexOps K) i c = .ok (trilinear a h v c) := by
  obtain ⟨cell', a', h', g1, g2, g3, g4⟩ := C28_trilinear_partial pts cells flds hm hl b hb c ⟨cell, hce, a, h, hah, hc⟩ hcl
  obtain ⟨v', gv, k⟩ := g4 ops ho i name data hi
  rw [k, conforming_agree3 hcf g1 hce g2 hah gv hv g3 hc]

/-- **C112** (part) On a conforming 3D mesh the value at a vertically clear node is the node's data value. -/
theorem C112_nodal_partial (pts : List (Fin 3 → K)) (cells : List (List Nat)) (flds : List (String × List K))
    (hm : RectMesh hexUnit pts cells) (hcf : Conforming hexUnit pts cells) (hl : ∀ fl ∈ flds, fl.2.length = pts.length) (b : Body K 3)
    (hb : Body.load (hexOps K) pts cells flds = .ok b) (ops : List (Nat × Body.Call K 3)) (ho : HistOk pts ops) (i : Nat) (name : String)
    (data : List K) (hi : flds[i]? = some (name, data)) (p : Nat) (cell : List Nat) (hce : cell ∈ cells) (hp : p ∈ cell) (x : Fin 3 → K)
    (hx : pts[p]? = some x) (y : K) (hy : data[p]? = some y) (hcl : NearClear pts cells x) :
    (b.calls (hexOps K) ops).value (hexOps K) i x = .ok y := by
  obtain ⟨a, h, hah⟩ := hm.rect cell hce
  obtain ⟨j, _, hj⟩ := Fl.corner_of hah hp hx
  have hin : InCell a h x := by
    intro i
    have hh := (hah.2.1 i).le
    rw [hj, cornerPos]
    rcases (Fl.flHex (rnd := (id : K → K))).sign j i with ⟨e, _⟩ | ⟨e, _⟩ <;> rw [e] <;> constructor <;> linarith
  obtain ⟨cell', a', h', g1, g2, g3, g4⟩ := C28_trilinear_partial pts cells flds hm hl b hb x ⟨cell, hce, a, h, hah, hin⟩ hcl
  obtain ⟨v', gv, k⟩ := g4 ops ho i name data hi
  obtain ⟨q, q1, q2, q3⟩ := hcf cell hce cell' g1 a h a' h' hah g2 ⟨x, hin, g3⟩ x (by
    intro i
    have hh := (hah.2.1 i).le
    have b1 := g3 i
    rw [hj, cornerPos] at b1 ⊢
    rcases (Fl.flHex (rnd := (id : K → K))).sign j i with ⟨e, _⟩ | ⟨e, _⟩ <;> rw [e] at b1 ⊢
    · left; rw [max_eq_left (by linarith [b1.1])]; ring
    · right; rw [min_eq_left (by linarith [b1.2])]; ring)
  obtain rfl := Fl.node_unique hah hp q1 hx q3
  have := trilinear_node g2 gv q2 q3
  rw [hy] at this
  rw [k, Option.some.inj this]

omit [FloorRing K] in
theorem trilinear_bounds {a h c : Fin 3 → K} (hh : ∀ i, 0 < h i) (hc : InCell a h c) {v : Fin 8 → K} {lo hi : K}
    (hv : ∀ j, lo ≤ v j ∧ v j ≤ hi) : lo ≤ trilinear a h v c ∧ trilinear a h v c ≤ hi := by
  have x0 := (loc_nonneg_iff (a := a 0) (hh 0)).mpr (hc 0).1
  have x1 := (loc_le_one_iff (a := a 0) (hh 0)).mpr (hc 0).2
  have y0 := (loc_nonneg_iff (a := a 1) (hh 1)).mpr (hc 1).1
  have y1 := (loc_le_one_iff (a := a 1) (hh 1)).mpr (hc 1).2
  have z0 := (loc_nonneg_iff (a := a 2) (hh 2)).mpr (hc 2).1
  have z1 := (loc_le_one_iff (a := a 2) (hh 2)).mpr (hc 2).2
  simp only [loc] at x0 x1 y0 y1 z0 z1
  simp only [trilinear]
  generalize (c 0 - a 0) / h 0 = x at *
  generalize (c 1 - a 1) / h 1 = y at *
  generalize (c 2 - a 2) / h 2 = z at *
  have two : ∀ (t p q l r : K), 0 ≤ t → t ≤ 1 → (l ≤ p ∧ p ≤ r) → (l ≤ q ∧ q ≤ r) → l ≤ (1 - t) * p + t * q ∧ (1 - t) * p + t * q ≤ r := by
    intro t p q l r t0 t1 hp hq
    have t2 : 0 ≤ 1 - t := by linarith
    constructor
    · have := mul_le_mul_of_nonneg_left hp.1 t2
      have := mul_le_mul_of_nonneg_left hq.1 t0
      linarith
    · have := mul_le_mul_of_nonneg_left hp.2 t2
      have := mul_le_mul_of_nonneg_left hq.2 t0
      linarith
  have b0 := two y _ _ lo hi y0 y1 (two x _ _ lo hi x0 x1 (hv 0) (hv 1)) (two x _ _ lo hi x0 x1 (hv 3) (hv 2))
  have b1 := two y _ _ lo hi y0 y1 (two x _ _ lo hi x0 x1 (hv 4) (hv 5)) (two x _ _ lo hi x0 x1 (hv 7) (hv 6))
  have b := two z _ _ lo hi z0 z1 b0 b1
  constructor
  · calc lo ≤ _ := b.1
      _ = _ := by ring
  · calc _ = _ := by ring
      _ ≤ hi := b.2

/-- **C112** (part) At every vertically clear point of the body the value lies between any bounds of the data. -/
theorem C112_bounds_partial (pts : List (Fin 3 → K)) (cells : List (List Nat)) (flds : List (String × List K))
    (hm : RectMesh hexUnit pts cells) (hl : ∀ fl ∈ flds, fl.2.length = pts.length) (b : Body K 3)
    (hb : Body.load (hexOps K) pts cells flds = .ok b) (ops : List (Nat × Body.Call K 3)) (ho : HistOk pts ops) (i : Nat) (name : String)
    (data : List K) (hi : flds[i]? = some (name, data)) (lo hi' : K) (hd : ∀ x ∈ data, lo ≤ x ∧ x ≤ hi') (c : Fin 3 → K)
    (hc : Covered hexUnit pts cells c) (hcl : NearClear pts cells c) :
    ∃ v, (b.calls (hexOps K) ops).value (hexOps K) i c = .ok v ∧ lo ≤ v ∧ v ≤ hi' := by
  obtain ⟨cell, a, h, g1, g2, g3, k⟩ := C28_trilinear_partial pts cells flds hm hl b hb c hc hcl
  obtain ⟨v, g4, g5⟩ := k ops ho i name data hi
  refine ⟨_, g5, trilinear_bounds g2.2.1 g3 fun j => ?_⟩
  obtain ⟨p, _, e⟩ := g4 j
  exact hd _ (List.mem_of_getElem? e)

/-- In a mesh of one layer every point of the body is vertically clear. -/
theorem nearClear_of_layer {pts : List (Fin 3 → K)} {cells : List (List Nat)} {z dz : K}
    (hz : ∀ cell ∈ cells, ∀ a h, CellAt hexUnit pts cell a h → a 2 = z ∧ h 2 = dz) {c : Fin 3 → K} (hc : Covered hexUnit pts cells c) :
    NearClear pts cells c := by
  intro cell hce a h hah hxy _
  obtain ⟨cell', hce', a', h', hah', hin⟩ := hc
  intro i
  by_cases hi : i = 2
  · subst hi
    obtain ⟨e1, e2⟩ := hz cell hce a h hah
    obtain ⟨e3, e4⟩ := hz cell' hce' a' h' hah'
    rw [e1, e2, ← e3, ← e4]
    exact hin 2
  · exact hxy i hi

/-- **C112** (one layer) In a conforming mesh of one layer all three hold everywhere: at every point of the body the value is that of every
containing cell and within the bounds of the data, and at every node it is the node's. -/
theorem C112_one_layer_partial (pts : List (Fin 3 → K)) (cells : List (List Nat)) (flds : List (String × List K))
    (hm : RectMesh hexUnit pts cells) (hcf : Conforming hexUnit pts cells) (hl : ∀ fl ∈ flds, fl.2.length = pts.length) (b : Body K 3)
    (hb : Body.load (hexOps K) pts cells flds = .ok b) (z dz : K)
    (hz : ∀ cell ∈ cells, ∀ a h, CellAt hexUnit pts cell a h → a 2 = z ∧ h 2 = dz) (ops : List (Nat × Body.Call K 3)) (ho : HistOk pts ops)
    (i : Nat) (name : String) (data : List K) (hi : flds[i]? = some (name, data)) (cell : List Nat) (hce : cell ∈ cells) (a h : Fin 3 → K)
    (hah : CellAt hexUnit pts cell a h) (v : Fin 8 → K) (hv : CornerVals data cell v) :
    (∀ c, InCell a h c → (b.calls (hexOps K) ops).value (hexOps K) i c = .ok (trilinear a h v c) ∧
      ∀ lo hi', (∀ x ∈ data, lo ≤ x ∧ x ≤ hi') → lo ≤ trilinear a h v c ∧ trilinear a h v c ≤ hi') ∧
    ∀ j : Fin 8, (b.calls (hexOps K) ops).value (hexOps K) i (cornerPos a h (hexUnit j)) = .ok (v j) := by
  have main : ∀ c, InCell a h c → (b.calls (hexOps K) ops).value (hexOps K) i c = .ok (trilinear a h v c) := fun c hc =>
    C112_single_valued_partial pts cells flds hm hcf hl b hb ops ho i name data hi cell hce a h hah v hv c hc
      (nearClear_of_layer hz ⟨cell, hce, a, h, hah, hc⟩)
  refine ⟨fun c hc => ⟨main c hc, fun lo hi' hd => trilinear_bounds hah.2.1 hc fun j => ?_⟩, fun j => ?_⟩
  · obtain ⟨p, _, e⟩ := hv j
    exact hd _ (List.mem_of_getElem? e)
  · rw [main _ ?_, trilinear_corner fun i => (hah.2.1 i).ne']
    intro i
    have hh := (hah.2.1 i).le
    rw [cornerPos]
    rcases (Fl.flHex (rnd := (id : K → K))).sign j i with ⟨e, _⟩ | ⟨e, _⟩ <;> rw [e] <;> constructor <;> linarith

end

/-! ### Witnesses -/

open FlDemo3 in
/-- **C112** is false without the proviso. On the conforming mesh of three stacked cells: the data of `s` are 0 and 1, its value at (1/2, 1/2, 3/4)
is 6; the value of `w` at node 8, whose data value is 1, is 0; and listing the cells in the opposite order changes it to 1. -/
theorem C112_3d_violated :
    RectMesh hexUnit FlDemo3.pts FlDemo3.cells ∧ Conforming hexUnit FlDemo3.pts FlDemo3.cells ∧
    ∃ b b', Body.load (hexOps ℚ) FlDemo3.pts FlDemo3.cells [("s", [0, 0, 0, 0, 1, 1, 1, 1, 1, 1, 1, 1, 1, 1, 1, 1]),
        ("w", [0, 0, 0, 0, 0, 0, 0, 0, 1, 1, 1, 1, 1, 1, 1, 1])] = .ok b ∧
      Body.load (hexOps ℚ) FlDemo3.pts FlDemo3.cells.reverse [("s", [0, 0, 0, 0, 1, 1, 1, 1, 1, 1, 1, 1, 1, 1, 1, 1]),
        ("w", [0, 0, 0, 0, 0, 0, 0, 0, 1, 1, 1, 1, 1, 1, 1, 1])] = .ok b' ∧
      Covered hexUnit FlDemo3.pts FlDemo3.cells ![1 / 2, 1 / 2, 3 / 4] ∧ b.value (hexOps ℚ) 0 ![1 / 2, 1 / 2, 3 / 4] = .ok 6 ∧
      FlDemo3.pts[8]? = some ![0, 0, 1 / 4] ∧ b.value (hexOps ℚ) 1 ![0, 0, 1 / 4] = .ok 0 ∧
      b'.value (hexOps ℚ) 1 ![0, 0, 1 / 4] = .ok 1 := by
  have rect' : RectMesh hexUnit FlDemo3.pts FlDemo3.cells.reverse :=
    ⟨by decide, fun cell hc => mesh.rect.rect cell (List.mem_reverse.mp hc), mesh.rect.small⟩
  obtain ⟨b, hb, _⟩ := C31_load_3d FlDemo3.pts FlDemo3.cells [("s", [0, 0, 0, 0, 1, 1, 1, 1, 1, 1, 1, 1, 1, 1, 1, 1]),
    ("w", [0, 0, 0, 0, 0, 0, 0, 0, 1, 1, 1, 1, 1, 1, 1, 1])] mesh.rect (by decide)
  obtain ⟨b', hb', _⟩ := C31_load_3d FlDemo3.pts FlDemo3.cells.reverse [("s", [0, 0, 0, 0, 1, 1, 1, 1, 1, 1, 1, 1, 1, 1, 1, 1]),
    ("w", [0, 0, 0, 0, 0, 0, 0, 0, 1, 1, 1, 1, 1, 1, 1, 1])] rect' (by decide)
  refine ⟨mesh.rect, conforming, b, b', hb, hb', ⟨_, by simp [cells], _, _, cell2, by unfold InCell; decide +kernel⟩, ?_, rfl, ?_, ?_⟩
  · have : (Body.load (hexOps ℚ) FlDemo3.pts FlDemo3.cells [("s", [0, 0, 0, 0, 1, 1, 1, 1, 1, 1, 1, 1, 1, 1, 1, 1]),
        ("w", [0, 0, 0, 0, 0, 0, 0, 0, 1, 1, 1, 1, 1, 1, 1, 1])] >>= fun b => b.value (hexOps ℚ) 0 ![1 / 2, 1 / 2, 3 / 4]) = .ok 6 := by
      decide +kernel
    rw [hb] at this
    exact this
  · have : (Body.load (hexOps ℚ) FlDemo3.pts FlDemo3.cells [("s", [0, 0, 0, 0, 1, 1, 1, 1, 1, 1, 1, 1, 1, 1, 1, 1]),
        ("w", [0, 0, 0, 0, 0, 0, 0, 0, 1, 1, 1, 1, 1, 1, 1, 1])] >>= fun b => b.value (hexOps ℚ) 1 ![0, 0, 1 / 4]) = .ok 0 := by
      decide +kernel
    rw [hb] at this
    exact this
  · have : (Body.load (hexOps ℚ) FlDemo3.pts FlDemo3.cells.reverse [("s", [0, 0, 0, 0, 1, 1, 1, 1, 1, 1, 1, 1, 1, 1, 1, 1]),
        ("w", [0, 0, 0, 0, 0, 0, 0, 0, 1, 1, 1, 1, 1, 1, 1, 1])] >>= fun b => b.value (hexOps ℚ) 1 ![0, 0, 1 / 4]) = .ok 1 := by
      decide +kernel
    rw [hb'] at this
    exact this

open FlDemo3 in
/-- Non-vacuity of C112: (1/2, 1/2, 3) and the node (0, 0, 4) are vertically clear. -/
example : NearClear FlDemo3.pts FlDemo3.cells ![1 / 2, 1 / 2, 3] ∧ NearClear FlDemo3.pts FlDemo3.cells ![0, 0, 4] ∧
    Covered hexUnit FlDemo3.pts FlDemo3.cells ![1 / 2, 1 / 2, 3] ∧ FlDemo3.pts[12]? = some ![0, 0, 4] := by
  have clear : ∀ x : Fin 3 → ℚ, InCell ![0, 0, 1 / 4] ![1, 1, 15 / 4] x → 3 ≤ x 2 → NearClear FlDemo3.pts FlDemo3.cells x := by
    intro x hx h3 cell hc a h hah _ hn
    have h4 := (hn 0 4 (low 2) (high 2)).2
    have hm : margin FlDemo3.pts 2 0 4 = 1 := by decide +kernel
    rw [hm] at h4
    have := only cell hc a h hah
    simp only [List.mem_cons, Prod.mk.injEq, List.not_mem_nil, or_false] at this
    rcases this with ⟨rfl, rfl, rfl⟩ | ⟨rfl, rfl, rfl⟩ | ⟨rfl, rfl, rfl⟩
    · simp at h4; linarith
    · simp at h4; linarith
    · exact hx
  exact ⟨clear _ (by unfold InCell; decide +kernel) (by decide +kernel), clear _ (by unfold InCell; decide +kernel) (by decide +kernel),
    ⟨_, by simp [cells], _, _, cell2, by unfold InCell; decide +kernel⟩, rfl⟩

end Verif
