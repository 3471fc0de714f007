import Verif.Lemmas.Demo

/-!
# Properties C24, C27, C32: conforming 2D meshes and derivatives
-/

namespace Verif
open Spec Mesh PField Body

section
variable {K : Type} [Field K] [LinearOrder K] [FloorRing K] [IsStrictOrderedRing K]

omit [FloorRing K] in
/-- An affine function vanishing at both ends of a (possibly degenerate) interval vanishes on it. -/
theorem affine_zero {p q l r x : K} (hl : p + q * l = 0) (hr : p + q * r = 0) (h1 : l ≤ x) (h2 : x ≤ r) :
    p + q * x = 0 := by
  have hq : q * (r - l) = 0 := by linear_combination hr - hl
  rcases mul_eq_zero.mp hq with h | h
  · rw [h] at hl ⊢; simpa using hl
  · have : x = l := le_antisymm (by linarith) h1
    rw [this]; exact hl

omit [FloorRing K] in
/-- Two bilinear interpolants agreeing at the corners of a box agree in the box. -/
theorem bilinear_agree {a h a' h' : Fin 2 → K} (v v' : Fin 4 → K) (l r c : Fin 2 → K) (h1 : ∀ i, l i ≤ c i) (h2 : ∀ i, c i ≤ r i)
    (hagree : ∀ u : Fin 2 → K, (∀ i, u i = l i ∨ u i = r i) → bilinear a h v u = bilinear a' h' v' u) :
    bilinear a h v c = bilinear a' h' v' c := by
  have form : ∀ (a h : Fin 2 → K) (v : Fin 4 → K), ∃ p q s t : K, ∀ u : Fin 2 → K, bilinear a h v u = p + q * u 0 + s * u 1 + t * (u 0 * u 1) := by
    intro a h v
    refine ⟨(1 + a 0 / h 0) * (1 + a 1 / h 1) * v 0 + (-(a 0) / h 0) * (1 + a 1 / h 1) * v 1 + (a 0 / h 0) * (a 1 / h 1) * v 2 -
        (1 + a 0 / h 0) * (a 1 / h 1) * v 3,
      (1 / h 0) * (-(1 + a 1 / h 1) * v 0 + (1 + a 1 / h 1) * v 1 - (a 1 / h 1) * v 2 + (a 1 / h 1) * v 3),
      (1 / h 1) * (-(1 + a 0 / h 0) * v 0 + (a 0 / h 0) * v 1 - (a 0 / h 0) * v 2 + (1 + a 0 / h 0) * v 3),
      (1 / h 0) * (1 / h 1) * (v 0 - v 1 + v 2 - v 3), ?_⟩
    intro u
    simp only [bilinear, div_eq_mul_inv]
    ring
  obtain ⟨p, q, s, t, hf⟩ := form a h v
  obtain ⟨p', q', s', t', hf'⟩ := form a' h' v'
  simp only [hf, hf'] at hagree ⊢
  have corner : ∀ x y, (x = l 0 ∨ x = r 0) → (y = l 1 ∨ y = r 1) →
      ((p - p') + (s - s') * y) + ((q - q') + (t - t') * y) * x = 0 := by
    intro x y hx hy
    have := hagree ![x, y] (by intro i; fin_cases i <;> simpa)
    simp at this
    linear_combination this
  have edge : ∀ y, (y = l 1 ∨ y = r 1) → ((p - p') + (s - s') * y) + ((q - q') + (t - t') * y) * c 0 = 0 := fun y hy =>
    affine_zero (corner _ y (Or.inl rfl) hy) (corner _ y (Or.inr rfl) hy) (h1 0) (h2 0)
  have := affine_zero (p := (p - p') + (q - q') * c 0) (q := (s - s') + (t - t') * c 0) (l := l 1) (r := r 1) (x := c 1)
    (by linear_combination edge _ (Or.inl rfl)) (by linear_combination edge _ (Or.inr rfl)) (h1 1) (h2 1)
  linear_combination this

/-- A node of a cell is one of its corners, and carries the corner value. -/
theorem bilinear_node {pts : List (Fin 2 → K)} {cell : List Nat} {a h : Fin 2 → K} (hc : CellAt quadUnit pts cell a h)
    {data : List K} {v : Fin 4 → K} (hv : CornerVals data cell v) {p : Nat} (hp : p ∈ cell) {u : Fin 2 → K} (hu : pts[p]? = some u)
    (hh : ∀ i, h i ≠ 0) :
    data[p]? = some (bilinear a h v u) := by
  obtain ⟨j, hj, hje⟩ := List.mem_iff_getElem.mp hp
  have hj4 : j < 4 := by rw [← hc.1]; exact hj
  obtain ⟨k, e1, e2⟩ := hc.2.2 ⟨j, hj4⟩
  obtain ⟨k', f1, f2⟩ := hv ⟨j, hj4⟩
  simp only [List.getElem?_eq_getElem hj, hje, Option.some.injEq] at e1 f1
  subst e1; subst f1
  rw [hu] at e2
  rw [f2, Option.some.inj e2, bilinear_corner hh]

/-- The bilinear interpolants of two cells of a conforming mesh agree wherever both cells contain the point. -/
theorem conforming_agree {pts : List (Fin 2 → K)} {cells : List (List Nat)} (hcf : Conforming quadUnit pts cells)
    {cell cell' : List Nat} (h1 : cell ∈ cells) (h2 : cell' ∈ cells) {a h a' h' : Fin 2 → K}
    (k1 : CellAt quadUnit pts cell a h) (k2 : CellAt quadUnit pts cell' a' h') {data : List K} {v v' : Fin 4 → K}
    (g1 : CornerVals data cell v) (g2 : CornerVals data cell' v') {c : Fin 2 → K} (i1 : InCell a h c) (i2 : InCell a' h' c) :
    bilinear a h v c = bilinear a' h' v' c := by
  apply bilinear_agree v v' (fun i => max (a i) (a' i)) (fun i => min (a i + h i) (a' i + h' i)) c
    (fun i => max_le (i1 i).1 (i2 i).1) (fun i => le_min (i1 i).2 (i2 i).2)
  intro u hu
  obtain ⟨p, p1, p2, p3⟩ := hcf cell h1 cell' h2 a h a' h' k1 k2 ⟨c, i1, i2⟩ u hu
  have e1 := bilinear_node k1 g1 p1 p3 fun i => (k1.2.1 i).ne'
  have e2 := bilinear_node k2 g2 p2 p3 fun i => (k2.2.1 i).ne'
  rw [e1] at e2
  exact Option.some.inj e2

/-- **C27** On a conforming mesh the value at a point is the bilinear interpolant of *every* cell containing it: cells sharing an
edge or corner give the same value there. -/
theorem C27_single_valued (pts : List (Fin 2 → K)) (cells : List (List Nat)) (flds : List (String × List K))
    (hm : RectMesh quadUnit pts cells) (hcf : Conforming quadUnit pts cells) (hl : ∀ fl ∈ flds, fl.2.length = pts.length) (b : Body K 2)
    (hb : Body.load (quadOps K) pts cells flds = .ok b) (ops : List (Nat × Body.Call K 2)) (ho : HistOk pts ops)
    (i : Nat) (name : String) (data : List K) (hi : flds[i]? = some (name, data)) (cell : List Nat) (hce : cell ∈ cells)
    (a h : Fin 2 → K) (hah : CellAt quadUnit pts cell a h) (v : Fin 4 → K) (hv : CornerVals data cell v) (c : Fin 2 → K)
    (hc : InCell a h c) :
    (b.calls (quadOps K) ops).value (quadOps K) i c = .ok (bilinear a h v c) := by
  obtain ⟨cell', a', h', g1, g2, g3, g4⟩ := C23_bilinear pts cells flds hm hl b hb c ⟨cell, hce, a, h, hah, hc⟩
  obtain ⟨v', gv, k⟩ := g4 ops ho i name data hi
  rw [k, conforming_agree hcf g1 hce g2 hah gv hv g3 hc]

/-- **C27** (cell order) Reordering the cells of a conforming mesh changes no value at any point of the body. -/
theorem C27_cell_order (pts : List (Fin 2 → K)) (cells cells' : List (List Nat)) (hperm : cells.Perm cells')
    (flds : List (String × List K))
    (hm : RectMesh quadUnit pts cells) (hcf : Conforming quadUnit pts cells) (hl : ∀ fl ∈ flds, fl.2.length = pts.length)
    (b b' : Body K 2) (hb : Body.load (quadOps K) pts cells flds = .ok b)
    (hb' : Body.load (quadOps K) pts cells' flds = .ok b') (ops ops' : List (Nat × Body.Call K 2)) (ho : HistOk pts ops)
    (ho' : HistOk pts ops') (i : Nat) (hi : i < flds.length) (c : Fin 2 → K) (hc : Covered quadUnit pts cells c) :
    (b.calls (quadOps K) ops).value (quadOps K) i c = (b'.calls (quadOps K) ops').value (quadOps K) i c := by
  have hm' : RectMesh quadUnit pts cells' :=
    ⟨fun e => hm.nonempty (by subst e; exact hperm.eq_nil), fun x hx => hm.rect x (hperm.mem_iff.mpr hx), hm.small⟩
  have hcf' : Conforming quadUnit pts cells' := fun x hx y hy => hcf x (hperm.mem_iff.mpr hx) y (hperm.mem_iff.mpr hy)
  obtain ⟨cell, a, h, g1, g2, g3, g4⟩ := C23_bilinear pts cells flds hm hl b hb c hc
  obtain ⟨v, gv, k⟩ := g4 ops ho i _ _ (List.getElem?_eq_getElem hi)
  rw [k, C27_single_valued pts cells' flds hm' hcf' hl b' hb' ops' ho' i _ _ (List.getElem?_eq_getElem hi) cell
    (hperm.mem_iff.mp g1) a h g2 v gv c g3]

/-- **C24** On a conforming mesh, the value at a node of a cell is the node's data value. -/
theorem C24_nodal (pts : List (Fin 2 → K)) (cells : List (List Nat)) (flds : List (String × List K))
    (hm : RectMesh quadUnit pts cells) (hcf : Conforming quadUnit pts cells) (hl : ∀ fl ∈ flds, fl.2.length = pts.length) (b : Body K 2)
    (hb : Body.load (quadOps K) pts cells flds = .ok b) (ops : List (Nat × Body.Call K 2)) (ho : HistOk pts ops)
    (i : Nat) (name : String) (data : List K) (hi : flds[i]? = some (name, data)) (p : Nat) (cell : List Nat) (hce : cell ∈ cells)
    (hp : p ∈ cell) (x : Fin 2 → K) (hx : pts[p]? = some x) (y : K) (hy : data[p]? = some y) :
    (b.calls (quadOps K) ops).value (quadOps K) i x = .ok y := by
  obtain ⟨a, h, hah⟩ := hm.rect cell hce
  have hdl : data.length = pts.length := hl _ (List.mem_of_getElem? hi)
  obtain ⟨v, hv⟩ : ∃ v : Fin 4 → K, CornerVals data cell v := by
    refine ⟨fun j => data.getD (cell.getD j 0) 0, fun j => ?_⟩
    obtain ⟨q, e1, e2⟩ := hah.2.2 j
    have hlt := (List.getElem?_eq_some_iff.mp e2).1
    rw [← hdl] at hlt
    exact ⟨q, e1, by simp [e1, hlt]⟩
  have hn : ∀ i, h i ≠ 0 := fun i => (hah.2.1 i).ne'
  have e := bilinear_node hah hv hp hx hn
  rw [hy] at e
  have hin : InCell a h x := by
    obtain ⟨j, hj, hje⟩ := List.mem_iff_getElem.mp hp
    have hj4 : j < 4 := by rw [← hah.1]; exact hj
    obtain ⟨k, e1, e2⟩ := hah.2.2 ⟨j, hj4⟩
    simp only [List.getElem?_eq_getElem hj, hje, Option.some.injEq] at e1
    subst e1
    rw [hx] at e2
    rw [Option.some.inj e2]
    intro i
    have h0 := (hah.2.1 0).le
    have h1 := (hah.2.1 1).le
    generalize (⟨j, hj4⟩ : Fin 4) = jj
    fin_cases jj <;> fin_cases i <;> simp [cornerPos, quadUnit, h0, h1]
  rw [C27_single_valued pts cells flds hm hcf hl b hb ops ho i name data hi cell hce a h hah v hv x hin, ← Option.some.inj e]

end

/-! ### C32: derivatives -/

/-- **C32** At every point of the body, `grad` and `hess` return the partial derivatives of the bilinear interpolant of the cell
whose interpolant `value` returns. -/
theorem C32_derivatives (pts : List (Fin 2 → ℝ)) (cells : List (List Nat)) (flds : List (String × List ℝ))
    (hm : RectMesh quadUnit pts cells) (hl : ∀ fl ∈ flds, fl.2.length = pts.length) (b : Body ℝ 2)
    (hb : Body.load (quadOps ℝ) pts cells flds = .ok b) (ops : List (Nat × Body.Call ℝ 2)) (ho : HistOk pts ops)
    (i : Nat) (name : String) (data : List ℝ) (hi : flds[i]? = some (name, data)) (c : Fin 2 → ℝ)
    (hc : Covered quadUnit pts cells c) :
    ∃ cell a h v, cell ∈ cells ∧ CellAt quadUnit pts cell a h ∧ InCell a h c ∧ CornerVals data cell v ∧
      (b.calls (quadOps ℝ) ops).value (quadOps ℝ) i c = .ok (bilinear a h v c) ∧
      ∀ di : Fin 2, ∃ G : (Fin 2 → ℝ) → ℝ,
        (∀ x, HasDerivAt (fun t => bilinear a h v (Function.update x di t)) (G x) (x di)) ∧
        (b.calls (quadOps ℝ) ops).grad (quadOps ℝ) i c di = .ok (G c) ∧
        ∀ dj : Fin 2, ∃ H, (b.calls (quadOps ℝ) ops).hess (quadOps ℝ) i c di dj = .ok H ∧
          HasDerivAt (fun t => G (Function.update c dj t)) H (c dj) := by
  obtain ⟨cell, a, h, g1, g2, g3, g4⟩ := quad_eval pts cells flds hm hl b hb c hc
  obtain ⟨v, gv, k1, k2, k3, k4, k5, k6⟩ := g4 ops ho i name data hi
  have n0 := (g2.2.1 0).ne'
  have n1 := (g2.2.1 1).ne'
  have d0 := k4 0
  have d1 := k4 1
  refine ⟨cell, a, h, v, g1, g2, g3, gv, k1, ?_⟩
  intro di
  fin_cases di
  · refine ⟨fun x => ((v 1 - v 0) * (1 - (x 1 - a 1) / h 1) + (v 2 - v 3) * ((x 1 - a 1) / h 1)) / h 0, ?_, k2, ?_⟩
    · intro x
      refine hasDerivAt_affine
        ((1 + a 0 / h 0) * (1 - (x 1 - a 1) / h 1) * v 0 - a 0 / h 0 * (1 - (x 1 - a 1) / h 1) * v 1 -
          a 0 / h 0 * ((x 1 - a 1) / h 1) * v 2 + (1 + a 0 / h 0) * ((x 1 - a 1) / h 1) * v 3) _ _ _ ?_
      intro t
      simp [bilinear]
      field_simp
      ring
    · intro dj
      fin_cases dj
      · refine ⟨0, d0, ?_⟩
        refine hasDerivAt_affine (((v 1 - v 0) * (1 - (c 1 - a 1) / h 1) + (v 2 - v 3) * ((c 1 - a 1) / h 1)) / h 0) _ _ _ ?_
        intro t
        simp
      · refine ⟨_, k5, ?_⟩
        refine hasDerivAt_affine (((v 1 - v 0) * (1 + a 1 / h 1) - (v 2 - v 3) * (a 1 / h 1)) / h 0) _ _ _ ?_
        intro t
        simp
        field_simp
        ring
  · refine ⟨fun x => ((v 3 - v 0) * (1 - (x 0 - a 0) / h 0) + (v 2 - v 1) * ((x 0 - a 0) / h 0)) / h 1, ?_, k3, ?_⟩
    · intro x
      refine hasDerivAt_affine
        ((1 - (x 0 - a 0) / h 0) * (1 + a 1 / h 1) * v 0 + ((x 0 - a 0) / h 0) * (1 + a 1 / h 1) * v 1 -
          ((x 0 - a 0) / h 0) * (a 1 / h 1) * v 2 - (1 - (x 0 - a 0) / h 0) * (a 1 / h 1) * v 3) _ _ _ ?_
      intro t
      simp [bilinear]
      field_simp
      ring
    · intro dj
      fin_cases dj
      · refine ⟨_, k6, ?_⟩
        refine hasDerivAt_affine (((v 3 - v 0) * (1 + a 0 / h 0) - (v 2 - v 1) * (a 0 / h 0)) / h 1) _ _ _ ?_
        intro t
        simp
        field_simp
        ring
      · refine ⟨0, d1, ?_⟩
        refine hasDerivAt_affine (((v 3 - v 0) * (1 - (c 0 - a 0) / h 0) + (v 2 - v 1) * ((c 0 - a 0) / h 0)) / h 1) _ _ _ ?_
        intro t
        simp

/-- **C32** (true derivative of the field) On a conforming mesh, at an interior point of a cell, `grad(coord, di)` is the partial
derivative of the function `x ↦ field(x)` itself (with `field(x)` taken as `F x` wherever the call returns it). -/
theorem C32_field_derivative (pts : List (Fin 2 → ℝ)) (cells : List (List Nat)) (flds : List (String × List ℝ))
    (hm : RectMesh quadUnit pts cells) (hcf : Conforming quadUnit pts cells) (hl : ∀ fl ∈ flds, fl.2.length = pts.length)
    (b : Body ℝ 2) (hb : Body.load (quadOps ℝ) pts cells flds = .ok b) (ops : List (Nat × Body.Call ℝ 2)) (ho : HistOk pts ops)
    (i : Nat) (name : String) (data : List ℝ) (hi : flds[i]? = some (name, data))
    (cell : List Nat) (hce : cell ∈ cells) (a h : Fin 2 → ℝ) (hah : CellAt quadUnit pts cell a h) (c : Fin 2 → ℝ)
    (hint : ∀ i, a i < c i ∧ c i < a i + h i) (F : (Fin 2 → ℝ) → ℝ)
    (hF : ∀ x y, (b.calls (quadOps ℝ) ops).value (quadOps ℝ) i x = .ok y → F x = y) (di : Fin 2) :
    ∃ g, (b.calls (quadOps ℝ) ops).grad (quadOps ℝ) i c di = .ok g ∧
      HasDerivAt (fun t => F (Function.update c di t)) g (c di) := by
  have hic : InCell a h c := fun i => ⟨(hint i).1.le, (hint i).2.le⟩
  obtain ⟨cell', a', h', v', g1, g2, g3, g4, g5, g6⟩ := C32_derivatives pts cells flds hm hl b hb ops ho i name data hi c
    ⟨cell, hce, a, h, hah, hic⟩
  obtain ⟨G, k1, k2, _⟩ := g6 di
  refine ⟨G c, k2, ?_⟩
  -- `c` is interior, so by conformity the found cell is the whole cell
  have hdl : data.length = pts.length := hl _ (List.mem_of_getElem? hi)
  obtain ⟨v, hv⟩ : ∃ v : Fin 4 → ℝ, CornerVals data cell v := by
    refine ⟨fun j => data.getD (cell.getD j 0) 0, fun j => ?_⟩
    obtain ⟨q, e1, e2⟩ := hah.2.2 j
    have hlt := (List.getElem?_eq_some_iff.mp e2).1
    rw [← hdl] at hlt
    exact ⟨q, e1, by simp [e1, hlt]⟩
  -- corners of a cell have the cell's limits as coordinates
  have node_lim : ∀ {cell : List Nat} {a h u : Fin 2 → ℝ} {p : Nat}, CellAt quadUnit pts cell a h → p ∈ cell → pts[p]? = some u →
      ∀ i, u i = a i ∨ u i = a i + h i := by
    intro cell a h u p hah hp hx i
    obtain ⟨j, hj, hje⟩ := List.mem_iff_getElem.mp hp
    have hj4 : j < 4 := by rw [← hah.1]; exact hj
    obtain ⟨k, e1, e2⟩ := hah.2.2 ⟨j, hj4⟩
    simp only [List.getElem?_eq_getElem hj, hje, Option.some.injEq] at e1
    subst e1
    rw [hx] at e2
    rw [Option.some.inj e2]
    generalize (⟨j, hj4⟩ : Fin 4) = jj
    fin_cases jj <;> fin_cases i <;> simp [cornerPos, quadUnit]
  have hlo : ∀ i, max (a i) (a' i) = a i := by
    intro i
    obtain ⟨p, p1, p2, p3⟩ := hcf cell hce cell' g1 a h a' h' hah g2 ⟨c, hic, g3⟩ (fun i => max (a i) (a' i)) (fun i => Or.inl rfl)
    rcases node_lim hah p1 p3 i with e | e
    · exact e
    · have := max_lt (lt_of_lt_of_le (hint i).1 (hint i).2.le) (lt_of_le_of_lt (g3 i).1 (hint i).2)
      exact absurd e this.ne
  have hhi : ∀ i, min (a i + h i) (a' i + h' i) = a i + h i := by
    intro i
    obtain ⟨p, p1, p2, p3⟩ := hcf cell hce cell' g1 a h a' h' hah g2 ⟨c, hic, g3⟩ (fun i => min (a i + h i) (a' i + h' i))
      (fun i => Or.inr rfl)
    rcases node_lim hah p1 p3 i with e | e
    · have := lt_min (lt_of_le_of_lt (hint i).1.le (hint i).2) (lt_of_lt_of_le (hint i).1 (g3 i).2)
      exact absurd e this.ne'
    · exact e
  have hsub : ∀ x, InCell a h x → InCell a' h' x := by
    intro x hx i
    constructor
    · exact le_trans (max_eq_left_iff.mp (hlo i)) (hx i).1
    · exact le_trans (hx i).2 (min_eq_left_iff.mp (hhi i))
  have hev : (fun t => F (Function.update c di t)) =ᶠ[nhds (c di)] fun t => bilinear a' h' v' (Function.update c di t) := by
    have ho' : Set.Ioo (a di) (a di + h di) ∈ nhds (c di) := Ioo_mem_nhds (hint di).1 (hint di).2
    filter_upwards [ho'] with t ht
    have hin : InCell a h (Function.update c di t) := by
      intro k
      by_cases hk : k = di
      · subst hk; simp [ht.1.le, ht.2.le]
      · simpa [Function.update_of_ne hk] using hic k
    rw [hF _ _ (C27_single_valued pts cells flds hm hcf hl b hb ops ho i name data hi cell hce a h hah v hv _ hin)]
    exact conforming_agree hcf hce g1 hah g2 hv g4 hin (hsub _ hin)
  exact (k1 c).congr_of_eventuallyEq hev

/-! ### Non-vacuity -/

/-- The demo mesh meets all hypotheses of C22-C27, and the conclusion is a real value: the node `(1,1)` shared by both cells. -/
example : ∃ b, Body.load (quadOps ℚ) Demo.pts Demo.cells Demo.flds = .ok b ∧
    (b.calls (quadOps ℚ) []).value (quadOps ℚ) 0 ![1, 1] = .ok 5 ∧
    (b.calls (quadOps ℚ) [(1, .evalGrad ![2, 1 / 2])]).value (quadOps ℚ) 0 ![2, 1 / 2] = .ok (17 / 4) := by
  obtain ⟨b, hb, _⟩ := C22_load_2d Demo.pts Demo.cells Demo.flds Demo.rect Demo.lens
  refine ⟨b, hb, ?_, ?_⟩
  · exact C24_nodal _ _ _ Demo.rect Demo.conforming Demo.lens b hb [] (by simp [HistOk]) 0 "u" _ rfl 4 [0, 1, 4, 3] (by simp [Demo.cells])
      (by simp) _ rfl _ rfl
  · have hin : InCell (![1, 0] : Fin 2 → ℚ) ![2, 1] ![2, 1 / 2] := by
      intro i; fin_cases i <;> decide +kernel
    obtain ⟨m, lo, hi, qs, _, hbt⟩ := build_of quadLaw Demo.rect
    have hbin : InBins Demo.pts ![2, 1 / 2] := hbt.inBins_of_inCell quadLaw Demo.cell1 hin
    have := C27_single_valued _ _ _ Demo.rect Demo.conforming Demo.lens b hb [(1, .evalGrad ![2, 1 / 2])]
      (by intro o ho; rw [List.mem_singleton.mp ho]; exact Or.inl hbin) 0 "u" _ rfl [1, 2, 5, 4] (by simp [Demo.cells]) ![1, 0] ![2, 1]
      Demo.cell1 ![2, 3, 7, 5] (by
        intro j
        fin_cases j
        · exact ⟨1, rfl, rfl⟩
        · exact ⟨2, rfl, rfl⟩
        · exact ⟨5, rfl, rfl⟩
        · exact ⟨4, rfl, rfl⟩) ![2, 1 / 2] hin
    rw [this]
    simp [bilinear]
    norm_num

end Verif
