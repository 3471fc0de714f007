import Verif.Props.FieldFirst

/-!
# Property C145: second derivatives of 3D fields, and the exact error of C16

`hess(coord, di, dj)` of a 3D field adds up the `hess` members of its shape functions (`PField::hess`), and each of those leaves out the factor of the third
direction (Hexahedron.hh:108-286). So a mixed second derivative of a 3D field is not the mixed slope of the interpolant at the point, it is the sum of its mixed
slopes on the two opposite faces of the cell: twice their mean.
-/

namespace Verif

namespace Spec
variable {K : Type} [Field K]

/-- The mixed difference quotient of a function of three coordinates in the directions `di` and `dj` with steps `s` and `t`. For a function that is affine in
each coordinate, and `di ≠ dj`, it is its mixed second derivative, whatever the steps. -/
def mixedSlope (F : (Fin 3 → K) → K) (c : Fin 3 → K) (di dj : Fin 3) (s t : K) : K :=
  (F (Function.update (Function.update c di (c di + s)) dj (c dj + t)) - F (Function.update c di (c di + s)) -
    F (Function.update c dj (c dj + t)) + F c) / (s * t)

end Spec

open Spec Bin Mesh PField Body

section
variable {K : Type} [Field K] [LinearOrder K] [FloorRing K] [IsStrictOrderedRing K]

/-- The second derivatives of a 3D field at a point of the body (lemma behind C145): the sums over the corners of the first cell that reaches the point. -/
theorem hex_hess_first (pts : List (Fin 3 → K)) (cells : List (List Nat)) (flds : List (String × List K))
    (hm : RectMesh hexUnit pts cells) (hl : ∀ fl ∈ flds, fl.2.length = pts.length) (b : Body K 3)
    (hb : Body.load (hexOps K) pts cells flds = .ok b) (c : Fin 3 → K) (hc : Covered hexUnit pts cells c) :
    ∃ e cell a h, cells[e]? = some cell ∧ CellAt hexUnit pts cell a h ∧ Reaches pts a h c ∧
      (∀ (e' : Nat) cell a h, cells[e']? = some cell → CellAt hexUnit pts cell a h → Reaches pts a h c → e ≤ e') ∧
      ∀ (ops : List (Nat × Body.Call K 3)), HistOk pts ops →
      ∀ (i : Nat) (name : String) (data : List K), flds[i]? = some (name, data) →
      ∃ v, CornerVals data cell v ∧
      ∀ di dj : Fin 3, (b.calls (hexOps K) ops).hess (hexOps K) i c di dj = .ok (∑ j : Fin 8,
        (if di = dj then 0 else hexSign j di * hexSign j dj / h di / h dj) * v j) := by
  obtain ⟨b0, lo, hi', qs, h1, h2⟩ := load_ok hexLaw hm hl
  rw [hb] at h1; cases h1
  obtain ⟨e, cell, a, h, g1, g2, g3, ⟨g4, g1', gf⟩, g5⟩ := body_eval hexLaw h2.mesh hc
  have bt : ∀ a h : Fin 3 → K, InColumn a h c → (Between (binOf (List.ofFn (gMin pts lo hi')) (List.ofFn (gIncr pts lo hi')) (List.ofFn a))
      (binOf (List.ofFn (gMin pts lo hi')) (List.ofFn (gIncr pts lo hi')) (List.ofFn fun i => a i + h i)) (binAt pts lo hi' c) ↔ Reaches pts a h c) := by
    intro a h hcol
    rw [binAt, binOf_ofFn, binOf_ofFn, binOf_ofFn, between_ofFn]
    constructor
    · intro q
      refine ⟨?_, ?_⟩
      · intro i hi
        fin_cases i
        · exact hcol.1
        · exact hcol.2
        · exact absurd rfl hi
      · intro lo2 hi2 l1 l2
        rw [isLow_unique l1 (h2.mesh.grid.low 2), isHigh_unique l2 (h2.mesh.grid.high 2)]
        exact q 2
    · intro q i
      have hp := h2.mesh.incr_pos i
      fin_cases i
      · exact ⟨floor_idx_mono hp hcol.1.1, floor_idx_mono hp hcol.1.2⟩
      · exact ⟨floor_idx_mono hp hcol.2.1, floor_idx_mono hp hcol.2.2⟩
      · exact q.2 _ _ (h2.mesh.grid.low 2) (h2.mesh.grid.high 2)
  refine ⟨e, cell, a, h, g1', g2, (bt a h g3).mp g4, ?_, ?_⟩
  · intro e' x a h k1 k2 k3
    have hcol : InColumn a h c := ⟨k3.1 0 (by decide), k3.1 1 (by decide)⟩
    exact gf e' x a h k1 k2 hcol ((bt a h hcol).mpr k3)
  · intro ops ho i name data hi
    obtain ⟨v, gv, k1, k2, k3⟩ := g5 flds _ (calls_ok hexLaw hexTotal h2 ops ho) i name data hi
    refine ⟨v, gv, ?_⟩
    intro di dj
    refine k3 di dj (fun q => if di = dj then 0 else q.s di * q.s dj / q.h di / q.h dj) ?_
    funext q
    fin_cases di <;> fin_cases dj <;> rfl

/-- **C145** (the part that holds) Repeated directions: `hess(coord, di, di)` of a 3D field is 0 at every point of the body, as it is for a function that is affine
in each coordinate; and the mixed ones do not depend on the order of the directions. For every mesh of bricks, data and history. -/
theorem C145_repeated_partial (pts : List (Fin 3 → K)) (cells : List (List Nat)) (flds : List (String × List K))
    (hm : RectMesh hexUnit pts cells) (hl : ∀ fl ∈ flds, fl.2.length = pts.length) (b : Body K 3)
    (hb : Body.load (hexOps K) pts cells flds = .ok b) (ops : List (Nat × Body.Call K 3)) (ho : HistOk pts ops)
    (i : Nat) (name : String) (data : List K) (hi : flds[i]? = some (name, data)) (c : Fin 3 → K) (hc : Covered hexUnit pts cells c) (di : Fin 3) :
    (b.calls (hexOps K) ops).hess (hexOps K) i c di di = .ok 0 ∧
    ∀ dj : Fin 3, (b.calls (hexOps K) ops).hess (hexOps K) i c di dj = (b.calls (hexOps K) ops).hess (hexOps K) i c dj di := by
  obtain ⟨e, cell, a, h, _, _, _, _, g5⟩ := hex_hess_first pts cells flds hm hl b hb c hc
  obtain ⟨v, _, k⟩ := g5 ops ho i name data hi
  refine ⟨by rw [k]; simp, ?_⟩
  intro dj
  rw [k, k]
  refine congrArg _ (Finset.sum_congr rfl fun j _ => ?_)
  by_cases hd : di = dj
  · subst hd; rfl
  · rw [if_neg hd, if_neg (Ne.symm hd)]; ring

/-- **C145** (what the mixed ones are) Let cell `e` be the first of the list that reaches the point (C139), with corner values `v`. Then `hess(coord, di, dj)`, in two
different directions, is the mixed slope of the cell's trilinear interpolant on the lower face of the third direction `dk` plus that on the upper face. -/
theorem C145_mixed_partial (pts : List (Fin 3 → K)) (cells : List (List Nat)) (flds : List (String × List K)) (hm : RectMesh hexUnit pts cells)
    (hl : ∀ fl ∈ flds, fl.2.length = pts.length) (b : Body K 3) (hb : Body.load (hexOps K) pts cells flds = .ok b) (c : Fin 3 → K)
    (hcov : Covered hexUnit pts cells c) (e : Nat)
    (cell : List Nat) (a h : Fin 3 → K) (he : cells[e]? = some cell) (hah : CellAt hexUnit pts cell a h) (hc : Reaches pts a h c)
    (hfirst : ∀ e' < e, ∀ cell' a' h', cells[e']? = some cell' → CellAt hexUnit pts cell' a' h' → ¬ Reaches pts a' h' c)
    (ops : List (Nat × Body.Call K 3)) (ho : HistOk pts ops) (i : Nat) (name : String) (data : List K) (hi : flds[i]? = some (name, data))
    (v : Fin 8 → K) (hv : CornerVals data cell v) (di dj dk : Fin 3) (h1 : di ≠ dj) (h2 : di ≠ dk) (h3 : dj ≠ dk) (s t : K) (hs : s ≠ 0) (ht : t ≠ 0) :
    (b.calls (hexOps K) ops).hess (hexOps K) i c di dj =
      .ok (mixedSlope (trilinear a h v) (Function.update c dk (a dk)) di dj s t +
        mixedSlope (trilinear a h v) (Function.update c dk (a dk + h dk)) di dj s t) := by
  obtain ⟨e', cell', a', h', g1, g2, g3, g4, g5⟩ := hex_hess_first pts cells flds hm hl b hb c hcov
  have hee : e' = e := by
    have k1 := g4 e cell a h he hah hc
    rcases Nat.lt_or_ge e' e with k | k
    · exact absurd g3 (hfirst e' k cell' a' h' g1 g2)
    · omega
  subst hee
  rw [he] at g1; cases g1
  obtain ⟨rfl, rfl⟩ := cellAt_unique hexLaw g2 hah
  obtain ⟨v', gv, k⟩ := g5 ops ho i name data hi
  rw [cornerVals_unique gv hv] at k
  have n0 := (hah.2.1 0).ne'
  have n1 := (hah.2.1 1).ne'
  have n2 := (hah.2.1 2).ne'
  refine (k di dj).trans (congrArg _ ?_)
  simp only [Fin.sum_univ_eight]
  fin_cases di <;> fin_cases dj <;> fin_cases dk <;> first
    | exact absurd rfl h1
    | exact absurd rfl h2
    | exact absurd rfl h3
    | (simp [mixedSlope, trilinear, hexSign]
       field_simp
       ring)

/-- **C145, violation** For every mesh of bricks, every history and every point of the body: a field sampled from a polynomial with products of two coordinates
(the field is that polynomial, C70) has twice its mixed second derivatives. -/
theorem C145_twice_violated (pts : List (Fin 3 → K)) (cells : List (List Nat)) (flds : List (String × List K))
    (hm : RectMesh hexUnit pts cells) (hl : ∀ fl ∈ flds, fl.2.length = pts.length) (b : Body K 3)
    (hb : Body.load (hexOps K) pts cells flds = .ok b) (ops : List (Nat × Body.Call K 3)) (ho : HistOk pts ops)
    (i : Nat) (name : String) (data : List K) (hi : flds[i]? = some (name, data)) (k : Fin 7 → K) (P : (Fin 3 → K) → K)
    (hP : ∀ x, P x = k 0 + k 1 * x 0 + k 2 * x 1 + k 3 * x 2 + k 4 * (x 0 * x 1) + k 5 * (x 0 * x 2) + k 6 * (x 1 * x 2))
    (hd : data = pts.map P) (c : Fin 3 → K) (hc : Covered hexUnit pts cells c) :
    (b.calls (hexOps K) ops).value (hexOps K) i c = .ok (P c) ∧
    (b.calls (hexOps K) ops).hess (hexOps K) i c 0 1 = .ok (2 * k 4) ∧
    (b.calls (hexOps K) ops).hess (hexOps K) i c 0 2 = .ok (2 * k 5) ∧
    (b.calls (hexOps K) ops).hess (hexOps K) i c 1 2 = .ok (2 * k 6) := by
  refine ⟨(C70_reproduces_trilinear pts cells flds hm hl b hb ops ho i name data hi ![k 0, k 1, k 2, k 3, k 4, k 5, k 6, 0] P
    (by intro x; rw [hP]; simp) hd c hc).1, ?_⟩
  obtain ⟨e, cell, a, h, _, g2, _, _, g5⟩ := hex_hess_first pts cells flds hm hl b hb c hc
  obtain ⟨v, gv, kk⟩ := g5 ops ho i name data hi
  have hval : ∀ j, v j = P (cornerPos a h (hexUnit j)) := by
    intro j
    obtain ⟨p, e1, e2⟩ := g2.2.2 j
    obtain ⟨p', f1, f2⟩ := gv j
    rw [e1] at f1; cases f1
    rw [hd, List.getElem?_map, e2] at f2
    simpa using f2.symm
  have n0 := (g2.2.1 0).ne'
  have n1 := (g2.2.1 1).ne'
  have n2 := (g2.2.1 2).ne'
  refine ⟨?_, ?_, ?_⟩
  · refine (kk 0 1).trans (congrArg _ ?_)
    simp only [hval, hP, Fin.sum_univ_eight]
    simp [cornerPos, hexUnit, hexSign]
    field_simp
    ring
  · refine (kk 0 2).trans (congrArg _ ?_)
    simp only [hval, hP, Fin.sum_univ_eight]
    simp [cornerPos, hexUnit, hexSign]
    field_simp
    ring
  · refine (kk 1 2).trans (congrArg _ ?_)
    simp only [hval, hP, Fin.sum_univ_eight]
    simp [cornerPos, hexUnit, hexSign]
    field_simp
    ring

/-- **C145, violation** A field sampled from `x*y*z` on any mesh of bricks: the mixed second derivative in `x` and `y` is `z` at the point, but the field answers with
the sum of the limits in `z` of the cell it uses, which does not depend on the point within that cell. -/
theorem C145_xyz_violated (pts : List (Fin 3 → K)) (cells : List (List Nat)) (flds : List (String × List K))
    (hm : RectMesh hexUnit pts cells) (hl : ∀ fl ∈ flds, fl.2.length = pts.length) (b : Body K 3)
    (hb : Body.load (hexOps K) pts cells flds = .ok b) (ops : List (Nat × Body.Call K 3)) (ho : HistOk pts ops)
    (i : Nat) (name : String) (data : List K) (hi : flds[i]? = some (name, data)) (hd : data = pts.map fun x => x 0 * x 1 * x 2)
    (c : Fin 3 → K) (hc : Covered hexUnit pts cells c) :
    (b.calls (hexOps K) ops).value (hexOps K) i c = .ok (c 0 * c 1 * c 2) ∧
    ∃ cell ∈ cells, ∃ a h, CellAt hexUnit pts cell a h ∧ Reaches pts a h c ∧
      (b.calls (hexOps K) ops).hess (hexOps K) i c 0 1 = .ok (a 2 + (a 2 + h 2)) := by
  refine ⟨(C70_reproduces_trilinear pts cells flds hm hl b hb ops ho i name data hi ![0, 0, 0, 0, 0, 0, 0, 1] (fun x => x 0 * x 1 * x 2)
    (by intro x; simp) hd c hc).1, ?_⟩
  obtain ⟨e, cell, a, h, g1, g2, g3, _, g5⟩ := hex_hess_first pts cells flds hm hl b hb c hc
  obtain ⟨v, gv, kk⟩ := g5 ops ho i name data hi
  have hval : ∀ j, v j = cornerPos a h (hexUnit j) 0 * cornerPos a h (hexUnit j) 1 * cornerPos a h (hexUnit j) 2 := by
    intro j
    obtain ⟨p, e1, e2⟩ := g2.2.2 j
    obtain ⟨p', f1, f2⟩ := gv j
    rw [e1] at f1; cases f1
    rw [hd, List.getElem?_map, e2] at f2
    simpa using f2.symm
  have n0 := (g2.2.1 0).ne'
  have n1 := (g2.2.1 1).ne'
  refine ⟨cell, List.mem_of_getElem? g1, a, h, g2, g3, (kk 0 1).trans (congrArg _ ?_)⟩
  simp only [hval, Fin.sum_univ_eight]
  simp [cornerPos, hexUnit, hexSign]
  field_simp
  ring

end

open Function in
/-- **C16, violation, for every cell and point** The mixed `hess(c, di, dj)` of a hexahedron's shape function leaves out the factor of the third direction: the derivative of
`grad(·, di)` along coordinate `dj` is what it returns times `1 - s_k (c_k - n_k) / h_k`. So it is the derivative only where that factor is 1 or the number returned 0. -/
theorem C16_hex_hess_factor_violated (q : Interp ℝ 3) (c : Fin 3 → ℝ) (di dj dk : Fin 3) (h1 : di ≠ dj) (h2 : di ≠ dk) (h3 : dj ≠ dk) :
    ∃ (g : (Fin 3 → ℝ) → ℝ) (H : ℝ), (∀ r, (hexOps ℝ).grad q r di = .ok (g r)) ∧ (hexOps ℝ).hess q c di dj = .ok H ∧
      HasDerivAt (fun t => g (update c dj t)) (H * (1 - q.s dk * (c dk - q.n dk) / q.h dk)) (c dj) ∧
      (HasDerivAt (fun t => g (update c dj t)) H (c dj) ↔ H = 0 ∨ q.s dk * (c dk - q.n dk) / q.h dk = 0) := by
  have main : ∃ (g : (Fin 3 → ℝ) → ℝ) (H : ℝ), (∀ r, (hexOps ℝ).grad q r di = .ok (g r)) ∧ (hexOps ℝ).hess q c di dj = .ok H ∧
      HasDerivAt (fun t => g (update c dj t)) (H * (1 - q.s dk * (c dk - q.n dk) / q.h dk)) (c dj) := by
    refine ⟨fun r => ![-q.s 0 * (1 - q.s 1 * (r 1 - q.n 1) / q.h 1) * (1 - q.s 2 * (r 2 - q.n 2) / q.h 2) / q.h 0,
      -q.s 1 * (1 - q.s 0 * (r 0 - q.n 0) / q.h 0) * (1 - q.s 2 * (r 2 - q.n 2) / q.h 2) / q.h 1,
      -q.s 2 * (1 - q.s 0 * (r 0 - q.n 0) / q.h 0) * (1 - q.s 1 * (r 1 - q.n 1) / q.h 1) / q.h 2] di,
      q.s di * q.s dj / q.h di / q.h dj, ?_, ?_, ?_⟩
    · intro r; fin_cases di <;> rfl
    · fin_cases di <;> fin_cases dj <;> first | exact absurd rfl h1 | rfl
    · apply hasDerivAt_affine (-q.s di * (1 + q.s dj * q.n dj / q.h dj) * (1 - q.s dk * (c dk - q.n dk) / q.h dk) / q.h di)
      intro t
      fin_cases di <;> fin_cases dj <;> fin_cases dk <;> first
        | exact absurd rfl h1
        | exact absurd rfl h2
        | exact absurd rfl h3
        | (simp [update]; ring)
  obtain ⟨g, H, k1, k2, k3⟩ := main
  refine ⟨g, H, k1, k2, k3, ?_⟩
  constructor
  · intro hd
    have := hd.unique k3
    have e : H * (q.s dk * (c dk - q.n dk) / q.h dk) = 0 := by linear_combination this
    exact mul_eq_zero.mp e
  · rintro (rfl | e)
    · simpa using k3
    · rw [e] at k3; simpa using k3

/-- Two stacked unit cubes, data `x*y`: the field is `x*y` and its second derivative in `x` and `y` comes out as 2. -/
example : (Body.load (hexOps ℚ) Demo3.pts Demo3.cells [("u", Demo3.pts.map fun x => x 0 * x 1)] >>= fun b =>
      b.value (hexOps ℚ) 0 ![1 / 2, 1 / 4, 1 / 2]) = .ok (1 / 8) ∧
    (Body.load (hexOps ℚ) Demo3.pts Demo3.cells [("u", Demo3.pts.map fun x => x 0 * x 1)] >>= fun b =>
      b.hess (hexOps ℚ) 0 ![1 / 2, 1 / 4, 1 / 2] 0 1) = .ok 2 := by decide +kernel

/-- The hypotheses are met there. -/
example (b : Body ℚ 3) (hb : Body.load (hexOps ℚ) Demo3.pts Demo3.cells [("u", Demo3.pts.map fun x => x 0 * x 1)] = .ok b)
    (ops : List (Nat × Body.Call ℚ 3)) (ho : HistOk Demo3.pts ops) :
    (b.calls (hexOps ℚ) ops).hess (hexOps ℚ) 0 ![1 / 2, 1 / 2, 6 / 5] 0 1 = .ok (2 * 1) :=
  (C145_twice_violated Demo3.pts Demo3.cells _ Demo3.rect (by simp) b hb ops ho 0 "u" _ rfl ![0, 0, 0, 0, 1, 0, 0] (fun x => x 0 * x 1)
    (by intro x; simp) rfl ![1 / 2, 1 / 2, 6 / 5]
    ⟨_, by simp [Demo3.cells], _, _, Demo3.cell1, by intro i; fin_cases i <;> decide +kernel⟩).2.1

/-- In the unit cell, corner 0, at `z = 1/2`, the factor left out is `1/2`. -/
example : ¬ ∃ g : (Fin 3 → ℝ) → ℝ, (∀ r, (hexOps ℝ).grad (hexAt 0 0 ![0, 0, 0] ![1, 1, 1] 0) r 0 = .ok (g r)) ∧
    HasDerivAt (fun t => g (Function.update ![0, 0, 1 / 2] 1 t)) 1 0 := by
  rintro ⟨g, k1, k2⟩
  obtain ⟨g', H, e1, e2, _, e4⟩ := C16_hex_hess_factor_violated (hexAt 0 0 ![0, 0, 0] ![1, 1, 1] 0) ![0, 0, 1 / 2] 0 1 2 (by decide) (by decide) (by decide)
  have hg : g' = g := by
    funext r
    have := (e1 r).symm.trans (k1 r)
    exact Except.ok.inj this
  have hH : H = 1 := by
    have e3 : (hexOps ℝ).hess (hexAt 0 0 ![0, 0, 0] ![1, 1, 1] 0) ![0, 0, 1 / 2] 0 1 = .ok 1 := by simp [hexOps, hexAt, mkHex, hexHess, hexSign]
    exact (Except.ok.inj (e3.symm.trans e2)).symm
  subst hg hH
  have := e4.mp (by simpa using k2)
  simp [hexAt, hexOps, mkHex, cornerPos, hexUnit, hexSign] at this

end Verif
