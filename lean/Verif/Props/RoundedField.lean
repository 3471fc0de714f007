import Verif.Lemmas.RoundedHist
import Verif.Lemmas.RoundedSum
import Verif.Lemmas.RoundedId
import Verif.Props.FieldConform
import Mathlib.Data.Rat.Floor

/-!
# Properties C94-C96: 2D fields in floating-point arithmetic

Every operation on doubles is rounded (`Spec/Rounding.lean`); the theorems hold for every rounding with unit roundoff at most 1/64, IEEE
round-to-nearest-even (`nearestEven 53` for binary64, `u = 2^-53`) among them. The specification is `Spec/RoundedMesh.lean`.
-/

namespace Verif
open Spec
variable {K : Type} [Field K] [LinearOrder K] [FloorRing K] [IsStrictOrderedRing K] {rnd : K → K} {u : K}

namespace Fl

/-- What the three members compute at a floating-point point of the body. -/
theorem quad_eval (R : Rounding rnd u) (hu : u ≤ 1 / 64) (pts : List (Fin 2 → K)) (cells : List (List Nat)) (flds : List (String × List K))
    (hm : FloatMesh quadUnit rnd u pts cells) (hl : ∀ fl ∈ flds, fl.2.length = pts.length) (b : Body K 2)
    (hb : load rnd (quadOps rnd) pts cells flds = .ok b) (c : Fin 2 → K) (hc : FloatPoint quadUnit rnd pts cells c) :
    ∃ cell a h e, ∃ p : Fin 4 → Bool, cell ∈ cells ∧ CellAt quadUnit pts cell a h ∧ InCell a h c ∧
      (∀ j, ¬ Lost quadUnit rnd a h c j → p j = true) ∧
      ∀ (ops : List (Nat × Body.Call K 2)), HistOk rnd pts ops →
      ∀ (i : Nat) (name : String) (data : List K), flds[i]? = some (name, data) →
      ∃ v : Fin 4 → K, CornerVals data cell v ∧
        eval rnd (quadOps rnd) (evals rnd (quadOps rnd) b ops) i (.value c) = .ok (rsum rnd 0 (((List.finRange 4).filter p).map fun j : Fin 4 =>
          rnd (quadF rnd c (corner rnd (quadOps rnd) quadUnit (cell.getD j 0) e a h j).n (corner rnd (quadOps rnd) quadUnit (cell.getD j 0) e a h j).h
            (corner rnd (quadOps rnd) quadUnit (cell.getD j 0) e a h j).s * v j))) ∧
        (∀ (di : Fin 2) (W : Fin 4 → K), (∀ j : Fin 4, quadGrad rnd c (corner rnd (quadOps rnd) quadUnit (cell.getD j 0) e a h j).n
            (corner rnd (quadOps rnd) quadUnit (cell.getD j 0) e a h j).h (corner rnd (quadOps rnd) quadUnit (cell.getD j 0) e a h j).s di = .ok (W j)) →
          eval rnd (quadOps rnd) (evals rnd (quadOps rnd) b ops) i (.grad c di) =
            .ok (rsum rnd 0 (((List.finRange 4).filter p).map fun j : Fin 4 => rnd (W j * v j)))) ∧
        (∀ (di dj : Fin 2) (W : Fin 4 → K), (∀ j : Fin 4, quadHess rnd (corner rnd (quadOps rnd) quadUnit (cell.getD j 0) e a h j).h
            (corner rnd (quadOps rnd) quadUnit (cell.getD j 0) e a h j).s di dj = .ok (W j)) →
          eval rnd (quadOps rnd) (evals rnd (quadOps rnd) b ops) i (.hess c di dj) =
            .ok (rsum rnd 0 (((List.finRange 4).filter p).map fun j : Fin 4 => rnd (W j * v j)))) := by
  obtain ⟨cell, a, h, e, lo, hi, p, g1, g2, g3, _, _, g4, g5⟩ := elem_eval flQuad flQuadTotal R hu flds hm hl b hb c hc
  have hic : InCell a h c := fun i => g3 i trivial
  refine ⟨cell, a, h, e, p, g1, g2, hic, g4 hic, fun ops ho i name data hi' => ?_⟩
  obtain ⟨v, k1, k2, k3, k4⟩ := g5 ops ho i name data hi'
  exact ⟨v, k1, k2 _ fun j => rfl, k3, k4⟩

end Fl

/-- **C94** Every resolved mesh of floating-point points is read without an error. -/
theorem C94_loads (R : Rounding rnd u) (hu : u ≤ 1 / 64) (pts : List (Fin 2 → K)) (cells : List (List Nat)) (flds : List (String × List K))
    (hm : FloatMesh quadUnit rnd u pts cells) (hl : ∀ fl ∈ flds, fl.2.length = pts.length) : ∃ b, Fl.load rnd (Fl.quadOps rnd) pts cells flds = .ok b := by
  obtain ⟨b, _, _, _, h, _⟩ := Fl.load_ok Fl.flQuad R hu hm hl
  exact ⟨b, h⟩

/-- **C94** At every floating-point point of the body, after any history, the value computed is within 64 roundoffs of the bilinear
interpolant of a cell containing the point (relative to the largest of the four corner values). The cell is the same for every field and
history. -/
theorem C94_value_error (R : Rounding rnd u) (hu : u ≤ 1 / 64) (pts : List (Fin 2 → K)) (cells : List (List Nat))
    (flds : List (String × List K)) (hm : FloatMesh quadUnit rnd u pts cells) (hl : ∀ fl ∈ flds, fl.2.length = pts.length)
    (hfl : ∀ fl ∈ flds, ∀ y ∈ fl.2, IsFloat rnd y) (b : Body K 2) (hb : Fl.load rnd (Fl.quadOps rnd) pts cells flds = .ok b) (c : Fin 2 → K)
    (hc : FloatPoint quadUnit rnd pts cells c) :
    ∃ cell a h, cell ∈ cells ∧ CellAt quadUnit pts cell a h ∧ InCell a h c ∧
      ∀ (ops : List (Nat × Body.Call K 2)), Fl.HistOk rnd pts ops →
      ∀ (i : Nat) (name : String) (data : List K), flds[i]? = some (name, data) →
      ∃ v y, CornerVals data cell v ∧ Fl.eval rnd (Fl.quadOps rnd) (Fl.evals rnd (Fl.quadOps rnd) b ops) i (.value c) = .ok y ∧
        ∀ M, (∀ j, |v j| ≤ M) → |y - bilinear a h v c| ≤ 64 * u * M := by
  obtain ⟨cell, a, h, e, p, g1, g2, g3, g4, g5⟩ := Fl.quad_eval R hu pts cells flds hm hl b hb c hc
  refine ⟨cell, a, h, g1, g2, g3, fun ops ho i name data hi => ?_⟩
  obtain ⟨v, k1, k2, _⟩ := g5 ops ho i name data hi
  have hv : ∀ j, IsFloat rnd (v j) := by
    intro j
    obtain ⟨q, _, hq⟩ := k1 j
    exact hfl _ (List.mem_of_getElem? hi) _ (List.mem_of_getElem? hq)
  exact ⟨v, _, k1, k2, fun M hM => Fl.value_close R hu g2.2.1 g3 hc.2 p g4 v hv hM (fun j => cell.getD j 0) e⟩

/-- **C94** On a conforming mesh the value is within 64 roundoffs of the interpolant of *every* cell containing the point. -/
theorem C94_value_conforming (R : Rounding rnd u) (hu : u ≤ 1 / 64) (pts : List (Fin 2 → K)) (cells : List (List Nat))
    (flds : List (String × List K)) (hm : FloatMesh quadUnit rnd u pts cells) (hcf : Conforming quadUnit pts cells)
    (hl : ∀ fl ∈ flds, fl.2.length = pts.length)
    (hfl : ∀ fl ∈ flds, ∀ y ∈ fl.2, IsFloat rnd y) (b : Body K 2) (hb : Fl.load rnd (Fl.quadOps rnd) pts cells flds = .ok b)
    (ops : List (Nat × Body.Call K 2)) (ho : Fl.HistOk rnd pts ops)
    (i : Nat) (name : String) (data : List K) (hi : flds[i]? = some (name, data)) (M : K) (hM : ∀ y ∈ data, |y| ≤ M)
    (cell : List Nat) (hce : cell ∈ cells) (a h : Fin 2 → K) (hah : CellAt quadUnit pts cell a h) (v : Fin 4 → K)
    (hv : CornerVals data cell v) (c : Fin 2 → K) (hc : InCell a h c) (hf : ∀ i, IsFloat rnd (c i)) :
    ∃ y, Fl.eval rnd (Fl.quadOps rnd) (Fl.evals rnd (Fl.quadOps rnd) b ops) i (.value c) = .ok y ∧ |y - bilinear a h v c| ≤ 64 * u * M := by
  obtain ⟨cell', a', h', g1, g2, g3, g4⟩ := C94_value_error R hu pts cells flds hm hl hfl b hb c ⟨⟨cell, hce, a, h, hah, hc⟩, hf⟩
  obtain ⟨v', y, k1, k2, k3⟩ := g4 ops ho i name data hi
  refine ⟨y, k2, ?_⟩
  rw [conforming_agree hcf hce g1 hah g2 hv k1 hc g3]
  apply k3
  intro j
  obtain ⟨q, _, hq⟩ := k1 j
  exact hM _ (List.mem_of_getElem? hq)

/-- **C94** Well outside the body every evaluation throws `domain_error`, after any history. -/
theorem C94_outside (R : Rounding rnd u) (hu : u ≤ 1 / 64) (pts : List (Fin 2 → K)) (cells : List (List Nat)) (flds : List (String × List K))
    (hm : FloatMesh quadUnit rnd u pts cells) (hl : ∀ fl ∈ flds, fl.2.length = pts.length) (b : Body K 2)
    (hb : Fl.load rnd (Fl.quadOps rnd) pts cells flds = .ok b) (ops : List (Nat × Body.Call K 2)) (ho : Fl.HistOk rnd pts ops) (i : Nat) (hi : i < flds.length)
    (op : Fl.Call K 2) (hc : FloatFar rnd pts op.coord) :
    Fl.eval rnd (Fl.quadOps rnd) (Fl.evals rnd (Fl.quadOps rnd) b ops) i op = .error .domainError := by
  exact Fl.elem_outside Fl.flQuad Fl.flQuadTotal R hu flds hm hl b hb ops ho i hi op hc

/-! ### C95: nodal values -/

namespace Fl

theorem unit_inj (j j0 : Fin 4) (h : ∀ i, (quadUnit j i : K) = quadUnit j0 i) : j = j0 := by
  have h0 := h 0
  have h1 := h 1
  fin_cases j <;> fin_cases j0 <;> simp [quadUnit] at h0 h1 ⊢

/-- At a corner the weights are exactly one and zero. -/
theorem quadF_corner (R : Rounding rnd u) (hu : u ≤ 1 / 64) {a h : Fin 2 → K} (hh : ∀ i, 0 < h i) (nd el : Nat) (j0 j : Fin 4) :
    quadF rnd (cornerPos a h (quadUnit j0)) (corner rnd (quadOps rnd) quadUnit nd el a h j).n (corner rnd (quadOps rnd) quadUnit nd el a h j).h (corner rnd (quadOps rnd) quadUnit nd el a h j).s =
      if j = j0 then 1 else 0 := by
  simp only [quadF, local1_corner flQuad R, dist_corner (flQuad (rnd := rnd))]
  have f0 : ∀ i, frac rnd 0 (h i) = 0 := fun i => by simp [frac, R.zero]
  have f1 : ∀ i, frac rnd (h i) (h i) = 1 := fun i => by
    rw [frac, div_self (R.pos (by linarith) (hh i)).ne', R.one]
  by_cases e : j = j0
  · subst e; simp [f0, R.one]
  · rw [if_neg (c := j = j0) e]
    obtain ⟨i, hi⟩ : ∃ i, (quadUnit j i : K) ≠ quadUnit j0 i := by
      by_contra hn
      exact e (unit_inj (K := K) j j0 fun i => by by_contra h; exact hn ⟨i, h⟩)
    have two : i = 0 ∨ i = 1 := by fin_cases i <;> simp
    rcases two with rfl | rfl
    · rw [if_neg (c := (quadUnit j 0 : K) = quadUnit j0 0) hi, f1]; simp [R.zero]
    · rw [if_neg (c := (quadUnit j 1 : K) = quadUnit j0 1) hi, f1]; simp [R.zero]

end Fl

/-- **C95** On a conforming mesh the value computed at a node of a cell is exactly the node's data value, whatever the rounding. -/
theorem C95_nodal_exact (R : Rounding rnd u) (hu : u ≤ 1 / 64) (pts : List (Fin 2 → K)) (cells : List (List Nat))
    (flds : List (String × List K)) (hm : FloatMesh quadUnit rnd u pts cells) (hcf : Conforming quadUnit pts cells)
    (hl : ∀ fl ∈ flds, fl.2.length = pts.length) (hfl : ∀ fl ∈ flds, ∀ y ∈ fl.2, IsFloat rnd y) (b : Body K 2)
    (hb : Fl.load rnd (Fl.quadOps rnd) pts cells flds = .ok b) (ops : List (Nat × Body.Call K 2)) (ho : Fl.HistOk rnd pts ops) (i : Nat) (name : String)
    (data : List K) (hi : flds[i]? = some (name, data)) (p : Nat) (cell : List Nat) (hce : cell ∈ cells)
    (hp : p ∈ cell) (x : Fin 2 → K) (hx : pts[p]? = some x) (y : K) (hy : data[p]? = some y) :
    Fl.eval rnd (Fl.quadOps rnd) (Fl.evals rnd (Fl.quadOps rnd) b ops) i (.value x) = .ok y := by
  obtain ⟨a, h, hah⟩ := hm.rect.rect cell hce
  have hdl : data.length = pts.length := hl _ (List.mem_of_getElem? hi)
  have corner_of : ∀ {cell : List Nat} {a h : Fin 2 → K}, CellAt quadUnit pts cell a h → ∀ {p : Nat}, p ∈ cell → pts[p]? = some x →
      ∃ j : Fin 4, cell[(j : Nat)]? = some p ∧ x = cornerPos a h (quadUnit j) := by
    intro cell a h hah p hp hx
    obtain ⟨j, hj, hje⟩ := List.mem_iff_getElem.mp hp
    have hj4 : j < 4 := by rw [← hah.1]; exact hj
    obtain ⟨k, e1, e2⟩ := hah.2.2 ⟨j, hj4⟩
    simp only [List.getElem?_eq_getElem hj, hje, Option.some.injEq] at e1
    subst e1
    rw [hx] at e2
    exact ⟨⟨j, hj4⟩, by simp [hj, hje], Option.some.inj e2⟩
  obtain ⟨j1, _, hj1⟩ := corner_of hah hp hx
  have hin : InCell a h x := by
    intro i
    have hh := (hah.2.1 i).le
    rw [hj1, cornerPos]
    rcases (Fl.flQuad (rnd := rnd)).sign j1 i with ⟨e, _⟩ | ⟨e, _⟩ <;> rw [e] <;> constructor <;> linarith
  have hf : ∀ i, IsFloat rnd (x i) := hm.float x (List.mem_of_getElem? hx)
  obtain ⟨cell', a', h', e, pr, g1, g2, g3, g4, g5⟩ := Fl.quad_eval R hu pts cells flds hm hl b hb x ⟨⟨cell, hce, a, h, hah, hin⟩, hf⟩
  obtain ⟨v, k1, k2, _⟩ := g5 ops ho i name data hi
  obtain ⟨p', p1, p2, p3⟩ := hcf cell hce cell' g1 a h a' h' hah g2 ⟨x, hin, g3⟩ x (by
    intro i
    have hh := (hah.2.1 i).le
    have b1 := g3 i
    rw [hj1, cornerPos] at b1 ⊢
    rcases (Fl.flQuad (rnd := rnd)).sign j1 i with ⟨e, _⟩ | ⟨e, _⟩ <;> rw [e] at b1 ⊢
    · left; rw [max_eq_left (by linarith [b1.1])]; ring
    · right; rw [min_eq_left (by linarith [b1.2])]; ring)
  -- the two nodes at `x` in `cell` are the same
  have hpp : data[p']? = some y := by
    have hv0 : CornerVals data cell (fun j : Fin 4 => data.getD (cell.getD j 0) 0) := by
      intro j
      obtain ⟨q, e1, e2⟩ := hah.2.2 j
      have hlt := (List.getElem?_eq_some_iff.mp e2).1
      rw [← hdl] at hlt
      exact ⟨q, e1, by simp [e1, hlt]⟩
    have hn : ∀ i, h i ≠ 0 := fun i => (hah.2.1 i).ne'
    rw [bilinear_node hah hv0 p1 p3 hn, ← bilinear_node hah hv0 hp hx hn, hy]
  obtain ⟨j0, hc0, hj0⟩ := corner_of g2 p2 p3
  have hv0 : v j0 = y := by
    obtain ⟨q, e1, e2⟩ := k1 j0
    rw [hc0] at e1
    obtain rfl := Option.some.inj e1
    rw [hpp] at e2
    exact (Option.some.inj e2).symm
  have hfy : IsFloat rnd y := hfl _ (List.mem_of_getElem? hi) _ (List.mem_of_getElem? hy)
  have hpj : pr j0 = true := by
    apply g4
    rintro ⟨i, hl⟩
    have := Fl.lost_dist R hf hl
    rw [hj0, Fl.dist_corner (Fl.flQuad (rnd := rnd)), if_pos rfl] at this
    exact absurd this (not_lt.mpr (R.nonneg (g2.2.1 i).le))
  rw [k2]
  congr 1
  have key := Fl.rsum_single R (fun j : Fin 4 => rnd ((if j = j0 then 1 else 0) * v j)) j0 (R.isFloat _)
    (fun j hj => by simp [hj, R.zero]) ((List.finRange 4).filter pr) ((List.nodup_finRange 4).filter _)
    (List.mem_filter.mpr ⟨List.mem_finRange _, hpj⟩)
  simp only [if_true, one_mul, hv0] at key
  rw [show rnd y = y from hfy] at key
  rw [← key]
  congr 2
  funext j
  rw [hj0, Fl.quadF_corner R hu g2.2.1]

/-! ### C96: derivatives -/

namespace Fl

/-- The exact gradient as a sum over corners. -/
theorem slope_wgt {a h : Fin 2 → K} (hh : ∀ i, 0 < h i) (v : Fin 4 → K) (c : Fin 2 → K) (di : Fin 2) :
    cellSlope a h v c di = ∑ j : Fin 4, (-quadSign (j : Nat) di * (1 - dist quadUnit a h c j (other di) / h (other di)) / h di) * v j := by
  have h0 := (hh 0).ne'
  have h1 := (hh 1).ne'
  have two : di = 0 ∨ di = 1 := by fin_cases di <;> simp
  rcases two with rfl | rfl
  · simp only [cellSlope, bilinear, dist, other, Fin.sum_univ_four, quadUnit, quadSign]
    simp
    field_simp
    ring
  · simp only [cellSlope, bilinear, dist, other, Fin.sum_univ_four, quadUnit, quadSign]
    simp
    field_simp
    ring

theorem twist_wgt {a h : Fin 2 → K} (hh : ∀ i, 0 < h i) (v : Fin 4 → K) (c : Fin 2 → K) :
    cellTwist a h v c = ∑ j : Fin 4, (quadSign (j : Nat) 0 * quadSign (j : Nat) 1 / (h 0 * h 1)) * v j := by
  have h0 := (hh 0).ne'
  have h1 := (hh 1).ne'
  simp only [cellTwist, cellSlope, bilinear, Fin.sum_univ_four, quadSign]
  simp
  field_simp
  ring

end Fl

/-- **C96** (part) The computed gradient component `di` is within 96 roundoffs of the slope of the bilinear interpolant of a cell
containing the point (relative to the largest corner value divided by the extent), provided the point is within the computed extent of that
cell in direction `di`. Without the proviso it is false (`C96_grad_violated`). -/
theorem C96_grad_error_partial (R : Rounding rnd u) (hu : u ≤ 1 / 64) (pts : List (Fin 2 → K)) (cells : List (List Nat))
    (flds : List (String × List K)) (hm : FloatMesh quadUnit rnd u pts cells) (hl : ∀ fl ∈ flds, fl.2.length = pts.length)
    (b : Body K 2) (hb : Fl.load rnd (Fl.quadOps rnd) pts cells flds = .ok b) (c : Fin 2 → K)
    (hc : FloatPoint quadUnit rnd pts cells c) :
    ∃ cell a h, cell ∈ cells ∧ CellAt quadUnit pts cell a h ∧ InCell a h c ∧
      ∀ (ops : List (Nat × Body.Call K 2)), Fl.HistOk rnd pts ops →
      ∀ (i : Nat) (name : String) (data : List K), flds[i]? = some (name, data) →
      ∃ v, CornerVals data cell v ∧ ∀ di, ∃ y, Fl.eval rnd (Fl.quadOps rnd) (Fl.evals rnd (Fl.quadOps rnd) b ops) i (.grad c di) = .ok y ∧
        (Reach rnd a h c di → ∀ M, (∀ j, |v j| ≤ M) → |y - cellSlope a h v c di| ≤ 96 * u * (M / h di)) := by
  have u0 := R.u_nonneg
  obtain ⟨cell, a, h, e, p, g1, g2, g3, g4, g5⟩ := Fl.quad_eval R hu pts cells flds hm hl b hb c hc
  refine ⟨cell, a, h, g1, g2, g3, fun ops ho i name data hi => ?_⟩
  obtain ⟨v, k1, _, k2, _⟩ := g5 ops ho i name data hi
  refine ⟨v, k1, fun di => ?_⟩
  choose W hW1 hW2 hW3 using fun j : Fin 4 => Fl.grad_weight R hu g2.2.1 g3 (cell.getD j 0) e j di
  refine ⟨_, k2 di W hW1, fun hr M hM => ?_⟩
  have M0 : 0 ≤ M := (abs_nonneg _).trans (hM 0)
  have hd := g2.2.1 di
  have g0 : 0 ≤ 1 / h di := by positivity
  have mg : 0 ≤ M * (1 / h di) := mul_nonneg M0 g0
  rw [Fl.slope_wgt g2.2.1]
  have tb := fun j => Fl.dterm_bounds R hu g0 (hW2 j) (hW3 j) (hM j)
  have := Fl.sum_close R (by push_cast; linarith) p (fun j => rnd (W j * v j)) (fun j : Fin 4 => (-quadSign (j : Nat) di *
    (1 - Fl.dist quadUnit a h c j (Fl.other di) / h (Fl.other di)) / h di) * v j) (A := 11 * (u * (M * (1 / h di)))) (by linarith)
    (fun j => (tb j).1) (fun j _ => (tb j).2) ?_
  · have e : M / h di = M * (1 / h di) := by ring
    rw [e]
    push_cast at this
    have : 0 ≤ u * (M * (1 / h di)) := mul_nonneg u0 mg
    linarith
  · intro j hj
    obtain ⟨i', hl'⟩ : Fl.Lost quadUnit rnd a h c j := by
      by_contra hn
      rw [g4 j hn] at hj
      cases hj
    have hne : i' ≠ di := by rintro rfl; exact Fl.not_lostAt hr j hl'
    have hio : i' = Fl.other di := by
      revert hne
      revert i' di
      intro di; fin_cases di <;> intros <;> rename_i i' _ _ <;> fin_cases i' <;> simp_all [Fl.other]
    subst hio
    have l := Fl.lost_fac R g2.2.1 hc.2 hl'
    have fb := Fl.fac_bounds g2.2.1 g3 j (Fl.other di)
    have hw : |(-quadSign (j : Nat) di * (1 - Fl.dist quadUnit a h c j (Fl.other di) / h (Fl.other di)) / h di : K)| ≤ u * (1 / h di) := by
      rw [mul_div_assoc, abs_mul, abs_neg, Fl.abs_sign (Fl.sign_abs j di), one_mul, abs_of_nonneg (div_nonneg fb.1 hd.le), div_eq_mul_one_div]
      exact mul_le_mul_of_nonneg_right l g0
    have := Fl.abs_wv hw (hM j)
    have : 0 ≤ u * (M * (1 / h di)) := mul_nonneg u0 mg
    linarith

/-- **C96** (part) The computed mixed second derivative, under the same proviso for both directions; the pure second derivatives are exactly
zero at every point. -/
theorem C96_hess_error_partial (R : Rounding rnd u) (hu : u ≤ 1 / 64) (pts : List (Fin 2 → K)) (cells : List (List Nat))
    (flds : List (String × List K)) (hm : FloatMesh quadUnit rnd u pts cells) (hl : ∀ fl ∈ flds, fl.2.length = pts.length)
    (b : Body K 2) (hb : Fl.load rnd (Fl.quadOps rnd) pts cells flds = .ok b) (c : Fin 2 → K)
    (hc : FloatPoint quadUnit rnd pts cells c) :
    ∃ cell a h, cell ∈ cells ∧ CellAt quadUnit pts cell a h ∧ InCell a h c ∧
      ∀ (ops : List (Nat × Body.Call K 2)), Fl.HistOk rnd pts ops →
      ∀ (i : Nat) (name : String) (data : List K), flds[i]? = some (name, data) →
      ∃ v, CornerVals data cell v ∧
        (∀ di, Fl.eval rnd (Fl.quadOps rnd) (Fl.evals rnd (Fl.quadOps rnd) b ops) i (.hess c di di) = .ok 0) ∧
        ∀ di dj, di ≠ dj → ∃ y, Fl.eval rnd (Fl.quadOps rnd) (Fl.evals rnd (Fl.quadOps rnd) b ops) i (.hess c di dj) = .ok y ∧
        ((∀ k, Reach rnd a h c k) → ∀ M, (∀ j, |v j| ≤ M) → |y - cellTwist a h v c| ≤ 96 * u * (M / (h 0 * h 1))) := by
  have u0 := R.u_nonneg
  obtain ⟨cell, a, h, e, p, g1, g2, g3, g4, g5⟩ := Fl.quad_eval R hu pts cells flds hm hl b hb c hc
  refine ⟨cell, a, h, g1, g2, g3, fun ops ho i name data hi => ?_⟩
  obtain ⟨v, k1, _, _, k2⟩ := g5 ops ho i name data hi
  refine ⟨v, k1, fun di => ?_, fun di dj hne => ?_⟩
  · rw [k2 di di (fun _ => 0) (by intro j; fin_cases di <;> rfl)]
    congr 1
    exact Fl.rsum_zeros R R.zero _ _ fun j _ => by simp [R.zero]
  choose W hW1 hW2 hW3 using fun j : Fin 4 => Fl.hess_weight R hu (a := a) g2.2.1 (cell.getD j 0) e j di dj hne
  refine ⟨_, k2 di dj W hW1, fun hr M hM => ?_⟩
  have M0 : 0 ≤ M := (abs_nonneg _).trans (hM 0)
  have h0 := g2.2.1 0
  have h1 := g2.2.1 1
  have g0 : 0 ≤ 1 / (h 0 * h 1) := by positivity
  have mg : 0 ≤ M * (1 / (h 0 * h 1)) := mul_nonneg M0 g0
  rw [Fl.twist_wgt g2.2.1]
  have tb := fun j => Fl.dterm_bounds R hu g0 (hW2 j) (hW3 j) (hM j)
  have := Fl.sum_close R (by push_cast; linarith) p (fun j => rnd (W j * v j)) (fun j : Fin 4 => (quadSign (j : Nat) 0 * quadSign (j : Nat) 1 / (h 0 * h 1)) * v j)
    (A := 11 * (u * (M * (1 / (h 0 * h 1))))) (by linarith) (fun j => (tb j).1) (fun j _ => (tb j).2) ?_
  · have e : M / (h 0 * h 1) = M * (1 / (h 0 * h 1)) := by ring
    rw [e]
    push_cast at this
    have : 0 ≤ u * (M * (1 / (h 0 * h 1))) := mul_nonneg u0 mg
    linarith
  · intro j hj
    rw [g4 j (by rintro ⟨i', hl'⟩; exact Fl.not_lostAt (hr i') j hl')] at hj
    cases hj

/-! ### Witnesses and non-vacuity, in binary64 -/

namespace FlDemo

/-- Round to nearest even, 53 binary digits. -/
abbrev r : ℚ → ℚ := nearestEven 53

/-- One cell, from -3 to 2.6 (as a double) in the first direction and from 0 to 1 in the second. -/
def pts : List (Fin 2 → ℚ) := [![-3, 0], ![r (26 / 10), 0], ![r (26 / 10), 1], ![-3, 1]]
def cells : List (List Nat) := [[0, 1, 2, 3]]
def flds : List (String × List ℚ) := [("one", [1, 1, 1, 1]), ("w", [1, 1, 0, 0])]

theorem cellAt : CellAt quadUnit pts [0, 1, 2, 3] ![-3, 0] ![r (26 / 10) + 3, 1] := by
  refine ⟨rfl, by decide +kernel, ?_⟩
  intro j
  fin_cases j
  · exact ⟨0, rfl, by decide +kernel⟩
  · exact ⟨1, rfl, by decide +kernel⟩
  · exact ⟨2, rfl, by decide +kernel⟩
  · exact ⟨3, rfl, by decide +kernel⟩

theorem only (cell : List Nat) (hc : cell ∈ cells) (a h : Fin 2 → ℚ) (hah : CellAt quadUnit pts cell a h) :
    a = ![-3, 0] ∧ h = ![r (26 / 10) + 3, 1] := by
  simp only [cells, List.mem_singleton] at hc
  subst hc
  exact Mesh.cellAt_unique quadLaw hah cellAt

theorem mesh : FloatMesh quadUnit r ((2 : ℚ) ^ (-53 : Int)) pts cells where
  rect := ⟨by decide, by
    intro cell hc
    simp only [cells, List.mem_singleton] at hc
    subst hc
    exact ⟨_, _, cellAt⟩, by decide +kernel⟩
  float := by unfold IsFloat; decide +kernel
  resolved := by
    intro i lo hi h1 h2
    fin_cases i
    · have e1 : IsLow pts 0 (-3) := by unfold IsLow; decide +kernel
      have e2 : IsHigh pts 0 (r (26 / 10)) := by unfold IsHigh; decide +kernel
      rw [Mesh.isLow_unique h1 e1, Mesh.isHigh_unique h2 e2]
      decide +kernel
    · have e1 : IsLow pts 1 0 := by unfold IsLow; decide +kernel
      have e2 : IsHigh pts 1 1 := by unfold IsHigh; decide +kernel
      rw [Mesh.isLow_unique h1 e1, Mesh.isHigh_unique h2 e2]
      decide +kernel

theorem rounding : Rounding r ((2 : ℚ) ^ (-53 : Int)) := nearestEven_rounding (by decide)

theorem point : FloatPoint quadUnit r pts cells ![r (26 / 10), 1 / 2] :=
  ⟨⟨_, List.mem_singleton.mpr rfl, _, _, cellAt, by unfold InCell; decide +kernel⟩, by unfold IsFloat; decide +kernel⟩

/-- The demo mesh of two cells in binary64. -/
theorem mesh2 : FloatMesh quadUnit r ((2 : ℚ) ^ (-53 : Int)) Demo.pts Demo.cells where
  rect := Demo.rect
  float := by unfold IsFloat; decide +kernel
  resolved := by
    intro i lo hi h1 h2
    fin_cases i
    · have e1 : IsLow Demo.pts 0 0 := by unfold IsLow; decide +kernel
      have e2 : IsHigh Demo.pts 0 3 := by unfold IsHigh; decide +kernel
      rw [Mesh.isLow_unique h1 e1, Mesh.isHigh_unique h2 e2]
      decide +kernel
    · have e1 : IsLow Demo.pts 1 0 := by unfold IsLow; decide +kernel
      have e2 : IsHigh Demo.pts 1 1 := by unfold IsHigh; decide +kernel
      rw [Mesh.isLow_unique h1 e1, Mesh.isHigh_unique h2 e2]
      decide +kernel

end FlDemo

open FlDemo in
/-- **C96** is false at the edges of cells: in binary64, for one cell from -3 to 2.6, at the point (2.6, 1/2) of the body the computed gradient
of the *constant* field 1 is about 0.1786 (its first-direction slope is 0). The computed extent 5.6 added to -3 falls short of 2.6, so the
lower corners are not in the point's bin. -/
theorem C96_grad_violated :
    FloatMesh quadUnit r ((2 : ℚ) ^ (-53 : Int)) FlDemo.pts FlDemo.cells ∧ FloatPoint quadUnit r FlDemo.pts FlDemo.cells ![r (26 / 10), 1 / 2] ∧
    (∀ cell ∈ FlDemo.cells, ∀ a h, CellAt quadUnit FlDemo.pts cell a h → cellSlope a h (fun _ => 1) ![r (26 / 10), 1 / 2] 0 = 0) ∧
    ∃ b y, Fl.load r (Fl.quadOps r) FlDemo.pts FlDemo.cells FlDemo.flds = .ok b ∧
      Fl.eval r (Fl.quadOps r) b 0 (.grad ![r (26 / 10), 1 / 2] 0) = .ok y ∧ 17 / 100 < y := by
  refine ⟨mesh, point, ?_, ?_⟩
  · intro cell hc a h hah
    obtain ⟨rfl, rfl⟩ := only cell hc a h hah
    decide +kernel
  · obtain ⟨b, hb⟩ := C94_loads rounding (by decide +kernel) FlDemo.pts FlDemo.cells FlDemo.flds mesh (by decide)
    refine ⟨b, 6433713753386423 / 36028797018963968, hb, ?_, by decide +kernel⟩
    have : (Fl.load r (Fl.quadOps r) FlDemo.pts FlDemo.cells FlDemo.flds >>= fun b => Fl.eval r (Fl.quadOps r) b 0 (.grad ![r (26 / 10), 1 / 2] 0)) =
        .ok (6433713753386423 / 36028797018963968) := by decide +kernel
    rw [hb] at this
    exact this

open FlDemo in
/-- **C96** The same for the mixed second derivative: it is 0 for a field that depends on the second coordinate only, and computed as about -0.1786. -/
theorem C96_hess_violated :
    (∀ cell ∈ FlDemo.cells, ∀ a h, CellAt quadUnit FlDemo.pts cell a h → cellTwist a h ![1, 1, 0, 0] ![r (26 / 10), 1 / 2] = 0) ∧
    ∃ b y, Fl.load r (Fl.quadOps r) FlDemo.pts FlDemo.cells FlDemo.flds = .ok b ∧
      Fl.eval r (Fl.quadOps r) b 1 (.hess ![r (26 / 10), 1 / 2] 0 1) = .ok y ∧ y < -17 / 100 := by
  refine ⟨?_, ?_⟩
  · intro cell hc a h hah
    obtain ⟨rfl, rfl⟩ := only cell hc a h hah
    decide +kernel
  · obtain ⟨b, hb⟩ := C94_loads rounding (by decide +kernel) FlDemo.pts FlDemo.cells FlDemo.flds mesh (by decide)
    refine ⟨b, -6433713753386423 / 36028797018963968, hb, ?_, by decide +kernel⟩
    have : (Fl.load r (Fl.quadOps r) FlDemo.pts FlDemo.cells FlDemo.flds >>= fun b => Fl.eval r (Fl.quadOps r) b 1 (.hess ![r (26 / 10), 1 / 2] 0 1)) =
        .ok (-6433713753386423 / 36028797018963968) := by decide +kernel
    rw [hb] at this
    exact this

open FlDemo in
/-- Hypotheses of the theorems above: two cells side by side in binary64, a history with a point that throws, and the point (0.1, 0.7), within
reach of its cell. -/
example :
    Rounding r ((2 : ℚ) ^ (-53 : Int)) ∧ (2 : ℚ) ^ (-53 : Int) ≤ 1 / 64 ∧ FloatMesh quadUnit r ((2 : ℚ) ^ (-53 : Int)) Demo.pts Demo.cells ∧
    Conforming quadUnit Demo.pts Demo.cells ∧ (∀ fl ∈ Demo.flds, fl.2.length = Demo.pts.length) ∧
    (∀ fl ∈ Demo.flds, ∀ y ∈ fl.2, IsFloat r y) ∧ FloatPoint quadUnit r Demo.pts Demo.cells ![r (1 / 10), r (7 / 10)] ∧
    Fl.HistOk r Demo.pts [(0, .value ![r (1 / 10), 1]), (1, .grad ![1, 1] 1), (0, .value ![-7, 0])] ∧
    (∀ i, Reach r ![0, 0] ![1, 1] ![r (1 / 10), r (7 / 10)] i) ∧ Snug quadUnit r Demo.pts Demo.cells := by
  refine ⟨rounding, by decide +kernel, mesh2, Demo.conforming, Demo.lens, by unfold IsFloat; decide +kernel,
    ⟨⟨_, List.mem_cons_self, _, _, Demo.cell0, by unfold InCell; decide +kernel⟩, by unfold IsFloat; decide +kernel⟩, ?_,
    by unfold Reach; decide +kernel, ?_⟩
  · have l0 : IsLow Demo.pts 0 0 := by unfold IsLow; decide +kernel
    have h0 : IsHigh Demo.pts 0 3 := by unfold IsHigh; decide +kernel
    have l1 : IsLow Demo.pts 1 0 := by unfold IsLow; decide +kernel
    have h1 : IsHigh Demo.pts 1 1 := by unfold IsHigh; decide +kernel
    have box : ∀ c : Fin 2 → ℚ, (∀ i, r (c i) = c i) → (0 ≤ c 0 ∧ c 0 ≤ 3) → (0 ≤ c 1 ∧ c 1 ≤ 1) → FloatInBox r Demo.pts c := by
      intro c hc b0 b1 i
      refine ⟨hc i, fun lo hi hl hh => ?_⟩
      fin_cases i
      · rw [Mesh.isLow_unique hl l0, Mesh.isHigh_unique hh h0]; exact b0
      · rw [Mesh.isLow_unique hl l1, Mesh.isHigh_unique hh h1]; exact b1
    intro op hop
    simp only [List.mem_cons, List.not_mem_nil, or_false] at hop
    rcases hop with rfl | rfl | rfl
    · exact Or.inl (box _ (by decide +kernel) (by decide +kernel) (by decide +kernel))
    · exact Or.inl (box _ (by decide +kernel) (by decide +kernel) (by decide +kernel))
    · exact Or.inr ⟨0, ⟨0, 3, l0, h0, Or.inl (by decide +kernel)⟩, fun j hj => absurd hj (Nat.not_lt_zero _)⟩
  · intro cell hc a h hah
    simp only [Demo.cells, List.mem_cons, List.not_mem_nil, or_false] at hc
    rcases hc with rfl | rfl
    · obtain ⟨rfl, rfl⟩ := Mesh.cellAt_unique quadLaw hah Demo.cell0
      decide +kernel
    · obtain ⟨rfl, rfl⟩ := Mesh.cellAt_unique quadLaw hah Demo.cell1
      decide +kernel

end Verif
