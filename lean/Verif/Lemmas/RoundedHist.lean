import Verif.Lemmas.RoundedElem

/-! Helper lemmas: histories of evaluations in floating-point arithmetic, for both element classes. -/

namespace Verif
open Spec
variable {K : Type} {d n : Nat} [Field K] [LinearOrder K] [FloorRing K] [IsStrictOrderedRing K] {rnd : K → K} {u : K}

/-- A history of evaluations at floating-point coordinates in the bounding box, or well outside (where they throw). -/
def Fl.HistOk (rnd : K → K) (pts : List (Fin d → K)) (ops : List (Nat × Body.Call K d)) : Prop :=
  ∀ op ∈ ops, FloatInBox rnd pts op.2.coord ∨ FloatFar rnd pts op.2.coord

namespace Fl
variable {E : ElemOps K d} {unit sgn : Fin n → Fin d → K} {tested : Fin d → Prop}
variable {pts : List (Fin d → K)} {cells : List (List Nat)}

theorem HistOk.grid {lo hi : Fin d → K} {qs : List (Interp K d)} {m : Mesh K d}
    (hb : Built rnd E unit pts cells lo hi qs m) {ops : List (Nat × Body.Call K d)} (ho : HistOk rnd pts ops) :
    ∀ op ∈ ops, InG rnd pts lo hi op.2.coord ∨ OutG rnd pts lo hi op.2.coord := by
  intro op hop
  rcases ho op hop with h | h
  · exact Or.inl (hb.inside _ (fun i => (h i).1) fun i => (h i).2 _ _ (hb.grid.low i) (hb.grid.high i))
  · exact Or.inr (hb.far _ h)

/-- What the three members compute at a floating-point point of the body. -/
theorem elem_eval (F : FlElem rnd E unit sgn tested) (T : PField.ElemTotal E) (R : Rounding rnd u) (hu : u ≤ 1 / 64)
    (flds : List (String × List K)) (hm : FloatMesh unit rnd u pts cells) (hl : ∀ fl ∈ flds, fl.2.length = pts.length) (b : Body K d)
    (hb : load rnd E pts cells flds = .ok b) (c : Fin d → K) (hc : FloatPoint unit rnd pts cells c) :
    ∃ cell a h e lo hi, ∃ p : Fin n → Bool, cell ∈ cells ∧ CellAt unit pts cell a h ∧ (∀ i, tested i → a i ≤ c i ∧ c i ≤ a i + h i) ∧
      Mesh.GridOf pts lo hi ∧
      (∃ j : Fin n, touches rnd (List.ofFn (gMin rnd pts lo hi)) (List.ofFn (gIncr rnd pts lo hi)) (binAt rnd pts lo hi c)
        (corner rnd E unit (cell.getD j 0) e a h j) = true) ∧
      (InCell a h c → ∀ j, ¬ Lost unit rnd a h c j → p j = true) ∧
      ∀ (ops : List (Nat × Body.Call K d)), HistOk rnd pts ops →
      ∀ (i : Nat) (name : String) (data : List K), flds[i]? = some (name, data) →
      ∃ v : Fin n → K, CornerVals data cell v ∧
        (∀ W : Fin n → K, (∀ j : Fin n, E.value (corner rnd E unit (cell.getD j 0) e a h j) c = .ok (W j)) →
          eval rnd E (evals rnd E b ops) i (.value c) = .ok (rsum rnd 0 (((List.finRange n).filter p).map fun j => rnd (W j * v j)))) ∧
        (∀ (di : Fin d) (W : Fin n → K), (∀ j : Fin n, E.grad (corner rnd E unit (cell.getD j 0) e a h j) c di = .ok (W j)) →
          eval rnd E (evals rnd E b ops) i (.grad c di) = .ok (rsum rnd 0 (((List.finRange n).filter p).map fun j => rnd (W j * v j)))) ∧
        (∀ (di dj : Fin d) (W : Fin n → K), (∀ j : Fin n, E.hess (corner rnd E unit (cell.getD j 0) e a h j) c di dj = .ok (W j)) →
          eval rnd E (evals rnd E b ops) i (.hess c di dj) = .ok (rsum rnd 0 (((List.finRange n).filter p).map fun j => rnd (W j * v j)))) := by
  obtain ⟨b', lo, hi, qs, e1, e2⟩ := load_ok F R hu hm hl
  rw [hb] at e1
  obtain rfl := Except.ok.inj e1
  obtain ⟨e, cell, a, h, g1, g2, g3, g3', g4, g5⟩ := e2.mesh.eval_covered F R hu hc
  refine ⟨cell, a, h, e, lo, hi, fun j : Fin n => touches rnd (List.ofFn (gMin rnd pts lo hi)) (List.ofFn (gIncr rnd pts lo hi))
    (binAt rnd pts lo hi c) (corner rnd E unit (cell.getD j 0) e a h j), List.mem_of_getElem? g1, g2, g3, e2.mesh.grid, g3',
    fun hic j hj => (List.mem_filter.mp (g4 hic j hj)).2, ?_⟩
  intro ops ho i name data hi'
  have hd : data.length = pts.length := hl _ (List.mem_of_getElem? hi')
  obtain ⟨k1, k2⟩ := g5 data hd
  refine ⟨_, k1, ?_⟩
  have hB := evals_ok F T R ops (ho.grid e2.mesh) e2
  obtain ⟨hlt, hfe⟩ := List.getElem?_eq_some_iff.mp hi'
  have hlen := hB.fields.length_eq
  have hrel := (List.forall₂_iff_get.mp hB.fields).2 i (by omega) hlt
  simp only [List.get_eq_getElem, hfe] at hrel
  obtain ⟨r1, r2, r3, r4⟩ := hrel
  have hf : (evals rnd E b ops).fields[i]? = some (evals rnd E b ops).fields[i] := List.getElem?_eq_getElem (by omega)
  generalize (evals rnd E b ops).fields[i] = f at *
  have hz : IsFloat rnd f.zero := by rw [r3]; exact R.zero
  refine ⟨fun W hW => ?_, fun di W hW => ?_, fun di dj W hW => ?_⟩
  · obtain ⟨g, hg⟩ := T.value c
    obtain ⟨s, m', b', h1, h2, h3, h4⟩ := k2 _ f.buf hB.mesh r4.buf g f.zero hz
    rw [r3] at h4
    have hgW : ∀ j : Fin n, g (corner rnd E unit (cell.getD j 0) e a h j) = W j := fun j =>
      Except.ok.inj ((congrFun hg (corner rnd E unit (cell.getD j 0) e a h j)).symm.trans (hW j))
    simp only [hgW] at h4
    simp only [eval, hf, queryField, value, basisFunctions, hg, h1, r2, r3, h4]
    rfl
  · obtain ⟨g, hg⟩ := T.grad c di
    obtain ⟨s, m', b', h1, h2, h3, h4⟩ := k2 _ f.buf hB.mesh r4.buf g f.zero hz
    rw [r3] at h4
    have hgW : ∀ j : Fin n, g (corner rnd E unit (cell.getD j 0) e a h j) = W j := fun j =>
      Except.ok.inj ((congrFun hg (corner rnd E unit (cell.getD j 0) e a h j)).symm.trans (hW j))
    simp only [hgW] at h4
    have hs := fun v => vset_nat f.grad di v (by rw [r4.grad_len]; exact di.isLt)
    simp only [eval, hf, queryField, gradAt, gradBasisFunctions, hg, h1, r2, r3, h4, hs]
    rfl
  · obtain ⟨g, hg⟩ := T.hess c di dj
    obtain ⟨s, m', b', h1, h2, h3, h4⟩ := k2 _ f.buf hB.mesh r4.buf g f.zero hz
    rw [r3] at h4
    have hgW : ∀ j : Fin n, g (corner rnd E unit (cell.getD j 0) e a h j) = W j := fun j =>
      Except.ok.inj ((congrFun hg (corner rnd E unit (cell.getD j 0) e a h j)).symm.trans (hW j))
    simp only [hgW] at h4
    have hlt' : (di : Nat) < f.hess.length := by rw [r4.hess_len]; exact di.isLt
    have hr := vget_nat f.hess di hlt'
    have hrl : f.hess[(di : Nat)].length = d := r4.row_len _ (List.getElem_mem _)
    have hs := fun v => vset_nat f.hess[(di : Nat)] dj v (by rw [hrl]; exact dj.isLt)
    have hs2 := fun v => vset_nat f.hess di (f.hess[(di : Nat)].set dj v) hlt'
    simp only [eval, hf, queryField, hessAt, hessBasisFunctions, hg, h1, r2, r3, h4, hr, hs, hs2, ok_bind]
    rfl

theorem elem_outside (F : FlElem rnd E unit sgn tested) (T : PField.ElemTotal E) (R : Rounding rnd u) (hu : u ≤ 1 / 64)
    (flds : List (String × List K)) (hm : FloatMesh unit rnd u pts cells) (hl : ∀ fl ∈ flds, fl.2.length = pts.length) (b : Body K d)
    (hb : load rnd E pts cells flds = .ok b) (ops : List (Nat × Body.Call K d)) (ho : HistOk rnd pts ops) (i : Nat) (hi : i < flds.length)
    (op : Call K d) (hc : FloatFar rnd pts op.coord) : eval rnd E (evals rnd E b ops) i op = .error .domainError := by
  obtain ⟨b', lo, hi', qs, e1, e2⟩ := load_ok F R hu hm hl
  rw [hb] at e1
  obtain rfl := Except.ok.inj e1
  have hB := evals_ok F T R ops (ho.grid e2.mesh) e2
  have hlen := hB.fields.length_eq
  have hrel := (List.forall₂_iff_get.mp hB.fields).2 i (by omega) hi
  have hf : (evals rnd E b ops).fields[i]? = some (evals rnd E b ops).fields[i] := List.getElem?_eq_getElem (by omega)
  simp only [eval, hf]
  exact queryField_out R hB.mesh hrel.2.2.2 op (hB.mesh.far _ hc)

theorem rsum_zeros (R : Rounding rnd u) {z : K} (hz : IsFloat rnd z) (t : Fin n → K) (l : List (Fin n)) (h : ∀ j ∈ l, t j = 0) :
    rsum rnd z (l.map t) = z := by
  induction l with
  | nil => rfl
  | cons j l ih =>
    have e : rsum rnd z ((j :: l).map t) = rsum rnd (rnd (z + t j)) (l.map t) := rfl
    rw [e, h j (by simp), add_zero, show rnd z = z from hz]
    exact ih fun k hk => h k (by simp [hk])

theorem rsum_single (R : Rounding rnd u) (t : Fin n → K) (j0 : Fin n) (hV : IsFloat rnd (t j0)) (h0 : ∀ j, j ≠ j0 → t j = 0)
    (l : List (Fin n)) (hn : l.Nodup) (hm : j0 ∈ l) : rsum rnd 0 (l.map t) = t j0 := by
  induction l with
  | nil => cases hm
  | cons j l ih =>
    have e : rsum rnd 0 ((j :: l).map t) = rsum rnd (rnd (0 + t j)) (l.map t) := rfl
    rw [List.nodup_cons] at hn
    by_cases hj : j = j0
    · subst hj
      rw [e, zero_add, show rnd (t j) = t j from hV]
      exact rsum_zeros R hV t l fun k hk => h0 k (by rintro rfl; exact hn.1 hk)
    · rw [e, h0 j hj, add_zero, R.zero]
      exact ih hn.2 (by rcases List.mem_cons.mp hm with h | h; exact absurd h.symm hj; exact h)

theorem dist_corner (F : FlElem rnd E unit sgn tested) (a h : Fin d → K) (j0 j : Fin n) (i : Fin d) :
    dist unit a h (cornerPos a h (unit j0)) j i = if unit j i = unit j0 i then 0 else h i := by
  unfold dist cornerPos
  rcases F.sign j i with ⟨e1, _⟩ | ⟨e1, _⟩ <;> rcases F.sign j0 i with ⟨e2, _⟩ | ⟨e2, _⟩ <;> rw [e1, e2] <;> simp

theorem not_lostAt {a h c : Fin d → K} {i : Fin d} (hr : Reach rnd a h c i) (j : Fin n) : ¬ LostAt unit rnd a h c j i := by
  rintro (⟨_, h⟩ | ⟨_, h⟩)
  · exact absurd hr.1 (not_le.mpr h)
  · exact absurd hr.2 (not_le.mpr h)

end Fl

/-- A cell of a snug mesh is within reach of all its points. -/
theorem reach_of_snug {unit : Fin n → Fin d → K} {pts : List (Fin d → K)} {cells : List (List Nat)} (hs : Snug unit rnd pts cells)
    {cell : List Nat} (hce : cell ∈ cells) {a h : Fin d → K} (hah : CellAt unit pts cell a h) {c : Fin d → K} (hc : InCell a h c)
    (i : Fin d) : Reach rnd a h c i :=
  ⟨(hc i).2.trans (hs cell hce a h hah i).1, (hs cell hce a h hah i).2.trans (hc i).1⟩

/-- A point that keeps a relative distance of one roundoff from both sides of the cell is within reach. -/
theorem reach_of_interior (R : Rounding rnd u) {a h c : Fin d → K} {i : Fin d} (hh : 0 < h i) (hf : IsFloat rnd (c i))
    (h1 : a i + u * h i ≤ c i) (h2 : c i ≤ a i + h i - u * h i) : Reach rnd a h c i := by
  have l := R.lower hh.le
  constructor
  · apply R.ge_of hf
    nlinarith
  · apply R.le_of hf
    nlinarith

end Verif
