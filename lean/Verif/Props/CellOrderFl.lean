import Verif.Props.CellOrder
import Verif.Props.FieldLocal

/-!
# C152 in floating-point arithmetic
-/

namespace Verif
open Spec Bin Mesh PField Body
variable {K : Type} [Field K] [LinearOrder K] [FloorRing K] [IsStrictOrderedRing K]

namespace Fl
variable {d n : Nat} {rnd : K → K} {u : K} {E : ElemOps K d} {unit sgn : Fin n → Fin d → K} {tested : Fin d → Prop}
variable {pts : List (Fin d → K)} {cells : List (List Nat)}

/-- `elem_eval`, with the corners that count. -/
theorem elem_eval_bins (F : FlElem rnd E unit sgn tested) (T : PField.ElemTotal E) (R : Rounding rnd u) (hu : u ≤ 1 / 64)
    (flds : List (String × List K)) (hm : FloatMesh unit rnd u pts cells) (hl : ∀ fl ∈ flds, fl.2.length = pts.length) (b : Body K d)
    (hb : load rnd E pts cells flds = .ok b) (c : Fin d → K) (hc : FloatPoint unit rnd pts cells c) :
    ∃ cell a h e lo hi, ∃ p : Fin n → Bool, cell ∈ cells ∧ CellAt unit pts cell a h ∧ (∀ i, tested i → a i ≤ c i ∧ c i ≤ a i + h i) ∧
      Mesh.GridOf pts lo hi ∧
      (∃ j : Fin n, touches rnd (List.ofFn (gMin rnd pts lo hi)) (List.ofFn (gIncr rnd pts lo hi)) (binAt rnd pts lo hi c)
        (corner rnd E unit (cell.getD j 0) e a h j) = true) ∧
      (p = fun j : Fin n => touches rnd (List.ofFn (gMin rnd pts lo hi)) (List.ofFn (gIncr rnd pts lo hi)) (binAt rnd pts lo hi c)
        (corner rnd E unit (cell.getD j 0) e a h j)) ∧
      ∀ (ops : List (Nat × Body.Call K d)), HistOk rnd pts ops →
      ∀ (i : Nat) (name : String) (data : List K), flds[i]? = some (name, data) →
      ∃ v : Fin n → K, CornerVals data cell v ∧
        (∀ W : Fin n → K, (∀ j : Fin n, E.value (corner rnd E unit (cell.getD j 0) e a h j) c = .ok (W j)) →
          eval rnd E (evals rnd E b ops) i (.value c) = .ok (rsum rnd 0 (((List.finRange n).filter p).map fun j => rnd (W j * v j)))) ∧
        (∀ (di : Fin d) (W : Fin n → K), (∀ j : Fin n, E.grad (corner rnd E unit (cell.getD j 0) e a h j) c di = .ok (W j)) →
          eval rnd E (evals rnd E b ops) i (.grad c di) = .ok (rsum rnd 0 (((List.finRange n).filter p).map fun j => rnd (W j * v j)))) ∧
        (∀ (di dj : Fin d) (W : Fin n → K), (∀ j : Fin n, E.hess (corner rnd E unit (cell.getD j 0) e a h j) c di dj = .ok (W j)) →
          eval rnd E (evals rnd E b ops) i (.hess c di dj) = .ok (rsum rnd 0 (((List.finRange n).filter p).map fun j => rnd (W j * v j)))) := by
  obtain ⟨b', lo, hi, qs, e1, e2⟩ := load_ok F R hu hm hl
  rw [hb] at e1
  obtain rfl := Except.ok.inj e1
  obtain ⟨e, cell, a, h, g1, g2, g3, g3', g4, g5⟩ := e2.mesh.eval_covered F R hu hc
  refine ⟨cell, a, h, e, lo, hi, fun j : Fin n => touches rnd (List.ofFn (gMin rnd pts lo hi)) (List.ofFn (gIncr rnd pts lo hi))
    (binAt rnd pts lo hi c) (corner rnd E unit (cell.getD j 0) e a h j), List.mem_of_getElem? g1, g2, g3, e2.mesh.grid, g3',
    rfl, ?_⟩
  intro ops ho i name data hi'
  have hd : data.length = pts.length := hl _ (List.mem_of_getElem? hi')
  obtain ⟨k1, k2⟩ := g5 data hd
  refine ⟨_, k1, ?_⟩
  have hB := evals_ok F T R ops (ho.grid e2.mesh) e2
  obtain ⟨hlt, hfe⟩ := List.getElem?_eq_some_iff.mp hi'
  have hlen := hB.fields.length_eq
  have hrel := (List.forall₂_iff_get.mp hB.fields).2 i (by omega) hlt
  simp only [List.get_eq_getElem, hfe] at hrel
  obtain ⟨r1, r2, r3, r4⟩ := hrel
  have hf : (evals rnd E b ops).fields[i]? = some (evals rnd E b ops).fields[i] := List.getElem?_eq_getElem (by omega)
  generalize (evals rnd E b ops).fields[i] = f at *
  have hz : IsFloat rnd f.zero := by rw [r3]; exact R.zero
  refine ⟨fun W hW => ?_, fun di W hW => ?_, fun di dj W hW => ?_⟩
  · obtain ⟨g, hg⟩ := T.value c
    obtain ⟨s, m', b', h1, h2, h3, h4⟩ := k2 _ f.buf hB.mesh r4.buf g f.zero hz
    rw [r3] at h4
    have hgW : ∀ j : Fin n, g (corner rnd E unit (cell.getD j 0) e a h j) = W j := fun j =>
      Except.ok.inj ((congrFun hg (corner rnd E unit (cell.getD j 0) e a h j)).symm.trans (hW j))
    simp only [hgW] at h4
    simp only [eval, hf, queryField, value, basisFunctions, hg, h1, r2, r3, h4]
    rfl
  · obtain ⟨g, hg⟩ := T.grad c di
    obtain ⟨s, m', b', h1, h2, h3, h4⟩ := k2 _ f.buf hB.mesh r4.buf g f.zero hz
    rw [r3] at h4
    have hgW : ∀ j : Fin n, g (corner rnd E unit (cell.getD j 0) e a h j) = W j := fun j =>
      Except.ok.inj ((congrFun hg (corner rnd E unit (cell.getD j 0) e a h j)).symm.trans (hW j))
    simp only [hgW] at h4
    have hs := fun v => vset_nat f.grad di v (by rw [r4.grad_len]; exact di.isLt)
    simp only [eval, hf, queryField, gradAt, gradBasisFunctions, hg, h1, r2, r3, h4, hs]
    rfl
  · obtain ⟨g, hg⟩ := T.hess c di dj
    obtain ⟨s, m', b', h1, h2, h3, h4⟩ := k2 _ f.buf hB.mesh r4.buf g f.zero hz
    rw [r3] at h4
    have hgW : ∀ j : Fin n, g (corner rnd E unit (cell.getD j 0) e a h j) = W j := fun j =>
      Except.ok.inj ((congrFun hg (corner rnd E unit (cell.getD j 0) e a h j)).symm.trans (hW j))
    simp only [hgW] at h4
    have hlt' : (di : Nat) < f.hess.length := by rw [r4.hess_len]; exact di.isLt
    have hr := vget_nat f.hess di hlt'
    have hrl : f.hess[(di : Nat)].length = d := r4.row_len _ (List.getElem_mem _)
    have hs := fun v => vset_nat f.hess[(di : Nat)] dj v (by rw [hrl]; exact dj.isLt)
    have hs2 := fun v => vset_nat f.hess di (f.hess[(di : Nat)].set dj v) hlt'
    simp only [eval, hf, queryField, hessAt, hessBasisFunctions, hg, h1, r2, r3, h4, hr, hs, hs2, ok_bind]
    rfl

/-- The members of an element class do not use the number of the element. -/
structure Numberless (E : ElemOps K d) : Prop where
  value : ∀ nd e e' x h s c, E.value ⟨nd, e, x, h, s⟩ c = E.value ⟨nd, e', x, h, s⟩ c
  grad : ∀ nd e e' x h s c di, E.grad ⟨nd, e, x, h, s⟩ c di = E.grad ⟨nd, e', x, h, s⟩ c di
  hess : ∀ nd e e' x h s c di dj, E.hess ⟨nd, e, x, h, s⟩ c di dj = E.hess ⟨nd, e', x, h, s⟩ c di dj

theorem order_eval (F : FlElem rnd E unit sgn tested) (T : PField.ElemTotal E) (N : Numberless E)
    (R : Rounding rnd u) (hu : u ≤ 1 / 64) {cells' : List (List Nat)} (hsame : ∀ cell, cell ∈ cells ↔ cell ∈ cells') (flds flds' : List (String × List K))
    (hm : FloatMesh unit rnd u pts cells) (hm' : FloatMesh unit rnd u pts cells')
    (hl : ∀ fl ∈ flds, fl.2.length = pts.length) (hl' : ∀ fl ∈ flds', fl.2.length = pts.length) (b b' : Body K d)
    (hb : load rnd E pts cells flds = .ok b) (hb' : load rnd E pts cells' flds' = .ok b')
    (ops ops' : List (Nat × Body.Call K d)) (ho : HistOk rnd pts ops) (ho' : HistOk rnd pts ops') (i i' : Nat) (name name' : String) (data : List K)
    (hi : flds[i]? = some (name, data)) (hi' : flds'[i']? = some (name', data)) (c : Fin d → K) (hc : FloatPoint unit rnd pts cells c)
    (hone : ∀ cell ∈ cells, ∀ cell2 ∈ cells, ∀ a h a2 h2, CellAt unit pts cell a h → CellAt unit pts cell2 a2 h2 →
      (∀ i, tested i → a i ≤ c i ∧ c i ≤ a i + h i) → (∀ i, tested i → a2 i ≤ c i ∧ c i ≤ a2 i + h2 i) →
      (∀ lo hi, Mesh.GridOf pts lo hi →
        (∃ e, ∃ j : Fin n, touches rnd (List.ofFn (gMin rnd pts lo hi)) (List.ofFn (gIncr rnd pts lo hi)) (binAt rnd pts lo hi c)
          (corner rnd E unit (cell.getD j 0) e a h j) = true) ∧
        (∃ e, ∃ j : Fin n, touches rnd (List.ofFn (gMin rnd pts lo hi)) (List.ofFn (gIncr rnd pts lo hi)) (binAt rnd pts lo hi c)
          (corner rnd E unit (cell2.getD j 0) e a2 h2 j) = true)) → cell = cell2) (op : Call K d) (hop : op.coord = c) :
    eval rnd E (evals rnd E b ops) i op = eval rnd E (evals rnd E b' ops') i' op := by
  have hc' : FloatPoint unit rnd pts cells' c := by
    obtain ⟨⟨cell, hce, r⟩, s⟩ := hc
    exact ⟨⟨cell, (hsame cell).mp hce, r⟩, s⟩
  obtain ⟨cell, a, h, e, lo, hi2, p, g1, g2, g3, gg, gt, gp, g5⟩ := elem_eval_bins F T R hu _ hm hl b hb c hc
  obtain ⟨cell', a', h', e', lo', hi2', p', q1, q2, q3, qg, qt, qp, q5⟩ := elem_eval_bins F T R hu _ hm' hl' b' hb' c hc'
  obtain rfl : lo = lo' := funext fun i => Mesh.isLow_unique (gg.low i) (qg.low i)
  obtain rfl : hi2 = hi2' := funext fun i => Mesh.isHigh_unique (gg.high i) (qg.high i)
  obtain rfl := hone cell g1 cell' ((hsame cell').mpr q1) a h a' h' g2 q2 g3 q3 (by
    intro lo2 hi3 k
    obtain rfl : lo = lo2 := funext fun i => Mesh.isLow_unique (gg.low i) (k.low i)
    obtain rfl : hi2 = hi3 := funext fun i => Mesh.isHigh_unique (gg.high i) (k.high i)
    exact ⟨⟨e, gt⟩, ⟨e', qt⟩⟩)
  obtain ⟨rfl, rfl⟩ := F.cell_unique g2 q2
  obtain ⟨v, k1, k2, k3, k4⟩ := g5 ops ho i _ _ hi
  obtain ⟨v', k1', k2', k3', k4'⟩ := q5 ops' ho' i' _ _ hi'
  obtain rfl : v = v' := cornerVals_congr k1 k1' fun _ _ => rfl
  obtain rfl : p = p' := by
    rw [gp, qp]
    funext j
    simp only [F.corner_eq]
    rfl
  cases op with
  | value c' =>
    subst hop
    obtain ⟨g, hg⟩ := T.value c'
    have hw := fun q => congrFun hg q
    exact (k2 _ fun j => hw _).trans (k2' _ fun j => by rw [← hw]; simp only [F.corner_eq]; exact N.value _ _ _ _ _ _ _).symm
  | grad c' di =>
    subst hop
    obtain ⟨g, hg⟩ := T.grad c' di
    have hw := fun q => congrFun hg q
    exact (k3 di _ fun j => hw _).trans (k3' di _ fun j => by rw [← hw]; simp only [F.corner_eq]; exact N.grad _ _ _ _ _ _ _ _).symm
  | hess c' di dj =>
    subst hop
    obtain ⟨g, hg⟩ := T.hess c' di dj
    have hw := fun q => congrFun hg q
    exact (k4 di dj _ fun j => hw _).trans (k4' di dj _ fun j => by rw [← hw]; simp only [F.corner_eq]; exact N.hess _ _ _ _ _ _ _ _ _).symm

end Fl

/-- **C152** (2D, inside a cell, floating-point arithmetic) At a point that is in one cell only, value, derivatives and second derivatives are the same numbers. -/
theorem C152_rounded_2d {rnd : K → K} {u : K} (R : Rounding rnd u) (hu : u ≤ 1 / 64) (pts : List (Fin 2 → K)) (cells cells' : List (List Nat))
    (hsame : ∀ cell, cell ∈ cells ↔ cell ∈ cells') (flds flds' : List (String × List K)) (hm : FloatMesh quadUnit rnd u pts cells)
    (hm' : FloatMesh quadUnit rnd u pts cells') (hl : ∀ fl ∈ flds, fl.2.length = pts.length)
    (hl' : ∀ fl ∈ flds', fl.2.length = pts.length) (b b' : Body K 2) (hb : Fl.load rnd (Fl.quadOps rnd) pts cells flds = .ok b)
    (hb' : Fl.load rnd (Fl.quadOps rnd) pts cells' flds' = .ok b') (ops ops' : List (Nat × Body.Call K 2)) (ho : Fl.HistOk rnd pts ops)
    (ho' : Fl.HistOk rnd pts ops') (i i' : Nat) (name name' : String) (data : List K) (hi : flds[i]? = some (name, data))
    (hi' : flds'[i']? = some (name', data)) (c : Fin 2 → K) (hc : FloatPoint quadUnit rnd pts cells c)
    (hone : ∀ cell ∈ cells, ∀ cell2 ∈ cells, ∀ a h a2 h2, CellAt quadUnit pts cell a h → CellAt quadUnit pts cell2 a2 h2 → InCell a h c → InCell a2 h2 c →
      cell = cell2) (op : Fl.Call K 2) (hop : op.coord = c) :
    Fl.eval rnd (Fl.quadOps rnd) (Fl.evals rnd (Fl.quadOps rnd) b ops) i op = Fl.eval rnd (Fl.quadOps rnd) (Fl.evals rnd (Fl.quadOps rnd) b' ops') i' op :=
  Fl.order_eval Fl.flQuad Fl.flQuadTotal ⟨fun _ _ _ _ _ _ _ => rfl, fun _ _ _ _ _ _ _ _ => rfl, fun _ _ _ _ _ _ _ _ _ => rfl⟩ R hu hsame flds flds' hm hm' hl hl'
    b b' hb hb' ops ops' ho ho' i i' name name' data hi hi' c hc
    (fun cell h1 cell2 h2 a h a2 h3 k1 k2 k3 k4 _ => hone cell h1 cell2 h2 a h a2 h3 k1 k2 (fun i => k3 i trivial) fun i => k4 i trivial) op hop

/-- **C152** (3D, inside a cell, floating-point arithmetic, part) The same at vertically clear points. -/
theorem C152_rounded_3d_partial {rnd : K → K} {u : K} (R : Rounding rnd u) (hu : u ≤ 1 / 64) (pts : List (Fin 3 → K)) (cells cells' : List (List Nat))
    (hsame : ∀ cell, cell ∈ cells ↔ cell ∈ cells') (flds flds' : List (String × List K)) (hm : FloatMesh hexUnit rnd u pts cells)
    (hm' : FloatMesh hexUnit rnd u pts cells') (hl : ∀ fl ∈ flds, fl.2.length = pts.length)
    (hl' : ∀ fl ∈ flds', fl.2.length = pts.length) (b b' : Body K 3) (hb : Fl.load rnd (Fl.hexOps rnd) pts cells flds = .ok b)
    (hb' : Fl.load rnd (Fl.hexOps rnd) pts cells' flds' = .ok b') (ops ops' : List (Nat × Body.Call K 3)) (ho : Fl.HistOk rnd pts ops)
    (ho' : Fl.HistOk rnd pts ops') (i i' : Nat) (name name' : String) (data : List K) (hi : flds[i]? = some (name, data))
    (hi' : flds'[i']? = some (name', data)) (c : Fin 3 → K) (hc : FloatPoint hexUnit rnd pts cells c) (hcl : VerticallyClear pts cells c)
    (hone : ∀ cell ∈ cells, ∀ cell2 ∈ cells, ∀ a h a2 h2, CellAt hexUnit pts cell a h → CellAt hexUnit pts cell2 a2 h2 → InCell a h c → InCell a2 h2 c →
      cell = cell2) (op : Fl.Call K 3) (hop : op.coord = c) :
    Fl.eval rnd (Fl.hexOps rnd) (Fl.evals rnd (Fl.hexOps rnd) b ops) i op = Fl.eval rnd (Fl.hexOps rnd) (Fl.evals rnd (Fl.hexOps rnd) b' ops') i' op := by
  have box : ∀ lo hi, Mesh.GridOf pts lo hi → ∀ i, lo i ≤ c i ∧ c i ≤ hi i := by
    intro lo hi gg i
    obtain ⟨⟨cell', _, a', h', hce', hin⟩, _⟩ := hc
    obtain ⟨m1, m2⟩ := (Fl.flHex (rnd := rnd)).cell_mem hce'
    have h1 : lo i ≤ a' i := (gg.low i).2 _ m1
    have h2 : a' i + h' i ≤ hi i := (gg.high i).2 _ m2
    exact ⟨h1.trans (hin i).1, (hin i).2.trans h2⟩
  obtain ⟨b0, lo, hi2, qs, e1, e2⟩ := Fl.load_ok Fl.flHex R hu hm hl
  have gg := e2.mesh.grid
  refine Fl.order_eval Fl.flHex Fl.flHexTotal ⟨fun _ _ _ _ _ _ _ => rfl, fun _ _ _ _ _ _ _ _ => rfl, fun _ _ _ _ _ _ _ _ _ => rfl⟩ R hu hsame flds flds' hm hm' hl hl'
    b b' hb hb' ops ops' ho ho' i i' name name' data hi hi' c hc
    (fun cell h1 cell2 h2 a h a2 h3 k1 k2 k3 k4 k5 => ?_) op hop
  obtain ⟨⟨e, j, t1⟩, ⟨e', j', t2⟩⟩ := k5 lo hi2 gg
  refine hone cell h1 cell2 h2 a h a2 h3 k1 k2 (hcl cell h1 a h k1 k3 ?_) (hcl cell2 h2 a2 h3 k2 k4 ?_)
  · intro lo2 hi3 l1 l2
    rw [Mesh.isLow_unique l1 (gg.low 2), Mesh.isHigh_unique l2 (gg.high 2)]
    exact Fl.touches_near Fl.flHex R hu hm gg k1 (box _ _ gg) t1 2
  · intro lo2 hi3 l1 l2
    rw [Mesh.isLow_unique l1 (gg.low 2), Mesh.isHigh_unique l2 (gg.high 2)]
    exact Fl.touches_near Fl.flHex R hu hm gg k2 (box _ _ gg) t2 2

namespace OrderDemo
open RefineDemo

theorem in0f : InCell (![0, 0, 0] : Fin 3 → ℚ) ![1 / 2, 1, 1] ![1 / 4, 1 / 2, 1 / 8] := by intro i; fin_cases i <;> decide +kernel

theorem clearH : VerticallyClear ptsH cellsH ![1 / 4, 1 / 2, 1 / 8] := by
  intro cell hc a h hah hin _
  simp only [cellsH, List.mem_cons, List.not_mem_nil, or_false] at hc
  rcases hc with rfl | rfl
  · obtain ⟨rfl, rfl⟩ := Mesh.cellAt_unique hexLaw hah half0
    exact in0f
  · obtain ⟨rfl, rfl⟩ := Mesh.cellAt_unique hexLaw hah half1
    exact absurd (hin 0 (by decide)).1 (by decide +kernel)

theorem meshR : FloatMesh quadUnit FlDemo.r ((2 : ℚ) ^ (-53 : Int)) Demo.pts Demo.cells.reverse := ⟨rectR, FlDemo.mesh2.float, FlDemo.mesh2.resolved⟩

theorem meshH : FloatMesh hexUnit FlDemo.r ((2 : ℚ) ^ (-53 : Int)) ptsH cellsH where
  rect := rectH
  float := by unfold IsFloat; decide +kernel
  resolved := by
    intro i lo hi h1 h2
    have l0 : IsLow ptsH i 0 := by fin_cases i <;> (unfold IsLow; decide +kernel)
    have l1 : IsHigh ptsH i 1 := by fin_cases i <;> (unfold IsHigh; decide +kernel)
    obtain rfl := isLow_unique h1 l0
    obtain rfl := isHigh_unique h2 l1
    fin_cases i <;> (unfold margin; decide +kernel)

theorem meshHR : FloatMesh hexUnit FlDemo.r ((2 : ℚ) ^ (-53 : Int)) ptsH cellsH.reverse := ⟨rectHR, meshH.float, meshH.resolved⟩

/-- `C152_rounded_2d` applied in binary64. -/
example : ∃ b b', Fl.load FlDemo.r (Fl.quadOps FlDemo.r) Demo.pts Demo.cells Demo.flds = .ok b ∧
    Fl.load FlDemo.r (Fl.quadOps FlDemo.r) Demo.pts Demo.cells.reverse Demo.flds = .ok b' ∧
    ∀ op : Fl.Call ℚ 2, op.coord = ![3 / 2, 1 / 2] → Fl.eval FlDemo.r (Fl.quadOps FlDemo.r) (Fl.evals FlDemo.r (Fl.quadOps FlDemo.r) b []) 0 op =
      Fl.eval FlDemo.r (Fl.quadOps FlDemo.r) (Fl.evals FlDemo.r (Fl.quadOps FlDemo.r) b' []) 0 op := by
  obtain ⟨b, hb⟩ := C94_loads FlDemo.rounding (by norm_num) Demo.pts Demo.cells Demo.flds FlDemo.mesh2 Demo.lens
  obtain ⟨b', hb'⟩ := C94_loads FlDemo.rounding (by norm_num) Demo.pts Demo.cells.reverse Demo.flds meshR Demo.lens
  refine ⟨b, b', hb, hb', C152_rounded_2d FlDemo.rounding (by norm_num) Demo.pts Demo.cells _ (fun _ => List.mem_reverse.symm) _ _ FlDemo.mesh2 meshR Demo.lens
    Demo.lens b b' hb hb' [] [] (by simp [Fl.HistOk]) (by simp [Fl.HistOk]) 0 0 "u" "u" _ rfl rfl _
    ⟨⟨_, List.mem_cons_of_mem _ (List.mem_singleton.mpr rfl), _, _, Demo.cell1, by intro i; fin_cases i <;> decide +kernel⟩, by unfold IsFloat; decide +kernel⟩ ?_⟩
  intro cell hc cell2 hc2 a h a2 h2 hah hah2 hin hin2
  simp only [Demo.cells, List.mem_cons, List.not_mem_nil, or_false] at hc hc2
  have no : ¬ InCell (![0, 0] : Fin 2 → ℚ) ![1, 1] ![3 / 2, 1 / 2] := fun q => absurd (q 0).2 (by decide +kernel)
  rcases hc with rfl | rfl
  · obtain ⟨rfl, rfl⟩ := Mesh.cellAt_unique quadLaw hah Demo.cell0
    exact absurd hin no
  · rcases hc2 with rfl | rfl
    · obtain ⟨rfl, rfl⟩ := Mesh.cellAt_unique quadLaw hah2 Demo.cell0
      exact absurd hin2 no
    · rfl

/-- `C152_rounded_3d_partial` applied in binary64. -/
example : ∃ b b', Fl.load FlDemo.r (Fl.hexOps FlDemo.r) ptsH cellsH [("u", dataH)] = .ok b ∧
    Fl.load FlDemo.r (Fl.hexOps FlDemo.r) ptsH cellsH.reverse [("u", dataH)] = .ok b' ∧
    ∀ op : Fl.Call ℚ 3, op.coord = ![1 / 4, 1 / 2, 1 / 8] → Fl.eval FlDemo.r (Fl.hexOps FlDemo.r) (Fl.evals FlDemo.r (Fl.hexOps FlDemo.r) b []) 0 op =
      Fl.eval FlDemo.r (Fl.hexOps FlDemo.r) (Fl.evals FlDemo.r (Fl.hexOps FlDemo.r) b' []) 0 op := by
  obtain ⟨b, hb⟩ := C107_loads FlDemo.rounding (by norm_num) ptsH cellsH [("u", dataH)] meshH (by decide)
  obtain ⟨b', hb'⟩ := C107_loads FlDemo.rounding (by norm_num) ptsH cellsH.reverse [("u", dataH)] meshHR (by decide)
  refine ⟨b, b', hb, hb', C152_rounded_3d_partial FlDemo.rounding (by norm_num) ptsH cellsH _ (fun _ => List.mem_reverse.symm) _ _ meshH meshHR (by decide)
    (by decide) b b' hb hb' [] [] (by simp [Fl.HistOk]) (by simp [Fl.HistOk]) 0 0 "u" "u" _ rfl rfl _
    ⟨⟨_, by simp [cellsH], _, _, half0, in0f⟩, by unfold IsFloat; decide +kernel⟩ clearH ?_⟩
  intro cell hc cell2 hc2 a h a2 h2 hah hah2 hin hin2
  simp only [cellsH, List.mem_cons, List.not_mem_nil, or_false] at hc hc2
  have no : ¬ InCell (![1 / 2, 0, 0] : Fin 3 → ℚ) ![1 / 2, 1, 1] ![1 / 4, 1 / 2, 1 / 8] := fun q => absurd (q 0).1 (by decide +kernel)
  rcases hc with rfl | rfl
  · rcases hc2 with rfl | rfl
    · rfl
    · obtain ⟨rfl, rfl⟩ := Mesh.cellAt_unique hexLaw hah2 half1
      exact absurd hin2 no
  · obtain ⟨rfl, rfl⟩ := Mesh.cellAt_unique hexLaw hah half1
    exact absurd hin no

end OrderDemo

end Verif
