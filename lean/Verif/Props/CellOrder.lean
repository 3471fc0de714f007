import Verif.Props.FieldRefine
import Verif.Props.FieldHess3D

/-!
# C152: the order of the cells
-/

namespace Verif
open Spec Bin Mesh PField Body
variable {K : Type} [Field K] [LinearOrder K] [FloorRing K] [IsStrictOrderedRing K]

/-- **C152** (2D, values) Two bodies with the same nodes and the same cells, listed in another order (or more than once), that meet in whole faces, and two fields with
the same data. At every point of the body the values are the same, after any histories. -/
theorem C152_value_2d (pts : List (Fin 2 → K)) (cells cells' : List (List Nat)) (hsame : ∀ cell, cell ∈ cells ↔ cell ∈ cells') (flds flds' : List (String × List K))
    (hm : RectMesh quadUnit pts cells) (hcf : Conforming quadUnit pts cells) (hm' : RectMesh quadUnit pts cells')
    (hl : ∀ fl ∈ flds, fl.2.length = pts.length) (hl' : ∀ fl ∈ flds', fl.2.length = pts.length)
    (b b' : Body K 2) (hb : Body.load (quadOps K) pts cells flds = .ok b) (hb' : Body.load (quadOps K) pts cells' flds' = .ok b')
    (i i' : Nat) (name name' : String) (data : List K) (hi : flds[i]? = some (name, data)) (hi' : flds'[i']? = some (name', data))
    (ops ops' : List (Nat × Body.Call K 2)) (ho : HistOk pts ops) (ho' : HistOk pts ops') (c : Fin 2 → K) (hc : Covered quadUnit pts cells c) :
    ∃ y, (b.calls (quadOps K) ops).value (quadOps K) i c = .ok y ∧ (b'.calls (quadOps K) ops').value (quadOps K) i' c = .ok y := by
  have hcf' : Conforming quadUnit pts cells' := fun x hx y hy => hcf x ((hsame x).mpr hx) y ((hsame y).mpr hy)
  obtain ⟨cell, hce, a, h, hah, hin⟩ := hc
  obtain ⟨v, hv⟩ := corners_exist hah (hl _ (List.mem_of_getElem? hi))
  exact ⟨_, C27_single_valued pts cells flds hm hcf hl b hb ops ho i name data hi cell hce a h hah v hv c hin,
    C27_single_valued pts cells' flds' hm' hcf' hl' b' hb' ops' ho' i' name' data hi' cell ((hsame cell).mp hce) a h hah v hv c hin⟩

/-- **C152** (2D, inside a cell) At a point that is in one cell only, value, derivatives and second derivatives are the same, whether or not cells meet in whole faces
(or overlap) elsewhere. -/
theorem C152_one_cell_2d (pts : List (Fin 2 → K)) (cells cells' : List (List Nat)) (hsame : ∀ cell, cell ∈ cells ↔ cell ∈ cells') (flds flds' : List (String × List K))
    (hm : RectMesh quadUnit pts cells) (hm' : RectMesh quadUnit pts cells')
    (hl : ∀ fl ∈ flds, fl.2.length = pts.length) (hl' : ∀ fl ∈ flds', fl.2.length = pts.length)
    (b b' : Body K 2) (hb : Body.load (quadOps K) pts cells flds = .ok b) (hb' : Body.load (quadOps K) pts cells' flds' = .ok b')
    (i i' : Nat) (name name' : String) (data : List K) (hi : flds[i]? = some (name, data)) (hi' : flds'[i']? = some (name', data))
    (ops ops' : List (Nat × Body.Call K 2)) (ho : HistOk pts ops) (ho' : HistOk pts ops') (c : Fin 2 → K) (hc : Covered quadUnit pts cells c)
    (hone : ∀ cell ∈ cells, ∀ cell2 ∈ cells, ∀ a h a2 h2, CellAt quadUnit pts cell a h → CellAt quadUnit pts cell2 a2 h2 → InCell a h c → InCell a2 h2 c →
      cell = cell2) :
    (∃ y, (b.calls (quadOps K) ops).value (quadOps K) i c = .ok y ∧ (b'.calls (quadOps K) ops').value (quadOps K) i' c = .ok y) ∧
    (∀ di : Fin 2, ∃ y, (b.calls (quadOps K) ops).grad (quadOps K) i c di = .ok y ∧ (b'.calls (quadOps K) ops').grad (quadOps K) i' c di = .ok y) ∧
    ∀ di dj : Fin 2, ∃ y, (b.calls (quadOps K) ops).hess (quadOps K) i c di dj = .ok y ∧ (b'.calls (quadOps K) ops').hess (quadOps K) i' c di dj = .ok y := by
  have hc' : Covered quadUnit pts cells' c := by
    obtain ⟨cell, hce, r⟩ := hc
    exact ⟨cell, (hsame cell).mp hce, r⟩
  obtain ⟨e, cell, a, h, g1, g2, g3, g4, g5⟩ := quad_eval_first pts cells flds hm hl b hb c hc
  obtain ⟨e', cell', a', h', q1, q2, q3, q4, q5⟩ := quad_eval_first pts cells' flds' hm' hl' b' hb' c hc'
  obtain rfl := hone cell (List.mem_of_getElem? g1) cell' ((hsame cell').mpr (List.mem_of_getElem? q1)) a h a' h' g2 q2 g3 q3
  obtain ⟨rfl, rfl⟩ := cellAt_unique quadLaw g2 q2
  obtain ⟨v, hv⟩ := corners_exist g2 (hl _ (List.mem_of_getElem? hi))
  have F := C139_first_cell_2d pts cells flds hm hl b hb c e cell a h g1 g2 g3
    (fun k hk x y z l1 l2 l3 => absurd (g4 k x y z l1 l2 l3) (by omega)) ops ho i name data hi v hv
  have F' := C139_first_cell_2d pts cells' flds' hm' hl' b' hb' c e' cell a h q1 g2 g3
    (fun k hk x y z l1 l2 l3 => absurd (q4 k x y z l1 l2 l3) (by omega)) ops' ho' i' name' data hi' v hv
  exact ⟨⟨_, F.1, F'.1⟩, fun di => ⟨_, F.2.1 di 1 one_ne_zero, F'.2.1 di 1 one_ne_zero⟩,
    fun di dj => ⟨_, F.2.2 di dj 1 1 one_ne_zero one_ne_zero, F'.2.2 di dj 1 1 one_ne_zero one_ne_zero⟩⟩

/-- **C152** (3D, part) Values in 3D at vertically clear points. -/
theorem C152_value_3d_partial (pts : List (Fin 3 → K)) (cells cells' : List (List Nat)) (hsame : ∀ cell, cell ∈ cells ↔ cell ∈ cells')
    (flds flds' : List (String × List K))
    (hm : RectMesh hexUnit pts cells) (hcf : Conforming hexUnit pts cells) (hm' : RectMesh hexUnit pts cells')
    (hl : ∀ fl ∈ flds, fl.2.length = pts.length) (hl' : ∀ fl ∈ flds', fl.2.length = pts.length)
    (b b' : Body K 3) (hb : Body.load (hexOps K) pts cells flds = .ok b) (hb' : Body.load (hexOps K) pts cells' flds' = .ok b')
    (i i' : Nat) (name name' : String) (data : List K) (hi : flds[i]? = some (name, data)) (hi' : flds'[i']? = some (name', data))
    (ops ops' : List (Nat × Body.Call K 3)) (ho : HistOk pts ops) (ho' : HistOk pts ops') (c : Fin 3 → K) (hc : Covered hexUnit pts cells c)
    (hz : NearClear pts cells c) :
    ∃ y, (b.calls (hexOps K) ops).value (hexOps K) i c = .ok y ∧ (b'.calls (hexOps K) ops').value (hexOps K) i' c = .ok y := by
  have hcf' : Conforming hexUnit pts cells' := fun x hx y hy => hcf x ((hsame x).mpr hx) y ((hsame y).mpr hy)
  have hz' : NearClear pts cells' c := fun x hx => hz x ((hsame x).mpr hx)
  obtain ⟨cell, hce, a, h, hah, hin⟩ := hc
  obtain ⟨v, hv⟩ := corners_exist hah (hl _ (List.mem_of_getElem? hi))
  exact ⟨_, C112_single_valued_partial pts cells flds hm hcf hl b hb ops ho i name data hi cell hce a h hah v hv c hin hz,
    C112_single_valued_partial pts cells' flds' hm' hcf' hl' b' hb' ops' ho' i' name' data hi' cell ((hsame cell).mp hce) a h hah v hv c hin hz'⟩

/-- **C152** (3D, part) At vertically clear points that are in one cell only, values, first and second derivatives are the same, whether or not cells meet in whole faces. -/
theorem C152_one_cell_3d_partial (pts : List (Fin 3 → K)) (cells cells' : List (List Nat)) (hsame : ∀ cell, cell ∈ cells ↔ cell ∈ cells')
    (flds flds' : List (String × List K)) (hm : RectMesh hexUnit pts cells) (hm' : RectMesh hexUnit pts cells')
    (hl : ∀ fl ∈ flds, fl.2.length = pts.length) (hl' : ∀ fl ∈ flds', fl.2.length = pts.length)
    (b b' : Body K 3) (hb : Body.load (hexOps K) pts cells flds = .ok b) (hb' : Body.load (hexOps K) pts cells' flds' = .ok b')
    (i i' : Nat) (name name' : String) (data : List K) (hi : flds[i]? = some (name, data)) (hi' : flds'[i']? = some (name', data))
    (ops ops' : List (Nat × Body.Call K 3)) (ho : HistOk pts ops) (ho' : HistOk pts ops') (c : Fin 3 → K) (hc : Covered hexUnit pts cells c)
    (hz : NearClear pts cells c)
    (hone : ∀ cell ∈ cells, ∀ cell2 ∈ cells, ∀ a h a2 h2, CellAt hexUnit pts cell a h → CellAt hexUnit pts cell2 a2 h2 → InCell a h c → InCell a2 h2 c →
      cell = cell2) :
    (∃ y, (b.calls (hexOps K) ops).value (hexOps K) i c = .ok y ∧ (b'.calls (hexOps K) ops').value (hexOps K) i' c = .ok y) ∧
    (∀ di : Fin 3, ∃ y, (b.calls (hexOps K) ops).grad (hexOps K) i c di = .ok y ∧ (b'.calls (hexOps K) ops').grad (hexOps K) i' c di = .ok y) ∧
    ∀ di dj : Fin 3, ∃ y, (b.calls (hexOps K) ops).hess (hexOps K) i c di dj = .ok y ∧ (b'.calls (hexOps K) ops').hess (hexOps K) i' c di dj = .ok y := by
  have hz' : NearClear pts cells' c := fun x hx => hz x ((hsame x).mpr hx)
  have hc' : Covered hexUnit pts cells' c := by
    obtain ⟨cell, hce, r⟩ := hc
    exact ⟨cell, (hsame cell).mp hce, r⟩
  obtain ⟨e, cell, a, h, g1, g2, g3r, g4, g5⟩ := hex_eval_first pts cells flds hm hl b hb c hc
  obtain ⟨e', cell', a', h', q1, q2, q3r, q4, q5⟩ := hex_eval_first pts cells' flds' hm' hl' b' hb' c hc'
  have g3 := (reaches_iff hm hz (List.mem_of_getElem? g1) g2).mp g3r
  have q3 := (reaches_iff hm' hz' (List.mem_of_getElem? q1) q2).mp q3r
  obtain rfl := hone cell (List.mem_of_getElem? g1) cell' ((hsame cell').mpr (List.mem_of_getElem? q1)) a h a' h' g2 q2 g3 q3
  obtain ⟨rfl, rfl⟩ := cellAt_unique hexLaw g2 q2
  obtain ⟨v, hv⟩ := corners_exist g2 (hl _ (List.mem_of_getElem? hi))
  have F := C139_first_cell_3d pts cells flds hm hl b hb c hc e cell a h g1 g2 g3r
    (fun k hk x y z l1 l2 l3 => absurd (g4 k x y z l1 l2 l3) (by omega)) ops ho i name data hi v hv
  have F' := C139_first_cell_3d pts cells' flds' hm' hl' b' hb' c hc' e' cell a h q1 g2 q3r
    (fun k hk x y z l1 l2 l3 => absurd (q4 k x y z l1 l2 l3) (by omega)) ops' ho' i' name' data hi' v hv
  refine ⟨⟨_, F.1, F'.1⟩, fun di => ⟨_, F.2 di 1 one_ne_zero, F'.2 di 1 one_ne_zero⟩, fun di dj => ?_⟩
  obtain ⟨e2, cell2, a2, h2, r1, r2, r3r, r4, r5⟩ := hex_hess_first pts cells flds hm hl b hb c hc
  obtain ⟨e3, cell3, a3, h3, s1, s2, s3r, s4, s5⟩ := hex_hess_first pts cells' flds' hm' hl' b' hb' c hc'
  have r3 := (reaches_iff hm hz (List.mem_of_getElem? r1) r2).mp r3r
  have s3 := (reaches_iff hm' hz' (List.mem_of_getElem? s1) s2).mp s3r
  obtain rfl := hone cell2 (List.mem_of_getElem? r1) cell3 ((hsame cell3).mpr (List.mem_of_getElem? s1)) a2 h2 a3 h3 r2 s2 r3 s3
  obtain ⟨rfl, rfl⟩ := cellAt_unique hexLaw r2 s2
  obtain ⟨w, gw, k⟩ := r5 ops ho i name data hi
  obtain ⟨w', gw', k'⟩ := s5 ops' ho' i' name' data hi'
  rw [cornerVals_unique gw' gw] at k'
  exact ⟨_, k di dj, k' di dj⟩

/-- **C152** (outside) Outside the binned region both throw. -/
theorem C152_outside_2d (pts : List (Fin 2 → K)) (cells cells' : List (List Nat)) (flds flds' : List (String × List K))
    (hm : RectMesh quadUnit pts cells) (hm' : RectMesh quadUnit pts cells')
    (hl : ∀ fl ∈ flds, fl.2.length = pts.length) (hl' : ∀ fl ∈ flds', fl.2.length = pts.length)
    (b b' : Body K 2) (hb : Body.load (quadOps K) pts cells flds = .ok b) (hb' : Body.load (quadOps K) pts cells' flds' = .ok b')
    (i i' : Nat) (hi : i < flds.length) (hi' : i' < flds'.length) (ops ops' : List (Nat × Body.Call K 2)) (ho : HistOk pts ops) (ho' : HistOk pts ops')
    (c : Fin 2 → K) (hc : OutOfBins pts c) :
    (b.calls (quadOps K) ops).value (quadOps K) i c = .error .domainError ∧ (b'.calls (quadOps K) ops').value (quadOps K) i' c = .error .domainError :=
  ⟨(C30_throws_2d pts cells flds hm hl b hb ops ho i hi c hc).2.1, (C30_throws_2d pts cells' flds' hm' hl' b' hb' ops' ho' i' hi' c hc).2.1⟩

/-- **C152, violation** (3D) Two cubes on top of each other, data 0 up to `z = 1` and 1 at `z = 2`. At height 5/4 the value is 0 if the lower one is listed first and 1/4 if
the upper one is. -/
theorem C152_stacked_violated : ∃ b b', Body.load (hexOps ℚ) Demo3.pts Demo3.cells [("u", Demo3.data)] = .ok b ∧
    Body.load (hexOps ℚ) Demo3.pts Demo3.cells.reverse [("u", Demo3.data)] = .ok b' ∧ RectMesh hexUnit Demo3.pts Demo3.cells ∧ Conforming hexUnit Demo3.pts Demo3.cells ∧
    Covered hexUnit Demo3.pts Demo3.cells ![1 / 2, 1 / 2, 5 / 4] ∧
    b.value (hexOps ℚ) 0 ![1 / 2, 1 / 2, 5 / 4] = .ok 0 ∧ b'.value (hexOps ℚ) 0 ![1 / 2, 1 / 2, 5 / 4] = .ok (1 / 4) := by
  obtain ⟨b, hb, _⟩ := C31_load_3d Demo3.pts Demo3.cells [("u", Demo3.data)] Demo3.rect (by decide)
  have rect' : RectMesh hexUnit Demo3.pts Demo3.cells.reverse :=
    ⟨by decide, fun cell hc => Demo3.rect.rect cell (List.mem_reverse.mp hc), Demo3.rect.small⟩
  obtain ⟨b', hb', _⟩ := C31_load_3d Demo3.pts Demo3.cells.reverse [("u", Demo3.data)] rect' (by decide)
  have r : ((Body.load (hexOps ℚ) Demo3.pts Demo3.cells [("u", Demo3.data)]).map fun b => b.value (hexOps ℚ) 0 ![1 / 2, 1 / 2, 5 / 4]) = .ok (.ok 0) := by decide +kernel
  have r' : ((Body.load (hexOps ℚ) Demo3.pts Demo3.cells.reverse [("u", Demo3.data)]).map fun b => b.value (hexOps ℚ) 0 ![1 / 2, 1 / 2, 5 / 4]) = .ok (.ok (1 / 4)) := by
    decide +kernel
  rw [hb] at r
  rw [hb'] at r'
  exact ⟨b, b', hb, hb', Demo3.rect, RefineDemo.conforming3, ⟨_, by simp [Demo3.cells], _, _, Demo3.cell1, by intro i; fin_cases i <;> decide +kernel⟩,
    Except.ok.inj r, Except.ok.inj r'⟩

namespace OrderDemo
open RefineDemo

theorem rectR : RectMesh quadUnit Demo.pts Demo.cells.reverse :=
  ⟨by decide, fun cell hc => Demo.rect.rect cell (List.mem_reverse.mp hc), Demo.rect.small⟩

theorem rectHR : RectMesh hexUnit ptsH cellsH.reverse :=
  ⟨by decide, fun cell hc => rectH.rect cell (List.mem_reverse.mp hc), rectH.small⟩

theorem conformingH : Conforming hexUnit ptsH cellsH := by
  have key : ∀ cell ∈ cellsH, ∀ a h, CellAt hexUnit ptsH cell a h →
      (cell = [0, 8, 9, 3, 4, 10, 11, 7] ∧ a = ![0, 0, 0] ∧ h = ![1 / 2, 1, 1]) ∨ (cell = [8, 1, 2, 9, 10, 5, 6, 11] ∧ a = ![1 / 2, 0, 0] ∧ h = ![1 / 2, 1, 1]) := by
    intro cell hc a h hah
    simp only [cellsH, List.mem_cons, List.not_mem_nil, or_false] at hc
    rcases hc with rfl | rfl
    · exact Or.inl ⟨rfl, Mesh.cellAt_unique hexLaw hah half0⟩
    · exact Or.inr ⟨rfl, Mesh.cellAt_unique hexLaw hah half1⟩
  intro cell hc cell' hc' a h a' h' hah hah' _ u hu
  have ext : ∀ x y z : ℚ, u 0 = x → u 1 = y → u 2 = z → u = ![x, y, z] := by
    intro x y z hx hy hz; funext i; fin_cases i <;> simp [hx, hy, hz]
  have v2 : ∀ a b c : ℚ, (![a, b, c] : Fin 3 → ℚ) 2 = c := fun _ _ _ => rfl
  have e1 : (2 : ℚ)⁻¹ + 2⁻¹ = 1 := by norm_num
  have e4 : Min.min (2⁻¹ : ℚ) 1 = 2⁻¹ := by norm_num
  have e5 : Min.min (1 : ℚ) 2⁻¹ = 2⁻¹ := by norm_num
  have h0 := hu 0
  have h1 := hu 1
  have h2 := hu 2
  rcases key cell hc a h hah with ⟨rfl, rfl, rfl⟩ | ⟨rfl, rfl, rfl⟩ <;>
  rcases key cell' hc' a' h' hah' with ⟨rfl, rfl, rfl⟩ | ⟨rfl, rfl, rfl⟩ <;>
  simp [v2, e1, e4, e5] at h0 h1 h2
  · rcases h0 with h0 | h0 <;> rcases h1 with h1 | h1 <;> rcases h2 with h2 | h2 <;> rw [ext _ _ _ h0 h1 h2] <;> simp [ptsH, ptsC]
  · rcases h1 with h1 | h1 <;> rcases h2 with h2 | h2 <;> rw [ext _ _ _ h0 h1 h2] <;> simp [ptsH, ptsC]
  · rcases h1 with h1 | h1 <;> rcases h2 with h2 | h2 <;> rw [ext _ _ _ h0 h1 h2] <;> simp [ptsH, ptsC]
  · rcases h0 with h0 | h0 <;> rcases h1 with h1 | h1 <;> rcases h2 with h2 | h2 <;> rw [ext _ _ _ h0 h1 h2] <;> simp [ptsH, ptsC]

theorem in0 : InCell (![0, 0, 0] : Fin 3 → ℚ) ![1 / 2, 1, 1] ![1 / 4, 1 / 3, 1 / 5] := by intro i; fin_cases i <;> decide +kernel

theorem near : NearClear ptsH cellsH ![1 / 4, 1 / 3, 1 / 5] := by
  intro cell hc a h hah hin _
  simp only [cellsH, List.mem_cons, List.not_mem_nil, or_false] at hc
  rcases hc with rfl | rfl
  · obtain ⟨rfl, rfl⟩ := Mesh.cellAt_unique hexLaw hah half0
    exact in0
  · obtain ⟨rfl, rfl⟩ := Mesh.cellAt_unique hexLaw hah half1
    exact absurd (hin 0 (by decide)).1 (by decide +kernel)

end OrderDemo

open OrderDemo RefineDemo in
/-- The 2D theorems applied: two unit squares next to each other, listed in both orders; on the common edge (values) and inside the right one. -/
example : ∃ b b', Body.load (quadOps ℚ) Demo.pts Demo.cells Demo.flds = .ok b ∧ Body.load (quadOps ℚ) Demo.pts Demo.cells.reverse Demo.flds = .ok b' ∧
    (∃ y, (b.calls (quadOps ℚ) []).value (quadOps ℚ) 0 ![1, 1 / 2] = .ok y ∧ (b'.calls (quadOps ℚ) []).value (quadOps ℚ) 0 ![1, 1 / 2] = .ok y) ∧
    (∃ y, (b.calls (quadOps ℚ) []).grad (quadOps ℚ) 0 ![3 / 2, 1 / 2] 1 = .ok y ∧ (b'.calls (quadOps ℚ) []).grad (quadOps ℚ) 0 ![3 / 2, 1 / 2] 1 = .ok y) := by
  obtain ⟨b, hb, _⟩ := C22_load_2d Demo.pts Demo.cells Demo.flds Demo.rect Demo.lens
  obtain ⟨b', hb', _⟩ := C22_load_2d Demo.pts Demo.cells.reverse Demo.flds rectR Demo.lens
  have hs : ∀ cell, cell ∈ Demo.cells ↔ cell ∈ Demo.cells.reverse := fun _ => List.mem_reverse.symm
  refine ⟨b, b', hb, hb', C152_value_2d _ _ _ hs Demo.flds Demo.flds Demo.rect Demo.conforming rectR Demo.lens Demo.lens b b' hb hb' 0 0 "u" "u" _ rfl rfl [] []
    (by simp [HistOk]) (by simp [HistOk]) _ ⟨_, by simp [Demo.cells], _, _, Demo.cell0, by intro i; fin_cases i <;> decide +kernel⟩,
    (C152_one_cell_2d _ _ _ hs Demo.flds Demo.flds Demo.rect rectR Demo.lens Demo.lens b b' hb hb' 0 0 "u" "u" _ rfl rfl [] []
    (by simp [HistOk]) (by simp [HistOk]) _ ⟨_, List.mem_cons_of_mem _ (List.mem_singleton.mpr rfl), _, _, Demo.cell1, by intro i; fin_cases i <;> decide +kernel⟩ ?_).2.1 1⟩
  intro cell hc cell2 hc2 a h a2 h2 hah hah2 hin hin2
  simp only [Demo.cells, List.mem_cons, List.not_mem_nil, or_false] at hc hc2
  have no : ¬ InCell (![0, 0] : Fin 2 → ℚ) ![1, 1] ![3 / 2, 1 / 2] := fun q => absurd (q 0).2 (by decide +kernel)
  rcases hc with rfl | rfl
  · obtain ⟨rfl, rfl⟩ := Mesh.cellAt_unique quadLaw hah Demo.cell0
    exact absurd hin no
  · rcases hc2 with rfl | rfl
    · obtain ⟨rfl, rfl⟩ := Mesh.cellAt_unique quadLaw hah2 Demo.cell0
      exact absurd hin2 no
    · rfl

open OrderDemo RefineDemo in
/-- The 3D theorems applied: a cube cut into two halves, side by side, in both orders. -/
example : ∃ b b', Body.load (hexOps ℚ) ptsH cellsH [("u", dataH)] = .ok b ∧ Body.load (hexOps ℚ) ptsH cellsH.reverse [("u", dataH)] = .ok b' ∧
    (∃ y, (b.calls (hexOps ℚ) []).value (hexOps ℚ) 0 ![1 / 4, 1 / 3, 1 / 5] = .ok y ∧ (b'.calls (hexOps ℚ) []).value (hexOps ℚ) 0 ![1 / 4, 1 / 3, 1 / 5] = .ok y) ∧
    (∃ y, (b.calls (hexOps ℚ) []).grad (hexOps ℚ) 0 ![1 / 4, 1 / 3, 1 / 5] 1 = .ok y ∧ (b'.calls (hexOps ℚ) []).grad (hexOps ℚ) 0 ![1 / 4, 1 / 3, 1 / 5] 1 = .ok y) := by
  obtain ⟨b, hb, _⟩ := C31_load_3d ptsH cellsH [("u", dataH)] rectH (by decide)
  obtain ⟨b', hb', _⟩ := C31_load_3d ptsH cellsH.reverse [("u", dataH)] rectHR (by decide)
  have hs : ∀ cell, cell ∈ cellsH ↔ cell ∈ cellsH.reverse := fun _ => List.mem_reverse.symm
  have hc : Covered hexUnit ptsH cellsH ![1 / 4, 1 / 3, 1 / 5] := ⟨_, by simp [cellsH], _, _, half0, in0⟩
  refine ⟨b, b', hb, hb', C152_value_3d_partial _ _ _ hs _ _ rectH conformingH rectHR (by decide) (by decide) b b' hb hb' 0 0 "u" "u" _ rfl rfl [] []
    (by simp [HistOk]) (by simp [HistOk]) _ hc near,
    (C152_one_cell_3d_partial _ _ _ hs _ _ rectH rectHR (by decide) (by decide) b b' hb hb' 0 0 "u" "u" _ rfl rfl [] []
    (by simp [HistOk]) (by simp [HistOk]) _ hc near ?_).2.1 1⟩
  intro cell hc cell2 hc2 a h a2 h2 hah hah2 hin hin2
  simp only [cellsH, List.mem_cons, List.not_mem_nil, or_false] at hc hc2
  have no : ¬ InCell (![1 / 2, 0, 0] : Fin 3 → ℚ) ![1 / 2, 1, 1] ![1 / 4, 1 / 3, 1 / 5] := fun q => absurd (q 0).1 (by decide +kernel)
  rcases hc with rfl | rfl
  · rcases hc2 with rfl | rfl
    · rfl
    · obtain ⟨rfl, rfl⟩ := Mesh.cellAt_unique hexLaw hah2 half1
      exact absurd hin2 no
  · obtain ⟨rfl, rfl⟩ := Mesh.cellAt_unique hexLaw hah half1
    exact absurd hin no

open OrderDemo in
/-- `C152_outside_2d` applied at the point (5, 5). -/
example : ∃ b b', Body.load (quadOps ℚ) Demo.pts Demo.cells Demo.flds = .ok b ∧ Body.load (quadOps ℚ) Demo.pts Demo.cells.reverse Demo.flds = .ok b' ∧
    (b.calls (quadOps ℚ) []).value (quadOps ℚ) 0 ![5, 5] = .error .domainError ∧ (b'.calls (quadOps ℚ) []).value (quadOps ℚ) 0 ![5, 5] = .error .domainError := by
  obtain ⟨b, hb, _⟩ := C22_load_2d Demo.pts Demo.cells Demo.flds Demo.rect Demo.lens
  obtain ⟨b', hb', _⟩ := C22_load_2d Demo.pts Demo.cells.reverse Demo.flds rectR Demo.lens
  refine ⟨b, b', hb, hb', C152_outside_2d _ _ _ Demo.flds Demo.flds Demo.rect rectR Demo.lens Demo.lens b b' hb hb' 0 0 (by decide) (by decide) [] []
    (by simp [HistOk]) (by simp [HistOk]) _ ⟨0, 0, 3, ?_, ?_, Or.inr ?_⟩⟩
  · unfold IsLow; decide +kernel
  · unfold IsHigh; decide +kernel
  · unfold margin; decide +kernel

end Verif
