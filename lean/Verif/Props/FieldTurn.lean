import Verif.Lemmas.Turn

/-!
# Turned, mirrored and stretched bodies (C140)

The turned file has the same points and data, in other coordinates; cell number `k` has the same nodes as before, in the order the format asks for.
-/

namespace Verif
open Spec Mesh PField Body
variable {K : Type} [Field K] [LinearOrder K] [FloorRing K] [IsStrictOrderedRing K]

omit [FloorRing K] [IsStrictOrderedRing K] in
/-- The corner values of a cell exist when there is a value for every node. -/
theorem cornerVals_exist {n d : Nat} {unit : Fin n → Fin d → K} {pts : List (Fin d → K)} {cell : List Nat} {a h : Fin d → K} {data : List K}
    (hc : CellAt unit pts cell a h) (hl : data.length = pts.length) : ∃ v : Fin n → K, CornerVals data cell v := by
  have : ∀ j : Fin n, ∃ y p, cell[(j : Nat)]? = some p ∧ data[p]? = some y := by
    intro j
    obtain ⟨p, e1, e2⟩ := hc.2.2 j
    have := (List.getElem?_eq_some_iff.mp e2).1
    exact ⟨_, p, e1, List.getElem?_eq_getElem (by omega)⟩
  choose v hv using this
  exact ⟨v, hv⟩

omit [FloorRing K] in
/-- The first cell that contains a point, in a file and in the turned file. -/
theorem first_turn {n d : Nat} {unit : Fin n → Fin d → K} (C : Corners unit) {π : Equiv.Perm (Fin d)} {s t : Fin d → K} (hs : ∀ i, s i ≠ 0)
    {pts : List (Fin d → K)} {cells cells' : List (List Nat)} (hperm : List.Forall₂ List.Perm cells' cells)
    (hr : ∀ cell ∈ cells, ∃ a h, CellAt unit pts cell a h) (hr' : ∀ cell ∈ cells', ∃ a h, CellAt unit (pts.map (turn π s t)) cell a h) {c : Fin d → K}
    (hc : Covered unit pts cells c) :
    ∃ (e : Nat) (cell cell' : List Nat) (a h a' h' : Fin d → K), cells[e]? = some cell ∧ cells'[e]? = some cell' ∧ cell'.Perm cell ∧ CellAt unit pts cell a h ∧
      CellAt unit (pts.map (turn π s t)) cell' a' h' ∧ InCell a h c ∧ InCell a' h' (turn π s t c) ∧
      (∀ e' < e, ∀ (x : List Nat) (a h : Fin d → K), cells[e']? = some x → CellAt unit pts x a h → ¬ InCell a h c) ∧
      ∀ e' < e, ∀ (x : List Nat) (a h : Fin d → K), cells'[e']? = some x → CellAt unit (pts.map (turn π s t)) x a h → ¬ InCell a h (turn π s t c) := by
  classical
  have hex : ∃ e : Nat, ∃ cell a h, cells[e]? = some cell ∧ CellAt unit pts cell a h ∧ InCell a h c := by
    obtain ⟨cell, h1, a, h, h2, h3⟩ := hc
    obtain ⟨e, he, rfl⟩ := List.mem_iff_getElem.mp h1
    exact ⟨e, _, a, h, List.getElem?_eq_getElem he, h2, h3⟩
  have hlen := hperm.length_eq
  have hat : ∀ (k : Nat) x x', cells[k]? = some x → cells'[k]? = some x' → x'.Perm x := by
    intro k x x' h1 h2
    obtain ⟨l1, e1⟩ := List.getElem?_eq_some_iff.mp h1
    obtain ⟨l2, e2⟩ := List.getElem?_eq_some_iff.mp h2
    have := (List.forall₂_iff_get.mp hperm).2 k l2 l1
    simpa [e1, e2] using this
  obtain ⟨cell, a, h, g1, g2, g3⟩ := Nat.find_spec hex
  have hlt := (List.getElem?_eq_some_iff.mp g1).1
  have g1' : cells'[Nat.find hex]? = some (cells'[Nat.find hex]'(by omega)) := List.getElem?_eq_getElem _
  obtain ⟨a', h', g2'⟩ := hr' _ (List.mem_of_getElem? g1')
  have hp := hat _ _ _ g1 g1'
  refine ⟨Nat.find hex, cell, _, a, h, a', h', g1, g1', hp, g2, g2', g3, (inCell_turn C hs hp g2 g2' c).mpr g3, ?_, ?_⟩
  · intro e' he' x a h k1 k2 k3
    exact Nat.find_min hex he' ⟨x, a, h, k1, k2, k3⟩
  · intro e' he' x' a1 h1 k1 k2 k3
    have l1 := (List.getElem?_eq_some_iff.mp k1).1
    have k1' : cells[e']? = some (cells[e']'(by omega)) := List.getElem?_eq_getElem _
    obtain ⟨a0, h0, k2'⟩ := hr _ (List.mem_of_getElem? k1')
    exact Nat.find_min hex he' ⟨_, a0, h0, k1', k2', (inCell_turn C hs (hat _ _ _ k1' k1) k2' k2 c).mp k3⟩

/-- **C140** (2D) Turn, mirror, stretch or move a mesh: at every point of the body, also on edges, and after any histories, the value of a field is the one at the
corresponding point of the original, the derivatives are those of the original in the corresponding directions, divided by the factors. -/
theorem C140_turned_2d (π : Equiv.Perm (Fin 2)) (s t : Fin 2 → K) (hs : ∀ i, s i ≠ 0) (pts : List (Fin 2 → K)) (cells cells' : List (List Nat))
    (flds : List (String × List K)) (hm : RectMesh quadUnit pts cells) (hm' : RectMesh quadUnit (pts.map (turn π s t)) cells')
    (hperm : List.Forall₂ List.Perm cells' cells) (hl : ∀ fl ∈ flds, fl.2.length = pts.length) (b b' : Body K 2)
    (hb : load (quadOps K) pts cells flds = .ok b) (hb' : load (quadOps K) (pts.map (turn π s t)) cells' flds = .ok b')
    (ops ops' : List (Nat × Body.Call K 2)) (ho : HistOk pts ops) (ho' : HistOk (pts.map (turn π s t)) ops') (i : Nat) (hi : i < flds.length)
    (c : Fin 2 → K) (hc : Covered quadUnit pts cells c) :
    (b'.calls (quadOps K) ops').value (quadOps K) i (turn π s t c) = (b.calls (quadOps K) ops).value (quadOps K) i c ∧
    (∀ di : Fin 2, (b'.calls (quadOps K) ops').grad (quadOps K) i (turn π s t c) di =
      ((b.calls (quadOps K) ops).grad (quadOps K) i c (π di)).map (· / s di)) ∧
    ∀ di dj : Fin 2, (b'.calls (quadOps K) ops').hess (quadOps K) i (turn π s t c) di dj =
      ((b.calls (quadOps K) ops).hess (quadOps K) i c (π di) (π dj)).map (· / (s di * s dj)) := by
  obtain ⟨e, cell, cell', a, h, a', h', g1, g1', hp, g2, g2', g3, g3', f, f'⟩ := first_turn quadCorners hs hperm hm.rect hm'.rect hc
  have hi' : flds[i]? = some (flds[i].1, flds[i].2) := by rw [List.getElem?_eq_getElem hi]
  have hlen := hl _ (List.getElem_mem hi)
  obtain ⟨v, hv⟩ := cornerVals_exist g2 hlen
  obtain ⟨v', hv'⟩ := cornerVals_exist g2' (data := flds[i].2) (by simpa using hlen)
  obtain ⟨k1, k2, k3⟩ := C139_first_cell_2d pts cells flds hm hl b hb c e cell a h g1 g2 g3 f ops ho i _ _ hi' v hv
  obtain ⟨k1', k2', k3'⟩ := C139_first_cell_2d _ cells' flds hm' (by simpa using hl) b' hb' _ e cell' a' h' g1' g2' g3' f' ops' ho' i _ _ hi' v' hv'
  have key : ∀ x, bilinear a' h' v' (turn π s t x) = bilinear a h v x :=
    interp_turn quadCorners (bilinear_affine a h v) (bilinear_affine a' h' v') hp g2 g2' hv hv' (bilinear_corner (fun i => (g2.2.1 i).ne') v)
      (bilinear_corner (fun i => (g2'.2.1 i).ne') v')
  have st : ∀ (di : Fin 2) x, Function.update (turn π s t x) di (turn π s t x di + s di) = turn π s t (Function.update x (π di) (x (π di) + 1)) := by
    intro di x; rw [turn_step, mul_one]
  refine ⟨by rw [k1, k1', key], fun di => ?_, fun di dj => ?_⟩
  · rw [k2' di (s di) (hs di), k2 (π di) 1 one_ne_zero, st, key, key]
    simp [Except.map]
  · rw [k3' di dj (s di) (s dj) (hs di) (hs dj), k3 (π di) (π dj) 1 1 one_ne_zero one_ne_zero, st di, st dj, st dj, key, key, key, key]
    simp [Except.map]

/-- **C140** (3D) The same in 3D for values and first derivatives, at points such that, in both bodies, every cell over or under the point whose vertical range comes
near it contains it. -/
theorem C140_turned_3d (π : Equiv.Perm (Fin 3)) (s t : Fin 3 → K) (hs : ∀ i, s i ≠ 0) (pts : List (Fin 3 → K)) (cells cells' : List (List Nat))
    (flds : List (String × List K)) (hm : RectMesh hexUnit pts cells) (hm' : RectMesh hexUnit (pts.map (turn π s t)) cells')
    (hperm : List.Forall₂ List.Perm cells' cells) (hl : ∀ fl ∈ flds, fl.2.length = pts.length) (b b' : Body K 3)
    (hb : load (hexOps K) pts cells flds = .ok b) (hb' : load (hexOps K) (pts.map (turn π s t)) cells' flds = .ok b')
    (ops ops' : List (Nat × Body.Call K 3)) (ho : HistOk pts ops) (ho' : HistOk (pts.map (turn π s t)) ops') (i : Nat) (hi : i < flds.length)
    (c : Fin 3 → K) (hc : Covered hexUnit pts cells c) (hz : NearClear pts cells c) (hz' : NearClear (pts.map (turn π s t)) cells' (turn π s t c)) :
    (b'.calls (hexOps K) ops').value (hexOps K) i (turn π s t c) = (b.calls (hexOps K) ops).value (hexOps K) i c ∧
    ∀ di : Fin 3, (b'.calls (hexOps K) ops').grad (hexOps K) i (turn π s t c) di =
      ((b.calls (hexOps K) ops).grad (hexOps K) i c (π di)).map (· / s di) := by
  obtain ⟨e, cell, cell', a, h, a', h', g1, g1', hp, g2, g2', g3, g3', f, f'⟩ := first_turn hexCorners hs hperm hm.rect hm'.rect hc
  have hi' : flds[i]? = some (flds[i].1, flds[i].2) := by rw [List.getElem?_eq_getElem hi]
  have hlen := hl _ (List.getElem_mem hi)
  obtain ⟨v, hv⟩ := cornerVals_exist g2 hlen
  obtain ⟨v', hv'⟩ := cornerVals_exist g2' (data := flds[i].2) (by simpa using hlen)
  obtain ⟨k1, k2⟩ := C139_first_cell_3d_clear pts cells flds hm hl b hb c hz e cell a h g1 g2 g3 f ops ho i _ _ hi' v hv
  obtain ⟨k1', k2'⟩ := C139_first_cell_3d_clear _ cells' flds hm' (by simpa using hl) b' hb' _ hz' e cell' a' h' g1' g2' g3' f' ops' ho' i _ _ hi' v' hv'
  have cor : ∀ {a h : Fin 3 → K}, (∀ i, 0 < h i) → ∀ (v : Fin 8 → K) (j : Fin 8), trilinear a h v (cornerPos a h (hexUnit j)) = v j := by
    intro a h hh v j
    have h0 := (hh 0).ne'
    have h1 := (hh 1).ne'
    have h2 := (hh 2).ne'
    fin_cases j <;> simp [trilinear, cornerPos, hexUnit, h0, h1, h2]
  have key : ∀ x, trilinear a' h' v' (turn π s t x) = trilinear a h v x :=
    interp_turn hexCorners (trilinear_affine a h v) (trilinear_affine a' h' v') hp g2 g2' hv hv' (cor g2.2.1 v) (cor g2'.2.1 v')
  have st : ∀ (di : Fin 3) x, Function.update (turn π s t x) di (turn π s t x di + s di) = turn π s t (Function.update x (π di) (x (π di) + 1)) := by
    intro di x; rw [turn_step, mul_one]
  refine ⟨by rw [k1, k1', key], fun di => ?_⟩
  rw [k2' di (s di) (hs di), k2 (π di) 1 one_ne_zero, st, key, key]
  simp [Except.map]

namespace TurnDemo

/-- The demo mesh turned by a right angle, `(x,y) ↦ (-y,x)`; the nodes of each cell are listed from the new lower left corner. -/
def cells : List (List Nat) := [[3, 0, 1, 4], [4, 1, 2, 5]]

theorem rect : RectMesh quadUnit (Demo.pts.map (turn (Equiv.swap 0 1) ![-1, 1] ![0, 0])) cells where
  nonempty := by decide
  rect := by
    intro cell hc
    simp only [cells, List.mem_cons, List.not_mem_nil, or_false] at hc
    rcases hc with rfl | rfl
    · refine ⟨![-1, 0], ![1, 1], rfl, by decide +kernel, ?_⟩
      intro j
      fin_cases j
      · exact ⟨3, rfl, by decide +kernel⟩
      · exact ⟨0, rfl, by decide +kernel⟩
      · exact ⟨1, rfl, by decide +kernel⟩
      · exact ⟨4, rfl, by decide +kernel⟩
    · refine ⟨![-1, 1], ![1, 2], rfl, by decide +kernel, ?_⟩
      intro j
      fin_cases j
      · exact ⟨4, rfl, by decide +kernel⟩
      · exact ⟨1, rfl, by decide +kernel⟩
      · exact ⟨2, rfl, by decide +kernel⟩
      · exact ⟨5, rfl, by decide +kernel⟩
  small := by decide +kernel

end TurnDemo

/-- The hypotheses of the theorem are met by the demo mesh and its turn by a right angle. -/
example (b b' : Body ℚ 2) (hb : load (quadOps ℚ) Demo.pts Demo.cells Demo.flds = .ok b)
    (hb' : load (quadOps ℚ) (Demo.pts.map (turn (Equiv.swap 0 1) ![-1, 1] ![0, 0])) TurnDemo.cells Demo.flds = .ok b') (c : Fin 2 → ℚ)
    (hc : Covered quadUnit Demo.pts Demo.cells c) :
    b'.grad (quadOps ℚ) 0 (turn (Equiv.swap 0 1) ![-1, 1] ![0, 0] c) 0 = (b.grad (quadOps ℚ) 0 c 1).map (· / -1) :=
  (C140_turned_2d (Equiv.swap 0 1) ![-1, 1] ![0, 0] (by decide +kernel) Demo.pts Demo.cells TurnDemo.cells Demo.flds Demo.rect TurnDemo.rect
    (by decide +kernel) Demo.lens b b' hb hb' [] [] (by simp [HistOk]) (by simp [HistOk]) 0 (by decide) c hc).2.1 0

end Verif
