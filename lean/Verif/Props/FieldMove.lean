import Verif.Lemmas.MoveMesh
import Verif.Lemmas.HexLaw
import Verif.Lemmas.Demo
import Verif.Props.FieldState
import Verif.Props.FieldConform
import Verif.Props.Field3D
import Mathlib.Tactic.IntervalCases

/-!
# C120, C121: fields do not depend on the units, the origin, or the numbering
-/

namespace Verif
open Spec Mesh PField Body

variable {K : Type} {d n : Nat} [Field K] [LinearOrder K] [FloorRing K] [IsStrictOrderedRing K]

/-! ### Any element class -/

theorem mv_value {E : ElemOps K d} {s t : Fin d → K} (hs : ∀ i, 0 < s i) (M : Moves E s t) (b : Body K d) (i : Nat) (c : Fin d → K) :
    (b.mv s t).value E i (rescale s t c) = b.value E i c := by
  unfold Body.value
  rw [show (b.mv s t).fields = b.fields from rfl]
  cases b.fields[i]? with
  | none => rfl
  | some f => simp only [show (b.mv s t).mesh = b.mesh.mv s t from rfl, value_mv hs M]

theorem mv_grad {E : ElemOps K d} {s t : Fin d → K} (hs : ∀ i, 0 < s i) (M : Moves E s t) (b : Body K d)
    (hb : ∀ f ∈ b.fields, f.zero = 0 ∧ ∀ x ∈ f.buf.bf, x = 0) (i : Nat) (c : Fin d → K) (di : Fin d) :
    (b.mv s t).grad E i (rescale s t c) di = (b.grad E i c di).map (· / s di) := by
  have hf : (fun x : K => x / s di) = fun x => (s di)⁻¹ * x := by funext x; rw [div_eq_mul_inv, mul_comm]
  rw [hf]
  unfold Body.grad
  rw [show (b.mv s t).fields = b.fields from rfl]
  cases h : b.fields[i]? with
  | none => rfl
  | some f =>
    obtain ⟨h1, h2⟩ := hb f (List.mem_of_getElem? h)
    exact grad_mv hs M b.mesh f h1 h2 c di

theorem mv_hess {E : ElemOps K d} {s t : Fin d → K} (hs : ∀ i, 0 < s i) (M : Moves E s t) (b : Body K d)
    (hb : ∀ f ∈ b.fields, f.zero = 0 ∧ ∀ x ∈ f.buf.bf, x = 0) (i : Nat) (c : Fin d → K) (di dj : Fin d) :
    (b.mv s t).hess E i (rescale s t c) di dj = (b.hess E i c di dj).map (· / (s di * s dj)) := by
  have hf : (fun x : K => x / (s di * s dj)) = fun x => (s di * s dj)⁻¹ * x := by funext x; rw [div_eq_mul_inv, mul_comm]
  rw [hf]
  unfold Body.hess
  rw [show (b.mv s t).fields = b.fields from rfl]
  cases h : b.fields[i]? with
  | none => rfl
  | some f =>
    obtain ⟨h1, h2⟩ := hb f (List.mem_of_getElem? h)
    exact hess_mv hs M b.mesh f h1 h2 c di dj

theorem mv_calls {E : ElemOps K d} {s t : Fin d → K} (hs : ∀ i, 0 < s i) (M : Moves E s t) (ops : List (Nat × (Fin d → K))) : ∀ b : Body K d,
    (b.mv s t).calls E (ops.map fun o => (o.1, .value (rescale s t o.2))) = (b.calls E (ops.map fun o => (o.1, .value o.2))).mv s t := by
  induction ops with
  | nil => intro b; rfl
  | cons o ops ih =>
    intro b
    simp only [List.map_cons, Body.calls]
    rw [← ih]
    congr 1
    unfold Body.call
    rw [show (b.mv s t).fields = b.fields from rfl]
    cases b.fields[o.1]? with
    | none => rfl
    | some f => simp only [callField, show (b.mv s t).mesh = b.mesh.mv s t from rfl, value_mv hs M]; rfl

theorem load_fresh {E : ElemOps K d} {pts : List (Fin d → K)} {cells : List (List Nat)} {flds : List (String × List K)} {b : Body K d}
    (hb : load E pts cells flds = .ok b) : ∀ f ∈ b.fields, f.zero = 0 ∧ ∀ x ∈ f.buf.bf, x = 0 := by
  unfold load at hb
  obtain ⟨m, _, h2⟩ := bind_eq_ok.mp hb
  exact fresh_fields flds ⟨m, []⟩ b (by simp) h2

theorem load_moved {E : ElemOps K d} {s t : Fin d → K} (hs : ∀ i, 0 < s i) (M : Moves E s t) {pts : List (Fin d → K)} {cells : List (List Nat)}
    {flds : List (String × List K)} {b b' : Body K d} (hb : load E pts cells flds = .ok b)
    (hb' : load E (pts.map (rescale s t)) cells flds = .ok b') : b' = b.mv s t := by
  rw [load_mv hs M, hb] at hb'
  exact (Except.ok.inj hb').symm

theorem load_same {E : ElemOps K d} {s t : Fin d → K} (hs : ∀ i, 0 < s i) (M : Moves E s t) (pts : List (Fin d → K)) (cells : List (List Nat))
    (flds : List (String × List K)) (e : Err) :
    load E (pts.map (rescale s t)) cells flds = .error e ↔ load E pts cells flds = .error e := by
  rw [load_mv hs M]
  cases load E pts cells flds <;> simp [Except.map]

/-! ### Meshes and points in the new units -/

omit [FloorRing K] in
theorem rescale_injective {s : Fin d → K} (hs : ∀ i, 0 < s i) (t : Fin d → K) (i : Fin d) : Function.Injective fun x => s i * x + t i := by
  intro x y h
  exact mul_left_cancel₀ (hs i).ne' (add_right_cancel h)

omit [FloorRing K] in
theorem nDistinct_rescale {s : Fin d → K} (hs : ∀ i, 0 < s i) (t : Fin d → K) (pts : List (Fin d → K)) (i : Fin d) :
    nDistinct (pts.map (rescale s t)) i = nDistinct pts i := by
  unfold nDistinct
  have : (pts.map (rescale s t)).map (· i) = (pts.map (· i)).map fun x => s i * x + t i := by simp [rescale]
  rw [this]
  have e : ((pts.map (· i)).map fun x => s i * x + t i).toFinset = (pts.map (· i)).toFinset.image fun x => s i * x + t i := by
    ext x; simp
  rw [e, Finset.card_image_of_injective _ (rescale_injective hs t i)]

omit [FloorRing K] in
theorem cellAt_rescale {unit : Fin n → Fin d → K} {s : Fin d → K} (hs : ∀ i, 0 < s i) (t : Fin d → K) {pts : List (Fin d → K)} {cell : List Nat}
    {a h : Fin d → K} (hc : CellAt unit pts cell a h) : CellAt unit (pts.map (rescale s t)) cell (rescale s t a) (fun i => s i * h i) := by
  refine ⟨hc.1, fun i => mul_pos (hs i) (hc.2.1 i), fun j => ?_⟩
  obtain ⟨p, e1, e2⟩ := hc.2.2 j
  refine ⟨p, e1, ?_⟩
  rw [List.getElem?_map, e2]
  rw [Option.map_some, Option.some.injEq]
  funext i
  simp only [cornerPos, rescale]
  ring

omit [FloorRing K] in
theorem rectMesh_rescale {unit : Fin n → Fin d → K} {s : Fin d → K} (hs : ∀ i, 0 < s i) (t : Fin d → K) {pts : List (Fin d → K)}
    {cells : List (List Nat)} (hm : RectMesh unit pts cells) : RectMesh unit (pts.map (rescale s t)) cells where
  nonempty := hm.nonempty
  rect cell hc := by
    obtain ⟨a, h, e⟩ := hm.rect cell hc
    exact ⟨_, _, cellAt_rescale hs t e⟩
  small := by simpa only [nDistinct_rescale hs] using hm.small

omit [FloorRing K] in
theorem covered_rescale {unit : Fin n → Fin d → K} {s : Fin d → K} (hs : ∀ i, 0 < s i) (t : Fin d → K) {pts : List (Fin d → K)}
    {cells : List (List Nat)} {c : Fin d → K} (hc : Covered unit pts cells c) : Covered unit (pts.map (rescale s t)) cells (rescale s t c) := by
  obtain ⟨cell, h1, a, h, h2, h3⟩ := hc
  refine ⟨cell, h1, _, _, cellAt_rescale hs t h2, fun i => ?_⟩
  have e := hs i
  obtain ⟨g1, g2⟩ := h3 i
  simp only [rescale]
  constructor
  · have := mul_le_mul_of_nonneg_left g1 e.le; linarith
  · have := mul_le_mul_of_nonneg_left g2 e.le; linarith

/-- At a point of the body, results do not depend on earlier evaluations. -/
theorem history_free {E : ElemOps K d} {unit : Fin n → Fin d → K} {R : (a h c : Fin d → K) → Prop} (L : ElemLaw E unit R) (T : ElemTotal E)
    {pts : List (Fin d → K)} {cells : List (List Nat)} {flds : List (String × List K)} (hm : RectMesh unit pts cells)
    (hl : ∀ fl ∈ flds, fl.2.length = pts.length) {b : Body K d} (hb : Body.load E pts cells flds = .ok b) {c : Fin d → K}
    (hc : Covered unit pts cells c) {ops : List (Nat × Body.Call K d)} (ho : HistOk pts ops) (i : Nat) (hi : i < flds.length) :
    (b.calls E ops).value E i c = b.value E i c ∧ (∀ di : Fin d, (b.calls E ops).grad E i c di = b.grad E i c di) ∧
      ∀ di dj : Fin d, (b.calls E ops).hess E i c di dj = b.hess E i c di dj := by
  obtain ⟨b0, lo, hi', qs, h1, h2⟩ := load_ok L hm hl
  rw [hb] at h1; cases h1
  obtain ⟨e, cell, a, h, g1, g2, g3, _, g5⟩ := body_eval L h2.mesh hc
  obtain ⟨v, gv, k1, k2, k3⟩ := g5 flds _ (calls_ok L T h2 ops ho) i _ _ (List.getElem?_eq_getElem hi)
  obtain ⟨v', gv', k1', k2', k3'⟩ := g5 flds _ h2 i _ _ (List.getElem?_eq_getElem hi)
  have hv : v = v' := by
    funext j
    obtain ⟨p, e1, e2⟩ := gv j
    obtain ⟨p', e1', e2'⟩ := gv' j
    rw [e1] at e1'; cases e1'
    rw [e2] at e2'
    exact Option.some.inj e2'
  subst hv
  refine ⟨?_, fun di => ?_, fun di dj => ?_⟩
  · obtain ⟨g, hg⟩ := T.value c
    rw [k1 g hg, k1' g hg]
  · obtain ⟨g, hg⟩ := T.grad c di
    rw [k2 di g hg, k2' di g hg]
  · obtain ⟨g, hg⟩ := T.hess c di dj
    rw [k3 di dj g hg, k3' di dj g hg]

/-- Everything C120 says, for any element class. -/
theorem moved {E : ElemOps K d} {s t : Fin d → K} (hs : ∀ i, 0 < s i) (M : Moves E s t) (pts : List (Fin d → K)) (cells : List (List Nat))
    (flds : List (String × List K)) (b b' : Body K d) (hb : load E pts cells flds = .ok b)
    (hb' : load E (pts.map (rescale s t)) cells flds = .ok b') :
    (∀ (ops : List (Nat × (Fin d → K))) (i : Nat) (c : Fin d → K),
      (b'.calls E (ops.map fun o => (o.1, .value (rescale s t o.2)))).value E i (rescale s t c) =
        (b.calls E (ops.map fun o => (o.1, .value o.2))).value E i c) ∧
    (∀ (i : Nat) (c : Fin d → K) (di : Fin d), b'.grad E i (rescale s t c) di = (b.grad E i c di).map (· / s di)) ∧
    (∀ (i : Nat) (c : Fin d → K) (di dj : Fin d), b'.hess E i (rescale s t c) di dj = (b.hess E i c di dj).map (· / (s di * s dj))) ∧
    (∀ i, b'.mesh.minAt i = (b.mesh.minAt i).map fun x => s i * x + t i) ∧
    ∀ i, b'.mesh.maxAt i = (b.mesh.maxAt i).map fun x => s i * x + t i := by
  cases load_moved hs M hb hb'
  refine ⟨fun ops i c => ?_, fun i c di => mv_grad hs M b (load_fresh hb) i c di, fun i c di dj => mv_hess hs M b (load_fresh hb) i c di dj, ?_, ?_⟩
  · rw [mv_calls hs M, mv_value hs M]
  · intro i
    simp only [minAt, Body.mv, Mesh.mv]
    cases b.mesh.min i <;> rfl
  · intro i
    simp only [maxAt, Body.mv, Mesh.mv]
    cases b.mesh.max i <;> rfl

theorem moved_history {E : ElemOps K d} {unit : Fin n → Fin d → K} {R : (a h c : Fin d → K) → Prop} (L : ElemLaw E unit R) (T : ElemTotal E)
    {s t : Fin d → K} (hs : ∀ i, 0 < s i) (M : Moves E s t) (pts : List (Fin d → K)) (cells : List (List Nat))
    (flds : List (String × List K)) (hm : RectMesh unit pts cells) (hl : ∀ fl ∈ flds, fl.2.length = pts.length) (b b' : Body K d)
    (hb : load E pts cells flds = .ok b) (hb' : load E (pts.map (rescale s t)) cells flds = .ok b')
    (ops ops' : List (Nat × Body.Call K d)) (ho : HistOk pts ops) (ho' : HistOk (pts.map (rescale s t)) ops') (i : Nat) (hi : i < flds.length)
    (c : Fin d → K) (hc : Covered unit pts cells c) :
    (b'.calls E ops').value E i (rescale s t c) = (b.calls E ops).value E i c ∧
    (∀ di : Fin d, (b'.calls E ops').grad E i (rescale s t c) di = ((b.calls E ops).grad E i c di).map (· / s di)) ∧
    ∀ di dj : Fin d, (b'.calls E ops').hess E i (rescale s t c) di dj = ((b.calls E ops).hess E i c di dj).map (· / (s di * s dj)) := by
  obtain ⟨h1, h2, h3⟩ := history_free L T hm hl hb hc ho i hi
  obtain ⟨h1', h2', h3'⟩ := history_free L T (rectMesh_rescale hs t hm) (by simpa using hl) hb' (covered_rescale hs t hc) ho' i hi
  obtain ⟨k1, k2, k3, _⟩ := moved hs M pts cells flds b b' hb hb'
  refine ⟨?_, fun di => ?_, fun di dj => ?_⟩
  · rw [h1, h1']; exact k1 [] i c
  · rw [h2, h2', k2]
  · rw [h3, h3', k3]

/-! ### C120 -/

/-- **C120** (2D) Reading the same file with the coordinates in other units fails exactly when reading the original does, in the same way -- for
every list of points, cells and fields, meaningful or not. -/
theorem C120_load_2d (s t : Fin 2 → K) (hs : ∀ i, 0 < s i) (pts : List (Fin 2 → K)) (cells : List (List Nat)) (flds : List (String × List K))
    (e : Err) : load (quadOps K) (pts.map (rescale s t)) cells flds = .error e ↔ load (quadOps K) pts cells flds = .error e :=
  load_same hs (quadMoves hs t) pts cells flds e

/-- **C120** (3D) The same. -/
theorem C120_load_3d (s t : Fin 3 → K) (hs : ∀ i, 0 < s i) (pts : List (Fin 3 → K)) (cells : List (List Nat)) (flds : List (String × List K))
    (e : Err) : load (hexOps K) (pts.map (rescale s t)) cells flds = .error e ↔ load (hexOps K) pts cells flds = .error e :=
  load_same hs (hexMoves hs t) pts cells flds e

/-- **C120** (2D) When it is read: after any evaluations of values, the value (or exception) at every point -- in a cell, in a gap, outside -- is
the one at the corresponding point of the original; the first derivatives asked for are those of the original divided by the factors; the limits of the body are those of the original
in the new units. -/
theorem C120_fields_2d (s t : Fin 2 → K) (hs : ∀ i, 0 < s i) (pts : List (Fin 2 → K)) (cells : List (List Nat)) (flds : List (String × List K))
    (b b' : Body K 2) (hb : load (quadOps K) pts cells flds = .ok b) (hb' : load (quadOps K) (pts.map (rescale s t)) cells flds = .ok b') :
    (∀ (ops : List (Nat × (Fin 2 → K))) (i : Nat) (c : Fin 2 → K),
      (b'.calls (quadOps K) (ops.map fun o => (o.1, .value (rescale s t o.2)))).value (quadOps K) i (rescale s t c) =
        (b.calls (quadOps K) (ops.map fun o => (o.1, .value o.2))).value (quadOps K) i c) ∧
    (∀ (i : Nat) (c : Fin 2 → K) (di : Fin 2), b'.grad (quadOps K) i (rescale s t c) di = (b.grad (quadOps K) i c di).map (· / s di)) ∧
    (∀ (i : Nat) (c : Fin 2 → K) (di dj : Fin 2),
      b'.hess (quadOps K) i (rescale s t c) di dj = (b.hess (quadOps K) i c di dj).map (· / (s di * s dj))) ∧
    (∀ i, b'.mesh.minAt i = (b.mesh.minAt i).map fun x => s i * x + t i) ∧
    ∀ i, b'.mesh.maxAt i = (b.mesh.maxAt i).map fun x => s i * x + t i := moved hs (quadMoves hs t) pts cells flds b b' hb hb'

/-- **C120** (3D) The same. -/
theorem C120_fields_3d (s t : Fin 3 → K) (hs : ∀ i, 0 < s i) (pts : List (Fin 3 → K)) (cells : List (List Nat)) (flds : List (String × List K))
    (b b' : Body K 3) (hb : load (hexOps K) pts cells flds = .ok b) (hb' : load (hexOps K) (pts.map (rescale s t)) cells flds = .ok b') :
    (∀ (ops : List (Nat × (Fin 3 → K))) (i : Nat) (c : Fin 3 → K),
      (b'.calls (hexOps K) (ops.map fun o => (o.1, .value (rescale s t o.2)))).value (hexOps K) i (rescale s t c) =
        (b.calls (hexOps K) (ops.map fun o => (o.1, .value o.2))).value (hexOps K) i c) ∧
    (∀ (i : Nat) (c : Fin 3 → K) (di : Fin 3), b'.grad (hexOps K) i (rescale s t c) di = (b.grad (hexOps K) i c di).map (· / s di)) ∧
    (∀ (i : Nat) (c : Fin 3 → K) (di dj : Fin 3),
      b'.hess (hexOps K) i (rescale s t c) di dj = (b.hess (hexOps K) i c di dj).map (· / (s di * s dj))) ∧
    (∀ i, b'.mesh.minAt i = (b.mesh.minAt i).map fun x => s i * x + t i) ∧
    ∀ i, b'.mesh.maxAt i = (b.mesh.maxAt i).map fun x => s i * x + t i := moved hs (hexMoves hs t) pts cells flds b b' hb hb'

/-- **C120** (2D) At a point of a body of rectangular cells this holds after any evaluations whatever (different ones on the two bodies), for values, first and second
derivatives. -/
theorem C120_history_2d (s t : Fin 2 → K) (hs : ∀ i, 0 < s i) (pts : List (Fin 2 → K)) (cells : List (List Nat))
    (flds : List (String × List K)) (hm : RectMesh quadUnit pts cells) (hl : ∀ fl ∈ flds, fl.2.length = pts.length) (b b' : Body K 2)
    (hb : load (quadOps K) pts cells flds = .ok b) (hb' : load (quadOps K) (pts.map (rescale s t)) cells flds = .ok b')
    (ops ops' : List (Nat × Body.Call K 2)) (ho : HistOk pts ops) (ho' : HistOk (pts.map (rescale s t)) ops') (i : Nat) (hi : i < flds.length)
    (c : Fin 2 → K) (hc : Covered quadUnit pts cells c) :
    (b'.calls (quadOps K) ops').value (quadOps K) i (rescale s t c) = (b.calls (quadOps K) ops).value (quadOps K) i c ∧
    (∀ di : Fin 2, (b'.calls (quadOps K) ops').grad (quadOps K) i (rescale s t c) di =
      ((b.calls (quadOps K) ops).grad (quadOps K) i c di).map (· / s di)) ∧
    ∀ di dj : Fin 2, (b'.calls (quadOps K) ops').hess (quadOps K) i (rescale s t c) di dj =
      ((b.calls (quadOps K) ops).hess (quadOps K) i c di dj).map (· / (s di * s dj)) :=
  moved_history quadLaw quadTotal hs (quadMoves hs t) pts cells flds hm hl b b' hb hb' ops ops' ho ho' i hi c hc

/-- **C120** (3D) The same, also at the points where the 3D code picks a cell that does not contain the point (C28). -/
theorem C120_history_3d (s t : Fin 3 → K) (hs : ∀ i, 0 < s i) (pts : List (Fin 3 → K)) (cells : List (List Nat))
    (flds : List (String × List K)) (hm : RectMesh hexUnit pts cells) (hl : ∀ fl ∈ flds, fl.2.length = pts.length) (b b' : Body K 3)
    (hb : load (hexOps K) pts cells flds = .ok b) (hb' : load (hexOps K) (pts.map (rescale s t)) cells flds = .ok b')
    (ops ops' : List (Nat × Body.Call K 3)) (ho : HistOk pts ops) (ho' : HistOk (pts.map (rescale s t)) ops') (i : Nat) (hi : i < flds.length)
    (c : Fin 3 → K) (hc : Covered hexUnit pts cells c) :
    (b'.calls (hexOps K) ops').value (hexOps K) i (rescale s t c) = (b.calls (hexOps K) ops).value (hexOps K) i c ∧
    (∀ di : Fin 3, (b'.calls (hexOps K) ops').grad (hexOps K) i (rescale s t c) di =
      ((b.calls (hexOps K) ops).grad (hexOps K) i c di).map (· / s di)) ∧
    ∀ di dj : Fin 3, (b'.calls (hexOps K) ops').hess (hexOps K) i (rescale s t c) di dj =
      ((b.calls (hexOps K) ops).hess (hexOps K) i c di dj).map (· / (s di * s dj)) :=
  moved_history hexLaw hexTotal hs (hexMoves hs t) pts cells flds hm hl b b' hb hb' ops ops' ho ho' i hi c hc

/-! ### C121 -/

/-- **C121** Two conforming 2D meshes whose cells are the same boxes with the same corner values give the same value at every point, whatever the numbering of the
nodes, the order of the cells, repeated cells or nodes of no cell, and whatever was evaluated before. -/
theorem C121_geometry_only (pts pts' : List (Fin 2 → K)) (cells cells' : List (List Nat)) (flds flds' : List (String × List K))
    (hm : RectMesh quadUnit pts cells) (hm' : RectMesh quadUnit pts' cells') (hcf' : Conforming quadUnit pts' cells')
    (hl : ∀ fl ∈ flds, fl.2.length = pts.length) (hl' : ∀ fl ∈ flds', fl.2.length = pts'.length) (b b' : Body K 2)
    (hb : Body.load (quadOps K) pts cells flds = .ok b) (hb' : Body.load (quadOps K) pts' cells' flds' = .ok b')
    (ops ops' : List (Nat × Body.Call K 2)) (ho : HistOk pts ops) (ho' : HistOk pts' ops') (i i' : Nat) (name name' : String) (data data' : List K)
    (hi : flds[i]? = some (name, data)) (hi' : flds'[i']? = some (name', data'))
    (hsame : ∀ cell ∈ cells, ∀ a h v, CellAt quadUnit pts cell a h → CornerVals data cell (v : Fin 4 → K) →
      ∃ cell' ∈ cells', CellAt quadUnit pts' cell' a h ∧ CornerVals data' cell' v)
    (c : Fin 2 → K) (hc : Covered quadUnit pts cells c) :
    (b'.calls (quadOps K) ops').value (quadOps K) i' c = (b.calls (quadOps K) ops).value (quadOps K) i c := by
  obtain ⟨cell, a, h, g1, g2, g3, g4⟩ := C23_bilinear pts cells flds hm hl b hb c hc
  obtain ⟨v, gv, k⟩ := g4 ops ho i name data hi
  obtain ⟨cell', e1, e2, e3⟩ := hsame cell g1 a h v g2 gv
  rw [k, C27_single_valued pts' cells' flds' hm' hcf' hl' b' hb' ops' ho' i' name' data' hi' cell' e1 a h e2 v e3 c g3]

omit [FloorRing K] [IsStrictOrderedRing K] in
/-- A cell with renamed nodes. -/
theorem cellAt_rename {unit : Fin n → Fin d → K} {pts pts' : List (Fin d → K)} {σ : Nat → Nat}
    (hσ : ∀ p x, pts[p]? = some x → pts'[σ p]? = some x) {cell : List Nat} {a h : Fin d → K} (hc : CellAt unit pts cell a h) :
    CellAt unit pts' (cell.map σ) a h := by
  refine ⟨by simpa using hc.1, hc.2.1, fun j => ?_⟩
  obtain ⟨p, e1, e2⟩ := hc.2.2 j
  exact ⟨σ p, by rw [List.getElem?_map, e1]; rfl, hσ _ _ e2⟩

/-- **C121** (renumbering) Renaming the nodes -- the node that was number `p` is now number `σ p`, with its coordinates and its data -- changes no value at any
point of the body. -/
theorem C121_renumber (pts pts' : List (Fin 2 → K)) (cells : List (List Nat)) (σ : Nat → Nat) (flds flds' : List (String × List K))
    (hm : RectMesh quadUnit pts cells) (hcf : Conforming quadUnit pts cells) (hσ : ∀ p x, pts[p]? = some x → pts'[σ p]? = some x)
    (hsmall : prod (List.ofFn fun i => (nDistinct pts' i : Int) + 2) ≤ 2147483647)
    (hl : ∀ fl ∈ flds, fl.2.length = pts.length) (hl' : ∀ fl ∈ flds', fl.2.length = pts'.length) (b b' : Body K 2)
    (hb : Body.load (quadOps K) pts cells flds = .ok b) (hb' : Body.load (quadOps K) pts' (cells.map (List.map σ)) flds' = .ok b')
    (ops ops' : List (Nat × Body.Call K 2)) (ho : HistOk pts ops) (ho' : HistOk pts' ops') (i i' : Nat) (name name' : String) (data data' : List K)
    (hi : flds[i]? = some (name, data)) (hi' : flds'[i']? = some (name', data')) (hd : ∀ p y, data[p]? = some y → data'[σ p]? = some y)
    (c : Fin 2 → K) (hc : Covered quadUnit pts cells c) :
    (b'.calls (quadOps K) ops').value (quadOps K) i' c = (b.calls (quadOps K) ops).value (quadOps K) i c := by
  refine C121_geometry_only pts pts' cells (cells.map (List.map σ)) flds flds' hm ⟨by simpa using hm.nonempty, ?_, hsmall⟩ ?_ hl hl' b b' hb hb' ops ops'
    ho ho' i i' name name' data data' hi hi' ?_ c hc
  · intro cell' h'
    obtain ⟨cell, h1, rfl⟩ := List.mem_map.mp h'
    obtain ⟨a, h, e⟩ := hm.rect cell h1
    exact ⟨a, h, cellAt_rename hσ e⟩
  · intro x' hx' y' hy' a h a' h' k1 k2 hne u hu
    obtain ⟨x, hx, rfl⟩ := List.mem_map.mp hx'
    obtain ⟨y, hy, rfl⟩ := List.mem_map.mp hy'
    obtain ⟨ax, hx0, ex⟩ := hm.rect x hx
    obtain ⟨ay, hy0, ey⟩ := hm.rect y hy
    obtain ⟨rfl, rfl⟩ := Mesh.cellAt_unique quadLaw k1 (cellAt_rename hσ ex)
    obtain ⟨rfl, rfl⟩ := Mesh.cellAt_unique quadLaw k2 (cellAt_rename hσ ey)
    obtain ⟨p, p1, p2, p3⟩ := hcf x hx y hy _ _ _ _ ex ey hne u hu
    exact ⟨σ p, List.mem_map_of_mem p1, List.mem_map_of_mem p2, hσ p u p3⟩
  · intro cell hcell a h v e1 e2
    refine ⟨cell.map σ, List.mem_map_of_mem hcell, cellAt_rename hσ e1, fun j => ?_⟩
    obtain ⟨p, q1, q2⟩ := e2 j
    exact ⟨σ p, by rw [List.getElem?_map, q1]; rfl, hd p _ q2⟩

/-! ### Non-vacuity -/

/-- The demo mesh with its nodes in reverse order, and one more node that no cell uses. -/
example : ∃ b b', load (quadOps ℚ) Demo.pts Demo.cells Demo.flds = .ok b ∧
    load (quadOps ℚ) [![9, 9], ![3, 1], ![1, 1], ![0, 1], ![3, 0], ![1, 0], ![0, 0]] (Demo.cells.map (List.map (6 - ·)))
      [("v", [100, 7, 5, 4, 3, 2, 1])] = .ok b' ∧ b'.value (quadOps ℚ) 0 ![1, 1] = b.value (quadOps ℚ) 0 ![1, 1] := by
  have hσ : ∀ p x, Demo.pts[p]? = some x →
      ([![9, 9], ![3, 1], ![1, 1], ![0, 1], ![3, 0], ![1, 0], ![0, 0]] : List (Fin 2 → ℚ))[6 - p]? = some x := by
    intro p x h
    have hp : p < 6 := (List.getElem?_eq_some_iff.mp h).1
    interval_cases p <;> simpa [Demo.pts] using h
  have hd : ∀ p y, ([1, 2, 3, 4, 5, 7] : List ℚ)[p]? = some y → ([100, 7, 5, 4, 3, 2, 1] : List ℚ)[6 - p]? = some y := by
    intro p x h
    have hp : p < 6 := (List.getElem?_eq_some_iff.mp h).1
    interval_cases p <;> simpa using h
  have hm' : RectMesh quadUnit ([![9, 9], ![3, 1], ![1, 1], ![0, 1], ![3, 0], ![1, 0], ![0, 0]] : List (Fin 2 → ℚ)) (Demo.cells.map (List.map (6 - ·))) := by
    refine ⟨by decide, ?_, by decide +kernel⟩
    intro cell' h'
    obtain ⟨cell, h1, rfl⟩ := List.mem_map.mp h'
    obtain ⟨a, h, e⟩ := Demo.rect.rect cell h1
    exact ⟨a, h, cellAt_rename hσ e⟩
  obtain ⟨b, hb, _⟩ := C22_load_2d Demo.pts Demo.cells Demo.flds Demo.rect Demo.lens
  obtain ⟨b', hb', _⟩ := C22_load_2d _ _ [("v", [100, 7, 5, 4, 3, 2, 1])] hm' (by decide)
  refine ⟨b, b', hb, hb', ?_⟩
  exact C121_renumber _ _ _ _ _ _ Demo.rect Demo.conforming hσ hm'.small Demo.lens (by decide) b b' hb hb' [] [] (by simp [HistOk]) (by simp [HistOk]) 0 0
    "u" "v" _ _ rfl rfl hd _ ⟨_, by simp [Demo.cells], _, _, Demo.cell0, by intro i; fin_cases i <;> decide +kernel⟩

/-- The demo mesh in millimetres with another origin can be read, and the shared node has its value. -/
example : ∃ b b', load (quadOps ℚ) Demo.pts Demo.cells Demo.flds = .ok b ∧
    load (quadOps ℚ) (Demo.pts.map (rescale ![1000, 1000] ![5, -7])) Demo.cells Demo.flds = .ok b' ∧
    b.value (quadOps ℚ) 0 ![1, 1] = .ok 5 ∧ b'.value (quadOps ℚ) 0 ![1005, 993] = .ok 5 := by
  have hs : ∀ i : Fin 2, (0 : ℚ) < ![1000, 1000] i := by decide +kernel
  obtain ⟨b, hb, _⟩ := C22_load_2d Demo.pts Demo.cells Demo.flds Demo.rect Demo.lens
  obtain ⟨b', hb', _⟩ := C22_load_2d (Demo.pts.map (rescale ![1000, 1000] ![5, -7])) Demo.cells Demo.flds
    (rectMesh_rescale hs _ Demo.rect) (by simpa using Demo.lens)
  have h1 := C24_nodal _ _ _ Demo.rect Demo.conforming Demo.lens b hb [] (by simp [HistOk]) 0 "u" _ rfl 4 [0, 1, 4, 3] (by simp [Demo.cells])
      (by simp) _ rfl _ rfl
  refine ⟨b, b', hb, hb', h1, ?_⟩
  have := (C120_fields_2d _ _ hs _ _ _ b b' hb hb').1 [] 0 ![1, 1]
  have e : rescale ![1000, 1000] ![5, -7] ![1, 1] = (![1005, 993] : Fin 2 → ℚ) := by decide +kernel
  rw [e] at this
  exact this.trans h1

end Verif
