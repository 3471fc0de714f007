import Verif.Lemmas.Rename
import Verif.Props.Field3DMore
import Mathlib.Tactic.IntervalCases

/-!
# Property C130: the numbers of the nodes do not matter

Unlike C121 this is about every list of points, cells and fields, whether they make sense or not, about positions in cells, in gaps and outside,
about derivatives and stored results, in 2D and 3D, in exact and in floating-point arithmetic.
-/

namespace Verif
variable {K : Type} {d : Nat} [Field K] [LinearOrder K] [FloorRing K]
open Spec

/-- The fields with their data renumbered. -/
def Spec.FieldsRenumbered (σ : Nat → Nat) (flds flds' : List (String × List K)) : Prop :=
  List.Forall₂ (fun fl fl' => fl'.1 = fl.1 ∧ Renumbered σ fl.2 fl'.2) flds flds'

namespace Ren

theorem call_id (E : ElemOps K d) (b : Body K d) (i : Nat) (op : Body.Call K d) : Fl.call id E b i op = b.call E i op := by
  simp only [Fl.call, Body.call]
  cases b.fields[i]? with
  | none => rfl
  | some f =>
    cases op <;> simp [Fl.callField, Body.callField, Fl.value_id, Fl.gradAt_id, Fl.hessAt_id, Fl.evalGradLoop_id, Fl.evalHessLoop_id,
      PField.evalGrad, PField.evalHess]

theorem evals_id (E : ElemOps K d) (ops : List (Nat × Body.Call K d)) : ∀ b, Fl.evals id E b ops = b.calls E ops := by
  induction ops with
  | nil => intro b; rfl
  | cons o ops ih =>
    intro b
    simp only [Fl.evals, Body.calls]
    rw [ih, call_id]

theorem value_id (E : ElemOps K d) (b : Body K d) (i : Nat) (c : Fin d → K) : Fl.eval id E b i (.value c) = b.value E i c := by
  simp only [Fl.eval, Fl.queryField, Body.value]
  cases b.fields[i]? <;> simp [Fl.value_id]

theorem grad_id (E : ElemOps K d) (b : Body K d) (i : Nat) (c : Fin d → K) (di : Fin d) : Fl.eval id E b i (.grad c di) = b.grad E i c di := by
  simp only [Fl.eval, Fl.queryField, Body.grad]
  cases b.fields[i]? <;> simp [Fl.gradAt_id]

theorem hess_id (E : ElemOps K d) (b : Body K d) (i : Nat) (c : Fin d → K) (di dj : Fin d) :
    Fl.eval id E b i (.hess c di dj) = b.hess E i c di dj := by
  simp only [Fl.eval, Fl.queryField, Body.hess]
  cases b.fields[i]? <;> simp [Fl.hessAt_id]

/-- Reading and evaluating, in the arithmetic `rnd`. -/
theorem both (rnd : K → K) {E : ElemOps K d} (hE : RenOk E) (σ : Equiv.Perm Nat) (pts pts' : List (Fin d → K)) (cells : List (List Nat))
    (flds flds' : List (String × List K)) (h : Renumbered σ pts pts') (hf : FieldsRenumbered σ flds flds') :
    (∀ e, Fl.load rnd E pts' (cells.map (List.map σ)) flds' = .error e ↔ Fl.load rnd E pts cells flds = .error e) ∧
    ∀ b b', Fl.load rnd E pts cells flds = .ok b → Fl.load rnd E pts' (cells.map (List.map σ)) flds' = .ok b' →
      (∀ i, b'.mesh.minAt i = b.mesh.minAt i ∧ b'.mesh.maxAt i = b.mesh.maxAt i) ∧
      ∀ (ops : List (Nat × Body.Call K d)) (i : Nat),
        (∀ op, Fl.eval rnd E (Fl.evals rnd E b' ops) i op = Fl.eval rnd E (Fl.evals rnd E b ops) i op) ∧
        (Fl.evals rnd E b' ops).getVal i = (Fl.evals rnd E b ops).getVal i ∧
        (∀ di, (Fl.evals rnd E b' ops).getGrad i di = (Fl.evals rnd E b ops).getGrad i di) ∧
        ∀ di dj, (Fl.evals rnd E b' ops).getHess i di dj = (Fl.evals rnd E b ops).getHess i di dj := by
  rcases Fl.load_ren rnd hE h cells hf with ⟨c, c', h1, h2, h3⟩ | ⟨e, h1, h2⟩
  · rw [h1, h2]
    refine ⟨fun e => by simp, fun b b' hb hb' => ?_⟩
    cases hb; cases hb'
    refine ⟨fun i => ?_, fun ops i => ?_⟩
    · obtain ⟨n', hm⟩ := h3.mesh
      rw [hm]; exact ⟨rfl, rfl⟩
    · have h4 := Fl.evals_ren rnd hE ops h3
      exact ⟨Fl.eval_ren rnd hE h4 i, Fl.stored_ren h4 i⟩
  · rw [h1, h2]
    exact ⟨fun _ => Iff.rfl, fun b b' hb => by cases hb⟩

/-- The same in exact arithmetic. -/
theorem exactly {E : ElemOps K d} (hE : RenOk E) (σ : Equiv.Perm Nat) (pts pts' : List (Fin d → K)) (cells : List (List Nat))
    (flds flds' : List (String × List K)) (h : Renumbered σ pts pts') (hf : FieldsRenumbered σ flds flds') :
    (∀ e, Body.load E pts' (cells.map (List.map σ)) flds' = .error e ↔ Body.load E pts cells flds = .error e) ∧
    ∀ b b', Body.load E pts cells flds = .ok b → Body.load E pts' (cells.map (List.map σ)) flds' = .ok b' →
      (∀ i, b'.mesh.minAt i = b.mesh.minAt i ∧ b'.mesh.maxAt i = b.mesh.maxAt i) ∧
      ∀ (ops : List (Nat × Body.Call K d)) (i : Nat),
        (∀ c, (b'.calls E ops).value E i c = (b.calls E ops).value E i c) ∧
        (∀ c (di : Fin d), (b'.calls E ops).grad E i c di = (b.calls E ops).grad E i c di) ∧
        (∀ c (di dj : Fin d), (b'.calls E ops).hess E i c di dj = (b.calls E ops).hess E i c di dj) ∧
        (b'.calls E ops).getVal i = (b.calls E ops).getVal i ∧ (∀ di, (b'.calls E ops).getGrad i di = (b.calls E ops).getGrad i di) ∧
        ∀ di dj, (b'.calls E ops).getHess i di dj = (b.calls E ops).getHess i di dj := by
  have := both id hE σ pts pts' cells flds flds' h hf
  simp only [Fl.load_id, evals_id] at this
  refine ⟨this.1, fun b b' hb hb' => ?_⟩
  obtain ⟨h1, h2⟩ := this.2 b b' hb hb'
  refine ⟨h1, fun ops i => ?_⟩
  obtain ⟨k1, k2⟩ := h2 ops i
  refine ⟨fun c => ?_, fun c di => ?_, fun c di dj => ?_, k2⟩
  · rw [← value_id, ← value_id]; exact k1 _
  · rw [← grad_id, ← grad_id]; exact k1 _
  · rw [← hess_id, ← hess_id]; exact k1 _

theorem quadRen : RenOk (quadOps K) := by have := Fl.quadRen (id : K → K); rwa [Fl.quadOps_id] at this
theorem hexRen : RenOk (hexOps K) := by have := Fl.hexRen (id : K → K); rwa [Fl.hexOps_id] at this

end Ren

/-- **C130** (2D, in floating-point or any other arithmetic) A file and the same file with its nodes renumbered: reading fails for both or for
neither, in the same way; when read, the two bodies have the same limits, and after the same evaluations, wherever and of whatever, every
evaluation of every field, at every position, has the same outcome, and the stored results are the same. -/
theorem C130_doubles_2d (rnd : K → K) (σ : Equiv.Perm Nat) (pts pts' : List (Fin 2 → K)) (cells : List (List Nat))
    (flds flds' : List (String × List K)) (h : Renumbered σ pts pts') (hf : FieldsRenumbered σ flds flds') :
    let E := Fl.quadOps rnd
    (∀ e, Fl.load rnd E pts' (cells.map (List.map σ)) flds' = .error e ↔ Fl.load rnd E pts cells flds = .error e) ∧
    ∀ b b', Fl.load rnd E pts cells flds = .ok b → Fl.load rnd E pts' (cells.map (List.map σ)) flds' = .ok b' →
      (∀ i, b'.mesh.minAt i = b.mesh.minAt i ∧ b'.mesh.maxAt i = b.mesh.maxAt i) ∧
      ∀ (ops : List (Nat × Body.Call K 2)) (i : Nat),
        (∀ op, Fl.eval rnd E (Fl.evals rnd E b' ops) i op = Fl.eval rnd E (Fl.evals rnd E b ops) i op) ∧
        (Fl.evals rnd E b' ops).getVal i = (Fl.evals rnd E b ops).getVal i ∧
        (∀ di, (Fl.evals rnd E b' ops).getGrad i di = (Fl.evals rnd E b ops).getGrad i di) ∧
        ∀ di dj, (Fl.evals rnd E b' ops).getHess i di dj = (Fl.evals rnd E b ops).getHess i di dj :=
  Ren.both rnd (Fl.quadRen rnd) σ pts pts' cells flds flds' h hf

/-- **C130** (3D, in floating-point or any other arithmetic) The same, also at the positions where the 3D code picks a cell of another layer (C28). -/
theorem C130_doubles_3d (rnd : K → K) (σ : Equiv.Perm Nat) (pts pts' : List (Fin 3 → K)) (cells : List (List Nat))
    (flds flds' : List (String × List K)) (h : Renumbered σ pts pts') (hf : FieldsRenumbered σ flds flds') :
    let E := Fl.hexOps rnd
    (∀ e, Fl.load rnd E pts' (cells.map (List.map σ)) flds' = .error e ↔ Fl.load rnd E pts cells flds = .error e) ∧
    ∀ b b', Fl.load rnd E pts cells flds = .ok b → Fl.load rnd E pts' (cells.map (List.map σ)) flds' = .ok b' →
      (∀ i, b'.mesh.minAt i = b.mesh.minAt i ∧ b'.mesh.maxAt i = b.mesh.maxAt i) ∧
      ∀ (ops : List (Nat × Body.Call K 3)) (i : Nat),
        (∀ op, Fl.eval rnd E (Fl.evals rnd E b' ops) i op = Fl.eval rnd E (Fl.evals rnd E b ops) i op) ∧
        (Fl.evals rnd E b' ops).getVal i = (Fl.evals rnd E b ops).getVal i ∧
        (∀ di, (Fl.evals rnd E b' ops).getGrad i di = (Fl.evals rnd E b ops).getGrad i di) ∧
        ∀ di dj, (Fl.evals rnd E b' ops).getHess i di dj = (Fl.evals rnd E b ops).getHess i di dj :=
  Ren.both rnd (Fl.hexRen rnd) σ pts pts' cells flds flds' h hf

/-- **C130** (2D, exact arithmetic) The same. -/
theorem C130_exact_2d (σ : Equiv.Perm Nat) (pts pts' : List (Fin 2 → K)) (cells : List (List Nat))
    (flds flds' : List (String × List K)) (h : Renumbered σ pts pts') (hf : FieldsRenumbered σ flds flds') :
    let E := quadOps K
    (∀ e, Body.load E pts' (cells.map (List.map σ)) flds' = .error e ↔ Body.load E pts cells flds = .error e) ∧
    ∀ b b', Body.load E pts cells flds = .ok b → Body.load E pts' (cells.map (List.map σ)) flds' = .ok b' →
      (∀ i, b'.mesh.minAt i = b.mesh.minAt i ∧ b'.mesh.maxAt i = b.mesh.maxAt i) ∧
      ∀ (ops : List (Nat × Body.Call K 2)) (i : Nat),
        (∀ c, (b'.calls E ops).value E i c = (b.calls E ops).value E i c) ∧
        (∀ c (di : Fin 2), (b'.calls E ops).grad E i c di = (b.calls E ops).grad E i c di) ∧
        (∀ c (di dj : Fin 2), (b'.calls E ops).hess E i c di dj = (b.calls E ops).hess E i c di dj) ∧
        (b'.calls E ops).getVal i = (b.calls E ops).getVal i ∧ (∀ di, (b'.calls E ops).getGrad i di = (b.calls E ops).getGrad i di) ∧
        ∀ di dj, (b'.calls E ops).getHess i di dj = (b.calls E ops).getHess i di dj :=
  Ren.exactly Ren.quadRen σ pts pts' cells flds flds' h hf

/-- **C130** (3D, exact arithmetic) The same. -/
theorem C130_exact_3d (σ : Equiv.Perm Nat) (pts pts' : List (Fin 3 → K)) (cells : List (List Nat))
    (flds flds' : List (String × List K)) (h : Renumbered σ pts pts') (hf : FieldsRenumbered σ flds flds') :
    let E := hexOps K
    (∀ e, Body.load E pts' (cells.map (List.map σ)) flds' = .error e ↔ Body.load E pts cells flds = .error e) ∧
    ∀ b b', Body.load E pts cells flds = .ok b → Body.load E pts' (cells.map (List.map σ)) flds' = .ok b' →
      (∀ i, b'.mesh.minAt i = b.mesh.minAt i ∧ b'.mesh.maxAt i = b.mesh.maxAt i) ∧
      ∀ (ops : List (Nat × Body.Call K 3)) (i : Nat),
        (∀ c, (b'.calls E ops).value E i c = (b.calls E ops).value E i c) ∧
        (∀ c (di : Fin 3), (b'.calls E ops).grad E i c di = (b.calls E ops).grad E i c di) ∧
        (∀ c (di dj : Fin 3), (b'.calls E ops).hess E i c di dj = (b.calls E ops).hess E i c di dj) ∧
        (b'.calls E ops).getVal i = (b.calls E ops).getVal i ∧ (∀ di, (b'.calls E ops).getGrad i di = (b.calls E ops).getGrad i di) ∧
        ∀ di dj, (b'.calls E ops).getHess i di dj = (b.calls E ops).getHess i di dj :=
  Ren.exactly Ren.hexRen σ pts pts' cells flds flds' h hf

section
variable [IsStrictOrderedRing K]

/-- **C130** (3D, other cells order) Two conforming 3D meshes whose cells are the same boxes with the same corner values give the same value at every
point that C28 covers in both (for instance, anywhere in bodies of one layer), whatever the numbering of the nodes, the order of the cells, repeated cells
or nodes of no cell, and whatever was evaluated before. (Elsewhere the order of the cells matters: `C112_3d_violated`.) -/
theorem C130_geometry_only_3d (pts pts' : List (Fin 3 → K)) (cells cells' : List (List Nat)) (flds flds' : List (String × List K))
    (hm : RectMesh hexUnit pts cells) (hm' : RectMesh hexUnit pts' cells') (hcf' : Conforming hexUnit pts' cells')
    (hl : ∀ fl ∈ flds, fl.2.length = pts.length) (hl' : ∀ fl ∈ flds', fl.2.length = pts'.length) (b b' : Body K 3)
    (hb : Body.load (hexOps K) pts cells flds = .ok b) (hb' : Body.load (hexOps K) pts' cells' flds' = .ok b')
    (ops ops' : List (Nat × Body.Call K 3)) (ho : HistOk pts ops) (ho' : HistOk pts' ops') (i i' : Nat) (name name' : String) (data data' : List K)
    (hi : flds[i]? = some (name, data)) (hi' : flds'[i']? = some (name', data'))
    (hsame : ∀ cell ∈ cells, ∀ a h v, CellAt hexUnit pts cell a h → CornerVals data cell (v : Fin 8 → K) →
      ∃ cell' ∈ cells', CellAt hexUnit pts' cell' a h ∧ CornerVals data' cell' v)
    (c : Fin 3 → K) (hc : Covered hexUnit pts cells c) (hcl : NearClear pts cells c) (hcl' : NearClear pts' cells' c) :
    (b'.calls (hexOps K) ops').value (hexOps K) i' c = (b.calls (hexOps K) ops).value (hexOps K) i c := by
  obtain ⟨cell, a, h, g1, g2, g3, g4⟩ := C28_trilinear_partial pts cells flds hm hl b hb c hc hcl
  obtain ⟨v, gv, k⟩ := g4 ops ho i name data hi
  obtain ⟨cell', e1, e2, e3⟩ := hsame cell g1 a h v g2 gv
  rw [k, C112_single_valued_partial pts' cells' flds' hm' hcf' hl' b' hb' ops' ho' i' name' data' hi' cell' e1 a h e2 v e3 c g3 hcl']
end

namespace RenDemo

/-- The first two nodes change their numbers. -/
def sw : Equiv.Perm Nat := Equiv.swap 0 1

/-- The two cells of `Demo` with the numbers of the first two nodes exchanged. -/
def pts' : List (Fin 2 → ℚ) := [![1, 0], ![0, 0], ![3, 0], ![0, 1], ![1, 1], ![3, 1]]

theorem swapped {α : Type} (x y : α) (l : List α) : Renumbered sw (x :: y :: l) (y :: x :: l) := by
  intro p
  match p with
  | 0 => simp [sw]
  | 1 => simp [sw]
  | k + 2 => simp [sw, Equiv.swap_apply_of_ne_of_ne]

/-- The value at the shared node, and at the position (10, 10), where evaluation throws. -/
example : ∃ b b', Body.load (quadOps ℚ) Demo.pts Demo.cells [("u", [1, 2, 3, 4, 5, 7])] = .ok b ∧
    Body.load (quadOps ℚ) pts' [[1, 0, 4, 3], [0, 2, 5, 4]] [("u", [2, 1, 3, 4, 5, 7])] = .ok b' ∧
    b'.value (quadOps ℚ) 0 ![1, 1] = .ok 5 ∧ b'.value (quadOps ℚ) 0 ![10, 10] = b.value (quadOps ℚ) 0 ![10, 10] ∧
    b'.mesh.maxAt 0 = b.mesh.maxAt 0 := by
  obtain ⟨b, hb, _⟩ := C22_load_2d Demo.pts Demo.cells [("u", [1, 2, 3, 4, 5, 7])] Demo.rect (by decide)
  have key := C130_exact_2d sw Demo.pts pts' Demo.cells [("u", [1, 2, 3, 4, 5, 7])] [("u", [2, 1, 3, 4, 5, 7])] (swapped _ _ _)
    (List.Forall₂.cons ⟨rfl, swapped _ _ _⟩ List.Forall₂.nil)
  have hc : Demo.cells.map (List.map sw) = [[1, 0, 4, 3], [0, 2, 5, 4]] := by decide
  simp only [hc] at key
  cases hb' : Body.load (quadOps ℚ) pts' [[1, 0, 4, 3], [0, 2, 5, 4]] [("u", [2, 1, 3, 4, 5, 7])] with
  | error e => rw [(key.1 e).mp hb'] at hb; cases hb
  | ok b' =>
    obtain ⟨k1, k2⟩ := key.2 b b' hb hb'
    obtain ⟨k3, _⟩ := k2 [] 0
    refine ⟨b, b', hb, rfl, ?_, k3 _, (k1 0).2⟩
    refine (k3 _).trans ?_
    exact C24_nodal _ _ _ Demo.rect Demo.conforming (by decide) b hb [] (by simp [HistOk]) 0 "u" _ rfl 4 [0, 1, 4, 3] (by simp [Demo.cells])
      (by simp) _ rfl _ rfl

/-- A file that makes no sense (a cell with a node that does not exist, and too few data) is refused alike under both numberings, here node 0 and 1 exchanged. -/
example (e : Err) : Fl.load (nearestEven 53) (Fl.hexOps (nearestEven 53)) [![(1 : ℚ), 1, 1], ![0, 0, 0]] [[1, 0, 7]] [("u", [2, 1])] = .error e ↔
    Fl.load (nearestEven 53) (Fl.hexOps (nearestEven 53)) [![(0 : ℚ), 0, 0], ![1, 1, 1]] [[0, 1, 7]] [("u", [1, 2])] = .error e := by
  have key := (C130_doubles_3d (nearestEven 53) sw [![(0 : ℚ), 0, 0], ![1, 1, 1]] [![(1 : ℚ), 1, 1], ![0, 0, 0]] [[0, 1, 7]] [("u", [1, 2])] [("u", [2, 1])]
    (swapped _ _ _) (List.Forall₂.cons ⟨rfl, swapped _ _ _⟩ List.Forall₂.nil)).1 e
  have hc : [[0, 1, 7]].map (List.map sw) = [[1, 0, 7]] := by decide
  rw [hc] at key
  exact key

/-- And it is refused. -/
example : ∃ e, Body.load (hexOps ℚ) [![(0 : ℚ), 0, 0], ![1, 1, 1]] [[0, 1, 7]] [("u", [1, 2])] = .error e := by
  cases h : Body.load (hexOps ℚ) [![(0 : ℚ), 0, 0], ![1, 1, 1]] [[0, 1, 7]] [("u", [1, 2])] with
  | error e => exact ⟨e, rfl⟩
  | ok b =>
    exfalso
    have : ((Body.load (hexOps ℚ) [![(0 : ℚ), 0, 0], ![1, 1, 1]] [[0, 1, 7]] [("u", [1, 2])]).toOption.isSome) = false := by decide +kernel
    rw [h] at this; cases this

/-- Three stacked cells, listed in the opposite order in the second body: the values at (1/2, 1/2, 3), two margins above the lower cells, are the
same (while those at the node (0, 0, 1/4) differ: `C112_3d_violated`). -/
example (data : List ℚ) (hd : data.length = 16) (b b' : Body ℚ 3)
    (hb : Body.load (hexOps ℚ) FlDemo3.pts FlDemo3.cells [("s", data)] = .ok b)
    (hb' : Body.load (hexOps ℚ) FlDemo3.pts FlDemo3.cells.reverse [("s", data)] = .ok b') :
    b'.value (hexOps ℚ) 0 ![1 / 2, 1 / 2, 3] = b.value (hexOps ℚ) 0 ![1 / 2, 1 / 2, 3] := by
  have clear : NearClear FlDemo3.pts FlDemo3.cells ![1 / 2, 1 / 2, 3] := by
    intro cell hc a h hah _ hn
    have h4 := (hn 0 4 (FlDemo3.low 2) (FlDemo3.high 2)).2
    have hm : margin FlDemo3.pts 2 0 4 = 1 := by decide +kernel
    rw [hm] at h4
    have := FlDemo3.only cell hc a h hah
    simp only [List.mem_cons, Prod.mk.injEq, List.not_mem_nil, or_false] at this
    rcases this with ⟨rfl, rfl, rfl⟩ | ⟨rfl, rfl, rfl⟩ | ⟨rfl, rfl, rfl⟩
    · exact absurd h4 (by decide +kernel)
    · exact absurd h4 (by decide +kernel)
    · unfold InCell; decide +kernel
  have rev : ∀ cell, cell ∈ FlDemo3.cells.reverse ↔ cell ∈ FlDemo3.cells := fun cell => List.mem_reverse
  have hl : ∀ fl ∈ [("s", data)], fl.2.length = FlDemo3.pts.length := by simp [hd, FlDemo3.pts]
  exact C130_geometry_only_3d FlDemo3.pts FlDemo3.pts FlDemo3.cells FlDemo3.cells.reverse [("s", data)] [("s", data)] FlDemo3.mesh.rect
    ⟨by decide, fun cell hc => FlDemo3.mesh.rect.rect cell ((rev cell).mp hc), FlDemo3.mesh.rect.small⟩
    (fun cell hc cell' hc' => FlDemo3.conforming cell ((rev cell).mp hc) cell' ((rev cell').mp hc')) hl hl b b' hb hb' [] []
    (by simp [HistOk]) (by simp [HistOk]) 0 0 "s" "s" data data rfl rfl
    (fun cell hc a h v hah hv => ⟨cell, (rev cell).mpr hc, hah, hv⟩) _
    ⟨_, by simp [FlDemo3.cells], _, _, FlDemo3.cell2, by unfold InCell; decide +kernel⟩ clear
    (fun cell hc => clear cell ((rev cell).mp hc))

end RenDemo
end Verif
