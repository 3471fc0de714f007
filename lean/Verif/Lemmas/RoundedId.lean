import Verif.Model.Rounded
import Verif.Lemmas.Field

/-! # The rounded model without rounding is the exact model -/

namespace Verif
namespace Fl
variable {T K : Type} {d : Nat} [Field K] [LinearOrder K] [FloorRing K]

theorem maxLoop_id (incr : List K) (N : List Int) (l : List K) : ∀ i, maxLoop id incr N l i = Bin.maxLoop incr N l i := by
  induction l with
  | nil => intro i; rfl
  | cons m ms ih => intro i; simp only [maxLoop, Bin.maxLoop, ih, id_eq]

theorem mkBin_id (min incr : List K) (N : List Int) : mkBin (T := T) id min incr N = Bin.mk' min incr N := by
  simp only [mkBin, Bin.mk', maxLoop_id]

theorem idxAt_id (min max incr coord : List K) (i : Nat) : idxAt id min max incr coord i = Bin.idxAt min max incr coord i := rfl

theorem idxLoop_id (min max incr coord : List K) (n : Nat) :
    ∀ i term, idxLoop id min max incr coord n i term = Bin.idxLoop min max incr coord n i term := by
  induction n with
  | zero => intro i term; rfl
  | succ n ih => intro i term; simp only [idxLoop, Bin.idxLoop, idxAt_id, ih]; rfl

theorem indicesOf_id (b : Bin T K) (coord : List K) (term : List Int) : indicesOf id b coord term = b.indicesOf coord term :=
  idxLoop_id _ _ _ _ _ _ _

theorem addRange_id (b : Bin T K) (x : T) (lo hi : List K) : addRange id b x lo hi = b.addRange x lo hi := by
  simp only [addRange, Bin.addRange, indicesOf_id]; rfl

theorem contents_id (b : Bin T K) (c : List K) : contents id b c = b.contents c := by
  simp only [contents, Bin.contents, indicesOf_id]; rfl

theorem binStep_id [DecidableEq T] (b : Bin T K) (op : Bin.Op T K) : binStep id b op = b.step op := by
  cases op with
  | add x c => simp only [binStep, Bin.step, add, Bin.add, indicesOf_id]; rfl
  | addOnce x c => simp only [binStep, Bin.step, addOnce, Bin.addOnce, indicesOf_id]; rfl
  | addRange x lo hi => exact addRange_id b x lo hi

theorem axis_id (value : List K) : axis id value = Mesh.axis value := rfl

theorem readPoints_id (m : Mesh K d) (pts : List (Fin d → K)) : readPoints id m pts = Mesh.readPoints m pts := by
  simp only [readPoints, Mesh.readPoints, mkBin_id, axis_id]

theorem makeCells_id (E : ElemOps K d) (node : List (Fin d → K)) (cells : List (List Nat)) :
    ∀ el, makeCells id E node el cells = Mesh.makeCells E node el cells := by
  induction cells with
  | nil => intro el; rfl
  | cons c cs ih =>
    intro el
    have : makeCell id E node el c = Mesh.makeCell E node el c := rfl
    simp only [makeCells, Mesh.makeCells, ih, this]

theorem fileAll_id (qs : List (Interp K d)) : ∀ b, fileAll id qs b = Mesh.fileAll qs b := by
  induction qs with
  | nil => intro b; rfl
  | cons q qs ih =>
    intro b
    have e1 : minOf id q = q.min := rfl
    have e2 : maxOf id q = q.max := rfl
    simp only [fileAll, Mesh.fileAll, addRange_id, ih, e1, e2]
    rcases b.addRange q (List.ofFn q.min) (List.ofFn q.max) with ⟨_ | _, _⟩ <;> rfl

theorem readCells_id (E : ElemOps K d) (m : Mesh K d) (cells : List (List Nat)) : readCells id E m cells = Mesh.readCells E m cells := by
  simp only [readCells, Mesh.readCells, makeCells_id, fileAll_id]

theorem load_id (E : ElemOps K d) (pts : List (Fin d → K)) (cells : List (List Nat)) (flds : List (String × List K)) :
    load id E pts cells flds = Body.load E pts cells flds := by
  have : build id E pts cells = Mesh.build E pts cells := by
    unfold build Mesh.build
    simp only [readPoints_id, readCells_id]
  simp only [load, Body.load, this]

theorem fill_id (E : ElemOps K d) (w : Interp K d → Res K) (m : Mesh K d) (c : Fin d → K) (b : Mesh.Buf K) :
    fill id E w m c b = Mesh.fill E w m c b := by
  simp only [fill, Mesh.fill, contents_id]
  rcases m.bin.contents (List.ofFn c) with ⟨_ | l, _⟩
  · rfl
  · dsimp only
    rcases Mesh.firstInRange E c l with _ | q
    · rfl
    · dsimp only
      rcases Mesh.fillLoop w q.element l 0 b with ⟨_ | _, _⟩ <;> rfl

theorem sumLoop_id (data : List K) (b : Mesh.Buf K) (n : Nat) : ∀ i acc, sumLoop id data b n i acc = PField.sumLoop data b n i acc := by
  induction n with
  | zero => intro i acc; rfl
  | succ n ih => intro i acc; simp only [sumLoop, PField.sumLoop, ih, id_eq]

theorem value_id (E : ElemOps K d) (m : Mesh K d) (f : PField K) (c : Fin d → K) : value id E m f c = f.value E m c := by
  have e : ∀ b, Mesh.fill E (fun q => E.value q c) m c b = m.basisFunctions E c b := fun _ => rfl
  simp only [value, PField.value, basisFunctions, fill_id, sumLoop_id, e]
  rcases m.basisFunctions E c f.buf with ⟨_ | s, m', b⟩
  · rfl
  · dsimp only
    cases PField.sumLoop f.data b s 0 f.zero <;> rfl

theorem gradAt_id (E : ElemOps K d) (m : Mesh K d) (f : PField K) (c : Fin d → K) (di : Nat) : gradAt id E m f c di = f.gradAt E m c di := by
  have e : ∀ b, Mesh.fill E (fun q => E.grad q c di) m c b = m.gradBasisFunctions E c di b := fun _ => rfl
  simp only [gradAt, PField.gradAt, gradBasisFunctions, fill_id, sumLoop_id, e]
  rcases m.gradBasisFunctions E c di f.buf with ⟨_ | s, m', b⟩
  · rfl
  · dsimp only
    cases PField.sumLoop f.data b s 0 f.zero with
    | error _ => rfl
    | ok v => dsimp only; cases vset f.grad (di : Nat) v <;> rfl

theorem hessAt_id (E : ElemOps K d) (m : Mesh K d) (f : PField K) (c : Fin d → K) (di dj : Nat) :
    hessAt id E m f c di dj = f.hessAt E m c di dj := by
  have e : ∀ b, Mesh.fill E (fun q => E.hess q c di dj) m c b = m.hessBasisFunctions E c di dj b := fun _ => rfl
  simp only [hessAt, PField.hessAt, hessBasisFunctions, fill_id, sumLoop_id, e]
  rcases m.hessBasisFunctions E c di dj f.buf with ⟨_ | s, m', b⟩
  · rfl
  · dsimp only
    cases PField.sumLoop f.data b s 0 f.zero with
    | error _ => rfl
    | ok v =>
      dsimp only
      cases (do let row ← vget f.hess (di : Nat); let row' ← vset row (dj : Nat) v; vset f.hess (di : Nat) row' : Res _) <;> rfl

theorem evalGradLoop_id (E : ElemOps K d) (c : Fin d → K) (l : List Nat) :
    ∀ (m : Mesh K d) (f : PField K), evalGradLoop id E c l m f = PField.evalGradLoop E c l m f := by
  induction l with
  | nil => intro m f; rfl
  | cons i l ih =>
    intro m f
    simp only [evalGradLoop, PField.evalGradLoop, gradAt_id, ih]
    rcases f.gradAt E m c i with ⟨_ | _, _, _⟩ <;> rfl

theorem evalHessLoop_id (E : ElemOps K d) (c : Fin d → K) (l : List (Nat × Nat)) :
    ∀ (m : Mesh K d) (f : PField K), evalHessLoop id E c l m f = PField.evalHessLoop E c l m f := by
  induction l with
  | nil => intro m f; rfl
  | cons i l ih =>
    intro m f
    simp only [evalHessLoop, PField.evalHessLoop, hessAt_id, ih]
    rcases f.hessAt E m c i.1 i.2 with ⟨_ | _, _, _⟩ <;> rfl

theorem quadGrad_id (r n h s : Fin 2 → K) (di : Nat) : quadGrad id r n h s di = Verif.quadGrad r n h s di := by
  rcases di with _ | _ | _ <;> rfl

theorem quadHess_id (r n h s : Fin 2 → K) (di dj : Nat) : quadHess id h s di dj = Verif.quadHess r n h s di dj := by
  rcases di with _ | _ | _ <;> rcases dj with _ | _ | _ <;> rfl

theorem hexGrad_id (r n h s : Fin 3 → K) (di : Nat) : hexGrad id r n h s di = Verif.hexGrad r n h s di := by
  rcases di with _ | _ | _ | _ <;> rfl

theorem hexHess_id (r n h s : Fin 3 → K) (di dj : Nat) : hexHess id h s di dj = Verif.hexHess r n h s di dj := by
  rcases di with _ | _ | _ | _ <;> rcases dj with _ | _ | _ | _ <;> rfl

theorem quadOps_id : quadOps (id : K → K) = Verif.quadOps K := by
  have e1 : (fun (q : Interp K 2) (c : Fin 2 → K) (di : Nat) => quadGrad id c q.n q.h q.s di) = fun q c di => Verif.quadGrad c q.n q.h q.s di := by
    funext q c di; exact quadGrad_id _ _ _ _ _
  have e2 : (fun (q : Interp K 2) (_ : Fin 2 → K) (di dj : Nat) => quadHess id q.h q.s di dj) = fun q c di dj => Verif.quadHess c q.n q.h q.s di dj := by
    funext q c di dj; exact quadHess_id _ _ _ _ _ _
  unfold quadOps
  rw [e1, e2]
  rfl

theorem hexOps_id : hexOps (id : K → K) = Verif.hexOps K := by
  have e1 : (fun (q : Interp K 3) (c : Fin 3 → K) (di : Nat) => hexGrad id c q.n q.h q.s di) = fun q c di => Verif.hexGrad c q.n q.h q.s di := by
    funext q c di; exact hexGrad_id _ _ _ _ _
  have e2 : (fun (q : Interp K 3) (_ : Fin 3 → K) (di dj : Nat) => hexHess id q.h q.s di dj) = fun q c di dj => Verif.hexHess c q.n q.h q.s di dj := by
    funext q c di dj; exact hexHess_id _ _ _ _ _ _
  unfold hexOps
  rw [e1, e2]
  rfl

/-- A body of fields in floating-point arithmetic without rounding is the exact one: the element classes, construction, every evaluation and
every history of calls. -/
theorem rounded_id (E : ElemOps K d) (pts : List (Fin d → K)) (cells : List (List Nat)) (flds : List (String × List K)) (b : Body K d) (i : Nat)
    (c : Fin d → K) (di dj : Fin d) (op : Body.Call K d) :
    quadOps (id : K → K) = Verif.quadOps K ∧ hexOps (id : K → K) = Verif.hexOps K ∧
    load id E pts cells flds = Body.load E pts cells flds ∧
    eval id E b i (.value c) = b.value E i c ∧ eval id E b i (.grad c di) = b.grad E i c di ∧
    eval id E b i (.hess c di dj) = b.hess E i c di dj ∧ call id E b i op = b.call E i op := by
  refine ⟨quadOps_id, hexOps_id, load_id _ _ _ _, ?_⟩
  simp only [eval, queryField, Body.value, Body.grad, Body.hess, call, Body.call]
  cases b.fields[i]? with
  | none => simp
  | some f =>
    cases op <;> simp [callField, Body.callField, value_id, gradAt_id, hessAt_id, evalGradLoop_id, evalHessLoop_id, PField.evalGrad,
      PField.evalHess]

end Fl
end Verif
