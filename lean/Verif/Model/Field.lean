import Verif.Model.Mesh

/-!
# Model of `include/IntegrationTools/pfield/PField.hh` and the non-parsing part of `Body.hh`

`FieldType` is `double` (the only instance `Body` uses), i.e. `K`. A field keeps a pointer to the mesh of its body; here the mesh
is an explicit argument, and its state after the call is returned.
-/

namespace Verif

/-- PField.hh:31-40, 97-99, and the name from PFuncBase. `_val` is uninitialised at construction; `_Nbfunc` is always written
before it is read in the same call, so it is not kept. -/
structure PField (K : Type) where
  name : String
  data : List K
  zero : K
  val : Option K
  grad : List K
  hess : List (List K)
  buf : Mesh.Buf K

namespace PField
variable {K : Type} {d : Nat} [Field K] [LinearOrder K] [FloorRing K]

omit [LinearOrder K] [FloorRing K] in
/-- PField.hh:46-65, constructor (`vector::resize` value-initialises). -/
def make (m : Mesh K d) (name : String) (data : List K) (zero : K) : Res (PField K) := do
  let max ← m.bin.maxSize
  .ok { name := name, data := data, zero := zero, val := none
        grad := List.replicate d 0
        hess := List.replicate d (List.replicate d 0)
        buf := ⟨List.replicate max.toNat 0, List.replicate max.toNat 0⟩ }

omit [LinearOrder K] [FloorRing K] in
/-- PField.hh:119-124 (138-139, 153-154): the summation loop; `n` passes are left, the next has index `i`. -/
def sumLoop (data : List K) (b : Mesh.Buf K) : Nat → Nat → K → Res K
  | 0, _, acc => .ok acc
  | n + 1, i, acc => do
      let w ← vget b.bf (i : Nat)
      let k ← vget b.ni (i : Nat)
      let v ← vget data (k : Nat)
      sumLoop data b n (i + 1) (acc + w * v)

/-- PField.hh:105-127, `operator()(coord)`; also `eval(coord)` (159-162). -/
def value (E : ElemOps K d) (m : Mesh K d) (f : PField K) (c : Fin d → K) : Res K × Mesh K d × PField K :=
  match m.basisFunctions E c f.buf with
  | (.error e, m', b) => (.error e, m', { f with buf := b })
  | (.ok s, m', b) =>
    match sumLoop f.data b s 0 f.zero with
    | .error e => (.error e, m', { f with buf := b })
    | .ok v => (.ok v, m', { f with buf := b, val := some v })

/-- PField.hh:130-143, `grad(coord, di)`. -/
def gradAt (E : ElemOps K d) (m : Mesh K d) (f : PField K) (c : Fin d → K) (di : Nat) : Res K × Mesh K d × PField K :=
  match m.gradBasisFunctions E c di f.buf with
  | (.error e, m', b) => (.error e, m', { f with buf := b })
  | (.ok s, m', b) =>
    match sumLoop f.data b s 0 f.zero with
    | .error e => (.error e, m', { f with buf := b })
    | .ok v =>
      match vset f.grad (di : Nat) v with
      | .error e => (.error e, m', { f with buf := b })
      | .ok g => (.ok v, m', { f with buf := b, grad := g })

/-- PField.hh:146-156, `hess(coord, di, dj)`. -/
def hessAt (E : ElemOps K d) (m : Mesh K d) (f : PField K) (c : Fin d → K) (di dj : Nat) :
    Res K × Mesh K d × PField K :=
  match m.hessBasisFunctions E c di dj f.buf with
  | (.error e, m', b) => (.error e, m', { f with buf := b })
  | (.ok s, m', b) =>
    match sumLoop f.data b s 0 f.zero with
    | .error e => (.error e, m', { f with buf := b })
    | .ok v =>
      match (do let row ← vget f.hess (di : Nat); let row' ← vset row (dj : Nat) v; vset f.hess (di : Nat) row') with
      | .error e => (.error e, m', { f with buf := b })
      | .ok h => (.ok v, m', { f with buf := b, hess := h })

/-- PField.hh:165-169, the loop of `eval_grad` over the given directions. -/
def evalGradLoop (E : ElemOps K d) (c : Fin d → K) : List Nat → Mesh K d → PField K → Res Unit × Mesh K d × PField K
  | [], m, f => (.ok (), m, f)
  | di :: ds, m, f =>
    match gradAt E m f c di with
    | (.error e, m', f') => (.error e, m', f')
    | (.ok _, m', f') => evalGradLoop E c ds m' f'

/-- PField.hh:165-169, `eval_grad`. -/
def evalGrad (E : ElemOps K d) (m : Mesh K d) (f : PField K) (c : Fin d → K) : Res Unit × Mesh K d × PField K :=
  evalGradLoop E c (List.range d) m f

/-- PField.hh:172-177, the nested loop of `eval_hess` over the given pairs. -/
def evalHessLoop (E : ElemOps K d) (c : Fin d → K) : List (Nat × Nat) → Mesh K d → PField K →
    Res Unit × Mesh K d × PField K
  | [], m, f => (.ok (), m, f)
  | p :: ps, m, f =>
    match hessAt E m f c p.1 p.2 with
    | (.error e, m', f') => (.error e, m', f')
    | (.ok _, m', f') => evalHessLoop E c ps m' f'

/-- PField.hh:172-177, `eval_hess`. -/
def evalHess (E : ElemOps K d) (m : Mesh K d) (f : PField K) (c : Fin d → K) : Res Unit × Mesh K d × PField K :=
  evalHessLoop E c ((List.range d).flatMap fun i => (List.range d).map fun j => (i, j)) m f

omit [Field K] [LinearOrder K] [FloorRing K] in
/-- PField.hh:180-183, `operator()()`. -/
def getVal (f : PField K) : Res K := match f.val with | some v => .ok v | none => .error (.ub .uninit)

omit [Field K] [LinearOrder K] [FloorRing K] in
/-- PField.hh:186-189, `grad(di)`. -/
def getGrad (f : PField K) (di : Nat) : Res K := vget f.grad (di : Nat)

omit [Field K] [LinearOrder K] [FloorRing K] in
/-- PField.hh:192-195, `hess(di,dj)`. -/
def getHess (f : PField K) (di dj : Nat) : Res K := do
  let row ← vget f.hess (di : Nat)
  vget row (dj : Nat)

end PField

/-- Body.hh:20-24, a mesh and its scalar fields. -/
structure Body (K : Type) (d : Nat) where
  mesh : Mesh K d
  fields : List (PField K)

namespace Body
variable {K : Type} {d : Nat} [Field K] [LinearOrder K] [FloorRing K]

omit [Field K] [LinearOrder K] [FloorRing K] in
/-- Body.hh:33, constructor. -/
def empty : Body K d := ⟨Mesh.empty, []⟩

omit [LinearOrder K] [FloorRing K] in
/-- Body.hh:115, one field is added. -/
def addField (b : Body K d) (name : String) (data : List K) : Res (Body K d) := do
  let f ← PField.make b.mesh name data 0
  .ok { b with fields := b.fields ++ [f] }

omit [LinearOrder K] [FloorRing K] in
/-- Body.hh:58-118, the SCALARS sections, once the names and numbers are read. -/
def addFields : Body K d → List (String × List K) → Res (Body K d)
  | b, [] => .ok b
  | b, fl :: fls => do
      let b' ← b.addField fl.1 fl.2
      addFields b' fls

/-- Body.hh:41-121, `read_vtk` on a file with the given points, cells and scalar fields (see `Model/Vtk.lean` for the text), for a body
in any state. -/
def loadInto (E : ElemOps K d) (b : Body K d) (pts : List (Fin d → K)) (cells : List (List Nat)) (flds : List (String × List K)) :
    Res (Body K d) := do
  let m ← b.mesh.readInto E pts cells
  addFields { b with mesh := m } flds

/-- Body.hh:41-121, the same for a new body. -/
def load (E : ElemOps K d) (pts : List (Fin d → K)) (cells : List (List Nat)) (flds : List (String × List K)) :
    Res (Body K d) := do
  let m ← Mesh.build E pts cells
  addFields ⟨m, []⟩ flds

omit [Field K] [LinearOrder K] [FloorRing K] in
/-- Body.hh:125-133, `find_scalar_field`: position of the field the returned reference denotes. -/
def findLoop (name : String) : List (PField K) → Nat → Res Nat
  | [], _ => .error .invalidArgument
  | f :: fs, i => if f.name = name then .ok i else findLoop name fs (i + 1)

omit [Field K] [LinearOrder K] [FloorRing K] in
/-- Body.hh:125-133, `find_scalar_field`. -/
def findScalarField (b : Body K d) (name : String) : Res Nat := findLoop name b.fields 0

/-- An evaluating call on one of the fields of a body. -/
inductive Call (K : Type) (d : Nat) where
  | value (c : Fin d → K)
  | grad (c : Fin d → K) (di : Fin d)
  | hess (c : Fin d → K) (di dj : Fin d)
  | evalGrad (c : Fin d → K)
  | evalHess (c : Fin d → K)

/-- Outcome and states after a call on a field. -/
def callField (E : ElemOps K d) (m : Mesh K d) (f : PField K) : Call K d → Res Unit × Mesh K d × PField K
  | .value c => match f.value E m c with | (r, m', f') => (r.map fun _ => (), m', f')
  | .grad c di => match f.gradAt E m c di with | (r, m', f') => (r.map fun _ => (), m', f')
  | .hess c di dj => match f.hessAt E m c di dj with | (r, m', f') => (r.map fun _ => (), m', f')
  | .evalGrad c => f.evalGrad E m c
  | .evalHess c => f.evalHess E m c

/-- A call on field number `i` of the body; a missing field leaves the body alone. The state is kept when an exception is thrown. -/
def call (E : ElemOps K d) (b : Body K d) (i : Nat) (op : Call K d) : Body K d :=
  match b.fields[i]? with
  | none => b
  | some f => match callField E b.mesh f op with | (_, m', f') => ⟨m', b.fields.set i f'⟩

/-- A history of calls on the fields of a body (exceptions are caught and ignored by the caller). -/
def calls (E : ElemOps K d) (b : Body K d) : List (Nat × Call K d) → Body K d
  | [] => b
  | (i, op) :: ops => calls E (b.call E i op) ops

/-- Outcome of `scalar_field[i](c)`. -/
def value (E : ElemOps K d) (b : Body K d) (i : Nat) (c : Fin d → K) : Res K :=
  match b.fields[i]? with
  | none => .error (.ub .oob)
  | some f => (f.value E b.mesh c).1

/-- Outcome of `scalar_field[i].grad(c, di)`. -/
def grad (E : ElemOps K d) (b : Body K d) (i : Nat) (c : Fin d → K) (di : Nat) : Res K :=
  match b.fields[i]? with
  | none => .error (.ub .oob)
  | some f => (f.gradAt E b.mesh c di).1

/-- Outcome of `scalar_field[i].hess(c, di, dj)`. -/
def hess (E : ElemOps K d) (b : Body K d) (i : Nat) (c : Fin d → K) (di dj : Nat) : Res K :=
  match b.fields[i]? with
  | none => .error (.ub .oob)
  | some f => (f.hessAt E b.mesh c di dj).1

/-- Outcome of an evaluating call on field `i`, without its value. -/
def outcome (E : ElemOps K d) (b : Body K d) (i : Nat) (op : Call K d) : Res Unit :=
  match b.fields[i]? with
  | none => .error (.ub .oob)
  | some f => (callField E b.mesh f op).1

omit [Field K] [LinearOrder K] [FloorRing K] in
/-- `scalar_field[i]()` (PField.hh:180-183). -/
def getVal (b : Body K d) (i : Nat) : Res K :=
  match b.fields[i]? with
  | none => .error (.ub .oob)
  | some f => f.getVal

omit [Field K] [LinearOrder K] [FloorRing K] in
/-- `scalar_field[i].grad(di)` (PField.hh:186-189). -/
def getGrad (b : Body K d) (i : Nat) (di : Nat) : Res K :=
  match b.fields[i]? with
  | none => .error (.ub .oob)
  | some f => f.getGrad di

omit [Field K] [LinearOrder K] [FloorRing K] in
/-- `scalar_field[i].hess(di,dj)` (PField.hh:192-195). -/
def getHess (b : Body K d) (i : Nat) (di dj : Nat) : Res K :=
  match b.fields[i]? with
  | none => .error (.ub .oob)
  | some f => f.getHess di dj

end Body
end Verif
