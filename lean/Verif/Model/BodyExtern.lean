import Verif.Model.Extern
import Verif.Model.Vtk
import Verif.Spec.BodyVars

/-!
# Model of bodies and fields as a client of the C interface (or of C++) holds them

src/c/PExtern.cc:512-566 (`Body2D_new`, `Body2D_delete`, `ScalarField2D` and the same for 3D), the destructors of `Body` and `Mesh`
(pfield/Body.hh:17-24, pfield/Mesh.hh:145-156) and `PField` as a `PFuncBase` (pfield/PField.hh:68-99). A client that calls
`BodyXD_new` gets the program terminated when the file cannot be read: the model leaves the variables as they were.
-/

namespace Verif
open Spec

section
variable {K : Type} {d : Nat} [Field K] [LinearOrder K] [FloorRing K]

/-- Body.hh:95-111, `var_name`: the first two (three) are set when DIM is at least 2 (3). -/
def fieldVarNames (d : Nat) : List String :=
  let v := List.replicate d ""
  let v := if 2 ≤ d then (v.set 0 "x").set 1 "y" else v
  if 3 ≤ d then v.set 2 "z" else v

/-- Body.hh:96-111, `var_description`. -/
def fieldVarDescs (d : Nat) : List String :=
  let v := List.replicate d ""
  let v := if 2 ≤ d then (v.set 0 "x coordinate").set 1 "y coordinate" else v
  if 3 ≤ d then v.set 2 "z coordinate" else v

omit [Field K] [LinearOrder K] [FloorRing K] in
/-- Body.hh:115, PField.hh:52: what the constructor of `PFuncBase` is given. -/
def PField.base (d : Nat) (f : PField K) : FBase := ⟨f.name, fieldVarNames d, fieldVarDescs d⟩

omit [Field K] [LinearOrder K] [FloorRing K] in
/-- `coord[0]`, ..., `coord[DIM-1]` of a `double*` (they are all read before anything else happens: Bin.hh, `contents`). -/
def coordOf (d : Nat) (v : List K) : Res (Fin d → K) :=
  if h : d ≤ v.length then .ok fun i => v[(i : Nat)] else .error (.ub .oob)

/-- A direction (`int`) converted to `size_type`. -/
def sizeType (i : Int) : Nat := (i % 18446744073709551616).toNat

omit [Field K] [LinearOrder K] [FloorRing K] in
/-- A member that returns a number. -/
def numF (r : Res K × Mesh K d × PField K) : Res (FOut (List K) K) × Mesh K d × PField K := (r.1.map .num, r.2)

omit [Field K] [LinearOrder K] [FloorRing K] in
/-- A member that returns nothing. -/
def voidF {α : Type} (r : Res α × Mesh K d × PField K) : Res (FOut (List K) K) × Mesh K d × PField K := (r.1.map fun _ => .void, r.2)

omit [Field K] [LinearOrder K] [FloorRing K] in
/-- A member that reads the coordinates first. -/
def withCoord (v : List K) (k : (Fin d → K) → Res (FOut (List K) K) × Mesh K d × PField K) (mf : Mesh K d × PField K) :
    Res (FOut (List K) K) × Mesh K d × PField K :=
  match coordOf d v with
  | .ok c => k c
  | .error e => (.error e, mf)

/-- PField.hh:68-99, the members of `PFuncBase` that `PField` overrides. The object is the field together with the mesh it points to. -/
def PField.ov (E : ElemOps K d) : Overrides (Mesh K d × PField K) (List K) K
  | .evalAt v => some fun mf => withCoord v (fun c => numF (mf.2.value E mf.1 c)) mf
  | .gradAt v di => some fun mf => withCoord v (fun c => numF (mf.2.gradAt E mf.1 c (sizeType di))) mf
  | .hessAt v di dj => some fun mf => withCoord v (fun c => numF (mf.2.hessAt E mf.1 c (sizeType di) (sizeType dj))) mf
  | .eval v => some fun mf => withCoord v (fun c => voidF (mf.2.value E mf.1 c)) mf
  | .evalGrad v => some fun mf => withCoord v (fun c => voidF (mf.2.evalGrad E mf.1 c)) mf
  | .evalHess v => some fun mf => withCoord v (fun c => voidF (mf.2.evalHess E mf.1 c)) mf
  | .get => some fun mf => (mf.2.getVal.map .num, mf)
  | .getGrad di => some fun mf => ((mf.2.getGrad (sizeType di)).map .num, mf)
  | .getHess di dj => some fun mf => ((mf.2.getHess (sizeType di) (sizeType dj)).map .num, mf)
  | _ => none

/-- `PField<double*, double, DIM>` as a class derived from `PFuncBase<double*, double>`. -/
def fieldCls (E : ElemOps K d) : FClass (Mesh K d × PField K) (List K) K := ⟨fun mf => mf.2.base d, PField.ov E⟩

end

section
variable {K : Type} {d : Nat} {Call Out File : Type}

/-- A call on field number `i` of a body; `sem` is what the call does to a field and its mesh. -/
def Body.callIn (sem : Call → Mesh K d × PField K → Res Out × Mesh K d × PField K) (c : Call) (b : Body K d) (i : Nat) :
    Res Out × Body K d :=
  match b.fields[i]? with
  | none => (.error (.ub .oob), b)
  | some f => match sem c (b.mesh, f) with | (r, m', f') => (r, ⟨m', b.fields.set i f'⟩)

/-- A call on a clone of a field: PField.hh:31, `_mesh` still points to the mesh of the body. -/
def Body.callCopy (sem : Call → Mesh K d × PField K → Res Out × Mesh K d × PField K) (c : Call) (b : Body K d) (f : PField K) :
    Res Out × Body K d × PField K :=
  match sem c (b.mesh, f) with
  | (r, m', f') => (r, { b with mesh := m' }, f')

/-- What a pointer to a field points to. -/
inductive FPtr where
  /-- an element of `scalar_field` of the body at the address -/
  | inBody (a i : Nat)
  /-- an object made by `clone()` -/
  | own (k : Nat)

/-- The bodies and the variables pointing to them; the clones, each with the body its mesh is in (`none` once deleted); the variables
pointing to fields (`none` is NULL). -/
structure FieldMem (K : Type) (d : Nat) where
  bodies : Mem (Body K d)
  clones : List (Option (Nat × PField K))
  ptrs : List (Option FPtr)

namespace FieldMem

/-- Nothing allocated. -/
def start : FieldMem K d := ⟨Mem.start, [], []⟩

/-- PExtern.cc:522-526, 550-554, `delete b; b = NULL;`. The destructor of `Mesh` (Mesh.hh:145-156) deletes the interpolators, objects of a
derived class, through pointers to `Interpolator`, which has no virtual destructor (Interpolator.hh:14-82): undefined. -/
def deleteBody (m : FieldMem K d) (h : Nat) : Res (FieldMem K d) := do
  match ← m.bodies.ptr h with
  | none => .ok m
  | some a =>
    match m.bodies.heap[a]? with
    | some (some b) =>
      if b.mesh.interp.isEmpty then
        .ok { m with bodies := ({ m.bodies with heap := m.bodies.heap.set a none } : Mem (Body K d)).setPtr h (some none) }
      else .error (.ub .badDelete)
    | _ => .error (.ub .doubleFree)

/-- PExtern.cc:534-537, 562-565, `f = &((*b).find_scalar_field(std::string(name)));`. -/
def field (m : FieldMem K d) (g h : Nat) (name : String) : Res (FieldMem K d) := do
  let p ← m.bodies.ptr h
  let b ← m.bodies.deref p
  let i ← b.findScalarField name
  let ps ← vset m.ptrs (g : Nat) (p.map fun a => FPtr.inBody a i)
  .ok { m with ptrs := ps }

/-- PField.hh:70-73, `clone()`. -/
def clone (m : FieldMem K d) (g k : Nat) : Res (FieldMem K d) := do
  let x ← match ← vget m.ptrs (k : Nat) with
    | none => .error (.ub .nullDeref)
    | some (.inBody a i) => do
      let b ← m.bodies.deref (some a)
      let f ← vget b.fields (i : Nat)
      .ok (a, f)
    | some (.own j) =>
      match m.clones[j]? with
      | some (some x) => .ok x
      | _ => .error (.ub .useAfterFree)
  let ps ← vset m.ptrs (g : Nat) (some (FPtr.own m.clones.length))
  .ok { m with clones := m.clones ++ [some x], ptrs := ps }

/-- `(*f).member(...)`. -/
def call (sem : Call → Mesh K d × PField K → Res Out × Mesh K d × PField K) (m : FieldMem K d) (g : Nat) (c : Call) :
    Res (Option Out) × FieldMem K d :=
  match vget m.ptrs (g : Nat) with
  | .error e => (.error e, m)
  | .ok none => (.error (.ub .nullDeref), m)
  | .ok (some (.inBody a i)) =>
    match m.bodies.deref (some a) with
    | .error e => (.error e, m)
    | .ok b => match Body.callIn sem c b i with
      | (r, b') => (r.map some, { m with bodies := { m.bodies with heap := m.bodies.heap.set a (some b') } })
  | .ok (some (.own j)) =>
    match m.clones[j]? with
    | some (some (a, f)) =>
      match m.bodies.deref (some a) with
      | .error e => (.error e, m)
      | .ok b => match Body.callCopy sem c b f with
        | (r, b', f') =>
          let bs : Mem (Body K d) := { m.bodies with heap := m.bodies.heap.set a (some b') }
          (r.map some, ⟨bs, m.clones.set j (some (a, f')), m.ptrs⟩)
    | _ => (.error (.ub .useAfterFree), m)

/-- PExtern.cc:94-98, `delete f; f = NULL;`: a pointer that did not come from `new` must not be deleted. -/
def deleteField (m : FieldMem K d) (g : Nat) : Res (FieldMem K d) := do
  match ← vget m.ptrs (g : Nat) with
  | none => .ok m
  | some (.inBody _ _) => .error (.ub .badDelete)
  | some (.own j) =>
    match m.clones[j]? with
    | some (some _) => .ok { m with clones := m.clones.set j none, ptrs := m.ptrs.set g none }
    | _ => .error (.ub .doubleFree)

/-- An operation without a result. -/
def done (m : FieldMem K d) : Res (FieldMem K d) → Res (Option Out) × FieldMem K d
  | .ok m' => (.ok none, m')
  | .error e => (.error e, m)

/-- What the client and the interface do for an operation; `make` is `new Body` with `read_vtk` (PExtern.cc:516-520, 544-548). -/
def step (make : File → Res (Body K d)) (sem : Call → Mesh K d × PField K → Res Out × Mesh K d × PField K) (m : FieldMem K d) :
    BOp File Call → Res (Option Out) × FieldMem K d
  | .declBody => (.ok none, { m with bodies := m.bodies.push none })
  | .declField => (.ok none, { m with ptrs := m.ptrs ++ [none] })
  | .newBody h file => m.done do
    let b ← Ext.new make m.bodies h file
    .ok { m with bodies := b }
  | .deleteBody h => m.done (m.deleteBody h)
  | .field g h name => m.done (m.field g h name)
  | .clone g k => m.done (m.clone g k)
  | .call g c => m.call sem g c
  | .deleteField g => m.done (m.deleteField g)

/-- A history. -/
def run (make : File → Res (Body K d)) (sem : Call → Mesh K d × PField K → Res Out × Mesh K d × PField K) :
    List (BOp File Call) → FieldMem K d → List (Res (Option Out)) × FieldMem K d
  | [], m => ([], m)
  | op :: ops, m =>
    match m.step make sem op with
    | (r, m') => match run make sem ops m' with | (rs, m'') => (r :: rs, m'')

/-- What a call on the field variable `g` returns after a history. -/
def callAfter (make : File → Res (Body K d)) (sem : Call → Mesh K d × PField K → Res Out × Mesh K d × PField K) (ops : List (BOp File Call))
    (g : Nat) (c : Call) : Res (Option Out) := ((run make sem ops start).2.step make sem (.call g c)).1

/-- What the second of two calls on the field variable `g` returns after a history. -/
def callTwice (make : File → Res (Body K d)) (sem : Call → Mesh K d × PField K → Res Out × Mesh K d × PField K) (ops : List (BOp File Call))
    (g : Nat) (c c' : Call) : Res (Option Out) :=
  (((run make sem ops start).2.step make sem (.call g c)).2.step make sem (.call g c')).1

/-- The classes, for the specification of variables. -/
def bsem (make : File → Res (Body K d)) (sem : Call → Mesh K d × PField K → Res Out × Mesh K d × PField K) :
    BodySem File (Body K d) (PField K) Call Out :=
  ⟨make, Body.fields, PField.name, Body.callIn sem, Body.callCopy sem, fun b => b.mesh.interp.isEmpty⟩

end FieldMem
end
end Verif
