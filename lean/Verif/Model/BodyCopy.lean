import Verif.Model.Rounded
import Verif.Spec.BodyCopy

/-!
# Bodies as C++ variables: copies, assignment, destruction (pfield/Body.hh, pfield/Mesh.hh, pfield/PField.hh)

`Body`, `Mesh` and `PField` declare no copy constructor and no assignment, `Mesh` only a destructor (Mesh.hh:145-156), so the implicit ones copy member by
member: the pointers to the interpolators (Mesh.hh:130, 139; their contents never change, so in the model they are part of the mesh) and the pointer of each
field to its mesh (PField.hh:31), which stays a pointer to the mesh of the body the field was made in. Arithmetic rounded by `rnd`.
-/

namespace Verif
open Spec
namespace BodyCopy
variable {K : Type} {d : Nat}

/-- Body.hh:22-24: a mesh and fields, each with the body in which its `_mesh` (PField.hh:31) is. -/
structure Obj (K : Type) (d : Nat) where
  mesh : Mesh K d
  fields : List (Nat × PField K)

/-- The bodies in memory, by address (`none`: none there, or destroyed), and the next address. -/
structure Store (K : Type) (d : Nat) where
  next : Nat
  obj : Nat → Option (Obj K d)

/-- Nothing in memory. -/
def Store.start : Store K d := ⟨0, fun _ => none⟩

/-- An object changes. -/
def Store.put (s : Store K d) (v : Nat) (b : Option (Obj K d)) : Store K d := { s with obj := fun u => if u = v then b else s.obj u }

/-- The file: points, cells, scalar fields. -/
abbrev File (K : Type) (d : Nat) := List (Fin d → K) × List (List Nat) × List (String × List K)

/-- PField.hh:68-99, a call on a field: evaluations that return a number, evaluations that store it, getters. -/
inductive Call (K : Type) (d : Nat) where
  | value (c : Fin d → K)
  | grad (c : Fin d → K) (di : Nat)
  | hess (c : Fin d → K) (di dj : Nat)
  | evalGrad (c : Fin d → K)
  | evalHess (c : Fin d → K)
  | get
  | getGrad (di : Nat)
  | getHess (di dj : Nat)

section
variable [Field K] [LinearOrder K] [FloorRing K] (rnd : K → K) (E : ElemOps K d)

/-- PField.hh:104-195, the call on a field over a mesh. -/
def sem (m : Mesh K d) (f : PField K) : Call K d → Res (Option K) × Mesh K d × PField K
  | .value c => match Fl.value rnd E m f c with | (r, m', f') => (r.map some, m', f')
  | .grad c di => match Fl.gradAt rnd E m f c di with | (r, m', f') => (r.map some, m', f')
  | .hess c di dj => match Fl.hessAt rnd E m f c di dj with | (r, m', f') => (r.map some, m', f')
  | .evalGrad c => match Fl.evalGradLoop rnd E c (List.range d) m f with | (r, m', f') => (r.map fun _ => none, m', f')
  | .evalHess c =>
    match Fl.evalHessLoop rnd E c ((List.range d).flatMap fun i => (List.range d).map fun j => (i, j)) m f with
    | (r, m', f') => (r.map fun _ => none, m', f')
  | .get => (f.getVal.map some, m, f)
  | .getGrad di => ((f.getGrad di).map some, m, f)
  | .getHess di dj => ((f.getHess di dj).map some, m, f)

/-- Body.hh:41-121, `read_vtk` into a body in any state (as `Body.loadInto`, rounded). -/
def loadInto (b : Body K d) (file : File K d) : Res (Body K d) := do
  let m ← Fl.readPoints rnd b.mesh file.1
  let m' ← Fl.readCells rnd E m file.2.1
  Body.addFields { b with mesh := m' } file.2.2

/-- A body by itself: the object of the specification. -/
def bodySem : CopySem (File K d) (Body K d) (Call K d) (Option K) where
  empty := Body.empty
  read := fun file b => loadInto rnd E b file
  call := fun c b i =>
    match b.fields[i]? with
    | none => (.error (.ub .oob), b)
    | some f => match sem rnd E b.mesh f c with | (r, m', f') => (r, ⟨m', b.fields.set i f'⟩)
  bare := fun b => b.mesh.interp.isEmpty

/-- What the program does in memory. A failed `read_vtk` is not followed further. -/
def step (s : Store K d) : CopyOp (File K d) (Call K d) → Res (Option (Option K)) × Store K d
  -- Body.hh:33
  | .fresh => (.ok none, { s.put s.next (some ⟨Mesh.empty, []⟩) with next := s.next + 1 })
  -- Body.hh:41-121; new fields get a pointer to this mesh (Body.hh:115, PField.hh:54)
  | .read v file =>
    match s.obj v with
    | none => (.error (.ub .useAfterFree), s)
    | some b => match loadInto rnd E ⟨b.mesh, []⟩ file with
      | .error e => (.error e, s)
      | .ok b' => (.ok none, s.put v (some ⟨b'.mesh, b.fields ++ b'.fields.map fun f => (v, f)⟩))
  -- implicit copy constructor of Body, Mesh, PField: the pointers are copied
  | .copy v =>
    match s.obj v with
    | none => (.error (.ub .useAfterFree), s)
    | some b => (.ok none, { s.put s.next (some b) with next := s.next + 1 })
  -- implicit assignment: the same
  | .assign v w =>
    match s.obj v, s.obj w with
    | some _, some c => (.ok none, s.put v (some c))
    | _, _ => (.error (.ub .useAfterFree), s)
  -- PField.hh:104-195, on the mesh `_mesh` points to
  | .call v i c =>
    match s.obj v with
    | none => (.error (.ub .useAfterFree), s)
    | some b =>
      match b.fields[i]? with
      | none => (.error (.ub .oob), s)
      | some (o, f) =>
        match s.obj o with
        | none => (.error (.ub .useAfterFree), s)
        | some a =>
          match sem rnd E a.mesh f c with
          | (r, m', f') =>
            let s1 := s.put o (some { a with mesh := m' })
            let b1 := if v = o then { a with mesh := m' } else b
            (r.map some, s1.put v (some { b1 with fields := b1.fields.set i (o, f') }))
  -- Mesh.hh:145-156: the interpolators are deleted through pointers to a class without virtual destructor (Interpolator.hh:14-82)
  | .destroy v =>
    match s.obj v with
    | none => (.error (.ub .doubleFree), s)
    | some b => if b.mesh.interp.isEmpty then (.ok none, s.put v none) else (.error (.ub .badDelete), s)

/-- A history. -/
def run : List (CopyOp (File K d) (Call K d)) → Store K d → List (Res (Option (Option K))) × Store K d
  | [], s => ([], s)
  | op :: ops, s => match step rnd E s op with | (r, s') => match run ops s' with | (rs, s'') => (r :: rs, s'')

end
end BodyCopy
end Verif
