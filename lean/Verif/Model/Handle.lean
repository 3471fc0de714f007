import Verif.Spec.Handle

/-!
# Model of the handle classes

`PSimpleFunction` (pfunction/PSimpleFunction.hh), `PFunction` (pfunction/PFunction.hh) and `PBasisSet` (pfunction/PBasisSet.hh) have
the same code for construction, copy, assignment, `set` and destruction: a raw owning pointer `ptr`. The model is parametrised by the
type `Obj` of the functions pointed to and by what the forwarded member functions do (`sem`). Assumed: `clone()` of every class
returns a new copy of the object, and destructors of functions have no other effect. `PBasisSet::set` is declared with a parameter of
type `PBasisSet*` and does not compile when used.
-/

namespace Verif
open Spec

/-- Memory: `heap[a]` is the object at address `a` (`none` once deleted), `handles[i]` the member `ptr` of handle `i` (`none` after
its destructor has run, `some none` is `NULL`), `raws[j]` the `j`-th pointer the client obtained with `new`. -/
structure Mem (Obj : Type) where
  heap : List (Option Obj)
  handles : List (Option (Option Nat))
  raws : List Nat

namespace Mem
variable {Obj Call Out : Type}

/-- Nothing allocated. -/
def start : Mem Obj := ⟨[], [], []⟩

/-- `*p`. -/
def deref (m : Mem Obj) : Option Nat → Res Obj
  | none => .error (.ub .nullDeref)
  | some a => match m.heap[a]? with
    | some (some o) => .ok o
    | _ => .error (.ub .useAfterFree)

/-- `delete p` for a non-null `p`. -/
def del (m : Mem Obj) (a : Nat) : Res (Mem Obj) :=
  match m.heap[a]? with
  | some (some _) => .ok { m with heap := m.heap.set a none }
  | _ => .error (.ub .doubleFree)

/-- `new T(o)`. -/
def alloc (m : Mem Obj) (o : Obj) : Nat × Mem Obj := (m.heap.length, { m with heap := m.heap ++ [some o] })

/-- `if(ptr != NULL) delete ptr;` -/
def delPtr (m : Mem Obj) : Option Nat → Res (Mem Obj)
  | none => .ok m
  | some a => m.del a

/-- The member `ptr` of a handle. A client that uses a destroyed handle makes the mistake itself. -/
def ptr (m : Mem Obj) (h : Nat) : Res (Option Nat) :=
  match m.handles[h]? with
  | some (some p) => .ok p
  | _ => .error (.ub .useAfterFree)

/-- `ptr = p;` -/
def setPtr (m : Mem Obj) (h : Nat) (p : Option (Option Nat)) : Mem Obj := { m with handles := m.handles.set h p }

/-- Construction of a handle with the given pointer. -/
def push (m : Mem Obj) (p : Option Nat) : Mem Obj := { m with handles := m.handles ++ [some p] }

/-- PSimpleFunction.hh:101-107, PFunction.hh:175-181, PBasisSet.hh:161-167, copy constructor. -/
def copyCtor (m : Mem Obj) (g : Nat) : Res (Mem Obj) := do
  match ← m.ptr g with
  | none => .ok (m.push none)
  | some a =>
    let o ← m.deref (some a)
    match m.alloc o with
    | (b, m') => .ok (m'.push (some b))

/-- PSimpleFunction.hh:109-115, PFunction.hh:183-189, PBasisSet.hh:169-174, constructor from a function. -/
def objCtor (m : Mem Obj) (o : Obj) : Mem Obj := match m.alloc o with | (b, m') => m'.push (some b)

/-- PSimpleFunction.hh:62-68, PFunction.hh:137-143, PBasisSet.hh:123-129, copy assignment: the old function is deleted, then the
function of the right-hand side is cloned. -/
def assign (m : Mem Obj) (h g : Nat) : Res (Mem Obj) := do
  let p ← m.ptr h
  let m1 ← m.delPtr p
  let q ← m1.ptr g
  let o ← m1.deref q
  match m1.alloc o with
  | (b, m2) => .ok (m2.setPtr h (some (some b)))

/-- PSimpleFunction.hh:70-79, PFunction.hh:145-153, PBasisSet.hh:131-139, assignment from a function. -/
def assignObj (m : Mem Obj) (h : Nat) (o : Obj) : Res (Mem Obj) := do
  let p ← m.ptr h
  let m1 ← m.delPtr p
  match m1.alloc o with
  | (b, m2) => .ok (m2.setPtr h (some (some b)))

/-- PSimpleFunction.hh:83-94, PFunction.hh:157-168, `set`: NULL ends the program, else the handle takes the pointer. -/
def setRaw (m : Mem Obj) (h : Nat) (j : Option Nat) : Res (Mem Obj) := do
  match j with
  | none => .error (.exit 1)
  | some j =>
    let a ← vget m.raws j
    let p ← m.ptr h
    let m1 ← m.delPtr p
    .ok (m1.setPtr h (some (some a)))

/-- PSimpleFunction.hh:117-121, PFunction.hh:191-195, PBasisSet.hh:176-180, destructor. -/
def dtor (m : Mem Obj) (h : Nat) : Res (Mem Obj) := do
  let p ← m.ptr h
  let m1 ← m.delPtr p
  .ok (m1.setPtr h none)

/-- A forwarded member function: `(*ptr).f(...)`. -/
def forward (sem : Call → Obj → Res Out × Obj) (m : Mem Obj) (h : Nat) (c : Call) : Res (Option Out) × Mem Obj :=
  match m.ptr h with
  | .error e => (.error e, m)
  | .ok p =>
    match m.deref p, p with
    | .ok o, some a => ((sem c o).1.map some, { m with heap := m.heap.set a (some (sem c o).2) })
    | .ok _, none => (.error (.ub .nullDeref), m)
    | .error e, _ => (.error e, m)

/-- An operation without a result; undefined behaviour leaves the memory as it was (nothing is claimed about it). -/
def done (m : Mem Obj) : Res (Mem Obj) → Res (Option Out) × Mem Obj
  | .ok m' => (.ok none, m')
  | .error e => (.error e, m)

/-- What the code does for an operation of the client. -/
def step (sem : Call → Obj → Res Out × Obj) (m : Mem Obj) : HOp Obj Call → Res (Option Out) × Mem Obj
  | .default => (.ok none, m.push none)
  | .copy g => m.done (m.copyCtor g)
  | .ofObj o => (.ok none, m.objCtor o)
  | .assign h g => m.done (m.assign h g)
  | .assignObj h o => m.done (m.assignObj h o)
  | .new o => match m.alloc o with | (b, m') => (.ok none, { m' with raws := m'.raws ++ [b] })
  | .set h p => m.done (m.setRaw h p)
  | .call h c => m.forward sem h c
  | .destroy h => m.done (m.dtor h)

/-- A history. -/
def run (sem : Call → Obj → Res Out × Obj) : List (HOp Obj Call) → Mem Obj → List (Res (Option Out)) × Mem Obj
  | [], m => ([], m)
  | op :: ops, m =>
    match m.step sem op with
    | (r, m') => match run sem ops m' with | (rs, m'') => (r :: rs, m'')

end Mem
end Verif
