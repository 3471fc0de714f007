import Verif.Model.Handle

/-!
# Memory of the generated piece classes (tests/testlib/MyPieceWiseFunc.hh)

`MyPieceWiseFunc_piece0`, `_piece1` and `_piece2` own their component functions through raw pointers. Simplification: the components of
one object, which are allocated and deleted together, are one block; `fresh` is what `construct()` makes. An object is then a pointer to
its block, as a handle is (`Model/Handle`).
-/

namespace Verif
open Spec

/-- What a client does with objects of such a class, numbered in the order of their construction. -/
inductive GOp (Call : Type) where
  /-- default construction -/
  | new
  /-- copy construction, or `clone()` -/
  | copy (g : Nat)
  /-- `h = g` -/
  | assign (h g : Nat)
  /-- a member function -/
  | call (h : Nat) (c : Call)
  /-- the destructor -/
  | destroy (h : Nat)

namespace GenMem
variable {Obj Call Out : Type}

/-- MyPieceWiseFunc.hh:283-294, `operator=`: the pointers are overwritten (what they pointed to is neither deleted nor kept), and the
function ends without the `return` it must have. -/
def assign (m : Mem Obj) (h g : Nat) : Res (Option Out) × Mem Obj :=
  match m.ptr h, m.ptr g with
  | .ok _, .ok q => (.error (.ub .missingReturn), m.setPtr h (some q))
  | .error e, _ => (.error e, m)
  | _, .error e => (.error e, m)

/-- MyPieceWiseFunc.hh:278-281, copy constructor: `construct()`; the argument is not looked at. -/
def copyCtor (fresh : Obj) (m : Mem Obj) (g : Nat) : Res (Option Out) × Mem Obj :=
  match m.ptr g with
  | .ok _ => (.ok none, m.objCtor fresh)
  | .error e => (.error e, m)

/-- What the code does for an operation of the client: constructors (273-281, 382-405), `operator=` (283-294), destructor (296-311), the
other members (313-379). -/
def step (fresh : Obj) (sem : Call → Obj → Res Out × Obj) (m : Mem Obj) : GOp Call → Res (Option Out) × Mem Obj
  | .new => (.ok none, m.objCtor fresh)
  | .copy g => copyCtor fresh m g
  | .assign h g => assign m h g
  | .call h c => m.forward sem h c
  | .destroy h => m.done (m.dtor h)

/-- A history. -/
def run (fresh : Obj) (sem : Call → Obj → Res Out × Obj) : List (GOp Call) → Mem Obj → List (Res (Option Out)) × Mem Obj
  | [], m => ([], m)
  | op :: ops, m =>
    match step fresh sem m op with
    | (r, m') => match run fresh sem ops m' with | (rs, m'') => (r :: rs, m'')

end GenMem
end Verif
