import Verif.Model.Core

/-!
# Specification: function handles are values

What a client of `PSimpleFunction`, `PFunction` or `PBasisSet` may do with handle variables, and what it should observe if every
handle simply *is* its function (or empty). There are no addresses, no `new` and no `delete` here.
-/

namespace Verif.Spec

/-- What a client does. Handles and pointers obtained with `new` are numbered in the order of their creation. -/
inductive HOp (Obj Call : Type) where
  /-- `Handle h;` -/
  | default
  /-- `Handle h(g);` -/
  | copy (g : Nat)
  /-- `Handle h(obj);` for a function object `obj` of the client -/
  | ofObj (o : Obj)
  /-- `h = g;` -/
  | assign (h g : Nat)
  /-- `h = obj;` -/
  | assignObj (h : Nat) (o : Obj)
  /-- `Base *p = new ...;` by the client -/
  | new (o : Obj)
  /-- `h.set(p);`, `none` is `NULL` -/
  | set (h : Nat) (p : Option Nat)
  /-- a member function of the handle that is passed on to the function -/
  | call (h : Nat) (c : Call)
  /-- the destructor of `h` -/
  | destroy (h : Nat)

/-- The variables of the client: the handles (`none`: destroyed; `some none`: empty) and the objects behind the pointers obtained
with `new` and not yet given to a handle. -/
structure Vals (Obj : Type) where
  handles : List (Option (Option Obj))
  raws : List (Option Obj)

namespace Vals
variable {Obj Call Out : Type}

/-- No variables yet. -/
def start : Vals Obj := ⟨[], []⟩

/-- Operations a client may perform: on existing handles, not on empty ones where a function is needed, no self-assignment, and
`set` only with a pointer it owns. -/
def Legal (s : Vals Obj) : HOp Obj Call → Prop
  | .default => True
  | .copy g => ∃ v, s.handles[g]? = some (some v)
  | .ofObj _ => True
  | .assign h g => h ≠ g ∧ (∃ v, s.handles[h]? = some (some v)) ∧ ∃ o, s.handles[g]? = some (some (some o))
  | .assignObj h _ => ∃ v, s.handles[h]? = some (some v)
  | .new _ => True
  | .set h p => (∃ v, s.handles[h]? = some (some v)) ∧ ∃ j o, p = some j ∧ s.raws[j]? = some (some o)
  | .call h _ => ∃ o, s.handles[h]? = some (some (some o))
  | .destroy h => ∃ v, s.handles[h]? = some (some v)

/-- The function in handle `h`, if it has one. -/
def fn (s : Vals Obj) (h : Nat) : Option Obj := (s.handles[h]?.join).join

/-- Value semantics of one operation; `sem` is what a call does to a function object. -/
def step (sem : Call → Obj → Res Out × Obj) (s : Vals Obj) : HOp Obj Call → Res (Option Out) × Vals Obj
  | .default => (.ok none, { s with handles := s.handles ++ [some none] })
  | .copy g => (.ok none, { s with handles := s.handles ++ [some (s.fn g)] })
  | .ofObj o => (.ok none, { s with handles := s.handles ++ [some (some o)] })
  | .assign h g => (.ok none, { s with handles := s.handles.set h (some (s.fn g)) })
  | .assignObj h o => (.ok none, { s with handles := s.handles.set h (some (some o)) })
  | .new o => (.ok none, { s with raws := s.raws ++ [some o] })
  | .set h p =>
    match p with
    | none => (.error (.exit 1), s)
    | some j => (.ok none, ⟨s.handles.set h (some (s.raws[j]?.join)), s.raws.set j none⟩)
  | .call h c =>
    match s.fn h with
    | none => (.ok none, s)
    | some o => ((sem c o).1.map some, { s with handles := s.handles.set h (some (some (sem c o).2)) })
  | .destroy h => (.ok none, { s with handles := s.handles.set h none })

/-- A history; an exception is caught by the client, which goes on. -/
def run (sem : Call → Obj → Res Out × Obj) : List (HOp Obj Call) → Vals Obj → List (Res (Option Out)) × Vals Obj
  | [], s => ([], s)
  | op :: ops, s =>
    match s.step sem op with
    | (r, s') => match run sem ops s' with | (rs, s'') => (r :: rs, s'')

/-- Every operation of the history is legal when it is performed. -/
def LegalRun (sem : Call → Obj → Res Out × Obj) : List (HOp Obj Call) → Vals Obj → Prop
  | [], _ => True
  | op :: ops, s => s.Legal op ∧ LegalRun sem ops (s.step sem op).2

end Vals

/-- The existing handle an operation changes, if any. -/
def HOp.target {Obj Call : Type} : HOp Obj Call → Option Nat
  | .default | .copy _ | .ofObj _ | .new _ => none
  | .assign h _ | .assignObj h _ | .set h _ | .call h _ | .destroy h => some h

end Verif.Spec
