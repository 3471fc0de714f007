import Verif.Model.Python

/-!
# Specification: Python variables that name objects

Objects are numbered in the order of their creation. Several variables may name the same object; an object that was deleted is gone for
all of them. There are no addresses and no pointers here.
-/

namespace Verif.Spec

/-- A statement of a Python program that uses one of the classes; `Arg` are the arguments of the constructor, `M` the methods other than
`delete`. Variables are numbers. -/
inductive PyStmt (Arg M : Type) where
  /-- `v = CLASS(a)` -/
  | new (v : Nat) (a : Arg)
  /-- `v = w` -/
  | assign (v w : Nat)
  /-- `del v`, or the end of the function `v` is local to -/
  | unbind (v : Nat)
  /-- `v.delete()` -/
  | delete (v : Nat)
  /-- `v.method(...)` -/
  | call (v : Nat) (m : M)

/-- A binding of variables to objects. -/
abbrev Binding := Nat → Option Nat

/-- Variable `v` names object `i` from now on. -/
def Binding.set (b : Binding) (v : Nat) (i : Option Nat) : Binding := fun w => if w = v then i else b w

/-- The objects (`none` once deleted) and what the variables name. -/
structure PyVals (Obj : Type) where
  objs : Slots Obj
  vars : Binding

namespace PyVals
variable {Obj Arg M Out : Type}

/-- Nothing exists yet. -/
def start : PyVals Obj := ⟨[], fun _ => none⟩

/-- The object a variable names, if there is one that was not deleted. -/
def value (s : PyVals Obj) (v : Nat) : Option Obj :=
  match s.vars v with
  | none => none
  | some i => (s.objs[i]?).join

/-- The objects several variables name. -/
def values (s : PyVals Obj) : List Nat → Option (List Obj)
  | [] => some []
  | v :: vs => match s.value v, s.values vs with | some o, some os => some (o :: os) | _, _ => none

/-- What a correct program may do: make objects, name them, delete them (even twice), and call methods of objects that were not deleted. -/
def Legal (s : PyVals Obj) : PyStmt Arg M → Prop
  | .new _ _ => True
  | .assign _ w => (s.vars w).isSome
  | .unbind v => (s.vars v).isSome
  | .delete v => (s.vars v).isSome
  | .call v _ => (s.value v).isSome

/-- The meaning of a statement: `make` makes an object, `sem` is what a method does to an object. -/
def step (make : Arg → Res Obj) (sem : M → Obj → Except PyErr Out × Obj) (s : PyVals Obj) : PyStmt Arg M → Except PyErr (Option Out) × PyVals Obj
  | .new v a =>
    match make a with
    | .ok o => (.ok none, ⟨s.objs ++ [some o], s.vars.set v (some s.objs.length)⟩)
    | .error e => (.error (.cpp e), s)
  | .assign v w =>
    match s.vars w with
    | some i => (.ok none, { s with vars := s.vars.set v (some i) })
    | none => (.error .nameError, s)
  | .unbind v => if (s.vars v).isSome then (.ok none, { s with vars := s.vars.set v none }) else (.error .nameError, s)
  | .delete v =>
    match s.vars v with
    | some i => (.ok none, { s with objs := s.objs.set i none })
    | none => (.error .nameError, s)
  | .call v m =>
    match s.vars v, s.value v with
    | some i, some o => ((sem m o).1.map some, { s with objs := s.objs.set i (some (sem m o).2) })
    | _, _ => (.error .nameError, s)   -- not legal

/-- A program; it ends when the interpreter ends. -/
def run (make : Arg → Res Obj) (sem : M → Obj → Except PyErr Out × Obj) : List (PyStmt Arg M) → PyVals Obj →
    List (Except PyErr (Option Out)) × PyVals Obj
  | [], s => ([], s)
  | st :: sts, s =>
    match s.step make sem st with
    | (.error e, s') =>
      if e.fatal then ([.error e], s') else match run make sem sts s' with | (rs, s'') => (.error e :: rs, s'')
    | (.ok r, s') => match run make sem sts s' with | (rs, s'') => (.ok r :: rs, s'')

/-- Every statement that is reached is legal. -/
def LegalRun (make : Arg → Res Obj) (sem : M → Obj → Except PyErr Out × Obj) : List (PyStmt Arg M) → PyVals Obj → Prop
  | [], _ => True
  | st :: sts, s =>
    s.Legal st ∧ match s.step make sem st with
      | (.error e, s') => e.fatal = true ∨ LegalRun make sem sts s'
      | (.ok _, s') => LegalRun make sem sts s'

end PyVals
end Verif.Spec

/-! ## Two classes: parts, and things made from parts -/

namespace Verif.Spec

/-- The objects of both kinds. -/
structure PyDuo (B S : Type) where
  parts : PyVals B
  things : PyVals S

/-- A statement about things; parts are given as variables. -/
inductive PyDuoStmt (BArg BM SM : Type) where
  | part (st : PyStmt BArg BM)
  /-- `v = THING([w1, w2, ...])` -/
  | build (v : Nat) (ws : List Nat)
  /-- `v.set([w1, w2, ...])` -/
  | rebuild (v : Nat) (ws : List Nat)
  /-- `v = w`, `del v`, `v.delete()`, `v.method(...)` -/
  | thing (st : PyStmt Empty SM)

/-- The classes. -/
structure PyDuoSem (B S BArg BM SM Out : Type) where
  makeB : BArg → Res B
  semB : BM → B → Except PyErr Out × B
  build : List B → Res S
  semS : SM → S → Except PyErr Out × S
  rebuild : List B → S → Except PyErr Out × S

namespace PyDuo
variable {B S BArg BM SM Out : Type}

/-- What a correct program may do: the parts in the list were not deleted. -/
def Legal (d : PyDuo B S) : PyDuoStmt BArg BM SM → Prop
  | .part st => d.parts.Legal st
  | .build _ ws => (d.parts.values ws).isSome
  | .rebuild v ws => (d.things.value v).isSome ∧ (d.parts.values ws).isSome
  | .thing st => d.things.Legal st

/-- The meaning of a statement: parts are copied into things. -/
def step (D : PyDuoSem B S BArg BM SM Out) (d : PyDuo B S) : PyDuoStmt BArg BM SM → Except PyErr (Option Out) × PyDuo B S
  | .part st => match d.parts.step D.makeB D.semB st with | (r, p) => (r, { d with parts := p })
  | .build v ws =>
    match d.things.step D.build D.semS (.new v ((d.parts.values ws).getD [])) with | (r, t) => (r, { d with things := t })
  | .rebuild v ws =>
    match d.things.step D.build D.rebuild (.call v ((d.parts.values ws).getD [])) with | (r, t) => (r, { d with things := t })
  | .thing st => match d.things.step (fun e : Empty => nomatch e) D.semS st with | (r, t) => (r, { d with things := t })

/-- A program. -/
def run (D : PyDuoSem B S BArg BM SM Out) : List (PyDuoStmt BArg BM SM) → PyDuo B S → List (Except PyErr (Option Out)) × PyDuo B S
  | [], d => ([], d)
  | st :: sts, d =>
    match d.step D st with
    | (.error e, d') => if e.fatal then ([.error e], d') else match run D sts d' with | (rs, d'') => (.error e :: rs, d'')
    | (.ok r, d') => match run D sts d' with | (rs, d'') => (.ok r :: rs, d'')

/-- Every statement that is reached is legal. -/
def LegalRun (D : PyDuoSem B S BArg BM SM Out) : List (PyDuoStmt BArg BM SM) → PyDuo B S → Prop
  | [], _ => True
  | st :: sts, d =>
    d.Legal st ∧ match d.step D st with
      | (.error e, d') => e.fatal = true ∨ LegalRun D sts d'
      | (.ok _, d') => LegalRun D sts d'

end PyDuo
end Verif.Spec
