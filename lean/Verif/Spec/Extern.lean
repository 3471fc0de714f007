import Verif.Spec.Func

/-!
# Specification: objects behind C pointer variables

A client of the C interface keeps pointer variables. It should observe that each variable is empty or holds an object of its own. There
are no addresses here.
-/

namespace Verif.Spec

/-- What a client does with its pointer variables, numbered in the order of their declaration. -/
inductive XOp (Arg Call : Type) where
  /-- `T *p = NULL;` -/
  | decl
  /-- `T *p = q;` -/
  | share (g : Nat)
  /-- `T_new(..., p);` -/
  | new (h : Nat) (a : Arg)
  /-- `T_delete(p);` -/
  | delete (h : Nat)
  /-- any other function of the interface, called with `p` -/
  | call (h : Nat) (c : Call)

/-- The variables: empty, or an object. -/
abbrev Slots (Obj : Type) := List (Option Obj)

namespace Slots
variable {Obj Arg Call Out : Type}

/-- Operations a client may perform: `new` into an empty variable, calls on an object, `delete` of anything, and no second variable for
the same object. -/
def Legal (s : Slots Obj) : XOp Arg Call → Prop
  | .decl => True
  | .share _ => False
  | .new h _ => s[h]? = some none
  | .delete h => h < s.length
  | .call h _ => ∃ o, s[h]? = some (some o)

/-- The meaning of one operation: `make` makes an object (or throws), `sem` is what a call does to an object. -/
def step (make : Arg → Res Obj) (sem : Call → Obj → Res Out × Obj) (s : Slots Obj) : XOp Arg Call → Res (Option Out) × Slots Obj
  | .decl => (.ok none, s ++ [none])
  | .share g => (.ok none, s ++ [(s[g]?).join])
  | .new h a =>
    match make a with
    | .ok o => (.ok none, s.set h (some o))
    | .error e => (.error e, s)
  | .delete h => (.ok none, s.set h none)
  | .call h c =>
    match (s[h]?).join with
    | none => (.ok none, s)
    | some o => ((sem c o).1.map some, s.set h (some (sem c o).2))

/-- A history; the client goes on after an exception. -/
def run (make : Arg → Res Obj) (sem : Call → Obj → Res Out × Obj) : List (XOp Arg Call) → Slots Obj →
    List (Res (Option Out)) × Slots Obj
  | [], s => ([], s)
  | op :: ops, s =>
    match s.step make sem op with
    | (r, s') => match run make sem ops s' with | (rs, s'') => (r :: rs, s'')

/-- Every operation of the history is legal when it is performed. -/
def LegalRun (make : Arg → Res Obj) (sem : Call → Obj → Res Out × Obj) : List (XOp Arg Call) → Slots Obj → Prop
  | [], _ => True
  | op :: ops, s => s.Legal op ∧ LegalRun make sem ops (s.step make sem op).2

end Slots

/-- The variable an operation changes, if it exists already. -/
def XOp.target {Arg Call : Type} : XOp Arg Call → Option Nat
  | .decl | .share _ => none
  | .new h _ | .delete h | .call h _ => some h

/-! ## Variables of two kinds: parts, and things made from parts -/

/-- What a client does with variables for parts (`BArg`: what a part is made from, `BCall`: calls on parts) and for things made from parts. -/
inductive DuoOp (BArg BCall SArg SCall : Type) where
  | part (op : XOp BArg BCall)
  | thing (op : XOp SArg SCall)
  /-- a new thing from the parts in the given variables -/
  | build (h : Nat) (gs : List Nat)
  /-- an existing thing is given the parts in the given variables -/
  | rebuild (h : Nat) (gs : List Nat)

/-- The variables. -/
structure Duo (B S : Type) where
  parts : Slots B
  things : Slots S

/-- The objects in the given variables; `none` if one of them is empty or missing. -/
def Slots.objs {B : Type} (s : Slots B) : List Nat → Option (List B)
  | [] => some []
  | g :: gs => match (s[g]?).join, s.objs gs with | some b, some bs => some (b :: bs) | _, _ => none

/-- The classes of the objects. -/
structure DuoSem (B S BArg BCall SArg SCall Out : Type) where
  makeB : BArg → Res B
  semB : BCall → B → Res Out × B
  makeS : SArg → Res S
  semS : SCall → S → Res Out × S
  build : List B → Res S
  rebuild : List B → S → Res Out × S

namespace Duo
variable {B S BArg BCall SArg SCall Out : Type}

/-- Operations a client may perform. -/
def Legal (d : Duo B S) : DuoOp BArg BCall SArg SCall → Prop
  | .part op => d.parts.Legal op
  | .thing op => d.things.Legal op
  | .build h gs => d.things[h]? = some none ∧ ∃ bs, d.parts.objs gs = some bs
  | .rebuild h gs => (∃ o, d.things[h]? = some (some o)) ∧ ∃ bs, d.parts.objs gs = some bs

/-- The meaning of one operation: parts are copied into things. -/
def step (D : DuoSem B S BArg BCall SArg SCall Out) (d : Duo B S) : DuoOp BArg BCall SArg SCall → Res (Option Out) × Duo B S
  | .part op => match d.parts.step D.makeB D.semB op with | (r, s) => (r, { d with parts := s })
  | .thing op => match d.things.step D.makeS D.semS op with | (r, s) => (r, { d with things := s })
  | .build h gs =>
    match D.build ((d.parts.objs gs).getD []) with
    | .ok o => (.ok none, { d with things := d.things.set h (some o) })
    | .error e => (.error e, d)
  | .rebuild h gs =>
    match (d.things[h]?).join with
    | none => (.ok none, d)
    | some o =>
      match D.rebuild ((d.parts.objs gs).getD []) o with
      | (r, o') => (r.map some, { d with things := d.things.set h (some o') })

/-- A history. -/
def run (D : DuoSem B S BArg BCall SArg SCall Out) : List (DuoOp BArg BCall SArg SCall) → Duo B S → List (Res (Option Out)) × Duo B S
  | [], d => ([], d)
  | op :: ops, d =>
    match d.step D op with
    | (r, d') => match run D ops d' with | (rs, d'') => (r :: rs, d'')

/-- Every operation is legal when it is performed. -/
def LegalRun (D : DuoSem B S BArg BCall SArg SCall Out) : List (DuoOp BArg BCall SArg SCall) → Duo B S → Prop
  | [], _ => True
  | op :: ops, d => d.Legal op ∧ LegalRun D ops (d.step D op).2

end Duo

/-! ## Calls on a function through the C interface -/

/-- `PFunction_dsd_calc`, `_calc_grad`, `_calc_hess` (`calc`), `_eval`, `_eval_grad`, `_eval_hess` (`eval`) and `_get`, `_get_grad`, `_get_hess`
(`get`), by the component meant. -/
inductive CCall (V : Type) where
  | calc (v : V) (c : Comp)
  | eval (v : V) (c : Comp)
  | get (c : Comp)

/-- The component exists for a function of `n` variables. -/
def Comp.Exists (n : Nat) : Comp → Prop
  | .f => True
  | .g i => i < n
  | .h i j => i < n ∧ j < n

/-- The component a call is about. -/
def CCall.comp {V : Type} : CCall V → Comp
  | .calc _ c | .eval _ c | .get c => c

/-- Where component `c` was last evaluated with a value, in a history of such calls. -/
def CCall.lastPoint {V O : Type} (F : Comp → V → Res O) (c : Comp) : List (CCall V) → Option V → Option V
  | [], last => last
  | .calc v d :: calls, last | .eval v d :: calls, last =>
    lastPoint F c calls (if c = d ∧ isValue (F d v) then some v else last)
  | .get _ :: calls, last => lastPoint F c calls last

end Verif.Spec
