import Verif.Model.Func
import Verif.Spec.ThreadsFunc

/-!
# Evaluations of functions by several threads (pfunction/PSimpleBase.hh:30-31, pfunction/PSimpleFunction.hh:43-58, pfunction/PFlexFunction.hh:121-167)

An evaluation of a `PFlexFunction` (or of a generated function, which has the same members), broken into its accesses to the numbers evaluations write: the
`_val` of the component functions. `return _val = eval(var)` writes `_val` and then reads it. Everything else an evaluation looks at no evaluation writes.
Threads take steps in the order of a schedule (sequential consistency; C++ gives no meaning at all to programs in which two threads access one object without
synchronisation and one of them writes).
-/

namespace Verif
open Spec
namespace FPar
variable {V O : Type}

/-- The component function: PFlexFunction.hh:121-134, `_val`, `_grad_val[di]`, `_hess_val[di][dj]`, dereferenced (PSimpleFunction.hh:45, 57). -/
def comp (p : Flex V O) : Comp → Res (SObj V O)
  | .f => deref p.val
  | .g i => do let h ← vget p.grad i; deref h
  | .h i j => do let row ← vget p.hess i; let h ← vget row j; deref h
where
  /-- PSimpleFunction.hh:45, `*ptr`. -/
  deref : SFun V O → Res (SObj V O)
    | none => .error (.ub .nullDeref)
    | some o => .ok o

/-- The stored number of a component is read: PSimpleBase.hh:31, and the value of the assignment in PSimpleBase.hh:30. -/
def rd (p : Flex V O) (c : Comp) : Res O := do
  let o ← comp p c
  o.get

/-- The assignment `_val = ...` of a component, PSimpleBase.hh:30. -/
def wr (p : Flex V O) (c : Comp) (y : O) : Res (Flex V O) := do
  let o ← comp p c
  let o' : SFun V O := some { o with val := some y }
  .ok (match c with
    | .f => { p with val := o' }
    | .g i => { p with grad := p.grad.set i o' }
    | .h i j => { p with hess := p.hess.set i (((p.hess[i]?).getD []).set j o') })

/-- What is left of an evaluation: its next access to memory and, depending on the number read, the rest; or its result. -/
inductive Prog (O : Type) where
  | done (r : Res O)
  | read (c : Comp) (k : O → Prog O)
  | write (c : Comp) (y : O) (next : Prog O)

/-- PSimpleBase.hh:30, `return _val = eval(var);` of a component; an exception leaves it. -/
def evalP (p : Flex V O) (v : V) (c : Comp) (k : O → Prog O) : Prog O :=
  match comp p c with
  | .error e => .done (.error e)
  | .ok o =>
    match o.evalFn v with
    | .error e => .done (.error e)
    | .ok y => .write c y (.read c k)

/-- PFlexFunction.hh:143-144, 149-151, the loops of `eval_grad` and `eval_hess` over the components `cs`. -/
def loopP (p : Flex V O) (v : V) : List Comp → Prog O → Prog O
  | [], next => next
  | c :: cs, next => evalP p v c fun _ => loopP p v cs next

/-- PFlexFunction.hh:136-152: the components that `eval`, `eval_grad`, `eval_hess` (whichever computes `c`) go through. -/
def family (p : Flex V O) : Comp → List Comp
  | .f => [.f]
  | .g _ => (List.range p.grad.length).map .g
  | .h _ _ => (List.range p.hess.length).flatMap fun i => (List.range ((p.hess[i]?).getD []).length).map (.h i)

/-- PFlexFunction.hh:121-134 (`one`); 136-152 and 154-167 (`kept`). -/
def prog (p : Flex V O) : FQuery V → Prog O
  | .one c v => evalP p v c fun y => .done (.ok y)
  | .kept c v => loopP p v (family p c) (.read c fun y => .done (.ok y))

/-- A thread: the evaluations to come, what is left of the one under way, and the results so far. -/
structure Thread (V O : Type) where
  todo : List (FQuery V)
  cur : Option (Prog O)
  results : List (Res O)

/-- A thread at its start. -/
def Thread.start (todo : List (FQuery V)) : Thread V O := ⟨todo, none, []⟩

/-- A thread at its end. -/
def Thread.Finished (t : Thread V O) : Prop := t.cur = none ∧ t.todo = []

/-- One step of a thread: a call (up to the first access to memory), an access to memory, or a return. -/
def step (t : Thread V O) (p : Flex V O) : Thread V O × Flex V O :=
  match t.cur with
  | none =>
    match t.todo with
    | [] => (t, p)
    | q :: rest => (⟨rest, some (prog p q), t.results⟩, p)
  | some (.done r) => (⟨t.todo, none, t.results ++ [r]⟩, p)
  | some (.read c k) =>
    match rd p c with
    | .error e => ({ t with cur := some (.done (.error e)) }, p)
    | .ok y => ({ t with cur := some (k y) }, p)
  | some (.write c y next) =>
    match wr p c y with
    | .error e => ({ t with cur := some (.done (.error e)) }, p)
    | .ok p' => ({ t with cur := some next }, p')

/-- Threads and functions; thread `t` evaluates function `on t`. -/
structure Sys (V O : Type) where
  on : Nat → Nat
  threads : Nat → Thread V O
  funcs : Nat → Flex V O

/-- Thread `t` takes a step. -/
def Sys.step (s : Sys V O) (t : Nat) : Sys V O :=
  let r := FPar.step (s.threads t) (s.funcs (s.on t))
  { s with threads := fun u => if u = t then r.1 else s.threads u, funcs := fun n => if n = s.on t then r.2 else s.funcs n }

/-- The threads take steps in this order. -/
def Sys.run : Sys V O → List Nat → Sys V O
  | s, [] => s
  | s, t :: ts => run (s.step t) ts

/-- What a caller's mutex around each evaluation (and the getter after it) ensures: when a thread takes a step, no other thread that uses the same function
is in the middle of an evaluation. -/
def Sys.Locked : Sys V O → List Nat → Prop
  | _, [] => True
  | s, t :: ts => (∀ u, u ≠ t → s.on u = s.on t → (s.threads u).cur = none) ∧ Locked (s.step t) ts

end FPar
end Verif
