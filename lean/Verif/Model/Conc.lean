import Verif.Model.Core
import Mathlib.Logic.Function.Basic

/-!
# Threads that share stored numbers

Not a model of a file of its own: the steps of threads whose evaluations read and write numbers stored in shared objects, used by
`Model/ThreadsPiecewise.lean`. Sequentially consistent, as in `Model/ThreadsFunc.lean`.
-/

namespace Verif
namespace Conc
variable {C : Type} {A : C → Type} {Q R : Type}

/-- What is left of an evaluation: its next access to memory and, depending on what is read, the rest; or its result. The cells are `C`, what cell `c` holds
`A c`. -/
inductive Prog (A : C → Type) (R : Type) where
  | done (r : Res R)
  | read (c : C) (k : A c → Prog A R)
  | write (c : C) (a : A c) (next : Prog A R)

/-- The memory of an object; a cell that was never written is uninitialised. -/
abbrev Mem (A : C → Type) := ∀ c, Option (A c)

/-- A thread: the evaluations to come, what is left of the one under way, and the results so far. -/
structure Thread (Q : Type) (A : C → Type) (R : Type) where
  todo : List Q
  cur : Option (Prog A R)
  results : List (Res R)

/-- A thread at its start. -/
def Thread.start (todo : List Q) : Thread Q A R := ⟨todo, none, []⟩

/-- A thread at its end. -/
def Thread.Finished (t : Thread Q A R) : Prop := t.cur = none ∧ t.todo = []

section
variable [DecidableEq C]

/-- One step of a thread: a call (up to the first access to memory), an access to memory, or a return. -/
def step (code : Q → Prog A R) (t : Thread Q A R) (m : Mem A) : Thread Q A R × Mem A :=
  match t.cur with
  | none =>
    match t.todo with
    | [] => (t, m)
    | q :: rest => (⟨rest, some (code q), t.results⟩, m)
  | some (.done r) => (⟨t.todo, none, t.results ++ [r]⟩, m)
  | some (.read c k) =>
    match m c with
    | none => ({ t with cur := some (.done (.error (.ub .uninit))) }, m)
    | some a => ({ t with cur := some (k a) }, m)
  | some (.write c a next) => ({ t with cur := some next }, Function.update m c (some a))

/-- Threads and objects; thread `t` evaluates object `on t`; `code m q` is the evaluation `q` of object `m`. -/
structure Sys (Q : Type) (A : C → Type) (R : Type) where
  code : Nat → Q → Prog A R
  on : Nat → Nat
  threads : Nat → Thread Q A R
  mem : Nat → Mem A

/-- Thread `t` takes a step. -/
def Sys.step (s : Sys Q A R) (t : Nat) : Sys Q A R :=
  let r := Conc.step (s.code (s.on t)) (s.threads t) (s.mem (s.on t))
  { s with threads := fun u => if u = t then r.1 else s.threads u, mem := fun n => if n = s.on t then r.2 else s.mem n }

/-- The threads take steps in this order. -/
def Sys.run : Sys Q A R → List Nat → Sys Q A R
  | s, [] => s
  | s, t :: ts => run (s.step t) ts

/-- What a caller's mutex around each evaluation ensures: when a thread takes a step, no other thread that uses the same object is in the middle of an
evaluation. -/
def Sys.Locked : Sys Q A R → List Nat → Prop
  | _, [] => True
  | s, t :: ts => (∀ u, u ≠ t → s.on u = s.on t → (s.threads u).cur = none) ∧ Locked (s.step t) ts

end
end Conc
end Verif
