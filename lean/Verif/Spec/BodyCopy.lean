import Verif.Model.Core

/-!
# Specification: bodies as C++ variables

A program has variables that are bodies. It makes them, reads files into them, copies and assigns them, evaluates their fields and destroys them. A body is a
value: a copy has the contents of its source and is a body of its own. There are no addresses here.
-/

namespace Verif.Spec

/-- What the program does with its variables, numbered in the order of their declaration. -/
inductive CopyOp (File Call : Type) where
  /-- `Body b;` -/
  | fresh
  /-- `b.read_vtk(file);` -/
  | read (v : Nat) (file : File)
  /-- `Body c(b);` -/
  | copy (v : Nat)
  /-- `b = c;` -/
  | assign (v w : Nat)
  /-- a call on `b.scalar_field[i]` -/
  | call (v i : Nat) (c : Call)
  /-- `b` goes out of scope -/
  | destroy (v : Nat)

/-- What bodies (`B`) are and do. -/
structure CopySem (File B Call Out : Type) where
  empty : B
  read : File → B → Res B
  call : Call → B → Nat → Res Out × B
  /-- has no cells -/
  bare : B → Bool

/-- The variables (`none`: not in scope), how many there were, and for each the body it is a copy of, directly or through other copies (itself, if it is none). -/
structure CopyVars (B : Type) where
  next : Nat
  val : Nat → Option B
  origin : Nat → Nat

variable {File B Call Out : Type}

/-- No variables. -/
def CopyVars.start : CopyVars B := ⟨0, fun _ => none, fun v => v⟩

/-- A variable gets a value. -/
def CopyVars.put (s : CopyVars B) (v : Nat) (b : Option B) (o : Nat) : CopyVars B :=
  { s with val := fun u => if u = v then b else s.val u, origin := fun u => if u = v then o else s.origin u }

/-- An operation on values: what it returns, and the variables afterwards. Variables out of scope are not used. -/
def CopyVars.step (M : CopySem File B Call Out) (s : CopyVars B) : CopyOp File Call → Res (Option Out) × CopyVars B
  | .fresh => (.ok none, { s.put s.next (some M.empty) s.next with next := s.next + 1 })
  | .read v file =>
    match s.val v with
    | none => (.error (.ub .useAfterFree), s)
    | some b => match M.read file b with
      | .error e => (.error e, s)
      | .ok b' => (.ok none, s.put v (some b') (s.origin v))
  | .copy v =>
    match s.val v with
    | none => (.error (.ub .useAfterFree), s)
    | some b => (.ok none, { s.put s.next (some b) (s.origin v) with next := s.next + 1 })
  | .assign v w =>
    match s.val v, s.val w with
    | some _, some c => (.ok none, s.put v (some c) (s.origin w))
    | _, _ => (.error (.ub .useAfterFree), s)
  | .call v i c =>
    match s.val v with
    | none => (.error (.ub .useAfterFree), s)
    | some b => match M.call c b i with | (r, b') => (r.map some, s.put v (some b') (s.origin v))
  | .destroy v =>
    match s.val v with
    | none => (.error (.ub .doubleFree), s)
    | some _ => (.ok none, s.put v none v)

/-- A history. -/
def CopyVars.run (M : CopySem File B Call Out) : List (CopyOp File Call) → CopyVars B → List (Res (Option Out)) × CopyVars B
  | [], s => ([], s)
  | op :: ops, s => match s.step M op with | (r, s') => match run M ops s' with | (rs, s'') => (r :: rs, s'')

/-- No other variable is a copy of the body. -/
def CopyVars.Alone (s : CopyVars B) (v : Nat) : Prop := ∀ u b, u ≠ v → s.val u = some b → s.origin u ≠ v

/-- The rules: variables in scope only; while there are copies of a body, nothing is read into it and nothing assigned to it (but one of its copies), and it is
not destroyed; nothing is read into a copy; and only bodies without cells are destroyed. -/
def CopyVars.Legal (M : CopySem File B Call Out) (s : CopyVars B) : CopyOp File Call → Prop
  | .fresh => True
  | .read v file => (∃ b b', s.val v = some b ∧ M.read file b = .ok b') ∧ s.origin v = v ∧ s.Alone v
  | .copy v => ∃ b, s.val v = some b
  | .assign v w => (∃ b, s.val v = some b) ∧ (∃ b, s.val w = some b) ∧ (s.Alone v ∨ s.origin w = v)
  | .call v _ _ => ∃ b, s.val v = some b
  | .destroy v => (∃ b, s.val v = some b ∧ M.bare b = true) ∧ s.Alone v

/-- A history that obeys the rules. -/
def CopyVars.LegalRun (M : CopySem File B Call Out) : List (CopyOp File Call) → CopyVars B → Prop
  | [], _ => True
  | op :: ops, s => s.Legal M op ∧ LegalRun M ops (s.step M op).2

end Verif.Spec
