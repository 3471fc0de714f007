import Verif.Spec.Extern

/-!
# Specification: bodies, and fields seen through pointers

A client keeps variables for bodies and variables for fields. A field variable is a view of one of the fields of a body, or a copy of a
field, which is evaluated on the mesh of the same body. There are no addresses here.
-/

namespace Verif.Spec

/-- What the client does with its variables, numbered in the order of their declaration. -/
inductive BOp (File Call : Type) where
  /-- `Body *b = NULL;` -/
  | declBody
  /-- `PFuncBase *f = NULL;` -/
  | declField
  /-- `BodyXD_new(file, b);` -/
  | newBody (h : Nat) (file : File)
  /-- `BodyXD_delete(b);` -/
  | deleteBody (h : Nat)
  /-- `ScalarFieldXD(name, b, f);` -/
  | field (g h : Nat) (name : String)
  /-- `f = k->clone();` -/
  | clone (g k : Nat)
  /-- a call on the field -/
  | call (g : Nat) (c : Call)
  /-- `PFunction_dsd_delete(f);` -/
  | deleteField (g : Nat)

/-- A field variable. -/
inductive FVar (F : Type) where
  | empty
  /-- field number `i` of the body in variable `h` -/
  | view (h i : Nat)
  /-- a field of its own, over the mesh of the body in variable `h` -/
  | copy (h : Nat) (f : F)

/-- The body variable a field variable depends on. -/
def FVar.body {F : Type} : FVar F → Option Nat
  | .empty => none
  | .view h _ | .copy h _ => some h

/-- What bodies (`B`) and fields (`F`) are and do. -/
structure BodySem (File B F Call Out : Type) where
  make : File → Res B
  fields : B → List F
  name : F → String
  /-- a call on field number `i` of a body -/
  callIn : Call → B → Nat → Res Out × B
  /-- a call on a field of its own, over the mesh of a body -/
  callCopy : Call → B → F → Res Out × B × F
  /-- has no cells -/
  bare : B → Bool

/-- The variables. -/
structure BVars (B F : Type) where
  bodies : Slots B
  fields : List (FVar F)

namespace BVars
variable {File B F Call Out : Type}

/-- Operations a client may perform. -/
def Legal (S : BodySem File B F Call Out) (s : BVars B F) : BOp File Call → Prop
  | .declBody | .declField => True
  | .newBody h _ => s.bodies[h]? = some none
  | .deleteBody h => s.bodies[h]? = some none ∨
      (∃ b, s.bodies[h]? = some (some b) ∧ S.bare b = true) ∧ ∀ x ∈ s.fields, x.body ≠ some h
  | .field g h _ => (∃ b, s.bodies[h]? = some (some b)) ∧ ∃ x, s.fields[g]? = some x ∧ ∀ h' f, x ≠ .copy h' f
  | .clone g k => (∃ x, s.fields[g]? = some x ∧ ∀ h' f, x ≠ .copy h' f) ∧
      ∃ x, s.fields[k]? = some x ∧ x ≠ .empty
  | .call g _ => ∃ x, s.fields[g]? = some x ∧ x ≠ .empty
  | .deleteField g => s.fields[g]? = some .empty ∨ ∃ h f, s.fields[g]? = some (.copy h f)

/-- The number of the first field of that name. -/
def find (S : BodySem File B F Call Out) (b : B) (name : String) : Option Nat := (S.fields b).findIdx? fun f => S.name f == name

/-- The meaning of one operation. -/
def step (S : BodySem File B F Call Out) (s : BVars B F) : BOp File Call → Res (Option Out) × BVars B F
  | .declBody => (.ok none, { s with bodies := s.bodies ++ [none] })
  | .declField => (.ok none, { s with fields := s.fields ++ [.empty] })
  | .newBody h file =>
    match S.make file with
    | .ok b => (.ok none, { s with bodies := s.bodies.set h (some b) })
    | .error e => (.error e, s)
  | .deleteBody h => (.ok none, { s with bodies := s.bodies.set h none })
  | .field g h name =>
    match (s.bodies[h]?).join with
    | none => (.ok none, s)
    | some b =>
      match find S b name with
      | some i => (.ok none, { s with fields := s.fields.set g (.view h i) })
      | none => (.error .invalidArgument, s)
  | .clone g k =>
    match s.fields[k]? with
    | some (.view h i) =>
      match ((s.bodies[h]?).join.map S.fields).bind (·[i]?) with
      | some f => (.ok none, { s with fields := s.fields.set g (.copy h f) })
      | none => (.ok none, s)
    | some (.copy h f) => (.ok none, { s with fields := s.fields.set g (.copy h f) })
    | _ => (.ok none, s)
  | .call g c =>
    match s.fields[g]? with
    | some (.view h i) =>
      match (s.bodies[h]?).join with
      | none => (.ok none, s)
      | some b => ((S.callIn c b i).1.map some, { s with bodies := s.bodies.set h (some (S.callIn c b i).2) })
    | some (.copy h f) =>
      match (s.bodies[h]?).join with
      | none => (.ok none, s)
      | some b => ((S.callCopy c b f).1.map some,
          ⟨s.bodies.set h (some (S.callCopy c b f).2.1), s.fields.set g (.copy h (S.callCopy c b f).2.2)⟩)
    | _ => (.ok none, s)
  | .deleteField g => (.ok none, { s with fields := s.fields.set g .empty })

/-- A history; the client goes on after an exception. -/
def run (S : BodySem File B F Call Out) : List (BOp File Call) → BVars B F → List (Res (Option Out)) × BVars B F
  | [], s => ([], s)
  | op :: ops, s =>
    match s.step S op with
    | (r, s') => match run S ops s' with | (rs, s'') => (r :: rs, s'')

/-- Every operation of the history is legal when it is performed. -/
def LegalRun (S : BodySem File B F Call Out) : List (BOp File Call) → BVars B F → Prop
  | [], _ => True
  | op :: ops, s => s.Legal S op ∧ LegalRun S ops (s.step S op).2

end BVars
end Verif.Spec
