import Verif.Model.Core

/-!
# Specification: what threads ask of piecewise functions and should get
-/

namespace Verif.Spec

/-- A piece as given: its conditions and its expression, any of which may throw. -/
structure Part (V O : Type) where
  conds : List (V → Res Bool)
  expr : V → Res O

/-- What a thread asks for: `p(v)`, `p.in_piece(v)`, `p.piece(v)`. -/
inductive PQuery (V : Type) where
  | value (v : V)
  | inPiece (v : V)
  | piece (v : V)

/-- The point. -/
def PQuery.point {V : Type} : PQuery V → V
  | .value v | .inPiece v | .piece v => v

/-- What a thread gets: a number, a `bool` or an index. -/
inductive POut (O : Type) where
  | num (y : O)
  | bool (b : Bool)
  | index (i : Nat)
  deriving DecidableEq

/-- The outcome is this `bool`. -/
def gives (b : Bool) : Res Bool → Bool
  | .ok c => c == b
  | .error _ => false

/-- Is the point in the piece? The first condition that is not true decides; a point at which all are true is. -/
def Part.inside {V O : Type} (p : Part V O) (v : V) : Res Bool :=
  ((p.conds.map fun c => c v).find? fun r => !gives true r).getD (.ok true)

/-- The piece that answers, with its index: the first one the point is not outside of. -/
def answering {V O : Type} (ps : List (Part V O)) (v : V) : Option (Part V O × Nat) :=
  ps.zipIdx.find? fun p => !gives false (p.1.inside v)

/-- What the thread should get: `std::domain_error` for a value or an index where there is no piece; the exception of a condition, if one throws; else the
value of the expression of the piece, or that there is one, or its index. -/
def PQuery.meant {V O : Type} (ps : List (Part V O)) (q : PQuery V) : Res (POut O) :=
  match q, answering ps q.point with
  | .inPiece _, none => .ok (.bool false)
  | _, none => .error .domainError
  | q, some (p, i) =>
    match p.inside q.point with
    | .error e => .error e
    | .ok _ =>
      match q with
      | .value v => (p.expr v).map .num
      | .inPiece _ => .ok (.bool true)
      | .piece _ => .ok (.index i)

/-- No condition is true at the point of the one query and false at that of the other; and the function does not have two values, if both ask for its
value. -/
def PQuery.Agree {V O : Type} (ps : List (Part V O)) (q r : PQuery V) : Prop :=
  (∀ p ∈ ps, ∀ c ∈ p.conds, ∀ a b, c q.point = .ok a → c r.point = .ok b → a = b) ∧
  ∀ v w, q = .value v → r = .value w → ∀ y z, q.meant ps = .ok (.num y) → r.meant ps = .ok (.num z) → y = z

end Verif.Spec
