import Verif.Spec.Func

/-!
# Specification: piecewise functions

A piece is a function together with conditions; the function applies where all conditions hold. The first piece that applies counts.
-/

namespace Verif.Spec

/-- The piece that applies at `v`: the first one all of whose conditions hold. `regions` lists the conditions of each piece. -/
def firstPiece {V : Type} (regions : List (List (V → Bool))) (v : V) : Option Nat :=
  regions.findIdx? fun conds => conds.all fun c => c v

/-- The point at which a call evaluates. -/
def FCall.point {V : Type} : FCall V → Option V
  | .evalAt v | .gradAt v _ | .hessAt v _ _ | .eval v | .evalGrad v | .evalHess v => some v
  | _ => none

/-- The piece a call refers to, if it evaluates and its point is in a piece. -/
def FCall.target {V : Type} (regions : List (List (V → Bool))) (c : FCall V) : Option Nat :=
  c.point.bind (firstPiece regions)

/-- The piece of the last evaluation inside some piece. -/
def lastPiece {V : Type} (regions : List (List (V → Bool))) (calls : List (FCall V)) : Option Nat :=
  (calls.filterMap (FCall.target regions)).getLast?

/-- The evaluations that fell into piece `i`. -/
def callsOn {V : Type} (regions : List (List (V → Bool))) (i : Nat) (calls : List (FCall V)) : List (FCall V) :=
  calls.filter fun c => c.target regions = some i

/-- All but the first of a list of texts: each is preceded by `tMid`, the last by `tLast`. -/
def textTail (tMid tLast : String) : List String → String
  | [] => ""
  | [t] => tLast ++ t
  | t :: ts => tMid ++ t ++ textTail tMid tLast ts

/-- The notation of one piece: the expression, then its conditions. -/
def pieceText (tFirst tMid tLast : String) (expr : String) : List String → String
  | [] => expr
  | c :: cs => expr ++ tFirst ++ c ++ textTail tMid tLast cs

/-- The notation of a list of pieces. -/
def listText (tFirst tMid tLast : String) : List String → String
  | [] => ""
  | p :: ps => tFirst ++ p ++ textTail tMid tLast ps

end Verif.Spec
