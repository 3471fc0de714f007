import Verif.Model.Func

/-!
# Model of `SimplePiece`, `PPieceWiseSimpleBase`, `Piece`, `PPieceWiseFuncBase` (include/IntegrationTools/piecewise)

The expression of a `Piece` is a `PFunction` handle on an object of any class derived from `PFuncBase`; such a class is given by its base
members and the members it overrides (`FClass`). Handles are modelled as the values they hold (property C38). Simplification: what the
`mutable` condition handles (and the `mutable` members of the two simple classes) remember of their last evaluation is not modelled; only
the handles returned by `condition()` and `expr()` would show it.
-/

namespace Verif
open Spec

/-- A class derived from `PFuncBase`. -/
structure FClass (F V O : Type) where
  base : F → FBase
  ov : Overrides F V O

/-- Calls on an object of the class. -/
def FClass.sem {F V O : Type} (C : FClass F V O) : FCall V → F → Res (FOut V O) × F := FBase.sem C.base C.ov

/-- `PFlexFunction` (PFlexFunction.hh:18-204) and the generated classes with the same members, as a class. -/
def flexCls (V O : Type) : FClass (Flex V O) V O := ⟨Flex.base, Flex.ov⟩

/-- `_condition[i](var)`; an empty handle is dereferenced. -/
def condAt {V : Type} (c : SFun V Bool) (v : V) : Res Bool :=
  match c with
  | none => .error (.ub .nullDeref)
  | some o => o.evalFn v

/-- A string member called on a handle. -/
def handleText {V O : Type} (member : SObj V O → Option (Res String)) (h : SFun V O) : Res String :=
  match h with
  | none => .error (.ub .nullDeref)
  | some o => match member o with
    | some s => s
    | none => .error .runtimeError

/-- SimplePiece.hh:21-22 and the name of the base class. -/
structure SimplePiece (V O : Type) where
  name : String
  expr : SFun V O
  conds : List (SFun V Bool)

namespace SimplePiece
variable {V O : Type}

/-- SimplePiece.hh:27-32, constructor; an empty expression is dereferenced. -/
def make (expr : SFun V O) (conds : List (SFun V Bool)) : Res (SimplePiece V O) :=
  match expr with
  | none => .error (.ub .nullDeref)
  | some o => .ok ⟨o.name, some o, conds⟩

/-- SimplePiece.hh:37-51, 57-71, 77-91: the loop over the conditions; `n` is their number, `i` the next. The strings and the member
called are those of the first, the last and any other condition. -/
def condLoop (sFirst sLast sMid : String) (member memberMid : SObj V Bool → Option (Res String)) (n : Nat) :
    List (SFun V Bool) → Nat → String → Res String
  | [], _, str => .ok str
  | c :: cs, i, str =>
    if i = 0 then do
      let t ← handleText member c
      condLoop sFirst sLast sMid member memberMid n cs (i + 1) (str ++ (sFirst ++ t))
    else if i = n - 1 then do
      let t ← handleText member c
      condLoop sFirst sLast sMid member memberMid n cs (i + 1) (str ++ (sLast ++ t))
    else do
      let t ← handleText memberMid c
      condLoop sFirst sLast sMid member memberMid n cs (i + 1) (str ++ (sMid ++ t))

/-- SimplePiece.hh:34-53, `csrc`. -/
def csrc (p : SimplePiece V O) : Res String := do
  let str ← handleText SObj.csrc p.expr
  condLoop " if " " and " ", " SObj.csrc SObj.csrc p.conds.length p.conds 0 str

/-- SimplePiece.hh:55-74, `sym`. -/
def sym (p : SimplePiece V O) : Res String := do
  let str ← handleText SObj.sym p.expr
  condLoop " if " " and " ", " SObj.sym SObj.sym p.conds.length p.conds 0 str

/-- SimplePiece.hh:76-95, `latex`; the conditions in the middle are printed with `sym()`. -/
def latex (p : SimplePiece V O) : Res String := do
  let str ← handleText SObj.latex p.expr
  condLoop " & \\mbox{ if } " " \\mbox{ and } " " \\mbox{, } " SObj.latex SObj.sym p.conds.length p.conds 0 str

/-- SimplePiece.hh:102-110, `in_piece`. -/
def inPiece : List (SFun V Bool) → V → Res Bool
  | [], _ => .ok true
  | c :: cs, v => do
    let b ← condAt c v
    if !b then .ok false else inPiece cs v

/-- SimplePiece.hh:127-130, `eval`. -/
def eval (p : SimplePiece V O) (v : V) : Res O :=
  match p.expr with
  | none => .error (.ub .nullDeref)
  | some o => o.evalFn v

/-- The piece as an object of a class derived from `PSimpleBase`. -/
def toSObj (p : SimplePiece V O) : SObj V O := ⟨p.name, some p.eval, some p.csrc, some p.sym, some p.latex, none⟩

end SimplePiece

/-- PPieceWiseSimpleBase.hh:24; the name of the base class is never set. -/
structure PWSimple (V O : Type) where
  pieces : List (SimplePiece V O)

namespace PWSimple
variable {V O : Type}

/-- PPieceWiseSimpleBase.hh:36-50, 57-71, 78-92: the loop over the pieces; `n` is their number, `i` the next. -/
def textLoop (sFirst sLast sMid : String) (member : SimplePiece V O → Res String) (n : Nat) :
    List (SimplePiece V O) → Nat → String → Res String
  | [], _, str => .ok str
  | p :: ps, i, str =>
    if i = 0 then do
      let t ← member p
      textLoop sFirst sLast sMid member n ps (i + 1) (str ++ (sFirst ++ t))
    else if i = n - 1 then do
      let t ← member p
      textLoop sFirst sLast sMid member n ps (i + 1) (str ++ (sLast ++ t))
    else do
      let t ← member p
      textLoop sFirst sLast sMid member n ps (i + 1) (str ++ (sMid ++ t))

/-- PPieceWiseSimpleBase.hh:33-52, `csrc`. -/
def csrc (p : PWSimple V O) : Res String := textLoop "" "; and " "; " SimplePiece.csrc p.pieces.length p.pieces 0 ""

/-- PPieceWiseSimpleBase.hh:54-73, `sym`. -/
def sym (p : PWSimple V O) : Res String := textLoop "" "; and " "; " SimplePiece.sym p.pieces.length p.pieces 0 ""

/-- PPieceWiseSimpleBase.hh:75-96, `latex`. -/
def latex (p : PWSimple V O) : Res String := do
  let str ← textLoop "\\left\\{ \\begin{array}{ll} " " \\\\ " " \\\\ " SimplePiece.latex p.pieces.length p.pieces 0 ""
  .ok (str ++ " \\end{array} \\right.")

/-- PPieceWiseSimpleBase.hh:103-111, `in_piece`. -/
def inPiece : List (SimplePiece V O) → V → Res Bool
  | [], _ => .ok false
  | p :: ps, v => do
    let b ← SimplePiece.inPiece p.conds v
    if b then .ok true else inPiece ps v

/-- PPieceWiseSimpleBase.hh:113-122, `piece`. -/
def piece : List (SimplePiece V O) → Nat → V → Res Nat
  | [], _, _ => .error .domainError
  | p :: ps, i, v => do
    let b ← SimplePiece.inPiece p.conds v
    if b then .ok i else piece ps (i + 1) v

/-- PPieceWiseSimpleBase.hh:125-134, `eval`. -/
def eval : List (SimplePiece V O) → V → Res O
  | [], _ => .error .domainError
  | p :: ps, v => do
    let b ← SimplePiece.inPiece p.conds v
    if b then p.eval v else eval ps v

/-- The function as an object of a class derived from `PSimpleBase`. -/
def toSObj (p : PWSimple V O) : SObj V O := ⟨"", some (eval p.pieces), some p.csrc, some p.sym, some p.latex, none⟩

end PWSimple

/-- Piece.hh:23-24 and the members of the base class. -/
structure Piece (F V : Type) where
  base : FBase
  expr : Option F
  conds : List (SFun V Bool)

namespace Piece
variable {F V O : Type}

/-- Piece.hh:32-39, constructor; an empty expression is dereferenced. -/
def make (C : FClass F V O) (expr : Option F) (conds : List (SFun V Bool)) : Res (Piece F V) :=
  match expr with
  | none => .error (.ub .nullDeref)
  | some f => .ok ⟨C.base f, some f, conds⟩

/-- Piece.hh:41-49, `in_piece`. -/
def inPiece : List (SFun V Bool) → V → Res Bool
  | [], _ => .ok true
  | c :: cs, v => do
    let b ← condAt c v
    if !b then .ok false else inPiece cs v

/-- A call forwarded to `_expr`. -/
def forward (C : FClass F V O) (c : FCall V) (p : Piece F V) : Res (FOut V O) × Piece F V :=
  match p.expr with
  | none => (.error (.ub .nullDeref), p)
  | some f => match C.sem c f with | (r, f') => (r, { p with expr := some f' })

/-- Piece.hh:61-74, `simplepiece`, `grad_simplepiece`, `hess_simplepiece` (`c` is the member called on the expression). -/
def simplePiece (C : FClass F V O) (c : FCall V) (p : Piece F V) : Res (SimplePiece V O) :=
  match (forward C c p).1 with
  | .ok (.simple e) => SimplePiece.make e p.conds
  | .ok _ => .error (.ub .missingReturn)   -- cannot happen: the member returns a simple function
  | .error e => .error e

/-- Piece.hh:81-140, the overridden members. `eval` calls `_expr(var)`. -/
def ov (C : FClass F V O) : Overrides (Piece F V) V O
  | .simple => some fun p => ((p.simplePiece C .simple).map fun q => .simple (some q.toSObj), p)
  | .gradSimple di => some fun p => ((p.simplePiece C (.gradSimple di)).map fun q => .simple (some q.toSObj), p)
  | .hessSimple di dj => some fun p => ((p.simplePiece C (.hessSimple di dj)).map fun q => .simple (some q.toSObj), p)
  | .eval v => some fun p => match p.forward C (.evalAt v) with | (r, p') => (r.map fun _ => .void, p')
  | c => some (forward C c)

/-- `Piece` as a class derived from `PFuncBase`. -/
def cls (C : FClass F V O) : FClass (Piece F V) V O := ⟨Piece.base, ov C⟩

end Piece

/-- PPieceWiseFuncBase.hh:28-29 and the members of the base class; `_curr_piece` is uninitialised (`none`) at first. -/
structure PWFunc (F V : Type) where
  base : FBase
  curr : Option Nat
  pieces : List (Piece F V)

namespace PWFunc
variable {F V O : Type}

/-- PPieceWiseFuncBase.hh:33-36, constructor. -/
def make (pieces : List (Piece F V)) : PWFunc F V := ⟨⟨"", [], []⟩, none, pieces⟩

/-- PPieceWiseFuncBase.hh:38-46, `in_piece`. -/
def inPiece : List (Piece F V) → V → Res Bool
  | [], _ => .ok false
  | p :: ps, v => do
    let b ← Piece.inPiece p.conds v
    if b then .ok true else inPiece ps v

/-- PPieceWiseFuncBase.hh:48-57, the loop of `piece`. -/
def find : List (Piece F V) → Nat → V → Res Nat
  | [], _, _ => .error .domainError
  | p :: ps, i, v => do
    let b ← Piece.inPiece p.conds v
    if b then .ok i else find ps (i + 1) v

/-- PPieceWiseFuncBase.hh:48-57, `piece`: remembers the index it returns. -/
def piece (s : PWFunc F V) (v : V) : Res Nat × PWFunc F V :=
  match find s.pieces 0 v with
  | .ok i => (.ok i, { s with curr := some i })
  | .error e => (.error e, s)

/-- `_piece[i].member(...)`. -/
def onPiece (C : FClass F V O) (c : FCall V) (i : Nat) (s : PWFunc F V) : Res (FOut V O) × PWFunc F V :=
  match s.pieces[i]? with
  | none => (.error (.ub .oob), s)
  | some p => match (Piece.cls C).sem c p with | (r, p') => (r, { s with pieces := s.pieces.set i p' })

/-- PPieceWiseFuncBase.hh:103-129, the members that take a point: `_piece[piece(var)].member(var, ...)`. -/
def atPoint (C : FClass F V O) (c : FCall V) (v : V) (s : PWFunc F V) : Res (FOut V O) × PWFunc F V :=
  match s.piece v with
  | (.error e, s') => (.error e, s')
  | (.ok i, s') => onPiece C c i s'

/-- PPieceWiseFuncBase.hh:132-143, the getters: `_piece[_curr_piece].member(...)`. -/
def onCurr (C : FClass F V O) (c : FCall V) (s : PWFunc F V) : Res (FOut V O) × PWFunc F V :=
  match s.curr with
  | none => (.error (.ub .uninit), s)
  | some i => onPiece C c i s

/-- PPieceWiseFuncBase.hh:68-71, 80-83, 92-95: the loops that collect the simple pieces. -/
def simplePieces (C : FClass F V O) (c : FCall V) : List (Piece F V) → Res (List (SimplePiece V O))
  | [] => .ok []
  | p :: ps => do
    let q ← p.simplePiece C c
    let qs ← simplePieces C c ps
    .ok (q :: qs)

/-- PPieceWiseFuncBase.hh:64-98, `simplefunction`, `grad_simplefunction`, `hess_simplefunction`. -/
def simple (C : FClass F V O) (c : FCall V) (s : PWFunc F V) : Res (FOut V O) × PWFunc F V :=
  ((simplePieces C c s.pieces).map fun ps => .simple (some (PWSimple.toSObj ⟨ps⟩)), s)

/-- PPieceWiseFuncBase.hh:64-143, the overridden members. -/
def ov (C : FClass F V O) : Overrides (PWFunc F V) V O
  | .simple => some (simple C .simple)
  | .gradSimple di => some (simple C (.gradSimple di))
  | .hessSimple di dj => some (simple C (.hessSimple di dj))
  | .evalAt v => some (atPoint C (.evalAt v) v)
  | .gradAt v di => some (atPoint C (.gradAt v di) v)
  | .hessAt v di dj => some (atPoint C (.hessAt v di dj) v)
  | .eval v => some (atPoint C (.eval v) v)
  | .evalGrad v => some (atPoint C (.evalGrad v) v)
  | .evalHess v => some (atPoint C (.evalHess v) v)
  | .get => some (onCurr C .get)
  | .getGrad di => some (onCurr C (.getGrad di))
  | .getHess di dj => some (onCurr C (.getHess di dj))
  | _ => none

/-- `PPieceWiseFuncBase` as a class derived from `PFuncBase`. -/
def cls (C : FClass F V O) : FClass (PWFunc F V) V O := ⟨PWFunc.base, ov C⟩

end PWFunc
end Verif
