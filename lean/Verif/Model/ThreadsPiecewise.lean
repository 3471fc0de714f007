import Verif.Model.Conc
import Verif.Model.Piecewise
import Verif.Spec.ThreadsPiecewise

/-!
# Evaluations of piecewise simple functions by several threads (piecewise/PPieceWiseSimpleBase.hh, piecewise/SimplePiece.hh, pfunction/PSimpleBase.hh:30)

An evaluation of a `PPieceWiseSimpleBase`, broken into its accesses to the numbers evaluations write: the `_val` of the function, of its pieces, of their
expressions and of their conditions. `return _val = eval(var)` (PSimpleBase.hh:30) writes `_val` and then reads it. Expressions and conditions store nothing
but their own `_val`.
-/

namespace Verif
open Spec
namespace PWPar
open Conc
variable {V O : Type}

/-- The objects in which an evaluation stores something: the function (PPieceWiseSimpleBase.hh:20), piece `k` (SimplePiece.hh:19), its expression, and its
condition `i` (SimplePiece.hh:21-22). -/
inductive Cell where
  | whole
  | piece (k : Nat)
  | expr (k : Nat)
  | cond (k i : Nat)
  deriving DecidableEq

/-- What `_val` is (PSimpleBase.hh:24): of conditions a `bool`, of the others an `OutType`. -/
abbrev Val (O : Type) : Cell → Type
  | .cond _ _ => Bool
  | _ => O

/-- PSimpleBase.hh:30, `return _val = eval(var);` of the object `c` whose `eval(var)` has this outcome; an exception leaves it. -/
def storeP (c : Cell) (r : Res (Val O c)) (k : Val O c → Prog (Val O) (POut O)) : Prog (Val O) (POut O) :=
  match r with
  | .error e => .done (.error e)
  | .ok a => .write c a (.read c k)

/-- SimplePiece.hh:102-110, `in_piece` of piece `k`, from condition `i` on; then `next`. -/
def inPieceP (v : V) (k : Nat) (next : Bool → Prog (Val O) (POut O)) : Nat → List (SFun V Bool) → Prog (Val O) (POut O)
  | _, [] => next true
  | i, c :: cs => storeP (.cond k i) (condAt c v) fun b => if !b then next false else inPieceP v k next (i + 1) cs

/-- PPieceWiseSimpleBase.hh:105-109, 115-119, 127-131: the loop over the pieces, from piece `k` on; `found` if one contains the point, else `none`. -/
def piecesP (v : V) (found : Nat → SimplePiece V O → Prog (Val O) (POut O)) (none : Prog (Val O) (POut O)) : Nat → List (SimplePiece V O) → Prog (Val O) (POut O)
  | _, [] => none
  | k, p :: ps => inPieceP v k (fun b => if b then found k p else piecesP v found none (k + 1) ps) 0 p.conds

/-- PSimpleBase.hh:30 with PPieceWiseSimpleBase.hh:125-134 (`value`; `_piece[i](var)` is PSimpleBase.hh:30 with SimplePiece.hh:127-130); 103-111 (`inPiece`);
113-122 (`piece`). -/
def prog (p : PWSimple V O) : PQuery V → Prog (Val O) (POut O)
  | .value v => piecesP v
      (fun k q => storeP (.expr k) (q.eval v) fun y => .write (.piece k) y (.read (.piece k) fun y => .write .whole y (.read .whole fun y => .done (.ok (.num y)))))
      (.done (.error .domainError)) 0 p.pieces
  | .inPiece v => piecesP v (fun _ _ => .done (.ok (.bool true))) (.done (.ok (.bool false))) 0 p.pieces
  | .piece v => piecesP v (fun k _ => .done (.ok (.index k))) (.done (.error .domainError)) 0 p.pieces

/-- SimplePiece.hh:21-22: the conditions and the expression of a piece, as functions. -/
def part (p : SimplePiece V O) : Part V O := ⟨p.conds.map condAt, p.eval⟩

/-- PPieceWiseSimpleBase.hh:24: the pieces of the function, as functions. -/
def parts (p : PWSimple V O) : List (Part V O) := p.pieces.map part

/-- Threads that evaluate piecewise functions: thread `t` evaluates function `on t`, as `todo t` says; the numbers stored so far are arbitrary. -/
def start (p : Nat → PWSimple V O) (on : Nat → Nat) (todo : Nat → List (PQuery V)) (mem : Nat → Conc.Mem (Val O)) : Conc.Sys (PQuery V) (Val O) (POut O) :=
  ⟨fun m => prog (p m), on, fun t => .start (todo t), mem⟩

end PWPar
end Verif
