import Verif.Model.Series

/-!
# Reading and writing the coefficients of a `PSeriesFunction`; histories of calls; a series seen as a `PFuncBase`

Values are printed by a parameter `fmt` and read by a parameter `scan` (formatting of doubles is not modelled).
-/

namespace Verif
open Spec

/-- `sout << i` for an `int`. -/
def showInt (i : Int) : List Char := if i < 0 then '-' :: Nat.toDigits 10 i.natAbs else Nat.toDigits 10 i.natAbs

/-- `sin >> i` for an `int`: an optional sign and decimal digits (numbers that do not fit are not modelled). -/
def scanInt (t : List Char) : Option Int × List Char :=
  match t with
  | '-' :: r => match IStream.scanNat r with | (n, r') => (n.map fun k => -(k : Int), r')
  | '+' :: r => match IStream.scanNat r with | (n, r') => (n.map fun k => (k : Int), r')
  | t => match IStream.scanNat t with | (n, r') => (n.map fun k => (k : Int), r')

/-- Value, first or second derivative. -/
inductive Kind where
  | v | g | h

namespace Series
variable {K : Type} [Field K] [LinearOrder K] [FloorRing K]

/-- PSeriesFunction.hh:451-453 (and 416-418, 428-430, 440-442): one printed line. -/
def printLine (fmt : K → List Char) (term : List Int) (y : K) : List Char :=
  (term.flatMap fun t => showInt t ++ [' ']) ++ fmt y ++ ['\n']

/-- PSeriesFunction.hh:448-454, the loop of `print_coeff`. -/
def printLoop (fmt : K → List Char) (s : Series K) : Nat → Nat → List Int → Res (List Char)
  | 0, _, _ => .ok []
  | n + 1, i, term => do
    let term' ← s.coeff.tensorIndices i term
    let y ← s.coeff.getLin i
    let rest ← printLoop fmt s n (i + 1) term'
    .ok (printLine fmt term' y ++ rest)

/-- PSeriesFunction.hh:445-455, `print_coeff`: the text that is written. -/
def printCoeff (fmt : K → List Char) (s : Series K) : Res (List Char) :=
  printLoop fmt s s.coeff.volume.toNat 0 (List.replicate s.coeff.order.toNat 0)

/-- PSeriesFunction.hh:461-470, the loop of `read_coeff`. -/
def readLoop (scan : List Char → Option K × List Char) : Nat → Nat → List Int → IStream → Series K → Res (IStream × Series K)
  | 0, _, _, sin, s => .ok (sin, s)
  | n + 1, i, term, sin, s => do
    match IStream.readNums scanInt 0 term sin with
    | (sin1, term') => do
      let old ← s.coeff.getLin i
      match IStream.extract scan 0 sin1 (some old) with
      | (sin2, y) => do
        let c ← s.coeff.setLin i (y.getD 0)
        readLoop scan n (i + 1) term' sin2 { s with coeff := c }

/-- PSeriesFunction.hh:456-471, `read_coeff`. -/
def readCoeff (scan : List Char → Option K × List Char) (s : Series K) (sin : IStream) : Res (IStream × Series K) :=
  readLoop scan s.coeff.volume.toNat 0 (List.replicate s.coeff.order.toNat 0) sin s

/-- PSeriesFunction.hh:409-420, the loop of `print_basis`; 421-431 `print_basis_grad`, 433-443 `print_basis_hess`. -/
def printBasisLoop (fmt : K → List Char) (fac : Int → BasisSet K → Int → Res K) (s : Series K) :
    Nat → Nat → List Int → Res (List Char)
  | 0, _, _ => .ok []
  | n + 1, i, term => do
    let term' ← s.coeff.tensorIndices i term
    let y ← s.basisGet fac term'
    let rest ← printBasisLoop fmt fac s n (i + 1) term'
    .ok (printLine fmt term' y ++ rest)

/-- PSeriesFunction.hh:409-444, `print_basis`, `print_basis_grad`, `print_basis_hess` for `fac` = `facVal`, `facGrad di`,
`facHess di dj`. -/
def printBasis (fmt : K → List Char) (fac : Int → BasisSet K → Int → Res K) (s : Series K) : Res (List Char) :=
  printBasisLoop fmt fac s s.coeff.volume.toNat 0 (List.replicate s.coeff.order.toNat 0)

end Series

/-- Calls on a series that may change it. `basisAll`, `basisOne`: `eval_basis(var)`, `eval_basis(var,i)` and the derivatives;
`basis1`: `basis(bindex,term,var)`, `basis_grad(bindex,term,var)`, `basis_hess(bindex,term,var)`; `prod*`: the products
`basis(term,var)`, `basis_grad(term,var,di)`, `basis_hess(term,var,di,dj)`; `setCoeff`, `setCoeffLin`: assignments through `coeff()`
(resizing through `coeff()` is not modelled); `readCoeff`: reading coefficients from a stream. -/
inductive SerOp (K : Type) where
  | set (bs : List (Option (BasisSet K))) | clear
  | evalAt (x : List K) | gradAt (x : List K) (di : Int) | hessAt (x : List K) (di dj : Int)
  | evalGrad (x : List K) | evalHess (x : List K)
  | basisAll (k : Kind) (x : List K) | basisOne (k : Kind) (x : List K) (i : Int)
  | basis1 (k : Kind) (bindex term : Int) (x : List K)
  | prod (t : List Int) (x : List K) | prodGrad (t : List Int) (x : List K) (di : Int)
  | prodHess (t : List Int) (x : List K) (di dj : Int)
  | setCoeff (t : List Int) (y : K) | setCoeffLin (i : Int) (y : K)
  | readCoeff (scan : List Char → Option K × List Char) (sin : IStream)

/-- The call does not replace the basis sets. -/
def SerOp.KeepsBasis {K : Type} : SerOp K → Prop
  | .set _ | .clear => False
  | _ => True

/-- The call is not an assignment of coefficients either. -/
def SerOp.KeepsCoeff {K : Type} : SerOp K → Prop
  | .set _ | .clear | .setCoeff _ _ | .setCoeffLin _ _ | .readCoeff _ _ => False
  | _ => True

namespace Series
variable {K : Type} [Field K] [LinearOrder K] [FloorRing K]

/-- `eval_basis(var)` and its derivatives, PSeriesFunction.hh:298-332. -/
def basisAll : Kind → Series K → List K → Res (Series K)
  | .v => evalBasis | .g => evalBasisGrad | .h => evalBasisHess

/-- The member of a basis set called by `eval_basis(var,i)` and its derivatives, PSeriesFunction.hh:305-332. -/
def evMember : Kind → BasisSet K → K → Res (BasisSet K)
  | .v => BasisSet.eval | .g => BasisSet.evalGrad | .h => BasisSet.evalHess

/-- The member of a basis set called by `basis(bindex,term,var)` and its derivatives, PSeriesFunction.hh:227-238. -/
def termMember : Kind → BasisSet K → Int → K → Res (K × BasisSet K)
  | .v => BasisSet.evalTerm | .g => BasisSet.gradTerm | .h => BasisSet.hessTerm

/-- One call; returned values are dropped. -/
def step (s : Series K) : SerOp K → Res (Series K)
  | .set bs => s.set bs
  | .clear => .ok s.clear
  | .evalAt x => do let r ← s.evalAt x; .ok r.2
  | .gradAt x di => do let r ← s.gradAt x di; .ok r.2
  | .hessAt x di dj => do let r ← s.hessAt x di dj; .ok r.2
  | .evalGrad x => s.evalGrad x
  | .evalHess x => s.evalHess x
  | .basisAll k x => s.basisAll k x
  | .basisOne k x i => s.evalBasis1 (evMember k) x i
  | .basis1 k bi t x => do let r ← s.basis1 (termMember k) bi t x; .ok r.2
  | .prod t x => do let r ← s.basisProd evVal t x; .ok r.2
  | .prodGrad t x di => do let r ← s.basisProd (evGrad di) t x; .ok r.2
  | .prodHess t x di dj => do let r ← s.basisProd (evHess di dj) t x; .ok r.2
  | .setCoeff t y => do let c ← s.coeff.set t y; .ok { s with coeff := c }
  | .setCoeffLin i y => do let c ← s.coeff.setLin i y; .ok { s with coeff := c }
  | .readCoeff scan sin => do let r ← s.readCoeff scan sin; .ok r.2

/-- A history of calls. -/
def run : List (SerOp K) → Series K → Res (Series K)
  | [], s => .ok s
  | op :: ops, s => do
    let s' ← s.step op
    run ops s'

/-- Turns a series member into the form used for the members of `PFuncBase`; the state after an error is not modelled (the errors are
`exit` and undefined behaviour). -/
def member {V : Type} (f : Series K → Res (FOut V K × Series K)) (s : Series K) : Res (FOut V K) × Series K :=
  match f s with
  | .ok r => (.ok r.1, r.2)
  | .error e => (.error e, s)

/-- PSeriesFunction.hh:124-218: which virtual members of `PFuncBase` a series overrides. Its `grad` and `hess` take `int` directions
where `PFuncBase` has `size_type` (PFuncBase.hh:86-132), so they do not override. -/
def ov : Overrides (Series K) (List K) K
  | .evalAt x => some <| member fun s => do let r ← s.evalAt x; .ok (.num r.1, r.2)
  | .eval x => some <| member fun s => do let r ← s.evalAt x; .ok (.void, r.2)
  | .evalGrad x => some <| member fun s => do let r ← s.evalGrad x; .ok (.void, r)
  | .evalHess x => some <| member fun s => do let r ← s.evalHess x; .ok (.void, r)
  | .get => some <| member fun s => do let y ← s.get; .ok (.num y, s)
  | _ => none

/-- A series used as a `PFuncBase` (for instance through a `PFunction`); its constructors (PSeriesFunction.hh:53-65) do not set the name
and the variables of the base class. -/
def sem : FCall (List K) → Series K → Res (FOut (List K) K) × Series K := FBase.sem (fun _ => ⟨"", [], []⟩) ov

end Series
end Verif
