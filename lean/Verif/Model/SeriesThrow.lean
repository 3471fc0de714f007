import Verif.Model.ThreadsSeries

/-!
# Series with basis functions that throw (pfunction/PSeriesFunction.hh:124-131, 184-205, 298-332; pfunction/PBasisSetBase.hh:84-121)

The functions of a basis set are written by users (PBasisSetBase.hh:156-170) and may throw. An exception leaves `eval_basis` and the evaluation that called it at
once; what was written before it stays written.
-/

namespace Verif
namespace SPar
variable {K : Type} [Field K] [LinearOrder K] [FloorRing K]

/-- PBasisSetBase.hh:156-170, `eval(term,var)`, `eval_grad(term,var)`, `eval_hess(term,var)` of basis set `i`: a number or an exception. -/
abbrev Thrower (K : Type) := Nat → Kind → Nat → K → Res K

/-- PBasisSetBase.hh:104-121, the loops of `eval`, `eval_grad`, `eval_hess` of basis set `i`; `n` passes are left, the next is `t`. -/
def termsT (th : Thrower K) (k : Kind) (i : Nat) (x : K) : Nat → Nat → Prog K → Prog K
  | 0, _, next => next
  | n + 1, t, next =>
    match th i k t x with
    | .error e => .done (.error e)
    | .ok y => .write (.basis k i t) y (termsT th k i x n (t + 1) next)

/-- PSeriesFunction.hh:298-332, the loops of `eval_basis`, `eval_basis_grad`, `eval_basis_hess`. -/
def basisT (s : Series K) (th : Thrower K) (k : Kind) (var : List K) : Nat → Nat → Prog K → Prog K
  | 0, _, next => next
  | n + 1, i, next =>
    match s.basisAt i, vget var i with
    | .error e, _ => .done (.error e)
    | .ok _, .error e => .done (.error e)
    | .ok b, .ok x => termsT th k i x b.val.length 0 (basisT s th k var n (i + 1) next)

/-- PSeriesFunction.hh:124-131 (`operator()(var)`), 184-192 (`eval_grad`) and 211-214, 193-205 (`eval_hess`) and 215-218. -/
def progT (s : Series K) (th : Thrower K) : Query K → Prog K
  | .value x => basisT s th .v x s.coeff.order.toNat 0 (calcP s .val (getP .val))
  | .grad x di => basisT s th .v x s.coeff.order.toNat 0 (basisT s th .g x s.coeff.order.toNat 0 (gradsP s s.coeff.order.toNat 0 (getP (.grad di))))
  | .hess x di dj => basisT s th .v x s.coeff.order.toNat 0 (basisT s th .g x s.coeff.order.toNat 0 (basisT s th .h x s.coeff.order.toNat 0
      (hesssP s s.coeff.order.toNat 0 (getP (.hess di dj)))))

/-- An evaluation: its result, or the exception it is left with, and the series after it. -/
def evalT (s : Series K) (th : Thrower K) (q : Query K) : Res K × Series K := (progT s th q).exec s

/-- The series after evaluations (exceptions are caught by the caller). -/
def afterT (th : Thrower K) : List (Query K) → Series K → Series K
  | [], s => s
  | q :: qs, s => afterT th qs (evalT s th q).2

end SPar
end Verif
