import Verif.Spec.RoundedTestlib
import Verif.Spec.Series

/-!
# Specification: sums of Chebyshev polynomials and their rounding errors

This file does not mention the model.
-/

namespace Verif.Spec
variable {K : Type} [Field K] [LinearOrder K]

/-- The polynomials with the absolute values of the coefficients of the Chebyshev polynomials, with their derivatives, at `|x|`. -/
noncomputable def absChebyshevs (K : Type) [Field K] [LinearOrder K] (n : Nat) : Family K where
  size := n
  phi k x := (absT K k).eval |x|
  dphi k x := (Polynomial.derivative (absT K k)).eval |x|
  ddphi k x := (Polynomial.derivative (Polynomial.derivative (absT K k))).eval |x|

/-- The bound: `(1+u)^n - 1` times the sum of the absolute values of all monomials of all terms, where `n` is the number of coefficients, plus the
number of variables, plus twice the degree. -/
noncomputable def chebyshevError (u : K) (sizes : List Nat) (m : List Nat) (c : List Int → K) (x : List K) : K :=
  ((1 + u) ^ (sizes.prod + sizes.length + 2 * (sizes.map fun n => n - 1).sum) - 1) * series (sizes.map (absChebyshevs K)) m (fun t => |c t|) x

/-- `(5/2)^k`. -/
def geometric (K : Type) [Field K] (n : Nat) : Family K where
  size := n
  phi k _ := (5 / 2) ^ k
  dphi _ _ := 0
  ddphi _ _ := 0

end Verif.Spec
