import Mathlib.Analysis.Calculus.Deriv.Basic
import Mathlib.RingTheory.Polynomial.Chebyshev
import Mathlib.Algebra.Polynomial.Derivative
import Verif.Spec.Series
import Verif.Spec.Expr

/-!
# Specification: the functions shipped in tests/testlib
-/

namespace Verif.Spec
open Polynomial

/-- The monomials `x^k` with their derivatives. -/
def monomials (K : Type) [Field K] (n : Nat) : Family K where
  size := n
  phi k x := x ^ k
  dphi k x := k * x ^ (k - 1)
  ddphi k x := k * (k - 1) * x ^ (k - 2)

/-- The Chebyshev polynomials of the first kind with their derivatives. -/
noncomputable def chebyshevs (K : Type) [Field K] (n : Nat) : Family K where
  size := n
  phi k x := (Chebyshev.T K k).eval x
  dphi k x := (derivative (Chebyshev.T K k)).eval x
  ddphi k x := (derivative (derivative (Chebyshev.T K k))).eval x

/-- A text, read by `rd`, is an expression with value `f x` at every `x`. -/
def Means {K : Type} [Field K] (rd : Text → Option Ast) (t : String) (f : K → K) : Prop :=
  ∃ a, rd t.toList = some a ∧ ∀ x, a.eval (fun _ => x) = f x

/-- The same for two variables. -/
def Means2 {K : Type} [Field K] (rd : Text → Option Ast) (t : String) (f : K → K → K) : Prop :=
  ∃ a, rd t.toList = some a ∧ ∀ x y, a.eval (fun i => if i = 0 then x else y) = f x y

end Verif.Spec
