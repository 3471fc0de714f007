import Mathlib.Algebra.BigOperators.Group.Finset.Basic
import Mathlib.Algebra.BigOperators.Ring.Finset

/-!
# Specification: tensor-product series

`f(x0,x1,...) = sum_{i<n0} sum_{j<n1} ... T_ij... * phi0_i(x0) * phi1_j(x1) * ...` and its partial derivatives.
-/

namespace Verif.Spec
variable {K : Type} [CommRing K]

/-- A one-dimensional family of basis functions with first and second derivatives. -/
structure Family (K : Type) where
  size : Nat
  phi : Nat → K → K
  dphi : Nat → K → K
  ddphi : Nat → K → K

/-- The `m`-th derivative of basis function `k`. -/
def Family.deriv (b : Family K) (m k : Nat) (x : K) : K :=
  if m = 0 then b.phi k x else if m = 1 then b.dphi k x else b.ddphi k x

/-- `sum_{k0<n0} sum_{k1<n1} ... c [k0,k1,...] * f0 k0 * f1 k1 * ...` -/
def tensorSum : List (Nat × (Nat → K)) → (List Int → K) → K
  | [], c => c []
  | (n, f) :: fs, c => ∑ k ∈ Finset.range n, f k * tensorSum fs (fun t => c ((k : Int) :: t))

/-- The series with coefficients `c`, differentiated `m[j]` times in variable `j`, at the point `x`. -/
def series (bs : List (Family K)) (m : List Nat) (c : List Int → K) (x : List K) : K :=
  tensorSum (bs.zip (m.zip x) |>.map fun p => (p.1.size, fun k => p.1.deriv p.2.1 k p.2.2)) c

/-- The product `phi0_t0(x0) * phi1_t1(x1) * ...`, differentiated `m[j]` times in variable `j`. -/
def tensorBasis (bs : List (Family K)) (m : List Nat) (t : List Int) (x : List K) : K :=
  (bs.zip (m.zip (t.zip x)) |>.map fun p => p.1.deriv p.2.1 p.2.2.1.toNat p.2.2.2).prod

/-- No differentiation, for `n` variables. -/
def value (n : Nat) : List Nat := List.replicate n 0

/-- Once in direction `i`. -/
def gradient (n i : Nat) : List Nat := (List.range n).map fun k => if k = i then 1 else 0

/-- Once in direction `i` and once in direction `j`. -/
def hessian (n i j : Nat) : List Nat := (List.range n).map fun k => (if k = i then 1 else 0) + (if k = j then 1 else 0)

end Verif.Spec
