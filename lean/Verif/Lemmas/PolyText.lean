import Verif.Model.TestlibText
import Mathlib.Analysis.Calculus.Deriv.Mul
import Mathlib.Analysis.Calculus.Deriv.Add
import Mathlib.RingTheory.Polynomial.Chebyshev
import Mathlib.Data.Rat.Cast.CharZero
import Mathlib.Tactic.Ring
import Mathlib.Tactic.FieldSimp
import Mathlib.Tactic.LinearCombination

/-! # Expressions in one variable as coefficient lists -/

namespace Verif.Testlib
open Spec

/-- Sum. -/
def padd : List ℚ → List ℚ → List ℚ
  | [], q => q
  | p, [] => p
  | a :: p, b :: q => (a + b) :: padd p q

/-- Multiple. -/
def pscale (c : ℚ) : List ℚ → List ℚ
  | [] => []
  | a :: p => (c * a) :: pscale c p

/-- Product. -/
def pmul : List ℚ → List ℚ → List ℚ
  | [], _ => []
  | a :: p, q => padd (pscale a q) (0 :: pmul p q)

/-- Power. -/
def ppow (p : List ℚ) : Nat → List ℚ
  | 0 => [1]
  | n + 1 => pmul (ppow p n) p

/-- Derivative. -/
def pdiff : List ℚ → List ℚ
  | [] => []
  | _ :: p => padd p (0 :: pdiff p)

/-- The coefficients of an expression. -/
def polyOf : Ast → List ℚ
  | .num q => [q]
  | .var _ => [0, 1]
  | .add a b => padd (polyOf a) (polyOf b)
  | .sub a b => padd (polyOf a) (pscale (-1) (polyOf b))
  | .mul a b => pmul (polyOf a) (polyOf b)
  | .neg a => pscale (-1) (polyOf a)
  | .pow a n => ppow (polyOf a) n

/-- Value at a point. -/
def peval {K : Type} [Field K] (x : K) : List ℚ → K
  | [] => 0
  | a :: p => (a : K) + x * peval x p

/-- All coefficients are zero. -/
def pzero : List ℚ → Bool
  | [] => true
  | a :: p => a == 0 && pzero p

/-- The same polynomial. -/
def peq (p q : List ℚ) : Bool := pzero (padd p (pscale (-1) q))

section
variable {K : Type} [Field K] [CharZero K] (x : K)

theorem peval_padd : ∀ p q : List ℚ, peval x (padd p q) = peval x p + peval x q
  | [], q => by simp [padd, peval]
  | a :: p, [] => by simp [padd, peval]
  | a :: p, b :: q => by simp only [padd, peval, peval_padd p q, Rat.cast_add]; ring

theorem peval_pscale (c : ℚ) : ∀ p : List ℚ, peval x (pscale c p) = (c : K) * peval x p
  | [] => by simp [pscale, peval]
  | a :: p => by simp only [pscale, peval, peval_pscale c p, Rat.cast_mul]; ring

theorem peval_pmul : ∀ p q : List ℚ, peval x (pmul p q) = peval x p * peval x q
  | [], q => by simp [pmul, peval]
  | a :: p, q => by
    simp only [pmul, peval, peval_padd, peval_pscale, peval_pmul p q, Rat.cast_zero]; ring

theorem peval_ppow (p : List ℚ) : ∀ n : Nat, peval x (ppow p n) = peval x p ^ n
  | 0 => by simp [ppow, peval]
  | n + 1 => by rw [ppow, peval_pmul, peval_ppow p n, pow_succ]

theorem eval_polyOf : ∀ a : Ast, a.eval (fun _ => x) = peval x (polyOf a)
  | .num q => by simp [Ast.eval, polyOf, peval]
  | .var _ => by simp [Ast.eval, polyOf, peval]
  | .add a b => by rw [Ast.eval, polyOf, peval_padd, eval_polyOf a, eval_polyOf b]
  | .sub a b => by
    rw [Ast.eval, polyOf, peval_padd, peval_pscale, eval_polyOf a, eval_polyOf b]
    simp [sub_eq_add_neg]
  | .mul a b => by rw [Ast.eval, polyOf, peval_pmul, eval_polyOf a, eval_polyOf b]
  | .neg a => by rw [Ast.eval, polyOf, peval_pscale, eval_polyOf a]; simp
  | .pow a n => by rw [Ast.eval, polyOf, peval_ppow, eval_polyOf a]

theorem peval_pzero : ∀ p : List ℚ, pzero p = true → peval x p = 0
  | [], _ => rfl
  | a :: p, h => by
    simp only [pzero, Bool.and_eq_true, beq_iff_eq] at h
    simp [peval, h.1, peval_pzero p h.2]

theorem peval_peq (p q : List ℚ) (h : peq p q = true) : peval x p = peval x q := by
  have := peval_pzero x _ h
  rw [peval_padd, peval_pscale] at this
  push_cast at this
  linear_combination this
end

theorem hasDerivAt_peval : ∀ (p : List ℚ) (x : ℝ), HasDerivAt (fun x : ℝ => peval x p) (peval x (pdiff p)) x
  | [], x => by simpa [pdiff, peval] using hasDerivAt_const x (0 : ℝ)
  | a :: p, x => by
    have h := ((hasDerivAt_id x).mul (hasDerivAt_peval p x)).const_add (a : ℝ)
    refine (h.congr_deriv ?_ : _)
    simp [pdiff, peval, peval_padd]

/-- The text of an expression, read by `rd`, has these coefficients. -/
def hasCoeffs (rd : Text → Option Ast) (p : List ℚ) (t : Text) : Bool :=
  match rd t with
  | some a => peq (polyOf a) p
  | none => false

theorem eval_of_hasCoeffs {K : Type} [Field K] [CharZero K] {rd : Text → Option Ast} {p : List ℚ} {t : Text}
    (h : hasCoeffs rd p t = true) : ∃ a, rd t = some a ∧ ∀ x : K, a.eval (fun _ => x) = peval x p := by
  unfold hasCoeffs at h
  split at h
  · next a e => exact ⟨a, e, fun x => by rw [eval_polyOf, peval_peq x _ _ h]⟩
  · simp at h

/-- Coefficients of `x^k`. -/
def monoC : Nat → List ℚ
  | 0 => [1]
  | k + 1 => 0 :: monoC k

/-- Coefficients of the Chebyshev polynomials `T_k` and `T_{k+1}`. -/
def chebC : Nat → List ℚ × List ℚ
  | 0 => ([1], [0, 1])
  | k + 1 => let p := chebC k; (p.2, padd (0 :: pscale 2 p.2) (pscale (-1) p.1))

theorem peval_monoC {K : Type} [Field K] [CharZero K] (x : K) : ∀ k, peval x (monoC k) = x ^ k
  | 0 => by simp [monoC, peval]
  | k + 1 => by simp [monoC, peval, peval_monoC x k, pow_succ, mul_comm]

theorem peval_chebC {K : Type} [Field K] [CharZero K] (x : K) : ∀ k : Nat,
    peval x (chebC k).1 = (Polynomial.Chebyshev.T K (k : ℤ)).eval x ∧
    peval x (chebC k).2 = (Polynomial.Chebyshev.T K ((k : ℤ) + 1)).eval x
  | 0 => by simp [chebC, peval]
  | k + 1 => by
    obtain ⟨h1, h2⟩ := peval_chebC x k
    refine ⟨by simpa [chebC] using h2, ?_⟩
    have := Polynomial.Chebyshev.T_add_two K (k : ℤ)
    simp only [chebC, peval_padd, peval, peval_pscale, h1, h2]
    rw [show ((k + 1 : ℕ) : ℤ) + 1 = k + 2 by push_cast; ring, this]
    simp; ring

end Verif.Testlib
