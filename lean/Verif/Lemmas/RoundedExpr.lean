import Verif.Model.RoundedTestlib
import Verif.Lemmas.Rounding
import Verif.Lemmas.PolyText
import Mathlib.Tactic.Linarith
import Mathlib.Tactic.Positivity
import Mathlib.Algebra.Order.Ring.Cast
import Mathlib.Data.Rat.Cast.Order

/-! # Expressions evaluated in floating-point arithmetic -/

namespace Verif
open Spec

/-- The expression with the absolute values of the literals, and without minus signs. -/
def Spec.Ast.mag : Ast → Ast
  | .num q => .num |q|
  | .var i => .var i
  | .add a b => .add a.mag b.mag
  | .sub a b => .add a.mag b.mag
  | .mul a b => .mul a.mag b.mag
  | .neg a => a.mag
  | .pow a n => .pow a.mag n

/-- A bound on the number of roundings on a way through the expression. -/
def Spec.Ast.ops : Ast → Nat
  | .num q => if q = 0 ∨ q = 1 then 0 else 1
  | .var _ => 0
  | .add a b => max a.ops b.ops + 1
  | .sub a b => max a.ops b.ops + 1
  | .mul a b => a.ops + b.ops + 1
  | .neg a => a.ops
  | .pow a n => n * (a.ops + 1)

section
variable {K : Type} [Field K] [LinearOrder K] [FloorRing K] [IsStrictOrderedRing K] {rnd : K → K} {u : K}

/-- The value in floating-point arithmetic. -/
def flEval (rnd : K → K) (v : Nat → K) (a : Ast) : K := a.compute (K := Flt rnd) v

theorem mag_nonneg {v : Nat → K} (hv : ∀ i, 0 ≤ v i) : ∀ a : Ast, 0 ≤ a.mag.eval v
  | .num q => by simp only [Ast.mag, Ast.eval]; exact_mod_cast abs_nonneg q
  | .var i => hv i
  | .add a b => by have := mag_nonneg hv a; have := mag_nonneg hv b; simp only [Ast.mag, Ast.eval]; linarith
  | .sub a b => by have := mag_nonneg hv a; have := mag_nonneg hv b; simp only [Ast.mag, Ast.eval]; linarith
  | .mul a b => mul_nonneg (mag_nonneg hv a) (mag_nonneg hv b)
  | .neg a => mag_nonneg hv a
  | .pow a n => pow_nonneg (mag_nonneg hv a) n

theorem abs_eval_le (v : Nat → K) : ∀ a : Ast, |a.eval v| ≤ a.mag.eval fun i => |v i|
  | .num q => by simp only [Ast.mag, Ast.eval, Rat.cast_abs]; exact le_refl _
  | .var i => le_refl _
  | .add a b => (abs_add_le _ _).trans (add_le_add (abs_eval_le v a) (abs_eval_le v b))
  | .sub a b => (abs_sub _ _).trans (add_le_add (abs_eval_le v a) (abs_eval_le v b))
  | .mul a b => by
    simp only [Ast.mag, Ast.eval, abs_mul]
    exact mul_le_mul (abs_eval_le v a) (abs_eval_le v b) (abs_nonneg _) (mag_nonneg (fun i => abs_nonneg _) a)
  | .neg a => by simp only [Ast.mag, Ast.eval, abs_neg]; exact abs_eval_le v a
  | .pow a n => by
    simp only [Ast.mag, Ast.eval, abs_pow]
    exact pow_le_pow_left₀ (abs_nonneg _) (abs_eval_le v a) n

/-- `c` is computed for `e` with at most `m` roundings; `M` bounds `e`. -/
structure Near (u : K) (m : Nat) (c e M : K) : Prop where
  err : |c - e| ≤ ((1 + u) ^ m - 1) * M
  bound : |e| ≤ M

theorem Near.size {m : Nat} {c e M : K} (h : Near u m c e M) : |c| ≤ (1 + u) ^ m * M := by
  have h1 := h.err
  have h2 := h.bound
  have : |c| ≤ |c - e| + |e| := by simpa using abs_add_le (c - e) e
  nlinarith

theorem Near.mono (hu : 0 ≤ u) {m n : Nat} {c e M : K} (h : Near u m c e M) (hmn : m ≤ n) : Near u n c e M := by
  refine ⟨h.err.trans (mul_le_mul_of_nonneg_right ?_ ((abs_nonneg _).trans h.bound)), h.bound⟩
  have := pow_le_pow_right₀ (show (1 : K) ≤ 1 + u by linarith) hmn
  linarith

theorem Near.round (R : Rounding rnd u) {m : Nat} {c e M : K} (h : Near u m c e M) : Near u (m + 1) (rnd c) e M := by
  have hu := R.u_nonneg
  refine ⟨?_, h.bound⟩
  have h1 := R.err c
  have h2 := h.size
  have h3 : |rnd c - e| ≤ |rnd c - c| + |c - e| := by simpa using abs_add_le (rnd c - c) (c - e)
  have h4 : u * |c| ≤ u * ((1 + u) ^ m * M) := mul_le_mul_of_nonneg_left h2 hu
  have h5 := h.err
  have h6 : ((1 + u) ^ (m + 1) - 1) * M = u * ((1 + u) ^ m * M) + ((1 + u) ^ m - 1) * M := by ring
  linarith

theorem Near.add (hu : 0 ≤ u) {m n : Nat} {c e M d f N : K} (h : Near u m c e M) (k : Near u n d f N) :
    Near u (max m n) (c + d) (e + f) (M + N) := by
  have h' := h.mono hu (le_max_left m n)
  have k' := k.mono hu (le_max_right m n)
  refine ⟨?_, (abs_add_le _ _).trans (add_le_add h.bound k.bound)⟩
  have : |c + d - (e + f)| ≤ |c - e| + |d - f| := by
    rw [show c + d - (e + f) = (c - e) + (d - f) by ring]; exact abs_add_le _ _
  have := h'.err
  have := k'.err
  rw [mul_add]; linarith

theorem Near.neg {m : Nat} {c e M : K} (h : Near u m c e M) : Near u m (-c) (-e) M :=
  ⟨by rw [show -c - -e = -(c - e) by ring, abs_neg]; exact h.err, by rw [abs_neg]; exact h.bound⟩

theorem Near.mul (hu : 0 ≤ u) {m n : Nat} {c e M d f N : K} (h : Near u m c e M) (k : Near u n d f N) :
    Near u (m + n) (c * d) (e * f) (M * N) := by
  have hM : 0 ≤ M := (abs_nonneg _).trans h.bound
  have hN : 0 ≤ N := (abs_nonneg _).trans k.bound
  have hm : (1 : K) ≤ (1 + u) ^ m := one_le_pow₀ (by linarith)
  have hn : (1 : K) ≤ (1 + u) ^ n := one_le_pow₀ (by linarith)
  refine ⟨?_, by rw [abs_mul]; exact mul_le_mul h.bound k.bound (abs_nonneg _) hM⟩
  have h1 : |c * d - e * f| ≤ |c - e| * |d| + |e| * |d - f| := by
    rw [show c * d - e * f = (c - e) * d + e * (d - f) by ring]
    refine (abs_add_le _ _).trans ?_
    rw [abs_mul, abs_mul]
  have h2 : |c - e| * |d| ≤ (((1 + u) ^ m - 1) * M) * ((1 + u) ^ n * N) :=
    mul_le_mul h.err k.size (abs_nonneg _) (mul_nonneg (by linarith) hM)
  have h3 : |e| * |d - f| ≤ M * (((1 + u) ^ n - 1) * N) := mul_le_mul h.bound k.err (abs_nonneg _) hM
  calc |c * d - e * f| ≤ _ := h1
    _ ≤ _ := add_le_add h2 h3
    _ = ((1 + u) ^ (m + n) - 1) * (M * N) := by rw [pow_add]; ring

theorem Near.exact (e : K) : Near u 0 e e |e| := ⟨by simp, le_refl _⟩

/-- The error of an expression. -/
theorem flEval_near (R : Rounding rnd u) (v : Nat → K) : ∀ a : Ast,
    Near u a.ops (flEval rnd v a) (a.eval v) (a.mag.eval fun i => |v i|)
  | .num q => by
    have h0 : Near u 0 (q : K) (q : K) (((|q| : ℚ) : K)) := by rw [Rat.cast_abs]; exact Near.exact _
    by_cases h : q = 0 ∨ q = 1
    · have : rnd (q : K) = q := by
        rcases h with rfl | rfl
        · simpa using R.zero
        · simpa using R.one
      simp only [Ast.ops, if_pos h, flEval, Ast.compute, Arith.lit, Ast.eval, Ast.mag, this]
      exact h0
    · simp only [Ast.ops, if_neg h]
      exact h0.round R
  | .var i => Near.exact _
  | .add a b => ((flEval_near R v a).add R.u_nonneg (flEval_near R v b)).round R
  | .sub a b => by
    have h := (((flEval_near R v a).add R.u_nonneg (flEval_near R v b).neg)).round R
    rw [← sub_eq_add_neg, ← sub_eq_add_neg] at h
    exact h
  | .mul a b => ((flEval_near R v a).mul R.u_nonneg (flEval_near R v b)).round R
  | .neg a => (flEval_near R v a).neg
  | .pow a n => by
    have ha := flEval_near R v a
    show Near u (n * (a.ops + 1)) (Nat.rec (rnd ((1 : ℚ) : K)) (fun _ r => rnd (r * flEval rnd v a)) n) (a.eval v ^ n)
      ((a.mag.eval fun i => |v i|) ^ n)
    induction n with
    | zero =>
      have : rnd ((1 : ℚ) : K) = 1 := by simpa using R.one
      simp only [Nat.zero_mul, pow_zero, this]
      simpa using Near.exact (u := u) (1 : K)
    | succ n ih =>
      have := (ih.mul R.u_nonneg ha).round R
      rw [pow_succ, pow_succ, show (n + 1) * (a.ops + 1) = n * (a.ops + 1) + a.ops + 1 by ring]
      exact this

/-- Products of variables and literals that are not negative. -/
def isProd : Ast → Bool
  | .num q => decide (0 ≤ q)
  | .var _ => true
  | .mul a b => isProd a && isProd b
  | _ => false

/-- On arguments that are not negative, a product is not negative and grows with its arguments. -/
theorem isProd_mono (R : Rounding rnd u) {v w : Nat → K} (hv : ∀ i, 0 ≤ v i) (hvw : ∀ i, v i ≤ w i) : ∀ a : Ast, isProd a = true →
    0 ≤ flEval rnd v a ∧ flEval rnd v a ≤ flEval rnd w a
  | .num q, h => by
    have hq : (0 : ℚ) ≤ q := by simpa [isProd] using h
    exact ⟨R.nonneg (by exact_mod_cast hq), le_refl _⟩
  | .var i, _ => ⟨hv i, hvw i⟩
  | .mul a b, h => by
    simp only [isProd, Bool.and_eq_true] at h
    obtain ⟨a1, a2⟩ := isProd_mono R hv hvw a h.1
    obtain ⟨b1, b2⟩ := isProd_mono R hv hvw b h.2
    exact ⟨R.nonneg (mul_nonneg a1 b1), R.mono _ _ (mul_le_mul a2 b2 b1 (a1.trans a2))⟩
  | .add a b, h => by simp [isProd] at h
  | .sub a b, h => by simp [isProd] at h
  | .neg a, h => by simp [isProd] at h
  | .pow a n, h => by simp [isProd] at h

/-- Even (`some false`), odd (`some true`). -/
def parity : Ast → Option Bool
  | .num _ => some false
  | .var _ => some true
  | .add a b | .sub a b => match parity a, parity b with
    | some p, some q => if p = q then some p else none
    | _, _ => none
  | .mul a b => match parity a, parity b with
    | some p, some q => some (xor p q)
    | _, _ => none
  | .neg a => parity a
  | .pow _ _ => none

/-- `x` or `-x`. -/
def signed (p : Bool) (x : K) : K := if p then -x else x

/-- An even or odd expression is even or odd in floating-point arithmetic as well. -/
theorem parity_fl (R : Rounding rnd u) (v : Nat → K) : ∀ (a : Ast) (p : Bool), parity a = some p →
    flEval rnd (fun i => - v i) a = signed p (flEval rnd v a)
  | .num q, p, h => by cases h; rfl
  | .var i, p, h => by cases h; rfl
  | .add a b, p, h => by
    simp only [parity] at h
    split at h
    · next p1 q1 h1 h2 =>
      split at h
      · next e =>
        subst e; cases h
        have e1 := parity_fl R v a _ h1
        have e2 := parity_fl R v b _ h2
        show rnd (flEval rnd _ a + flEval rnd _ b) = signed _ (rnd (flEval rnd v a + flEval rnd v b))
        rw [e1, e2]
        cases p <;> simp only [signed, if_true, if_false, Bool.false_eq_true]
        rw [← neg_add, R.neg]
      · cases h
    · cases h
  | .sub a b, p, h => by
    simp only [parity] at h
    split at h
    · next p1 q1 h1 h2 =>
      split at h
      · next e =>
        subst e; cases h
        have e1 := parity_fl R v a _ h1
        have e2 := parity_fl R v b _ h2
        show rnd (flEval rnd _ a - flEval rnd _ b) = signed _ (rnd (flEval rnd v a - flEval rnd v b))
        rw [e1, e2]
        cases p <;> simp only [signed, if_true, if_false, Bool.false_eq_true]
        rw [show -flEval rnd v a - -flEval rnd v b = -(flEval rnd v a - flEval rnd v b) by ring, R.neg]
      · cases h
    · cases h
  | .mul a b, p, h => by
    simp only [parity] at h
    split at h
    · next p1 q1 h1 h2 =>
      cases h
      have e1 := parity_fl R v a _ h1
      have e2 := parity_fl R v b _ h2
      show rnd (flEval rnd _ a * flEval rnd _ b) = signed _ (rnd (flEval rnd v a * flEval rnd v b))
      rw [e1, e2]
      cases p1 <;> cases q1 <;> simp [signed, R.neg]
    · cases h
  | .neg a, p, h => by
    have e1 := parity_fl R v a p h
    show - flEval rnd _ a = signed _ (- flEval rnd v a)
    rw [e1]
    cases p <;> simp [signed]
  | .pow a n, p, h => by cases h

end

end Verif
