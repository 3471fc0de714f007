import Verif.Lemmas.RoundedTestlib
import Verif.Lemmas.RoundedSeriesId
import Verif.Props.Testlib
import Verif.Props.RoundedSeries

/-!
# Properties C116-C119: the functions shipped in tests/testlib, in floating-point arithmetic

The theorems hold for every rounding with unit roundoff `u`, IEEE round-to-nearest-even (`nearestEven 53` for binary64, `u = 2^-53`) among
them.
-/

namespace Verif
open Spec Testlib TermSet

section
variable {K : Type} [Field K] [LinearOrder K] [FloorRing K] [IsStrictOrderedRing K] {rnd : K → K} {u : K}

omit [LinearOrder K] [FloorRing K] [IsStrictOrderedRing K] in
theorem signed_pow (k : Nat) (y : K) : signed (k % 2 == 1) y = (-1) ^ k * y := by
  rcases Nat.even_or_odd k with he | ho
  · rw [he.neg_one_pow]
    have : (k % 2 == 1) = false := by rw [Nat.even_iff] at he; simp [he]
    rw [this]; simp [signed]
  · rw [ho.neg_one_pow]
    have : (k % 2 == 1) = true := by rw [Nat.odd_iff] at ho; simp [ho]
    rw [this]; simp [signed]

/-- What term `k` of the class computes. -/
def flPhi (rnd : K → K) (cls : TermClass) (k : Nat) : K → K := (cls.computed (K := Flt rnd) 0).phi k

/-! ## C116 -/

/-- **C116** A set of monomials, after any history of calls: the values computed for `x^k`, `k x^(k-1)` and `k(k-1) x^(k-2)` have a relative error
of at most `(1+u)^k - 1`. -/
theorem C116_monomials (R : Rounding rnd u) (n : Nat) (s0 s : TermSet (Flt rnd)) (calls : List (BCall (Flt rnd)))
    (hmake : make monomialClass n = .ok s0) (hrun : s0.run calls = .ok s) (k : Nat) (hk : k < s.val.length) (x : K) :
    (∃ (y : K) (s' : TermSet (Flt rnd)), s.evalTerm k x = .ok (y, s') ∧ |y - x ^ k| ≤ ((1 + u) ^ k - 1) * |x ^ k|) ∧
    (∃ (y : K) (s' : TermSet (Flt rnd)), s.gradTerm k x = .ok (y, s') ∧
      |y - k * x ^ (k - 1)| ≤ ((1 + u) ^ k - 1) * |k * x ^ (k - 1)|) ∧
    ∃ (y : K) (s' : TermSet (Flt rnd)), s.hessTerm k x = .ok (y, s') ∧
      |y - k * (k - 1) * x ^ (k - 2)| ≤ ((1 + u) ^ k - 1) * |k * (k - 1) * x ^ (k - 2)| := by
  obtain ⟨h30, h⟩ := fl_terms mono_eval hmake hrun hk
  obtain ⟨⟨s1, e1⟩, ⟨s2, e2⟩, ⟨s3, e3⟩⟩ := h x
  obtain ⟨f1, f2, f3⟩ := computed_round R (cls := monomialClass) mono_round 0 h30
  refine ⟨⟨_, s1, e1, ?_⟩, ⟨_, s2, e2, ?_⟩, ⟨_, s3, e3, ?_⟩⟩
  · have := f1.err x
    rw [f1.rel rfl, peval_monoC] at this; exact this
  · have := f2.err x
    rw [f2.rel rfl, peval_pdiff_mono] at this; exact this
  · have := f3.err x
    rw [f3.rel rfl, peval_pdiff2_mono] at this; exact this

/-- **C116** The function term `k` computes is even or odd as `x^k` is, without error; it does not decrease on `x ≥ 0`; it maps `[-1,1]` to itself,
and 1 to 1. -/
theorem C116_shape (R : Rounding rnd u) (n : Nat) (s0 s : TermSet (Flt rnd)) (calls : List (BCall (Flt rnd)))
    (hmake : make monomialClass n = .ok s0) (hrun : s0.run calls = .ok s) (k : Nat) (hk : k < s.val.length) :
    ∃ c : K → K, (∀ x : K, (s.evalTerm k x).map (·.1) = .ok (c x)) ∧ (∀ x, c (-x) = (-1) ^ k * c x) ∧
      (∀ x y, 0 ≤ x → x ≤ y → 0 ≤ c x ∧ c x ≤ c y) ∧ c 1 = 1 ∧ ∀ x, |x| ≤ 1 → |c x| ≤ 1 := by
  obtain ⟨h30, h⟩ := fl_terms mono_eval hmake hrun hk
  obtain ⟨f1, _, _⟩ := computed_round R (cls := monomialClass) mono_round 0 h30
  have sym : ∀ x : K, flPhi rnd monomialClass k (-x) = (-1) ^ k * flPhi rnd monomialClass k x := fun x =>
    (f1.sym x).trans (signed_pow k _)
  have one : flPhi rnd monomialClass k 1 = 1 := mono_one (rnd := rnd) R 0 h30
  refine ⟨flPhi rnd monomialClass k, fun x => ?_, sym, f1.mono rfl, one, fun x hx => ?_⟩
  · obtain ⟨⟨s1, e1⟩, _, _⟩ := h x
    rw [e1]; rfl
  · have key : ∀ y : K, 0 ≤ y → y ≤ 1 → |flPhi rnd monomialClass k y| ≤ 1 := fun y h0 h1 => by
      obtain ⟨a, b⟩ := f1.mono rfl y 1 h0 h1
      exact (abs_of_nonneg a).trans_le (b.trans one.le)
    rcases le_total 0 x with h0 | h0
    · exact key x h0 (le_of_abs_le hx)
    · have := key (-x) (by linarith) (by rw [abs_of_nonpos h0] at hx; exact hx)
      rw [sym, abs_mul, abs_pow, abs_neg, abs_one, one_pow, one_mul] at this
      exact this

/-! ## C117 -/

/-- **C117** A set of Chebyshev polynomials, after any history of calls: the errors of the values computed for `T_k(x)`, `T_k'(x)` and `T_k''(x)`
are at most `(1+u)^(2k) - 1` times the value at `|x|` of the polynomial with the absolute values of the coefficients, and of its derivatives. (The
whole property, that the values computed stay in `[-1,1]` on `[-1,1]`, fails: `C117_bounded_violated`.) -/
theorem C117_chebyshev_partial (R : Rounding rnd u) (n : Nat) (s0 s : TermSet (Flt rnd)) (calls : List (BCall (Flt rnd)))
    (hmake : make chebyshevClass n = .ok s0) (hrun : s0.run calls = .ok s) (k : Nat) (hk : k < s.val.length) (x : K) :
    let T := Polynomial.Chebyshev.T K k
    let A := absT K k
    (∃ (y : K) (s' : TermSet (Flt rnd)), s.evalTerm k x = .ok (y, s') ∧ |y - T.eval x| ≤ ((1 + u) ^ (2 * k) - 1) * A.eval |x|) ∧
    (∃ (y : K) (s' : TermSet (Flt rnd)), s.gradTerm k x = .ok (y, s') ∧
      |y - T.derivative.eval x| ≤ ((1 + u) ^ (2 * k) - 1) * A.derivative.eval |x|) ∧
    ∃ (y : K) (s' : TermSet (Flt rnd)), s.hessTerm k x = .ok (y, s') ∧
      |y - T.derivative.derivative.eval x| ≤ ((1 + u) ^ (2 * k) - 1) * A.derivative.derivative.eval |x| := by
  obtain ⟨h30, h⟩ := fl_terms cheb_eval hmake hrun hk
  obtain ⟨⟨s1, e1⟩, ⟨s2, e2⟩, ⟨s3, e3⟩⟩ := h x
  obtain ⟨f1, f2, f3⟩ := computed_round R (cls := chebyshevClass) cheb_round 0 h30
  have t0 : ∀ x : K, peval x (chebC k).1 = (Polynomial.Chebyshev.T K k).eval x := fun x => (peval_chebC x k).1
  have t1 := peval_pdiff_of t0
  have t2 := peval_pdiff_of t1
  have a0 : ∀ x : K, peval x (absC k).1 = (absT K k).eval x := fun x => (peval_absC x k).1
  have a1 := peval_pdiff_of a0
  have a2 := peval_pdiff_of a1
  refine ⟨⟨_, s1, e1, ?_⟩, ⟨_, s2, e2, ?_⟩, ⟨_, s3, e3, ?_⟩⟩
  · have := f1.err x
    rw [t0, a0] at this; exact this
  · have := f2.err x
    rw [t1, a1] at this; exact this
  · have := f3.err x
    rw [t2, a2] at this; exact this

/-- **C117** On `[-1,1]` the error of `T_k` is at most `((1+u)^(2k) - 1) (5/2)^k`. -/
theorem C117_interval_partial (R : Rounding rnd u) (n : Nat) (s0 s : TermSet (Flt rnd)) (calls : List (BCall (Flt rnd)))
    (hmake : make chebyshevClass n = .ok s0) (hrun : s0.run calls = .ok s) (k : Nat) (hk : k < s.val.length) (x : K) (hx : |x| ≤ 1) :
    ∃ (y : K) (s' : TermSet (Flt rnd)), s.evalTerm k x = .ok (y, s') ∧
      |y - (Polynomial.Chebyshev.T K k).eval x| ≤ ((1 + u) ^ (2 * k) - 1) * (5 / 2) ^ k := by
  obtain ⟨⟨y, s', e, h⟩, _, _⟩ := C117_chebyshev_partial R n s0 s calls hmake hrun k hk x
  refine ⟨y, s', e, h.trans (mul_le_mul_of_nonneg_left (absT_le (abs_nonneg x) hx k) ?_)⟩
  have := one_le_pow₀ (n := 2 * k) (show (1 : K) ≤ 1 + u by have := R.u_nonneg; linarith)
  linarith

/-- **C117** The function term `k` computes is even or odd as `T_k` is, without error. -/
theorem C117_parity_partial (R : Rounding rnd u) (n : Nat) (s0 s : TermSet (Flt rnd)) (calls : List (BCall (Flt rnd)))
    (hmake : make chebyshevClass n = .ok s0) (hrun : s0.run calls = .ok s) (k : Nat) (hk : k < s.val.length) :
    ∃ c : K → K, (∀ x : K, (s.evalTerm k x).map (·.1) = .ok (c x)) ∧ ∀ x, c (-x) = (-1) ^ k * c x := by
  obtain ⟨h30, h⟩ := fl_terms cheb_eval hmake hrun hk
  obtain ⟨f1, _, _⟩ := computed_round R (cls := chebyshevClass) cheb_round 0 h30
  refine ⟨flPhi rnd chebyshevClass k, fun x => ?_, fun x => ?_⟩
  · obtain ⟨⟨s1, e1⟩, _, _⟩ := h x
    rw [e1]; rfl
  · exact (f1.sym x).trans (signed_pow k _)

end

/-- Binary64 rounding. -/
def r64 : ℚ → ℚ := nearestEven 53

theorem r64_rounding : Rounding r64 (2 ^ (-53 : Int)) := nearestEven_rounding (by norm_num)

/-- **C117** In binary64 the value computed for `T_29` at the double `1042434/1048576` (about 0.994) is more than `1 + 2^-17`, although
`|T_29| ≤ 1` on `[-1,1]`. -/
theorem C117_bounded_violated : ∃ (s : TermSet (Flt r64)) (x y : ℚ) (s' : TermSet (Flt r64)), make chebyshevClass 30 = .ok s ∧ |x| ≤ 1 ∧
    IsFloat r64 x ∧ s.evalTerm 29 (x : ℚ) = .ok (y, s') ∧ 1 + 1 / 2 ^ 17 < |y| := by
  obtain ⟨s, e, _, g, _⟩ := make_rel (computed_denotes (K := Flt r64) (cls := chebyshevClass) 0 cheb_eval) (n := 30) (by omega)
  obtain ⟨⟨s', h⟩, _, _⟩ := terms_good g (k := 29) (by rw [g.vlen]; omega) (1042434 / 1048576 : ℚ)
  exact ⟨s, 1042434 / 1048576, _, s', e, by decide +kernel, show r64 _ = _ by decide +kernel, h, by decide +kernel⟩

/-- Sets of doubles: three monomials, evaluated and enlarged to 30. At the double next to 1/10, `x^3` is computed with an error. -/
example : ∃ s0 s : TermSet (Flt r64), make monomialClass 3 = .ok s0 ∧ s0.run [.resize 30] = .ok s ∧ s.val.length = 30 ∧
    ∃ (y : ℚ) (s' : TermSet (Flt r64)), s.evalTerm 3 (r64 (1 / 10)) = .ok (y, s') ∧ y ≠ r64 (1 / 10) ^ 3 := by
  obtain ⟨s0, e, _, g, _⟩ := make_rel (computed_denotes (K := Flt r64) (cls := monomialClass) 0 mono_eval) (n := 3) (by omega)
  obtain ⟨s', h, g', _⟩ := resize_of g (m := 30) (by omega)
  obtain ⟨⟨s2, h2⟩, _, _⟩ := terms_good g' (k := 3) (by rw [g'.vlen]; omega) (r64 (1 / 10))
  exact ⟨s0, s', e, by simp [run, step, h], g'.vlen, _, s2, h2, show flPhi r64 monomialClass 3 (r64 (1 / 10)) ≠ _ by decide +kernel⟩

example : ∃ s0 s : TermSet (Flt r64), make chebyshevClass 2 = .ok s0 ∧ s0.run [.resize 12] = .ok s ∧ s.val.length = 12 := by
  obtain ⟨s0, e, _, g, _⟩ := make_rel (computed_denotes (K := Flt r64) (cls := chebyshevClass) 0 cheb_eval) (n := 2) (by omega)
  obtain ⟨s', h, g', _⟩ := resize_of g (m := 12) (by omega)
  exact ⟨s0, s', e, by simp [run, step, h], g'.vlen⟩

/-! ## C118 -/

section
variable {K : Type} [Field K] [LinearOrder K] [FloorRing K] [IsStrictOrderedRing K] {rnd : K → K} {u : K}

omit [FloorRing K] [IsStrictOrderedRing K] in
/-- A call returned a number that differs from `e` by at most `((1+u)^m - 1) M`. -/
def Returns (u : K) (r : Res (FOut (List (Flt rnd)) (Flt rnd))) (m : Nat) (e M : K) : Prop :=
  ∃ y : K, r = .ok (.num y) ∧ |y - e| ≤ ((1 + u) ^ m - 1) * M

theorem objN_fl (R : Rounding rnd u) {t : ClassText} {a : Ast} (h : readCpp t.eval = some a) {v : List K} (hv : a.vars ≤ v.length)
    {r : Res (FOut (List (Flt rnd)) (Flt rnd))}
    (hr : r = ((t.objN : SObj (List (Flt rnd)) (Flt rnd)).evalFn v).map .num) {m : Nat} (hm : a.ops ≤ m) {e M : K}
    (he : a.eval (fun i => v.getD i 0) = e) (hM : a.mag.eval (fun i => |v.getD i 0|) = M) : Returns u r m e M := by
  have e1 : (t.objN : SObj (List (Flt rnd)) (Flt rnd)).evalFn v = .ok (flEval (K := K) rnd (fun i => v.getD i 0) a) := by
    simp only [ClassText.objN, ClassText.obj, SObj.evalFn, h]
    exact if_pos hv
  refine ⟨flEval rnd (fun i => v.getD i 0) a, by rw [hr, e1]; rfl, ?_⟩
  have := (flEval_near R (fun i => v.getD i 0) a).mono R.u_nonneg hm
  rw [he, hM] at this
  exact this.err

local macro "ast_tac" : tactic => `(tactic| (simp only [Ast.eval, Ast.mag, List.getD_cons_zero, List.getD_cons_succ, abs_one, show |(2 : ℚ)| = 2 by norm_num,
  show |(3 : ℚ)| = 3 by norm_num, show |(6 : ℚ)| = 6 by norm_num]; push_cast; try ring))

/-- **C118** `Quadratic`, after any history of calls: value, gradient and Hessian at `x`, with their errors. -/
theorem C118_quadratic (R : Rounding rnd u) (calls : List (FCall (List (Flt rnd)))) (hc : ∀ c ∈ calls, c.InRange 1) (x : K) :
    let p : Flex (List (Flt rnd)) (Flt rnd) := (runCalls Flex.sem calls quadratic).2
    let v : List (Flt rnd) := [x]
    Returns u (Flex.sem (.evalAt v) p).1 3 (x ^ 2 + x + 1) (|x| ^ 2 + |x| + 1) ∧
      Returns u (Flex.sem (.gradAt v 0) p).1 3 (2 * x + 1) (2 * |x| + 1) ∧
      Returns u (Flex.sem (.hessAt v 0 0) p).1 1 2 2 := by
  have h := C42_components _ _ _ _ _ (quadratic_make (K := Flt rnd)) calls hc [x]
  refine ⟨?_, ?_, ?_⟩
  · exact objN_fl R (t := Quadratic_f) (a := .add (.add (.var 0) (.mul (.var 0) (.var 0))) (.num 1)) (by decide +kernel) (v := [x])
      (by simp [Ast.vars]) (h .f trivial) (by decide) (by ast_tac) (by ast_tac)
  · exact objN_fl R (t := Quadratic_grad_0) (a := .add (.mul (.num 2) (.var 0)) (.num 1)) (by decide +kernel) (v := [x]) (by simp [Ast.vars])
      (h (.g 0) (by simp [getter, FCall.InRange, quadratic])) (by decide) (by ast_tac) (by ast_tac)
  · exact objN_fl R (t := Quadratic_hess_0_0) (a := .num 2) (by decide +kernel) (v := [x]) (by simp [Ast.vars])
      (h (.h 0 0) (by simp [getter, FCall.InRange, quadratic])) (by decide) (by ast_tac) (by ast_tac)

example : ∀ c ∈ ([.evalAt [2], .evalGrad [3], .hessAt [1] 0 0, .get] : List (FCall (List ℚ))), c.InRange 1 := by
  simp [FCall.InRange]

/-- **C118** `MyFunc`, after any history of calls: value, gradient and Hessian at `(x, y)`, with their errors. -/
theorem C118_myfunc (R : Rounding rnd u) (calls : List (FCall (List (Flt rnd)))) (hc : ∀ c ∈ calls, c.InRange 2) (x y : K) :
    let p : Flex (List (Flt rnd)) (Flt rnd) := (runCalls Flex.sem calls myFunc).2
    let v : List (Flt rnd) := [x, y]
    Returns u (Flex.sem (.evalAt v) p).1 5 (x ^ 3 + x ^ 2 * y + x * y ^ 2 + y ^ 3)
        (|x| ^ 3 + |x| ^ 2 * |y| + |x| * |y| ^ 2 + |y| ^ 3) ∧
      Returns u (Flex.sem (.gradAt v 0) p).1 5 (3 * x ^ 2 + 2 * x * y + y ^ 2) (3 * |x| ^ 2 + 2 * |x| * |y| + |y| ^ 2) ∧
      Returns u (Flex.sem (.gradAt v 1) p).1 5 (x ^ 2 + 2 * x * y + 3 * y ^ 2) (|x| ^ 2 + 2 * |x| * |y| + 3 * |y| ^ 2) ∧
      Returns u (Flex.sem (.hessAt v 0 0) p).1 3 (6 * x + 2 * y) (6 * |x| + 2 * |y|) ∧
      Returns u (Flex.sem (.hessAt v 0 1) p).1 3 (2 * x + 2 * y) (2 * |x| + 2 * |y|) ∧
      Returns u (Flex.sem (.hessAt v 1 0) p).1 3 (2 * x + 2 * y) (2 * |x| + 2 * |y|) ∧
      Returns u (Flex.sem (.hessAt v 1 1) p).1 3 (2 * x + 6 * y) (2 * |x| + 6 * |y|) := by
  have h := C42_components _ _ _ _ _ (myFunc_make (K := Flt rnd)) calls hc [x, y]
  refine ⟨?_, ?_, ?_, ?_, ?_, ?_, ?_⟩
  · exact objN_fl R (t := MyFunc_f) (a := .add (.add (.add (.mul (.mul (.var 0) (.var 0)) (.var 1)) (.mul (.mul (.var 0) (.var 0)) (.var 0)))
      (.mul (.var 0) (.mul (.var 1) (.var 1)))) (.mul (.mul (.var 1) (.var 1)) (.var 1))) (by decide +kernel) (v := [x, y]) (by simp [Ast.vars])
      (h .f trivial) (by decide) (by ast_tac) (by ast_tac)
  · exact objN_fl R (t := MyFunc_grad_0) (a := .add (.add (.mul (.mul (.num 2) (.var 1)) (.var 0)) (.mul (.num 3) (.mul (.var 0) (.var 0))))
      (.mul (.var 1) (.var 1))) (by decide +kernel) (v := [x, y]) (by simp [Ast.vars])
      (h (.g 0) (by simp [getter, FCall.InRange, myFunc])) (by decide) (by ast_tac) (by ast_tac)
  · exact objN_fl R (t := MyFunc_grad_1) (a := .add (.add (.mul (.num 3) (.mul (.var 1) (.var 1))) (.mul (.mul (.num 2) (.var 1)) (.var 0)))
      (.mul (.var 0) (.var 0))) (by decide +kernel) (v := [x, y]) (by simp [Ast.vars])
      (h (.g 1) (by simp [getter, FCall.InRange, myFunc])) (by decide) (by ast_tac) (by ast_tac)
  · exact objN_fl R (t := MyFunc_hess_0_0) (a := .add (.mul (.num 6) (.var 0)) (.mul (.num 2) (.var 1))) (by decide +kernel) (v := [x, y]) (by simp [Ast.vars])
      (h (.h 0 0) (by simp [getter, FCall.InRange, myFunc])) (by decide) (by ast_tac) (by ast_tac)
  · exact objN_fl R (t := MyFunc_hess_0_1) (a := .add (.mul (.num 2) (.var 0)) (.mul (.num 2) (.var 1))) (by decide +kernel) (v := [x, y]) (by simp [Ast.vars])
      (h (.h 0 1) (by simp [getter, FCall.InRange, myFunc])) (by decide) (by ast_tac) (by ast_tac)
  · exact objN_fl R (t := MyFunc_hess_1_0) (a := .add (.mul (.num 2) (.var 1)) (.mul (.num 2) (.var 0))) (by decide +kernel) (v := [x, y]) (by simp [Ast.vars])
      (h (.h 1 0) (by simp [getter, FCall.InRange, myFunc])) (by decide) (by ast_tac) (by ast_tac)
  · exact objN_fl R (t := MyFunc_hess_1_1) (a := .add (.mul (.num 2) (.var 0)) (.mul (.num 6) (.var 1))) (by decide +kernel) (v := [x, y]) (by simp [Ast.vars])
      (h (.h 1 1) (by simp [getter, FCall.InRange, myFunc])) (by decide) (by ast_tac) (by ast_tac)

/-! ## C119 -/

omit [LinearOrder K] [FloorRing K] [IsStrictOrderedRing K] in
/-- `F` is the family of functions that a set of `F.size` monomials computes in floating-point arithmetic. -/
def MonomialsIn (rnd : K → K) (F : Family K) : Prop :=
  ∃ s : TermSet (Flt rnd), make monomialClass F.size = .ok s ∧ ∀ k, k < F.size → ∀ x : K,
    (s.evalTerm k x).map (·.1) = .ok (F.phi k x) ∧ (s.gradTerm k x).map (·.1) = .ok (F.dphi k x) ∧
    (s.hessTerm k x).map (·.1) = .ok (F.ddphi k x)

/-- The bound: `(1+u)^n - 1` times the sum of the absolute values of the terms, where `n` is the number of coefficients, plus the number of
variables, plus the degree. -/
def polynomialError (u : K) (sizes : List Nat) (m : List Nat) (c : List Int → K) (x : List K) : K :=
  ((1 + u) ^ (sizes.prod + sizes.length + (sizes.map fun n => n - 1).sum) - 1) *
    series (sizes.map fun n => (monomials K n).abs) m (fun t => |c t|) x

omit [LinearOrder K] [FloorRing K] [IsStrictOrderedRing K] in
theorem prod_zip_pow (b : K) (g : Family K → Nat) : ∀ (fs : List (Family K)) (l : List (Nat × K)), l.length = fs.length →
    ((fs.zip l).map fun p => b ^ g p.1).prod = b ^ (fs.map g).sum
  | [], l, _ => by simp
  | F :: fs, [], h => by simp at h
  | F :: fs, a :: l, h => by
    simp only [List.zip_cons_cons, List.map_cons, List.prod_cons, List.sum_cons, prod_zip_pow b g fs l (by simpa using h), pow_add]

omit [FloorRing K] in
theorem tensorSum_scale : ∀ (l : List (Nat × (Nat → K) × (Nat → K) × K)) (c : List Int → K), (∀ t, 0 ≤ c t) →
    (∀ q ∈ l, 0 ≤ q.2.2.2 ∧ ∀ k < q.1, 0 ≤ q.2.1 k ∧ 0 ≤ q.2.2.1 k ∧ q.2.1 k ≤ q.2.2.2 * q.2.2.1 k) →
    0 ≤ tensorSum (l.map fun q => (q.1, q.2.2.1)) c ∧
      tensorSum (l.map fun q => (q.1, q.2.1)) c ≤ (l.map fun q => q.2.2.2).prod * tensorSum (l.map fun q => (q.1, q.2.2.1)) c
  | [], c, hc, _ => by simpa [tensorSum] using hc []
  | (n, f, g, A) :: l, c, hc, h => by
    obtain ⟨hA, hq⟩ := h _ (List.mem_cons_self)
    have ih := fun k : Nat => tensorSum_scale l (fun t => c ((k : Int) :: t)) (fun t => hc _) fun q hq => h q (List.mem_cons_of_mem _ hq)
    simp only [List.map_cons, tensorSum, List.prod_cons]
    refine ⟨Finset.sum_nonneg fun k hk => mul_nonneg (hq k (Finset.mem_range.mp hk)).2.1 (ih k).1, ?_⟩
    rw [Finset.mul_sum]
    refine Finset.sum_le_sum fun k hk => ?_
    obtain ⟨h1, h2, h3⟩ := hq k (Finset.mem_range.mp hk)
    have hP : 0 ≤ (l.map fun q => q.2.2.2).prod := List.prod_nonneg fun a ha => by
      obtain ⟨q, hq, rfl⟩ := List.mem_map.mp ha
      exact (h q (List.mem_cons_of_mem _ hq)).1
    calc f k * _ ≤ f k * ((l.map fun q => q.2.2.2).prod * tensorSum (l.map fun q => (q.1, q.2.2.1)) fun t => c ((k : Int) :: t)) :=
          mul_le_mul_of_nonneg_left (ih k).2 h1
      _ ≤ (A * g k) * ((l.map fun q => q.2.2.2).prod * tensorSum (l.map fun q => (q.1, q.2.2.1)) fun t => c ((k : Int) :: t)) :=
          mul_le_mul_of_nonneg_right h3 (mul_nonneg hP (ih k).1)
      _ = _ := by ring

/-- The errors of the monomials. -/
def monoErr (u : K) (n : Nat) : Family K where
  size := n
  phi k x := ((1 + u) ^ k - 1) * |x ^ k|
  dphi k x := ((1 + u) ^ k - 1) * |k * x ^ (k - 1)|
  ddphi k x := ((1 + u) ^ k - 1) * |k * (k - 1) * x ^ (k - 2)|

theorem monoErr_bound (hu : 0 ≤ u) (fs : List (Family K)) {m : List Nat} (hm : m.length = fs.length) {x : List K} (hx : x.length = fs.length)
    (c : List Int → K) :
    seriesError u (fs.map fun F => monomials K F.size) (fs.map fun F => monoErr u F.size) m c x ≤ polynomialError u (fs.map Family.size) m c x := by
  have hl : (m.zip x).length = fs.length := by simp [hm, hx]
  have key := tensorSum_scale ((fs.zip (m.zip x)).map fun p => (p.1.size,
      fun k => ((monomials K p.1.size).widen (monoErr u p.1.size)).deriv p.2.1 k p.2.2,
      fun k => (monomials K p.1.size).abs.deriv p.2.1 k p.2.2, (1 + u) ^ (p.1.size - 1))) (fun t => |c t|) (fun t => abs_nonneg _) (by
    intro q hq
    obtain ⟨p, _, rfl⟩ := List.mem_map.mp hq
    have h1 : ∀ k : Nat, (1 : K) ≤ (1 + u) ^ k := fun k => one_le_pow₀ (by linarith)
    refine ⟨zero_le_one.trans (h1 _), fun k hk => ?_⟩
    have hk' : (1 + u) ^ k ≤ (1 + u) ^ (p.1.size - 1) := pow_le_pow_right₀ (by linarith) (by simp only at hk; omega)
    have gen : ∀ a : K, 0 ≤ |a| + ((1 + u) ^ k - 1) * |a| ∧ 0 ≤ |a| ∧
        |a| + ((1 + u) ^ k - 1) * |a| ≤ (1 + u) ^ (p.1.size - 1) * |a| := fun a => by
      have := abs_nonneg a
      have := h1 k
      refine ⟨by nlinarith, abs_nonneg a, ?_⟩
      rw [show |a| + ((1 + u) ^ k - 1) * |a| = (1 + u) ^ k * |a| by ring]
      exact mul_le_mul_of_nonneg_right hk' (abs_nonneg a)
    simp only [Family.deriv, Family.widen, Family.abs, monomials, monoErr]
    split
    · exact gen _
    · split
      · exact gen _
      · exact gen _)
  rw [List.map_map, List.map_map, List.map_map] at key
  have e1 : series (List.zipWith Family.widen (fs.map fun F => monomials K F.size) (fs.map fun F => monoErr u F.size)) m (fun t => |c t|) x =
      tensorSum ((fs.zip (m.zip x)).map fun p => (p.1.size,
        fun k => ((monomials K p.1.size).widen (monoErr u p.1.size)).deriv p.2.1 k p.2.2)) (fun t => |c t|) := by
    rw [List.zipWith_map, List.zipWith_self, series, List.zip_map_left, List.map_map]
    rfl
  have e2 : ∀ y, y = series ((fs.map fun F => monomials K F.size).map Family.abs) m (fun t => |c t|) x → y =
      tensorSum ((fs.zip (m.zip x)).map fun p => (p.1.size, fun k => (monomials K p.1.size).abs.deriv p.2.1 k p.2.2)) (fun t => |c t|) := by
    rintro y rfl
    rw [List.map_map, series, List.zip_map_left, List.map_map]
    rfl
  have e3 := prod_zip_pow (1 + u) (fun F => F.size - 1) fs (m.zip x) hl
  have e4 : series ((fs.map Family.size).map fun n => (monomials K n).abs) m (fun t => |c t|) x =
      series ((fs.map fun F => monomials K F.size).map Family.abs) m (fun t => |c t|) x := by
    rw [List.map_map, List.map_map]; rfl
  have e5 : roundings (fs.map fun F => monomials K F.size) = (fs.map Family.size).prod + (fs.map Family.size).length := by
    simp only [roundings, List.map_map, List.length_map]; rfl
  obtain ⟨k1, k2⟩ := key
  unfold seriesError polynomialError
  rw [e4, e1, e5, e2 _ rfl]
  have k2' : tensorSum ((fs.zip (m.zip x)).map fun p => (p.1.size,
        fun k => ((monomials K p.1.size).widen (monoErr u p.1.size)).deriv p.2.1 k p.2.2)) (fun t => |c t|) ≤
      (1 + u) ^ (fs.map fun F => F.size - 1).sum *
        tensorSum ((fs.zip (m.zip x)).map fun p => (p.1.size, fun k => (monomials K p.1.size).abs.deriv p.2.1 k p.2.2)) (fun t => |c t|) := by
    rw [← e3]; exact k2
  have hp : (0 : K) ≤ (1 + u) ^ ((fs.map Family.size).prod + (fs.map Family.size).length) := pow_nonneg (by linarith) _
  have := mul_le_mul_of_nonneg_left k2' hp
  have e6 : (((fs.map Family.size).map fun n => n - 1).sum) = (fs.map fun F => F.size - 1).sum := by rw [List.map_map]; rfl
  rw [e6, pow_add (1 + u) ((fs.map Family.size).prod + (fs.map Family.size).length)]
  rw [← mul_assoc] at this
  linarith

theorem monomials_approx (R : Rounding rnd u) {F : Family K} (h : MonomialsIn rnd F) (x : K) :
    F.Approx (monomials K F.size) (monoErr u F.size) x := by
  obtain ⟨s, hs, h⟩ := h
  have hlen : s.val.length = F.size := by
    by_cases hn : F.size ≤ 30
    · obtain ⟨s1, e, _, g, _⟩ := make_rel (computed_denotes (K := Flt rnd) (cls := monomialClass) 0 mono_eval) hn
      rw [hs] at e; cases e
      exact g.vlen
    · rw [make_big (by omega)] at hs; cases hs
  have key := fun k (hk : k < F.size) => C116_monomials R F.size s s [] hs rfl k (by omega) x
  refine ⟨rfl, fun k hk => ?_, fun k hk => ?_, fun k hk => ?_⟩
  · obtain ⟨y, s', e, b⟩ := (key k hk).1
    have := (h k hk x).1
    rw [e] at this
    cases this
    exact b
  · obtain ⟨y, s', e, b⟩ := (key k hk).2.1
    have := (h k hk x).2.1
    rw [e] at this
    cases this
    exact b
  · obtain ⟨y, s', e, b⟩ := (key k hk).2.2
    have := (h k hk x).2.2
    rw [e] at this
    cases this
    exact b

theorem monomials_approxAt (R : Rounding rnd u) {fs : List (Family K)} (hf : ∀ F ∈ fs, MonomialsIn rnd F) {x : List K}
    (hx : x.length = fs.length) : ApproxAt fs (fs.map fun F => monomials K F.size) (fs.map fun F => monoErr u F.size) x := by
  refine ⟨by simp, by simp, hx, ?_⟩
  intro j F G E y h1 h2 h3 h4
  simp only [List.getElem?_map, h1, Option.map_some, Option.some.injEq] at h2 h3
  subst h2 h3
  exact monomials_approx R (hf F (List.mem_of_getElem? h1)) y

/-- **C119** A series over shipped sets of monomials, all in floating-point arithmetic: after any history of calls, `f(x)` is the polynomial
`sum T_ij... x0^i x1^j ...` up to the bound. -/
theorem C119_value (R : Rounding rnd u) (fs : List (Family K)) (hf : ∀ F ∈ fs, MonomialsIn rnd F) (hg : GoodDims (extents fs)) (s : Series K)
    (hs : Fl.Ser.Over rnd fs s) (c : List Int → K) (hc : s.Coeffs fs c) (x : List K) (hx : x.length = fs.length) :
    ∃ y s', Fl.Ser.evalAt rnd s x = .ok (y, s') ∧ s'.get = .ok y ∧
      |y - series (fs.map fun F => monomials K F.size) (value fs.length) c x| ≤
        polynomialError u (fs.map Family.size) (value fs.length) c x := by
  obtain ⟨y, s', h1, h2, _, h4⟩ := C102_value R fs _ _ hg s hs c hc x (monomials_approxAt R hf hx)
  rw [List.length_map] at h4
  exact ⟨y, s', h1, h2, h4.trans (monoErr_bound R.u_nonneg fs (by simp [value]) hx c)⟩

/-- **C119** The gradient. -/
theorem C119_gradient (R : Rounding rnd u) (fs : List (Family K)) (hf : ∀ F ∈ fs, MonomialsIn rnd F) (hg : GoodDims (extents fs))
    (s : Series K) (hs : Fl.Ser.Over rnd fs s) (c : List Int → K) (hc : s.Coeffs fs c) (x : List K) (hx : x.length = fs.length) :
    ∃ s', Fl.Ser.evalGrad rnd s x = .ok s' ∧ ∀ di : Nat, di < fs.length → ∃ y, s'.getGrad di = .ok y ∧
      |y - series (fs.map fun F => monomials K F.size) (gradient fs.length di) c x| ≤
        polynomialError u (fs.map Family.size) (gradient fs.length di) c x := by
  obtain ⟨s', h1, h2⟩ := C102_gradient R fs _ _ hg s hs c hc x (monomials_approxAt R hf hx)
  rw [List.length_map] at h2
  refine ⟨s', h1, fun di hd => ?_⟩
  obtain ⟨y, h3, h4⟩ := h2 di hd
  exact ⟨y, h3, h4.trans (monoErr_bound R.u_nonneg fs (by simp [gradient]) hx c)⟩

/-- **C119** The Hessian. -/
theorem C119_hessian (R : Rounding rnd u) (fs : List (Family K)) (hf : ∀ F ∈ fs, MonomialsIn rnd F) (hg : GoodDims (extents fs))
    (s : Series K) (hs : Fl.Ser.Over rnd fs s) (c : List Int → K) (hc : s.Coeffs fs c) (x : List K) (hx : x.length = fs.length) :
    ∃ s', Fl.Ser.evalHess rnd s x = .ok s' ∧ ∀ di dj : Nat, di < fs.length → dj < fs.length → ∃ y, s'.getHess di dj = .ok y ∧
      |y - series (fs.map fun F => monomials K F.size) (hessian fs.length di dj) c x| ≤
        polynomialError u (fs.map Family.size) (hessian fs.length di dj) c x := by
  obtain ⟨s', h1, h2⟩ := C102_hessian R fs _ _ hg s hs c hc x (monomials_approxAt R hf hx)
  rw [List.length_map] at h2
  refine ⟨s', h1, fun di dj hd hd' => ?_⟩
  obtain ⟨y, h3, h4⟩ := h2 di dj hd hd'
  exact ⟨y, h3, h4.trans (monoErr_bound R.u_nonneg fs (by simp [hessian]) hx c)⟩

end

namespace FlMono

/-- Monomials as the shipped set computes them. -/
def comp (n : Nat) : Family ℚ := monomialClass.computed (K := Flt r64) n

def fs : List (Family ℚ) := [comp 2, comp 3]

theorem shipped (n : Nat) (hn : n ≤ 30) : MonomialsIn r64 (comp n) := by
  obtain ⟨s, e, _, g, _⟩ := make_rel (computed_denotes (K := Flt r64) (cls := monomialClass) n mono_eval) hn
  refine ⟨s, e, fun k hk x => ?_⟩
  obtain ⟨⟨s1, h1⟩, ⟨s2, h2⟩, ⟨s3, h3⟩⟩ := terms_good g (k := k) (by rw [g.vlen]; exact hk) x
  rw [h1, h2, h3]
  exact ⟨rfl, rfl, rfl⟩

theorem good : GoodDims (extents fs) := by
  rw [show extents fs = [2, 3] from rfl]
  exact ⟨by simp, by simp, by simp [Spec.prod]⟩

/-- The state after `set`. -/
def ser0 : Series ℚ :=
  ⟨⟨[2, 3], [3, 1], [0, 0, 0, 0, 0, 0], 2, 6⟩, 1, 0, [some (Demo.newBasis (comp 2)), some (Demo.newBasis (comp 3))], some 0, [0, 0],
    [[0, 0], [0, 0]]⟩

/-- The state after `coeff()([1,2]) = 0.3`. -/
def ser : Series ℚ :=
  ⟨⟨[2, 3], [3, 1], [0, 0, 0, 0, 0, r64 (3 / 10)], 2, 6⟩, 1, 0, [some (Demo.newBasis (comp 2)), some (Demo.newBasis (comp 3))], some 0, [0, 0],
    [[0, 0], [0, 0]]⟩

theorem ser0_set : (Series.make 0 1).set [some (Demo.newBasis (comp 2)), some (Demo.newBasis (comp 3))] = .ok ser0 := by
  have h := NDArray.resize_good (0 : ℚ) (NDArray.clear NDArray.empty) good
  have hs : Series.sizes [some (Demo.newBasis (comp 2)), some (Demo.newBasis (comp 3))] = .ok (extents fs) := rfl
  have hs' : Series.copyBases [some (Demo.newBasis (comp 2)), some (Demo.newBasis (comp 3))] =
    .ok [some (Demo.newBasis (comp 2)), some (Demo.newBasis (comp 3))] := rfl
  simp only [Series.set, hs, hs', ok_bind, Series.make, Series.clear, h]
  rfl

theorem over : Fl.Ser.Over r64 fs ser := by
  refine ⟨Series.make 0 1, _, [some (Demo.newBasis (comp 2)), some (Demo.newBasis (comp 3))], [.setCoeff [1, 2] (r64 (3 / 10))], rfl, rfl, ?_,
    ser0_set, ?_, ?_⟩
  · exact .cons ⟨_, rfl, 2, [], rfl, rfl⟩ (.cons ⟨_, rfl, 3, [], rfl, rfl⟩ .nil)
  · simp [SerOp.KeepsBasis]
  · rfl

theorem coeffs : ser.Coeffs fs (fun t => if t = [1, 2] then r64 (3 / 10) else 0) := by
  intro t ht
  match t, ht with
  | [a, b], ht =>
    obtain ⟨⟨h1, h2⟩, ⟨h3, h4⟩, _⟩ := ht
    simp only [comp, TermClass.computed, Nat.cast_ofNat] at h2 h4
    obtain rfl | rfl : a = 0 ∨ a = 1 := by omega
    all_goals obtain rfl | rfl | rfl : b = 0 ∨ b = 1 ∨ b = 2 := by omega
    all_goals rfl

end FlMono

/-- At `(1/10, 7/10)` (as doubles) the value computed is within `2e-17` of `0.3 x y^2`, which is about 0.0147. -/
example : ∃ y s', Fl.Ser.evalAt r64 FlMono.ser [r64 (1 / 10), r64 (7 / 10)] = .ok (y, s') ∧
    |y - r64 (3 / 10) * r64 (1 / 10) * r64 (7 / 10) ^ 2| ≤ 2 / 10 ^ 17 := by
  obtain ⟨y, s', h1, _, h4⟩ := C119_value r64_rounding FlMono.fs (by
      intro F hF
      simp only [FlMono.fs, List.mem_cons, List.not_mem_nil, or_false] at hF
      rcases hF with rfl | rfl
      · exact FlMono.shipped 2 (by omega)
      · exact FlMono.shipped 3 (by omega)) FlMono.good FlMono.ser FlMono.over _ FlMono.coeffs [r64 (1 / 10), r64 (7 / 10)] rfl
  refine ⟨y, s', h1, ?_⟩
  have e1 : series (FlMono.fs.map fun F => monomials ℚ F.size) (value FlMono.fs.length) (fun t => if t = [1, 2] then r64 (3 / 10) else 0)
    [r64 (1 / 10), r64 (7 / 10)] = r64 (3 / 10) * r64 (1 / 10) * r64 (7 / 10) ^ 2 := by decide +kernel
  have e2 : polynomialError (2 ^ (-53 : Int)) (FlMono.fs.map Family.size) (value FlMono.fs.length)
    (fun t => if t = [1, 2] then r64 (3 / 10) else 0) [r64 (1 / 10), r64 (7 / 10)] ≤ 2 / 10 ^ 17 := by decide +kernel
  rw [e1] at h4
  exact h4.trans e2

end Verif
