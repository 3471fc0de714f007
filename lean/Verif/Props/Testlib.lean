import Verif.Lemmas.TestlibDen
import Verif.Props.Func
import Mathlib.Analysis.Calculus.Deriv.Pow
import Mathlib.Tactic.IntervalCases
import Mathlib.Analysis.Calculus.Deriv.Polynomial
import Mathlib.Analysis.SpecialFunctions.Trigonometric.Chebyshev.Basic

/-!
# Properties C64-C67, C77: the functions shipped in tests/testlib
-/

namespace Verif
open Spec Testlib TermSet

section
variable {K : Type} [Field K] [CharZero K]

/-! ## C64 -/

/-- **C64** A set of monomials, after any history of calls: term `k` evaluates to `x^k`, its gradient to `k x^(k-1)`, its Hessian to
`k(k-1) x^(k-2)`. -/
theorem C64_monomials (n : Nat) (s0 s : TermSet K) (calls : List (BCall K)) (hmake : make monomialClass n = .ok s0)
    (hrun : s0.run calls = .ok s) (k : Nat) (hk : k < s.val.length) (x : K) :
    (∃ s', s.evalTerm k x = .ok (x ^ k, s')) ∧ (∃ s', s.gradTerm k x = .ok ((k : K) * x ^ (k - 1), s')) ∧
      ∃ s', s.hessTerm k x = .ok ((k : K) * (k - 1) * x ^ (k - 2), s') := by
  by_cases hn : n ≤ 30
  · obtain ⟨s1, e, _, g, _⟩ := make_rel (mono_denotes (K := K) n) hn
    rw [hmake] at e; cases e
    obtain ⟨_, _, m, g'⟩ := run_good calls g hrun
    exact terms_good g' hk x
  · rw [make_big (by omega)] at hmake; cases hmake

example : ∃ s0 s : TermSet ℚ, make monomialClass 3 = .ok s0 ∧ s0.run [.eval 2, .resize 30, .evalGrad 3, .resize 4] = .ok s ∧
    s.val.length = 4 := by
  obtain ⟨s0, e, _, g, r⟩ := make_rel (mono_denotes (K := ℚ) 3) (n := 3) (by omega)
  have := run_rel [.eval 2, .resize 30, .evalGrad 3, .resize 4] s0 _ r (by simp [FitsMax])
  have hb : ∃ b : BasisSet ℚ, BasisSet.run 0 [.eval 2, .resize 30, .evalGrad 3, .resize 4]
      (BasisSet.make 0 3 (some (monomials ℚ 3).phi) (some (monomials ℚ 3).dphi) (some (monomials ℚ 3).ddphi)) = .ok b ∧
      b.val.length = 4 := ⟨_, rfl, rfl⟩
  obtain ⟨b, e1, e2⟩ := hb
  rw [e1] at this
  generalize hq : s0.run [.eval 2, .resize 30, .evalGrad 3, .resize 4] = q at this
  cases this with
  | ok h => exact ⟨s0, _, e, hq, by rw [← h.val]; exact e2⟩

/-- **C64** Gradient and Hessian are the first and second derivative of the value. -/
theorem C64_derivatives (n : Nat) (s0 s : TermSet ℝ) (calls : List (BCall ℝ)) (hmake : make monomialClass n = .ok s0)
    (hrun : s0.run calls = .ok s) (k : Nat) (hk : k < s.val.length) :
    ∃ f f' f'' : ℝ → ℝ, (∀ x, (s.evalTerm k x).map (·.1) = .ok (f x)) ∧ (∀ x, (s.gradTerm k x).map (·.1) = .ok (f' x)) ∧
      (∀ x, (s.hessTerm k x).map (·.1) = .ok (f'' x)) ∧ (∀ x, HasDerivAt f (f' x) x) ∧ ∀ x, HasDerivAt f' (f'' x) x := by
  have hv := C64_monomials n s0 s calls hmake hrun k hk
  refine ⟨fun x => x ^ k, fun x => k * x ^ (k - 1), fun x => k * (k - 1) * x ^ (k - 2), fun x => ?_, fun x => ?_, fun x => ?_,
    fun x => hasDerivAt_pow k x, fun x => ?_⟩
  · obtain ⟨⟨_, e⟩, _, _⟩ := hv x; rw [e]; rfl
  · obtain ⟨_, ⟨_, e⟩, _⟩ := hv x; rw [e]; rfl
  · obtain ⟨_, _, ⟨_, e⟩⟩ := hv x; rw [e]; rfl
  · have := (hasDerivAt_pow (k - 1) x).const_mul (k : ℝ)
    refine this.congr_deriv ?_
    rcases k with _ | _ | k <;> simp
    ring

/-! ## C65 -/

/-- **C65** A set of Chebyshev polynomials, after any history of calls: term `k` evaluates to `T_k(x)`, its gradient to `T_k'(x)`, its
Hessian to `T_k''(x)`. -/
theorem C65_chebyshev (n : Nat) (s0 s : TermSet K) (calls : List (BCall K)) (hmake : make chebyshevClass n = .ok s0)
    (hrun : s0.run calls = .ok s) (k : Nat) (hk : k < s.val.length) (x : K) :
    let T := Polynomial.Chebyshev.T K k
    (∃ s', s.evalTerm k x = .ok (T.eval x, s')) ∧ (∃ s', s.gradTerm k x = .ok (T.derivative.eval x, s')) ∧
      ∃ s', s.hessTerm k x = .ok (T.derivative.derivative.eval x, s') := by
  by_cases hn : n ≤ 30
  · obtain ⟨s1, e, _, g, _⟩ := make_rel (cheb_denotes (K := K) n) hn
    rw [hmake] at e; cases e
    obtain ⟨_, _, m, g'⟩ := run_good calls g hrun
    exact terms_good g' hk x
  · rw [make_big (by omega)] at hmake; cases hmake

example : ∃ s0 s : TermSet ℚ, make chebyshevClass 30 = .ok s0 ∧ s0.run [.resize 12] = .ok s ∧ s.val.length = 12 := by
  obtain ⟨s0, e, _, g, r⟩ := make_rel (cheb_denotes (K := ℚ) 30) (n := 30) (by omega)
  obtain ⟨s', h, g', _⟩ := resize_of g (m := 12) (by omega)
  exact ⟨s0, s', e, by simp [run, step, h], g'.vlen⟩

/-- **C65** At `cos θ` term `k` is `cos (k θ)`. -/
theorem C65_cos (n : Nat) (s0 s : TermSet ℝ) (calls : List (BCall ℝ)) (hmake : make chebyshevClass n = .ok s0)
    (hrun : s0.run calls = .ok s) (k : Nat) (hk : k < s.val.length) (θ : ℝ) :
    (s.evalTerm k (Real.cos θ)).map (·.1) = .ok (Real.cos (k * θ)) := by
  obtain ⟨⟨s', e⟩, _, _⟩ := C65_chebyshev n s0 s calls hmake hrun k hk (Real.cos θ)
  have := Polynomial.Chebyshev.T_real_cos θ k
  rw [e]
  simp only [Except.map, this, Int.cast_natCast]

/-- **C65** Gradient and Hessian are the first and second derivative of the value. -/
theorem C65_derivatives (n : Nat) (s0 s : TermSet ℝ) (calls : List (BCall ℝ)) (hmake : make chebyshevClass n = .ok s0)
    (hrun : s0.run calls = .ok s) (k : Nat) (hk : k < s.val.length) :
    ∃ f f' f'' : ℝ → ℝ, (∀ x, (s.evalTerm k x).map (·.1) = .ok (f x)) ∧ (∀ x, (s.gradTerm k x).map (·.1) = .ok (f' x)) ∧
      (∀ x, (s.hessTerm k x).map (·.1) = .ok (f'' x)) ∧ (∀ x, HasDerivAt f (f' x) x) ∧ ∀ x, HasDerivAt f' (f'' x) x := by
  have hv := C65_chebyshev n s0 s calls hmake hrun k hk
  let T := Polynomial.Chebyshev.T ℝ k
  refine ⟨fun x => T.eval x, fun x => T.derivative.eval x, fun x => T.derivative.derivative.eval x, fun x => ?_, fun x => ?_,
    fun x => ?_, fun x => Polynomial.hasDerivAt _ x, fun x => Polynomial.hasDerivAt _ x⟩
  · obtain ⟨⟨_, e⟩, _, _⟩ := hv x; rw [e]; rfl
  · obtain ⟨_, ⟨_, e⟩, _⟩ := hv x; rw [e]; rfl
  · obtain ⟨_, _, ⟨_, e⟩⟩ := hv x; rw [e]; rfl

/-- **C64**, **C65** `basis_function(term)`, on any set of the class: the function named after the term, with the same values; beyond
the maximum the program exits with status 1. -/
theorem C64_basis_function (k : Nat) :
    (k < 30 → ∃ p : Flex K K, basisFunction monomialClass k = .ok (some p) ∧
      (Flex.sem .name p).1 = .ok (.str ("Monomial_" ++ toString k)) ∧
      ∀ x, (Flex.sem (.evalAt x) p).1 = .ok (.num (x ^ k)) ∧ (Flex.sem (.gradAt x 0) p).1 = .ok (.num (k * x ^ (k - 1))) ∧
        (Flex.sem (.hessAt x 0 0) p).1 = .ok (.num (k * (k - 1) * x ^ (k - 2)))) ∧
    (30 ≤ k → (basisFunction monomialClass k : Res (Option (Flex K K))) = .error (.exit 1)) := by
  refine ⟨fun hk => ?_, basisFunction_big _⟩
  obtain ⟨p, e, g⟩ := basisFunction_of (mono_denotes (K := K) 30) hk
  refine ⟨p, e, ?_, fun x => ⟨?_, ?_, ?_⟩⟩
  · have hn : (List.range 30).all (fun k => (monomialClass.terms[k]?).map (·.name) == some ("Monomial_" ++ toString k)) = true := by
      decide +kernel
    have := List.all_eq_true.mp hn k (by simp [hk])
    simp only [beq_iff_eq] at this
    simp only [Flex.sem, FBase.sem, g.base, termBase, this, Option.getD_some]
  · obtain ⟨p', e', _⟩ := g.evalAt x
    simp only [Flex.sem, FBase.sem, Flex.ov, e', Except.map]; rfl
  · obtain ⟨p', e', _⟩ := g.gradAt x
    simp only [Flex.sem, FBase.sem, Flex.ov, e', Except.map]; rfl
  · obtain ⟨p', e', _⟩ := g.hessAt x
    simp only [Flex.sem, FBase.sem, Flex.ov, e', Except.map]; rfl

/-- **C65** `basis_function(term)` of the Chebyshev polynomials. -/
theorem C65_basis_function (k : Nat) :
    (k < 30 → ∃ p : Flex K K, basisFunction chebyshevClass k = .ok (some p) ∧
      (Flex.sem .name p).1 = .ok (.str ("Chebyshev_" ++ toString k)) ∧
      ∀ x, let T := Polynomial.Chebyshev.T K k
        (Flex.sem (.evalAt x) p).1 = .ok (.num (T.eval x)) ∧ (Flex.sem (.gradAt x 0) p).1 = .ok (.num (T.derivative.eval x)) ∧
        (Flex.sem (.hessAt x 0 0) p).1 = .ok (.num (T.derivative.derivative.eval x))) ∧
    (30 ≤ k → (basisFunction chebyshevClass k : Res (Option (Flex K K))) = .error (.exit 1)) := by
  refine ⟨fun hk => ?_, basisFunction_big _⟩
  obtain ⟨p, e, g⟩ := basisFunction_of (cheb_denotes (K := K) 30) hk
  refine ⟨p, e, ?_, fun x => ⟨?_, ?_, ?_⟩⟩
  · have hn : (List.range 30).all (fun k => (chebyshevClass.terms[k]?).map (·.name) == some ("Chebyshev_" ++ toString k)) = true := by
      decide +kernel
    have := List.all_eq_true.mp hn k (by simp [hk])
    simp only [beq_iff_eq] at this
    simp only [Flex.sem, FBase.sem, g.base, termBase, this, Option.getD_some]
  · obtain ⟨p', e', _⟩ := g.evalAt x
    simp only [Flex.sem, FBase.sem, Flex.ov, e', Except.map]; rfl
  · obtain ⟨p', e', _⟩ := g.gradAt x
    simp only [Flex.sem, FBase.sem, Flex.ov, e', Except.map]; rfl
  · obtain ⟨p', e', _⟩ := g.hessAt x
    simp only [Flex.sem, FBase.sem, Flex.ov, e', Except.map]; rfl

end

/-! ## C66 -/

section
variable {K : Type} [Field K] [CharZero K]

theorem quadratic_make {K : Type} [Arith K] [Zero K] : Flex.make (quadratic (K := K)).base (some Quadratic_f.objN) (hs [(Quadratic_grad_0.objN : SObj (List K) K)])
    ([[(Quadratic_hess_0_0.objN : SObj (List K) K)]].map hs) = .ok quadratic := rfl

theorem myFunc_make {K : Type} [Arith K] [Zero K] : Flex.make (myFunc (K := K)).base (some MyFunc_f.objN) (hs [(MyFunc_grad_0.objN : SObj (List K) K), MyFunc_grad_1.objN])
    ([[(MyFunc_hess_0_0.objN : SObj (List K) K), MyFunc_hess_0_1.objN], [MyFunc_hess_1_0.objN, MyFunc_hess_1_1.objN]].map hs) = .ok myFunc := rfl

theorem objN_eval {t : ClassText} {a : Ast} (h : readCpp t.eval = some a) {v : List K} (hv : a.vars ≤ v.length) :
    (t.objN : SObj (List K) K).evalFn v = .ok (a.eval fun i => v.getD i 0) := by
  simp [ClassText.objN, ClassText.obj, SObj.evalFn, h, hv, compute_eval]

/-- **C66** `Quadratic`, after any history of calls: value, gradient and Hessian at `x`. -/
theorem C66_quadratic (calls : List (FCall (List K))) (hc : ∀ c ∈ calls, c.InRange 1) (x : K) :
    let p := (runCalls Flex.sem calls quadratic).2
    (Flex.sem (.evalAt [x]) p).1 = .ok (.num (x ^ 2 + x + 1)) ∧ (Flex.sem (.gradAt [x] 0) p).1 = .ok (.num (2 * x + 1)) ∧
      (Flex.sem (.hessAt [x] 0 0) p).1 = .ok (.num 2) := by
  have h := C42_components _ _ _ _ _ (quadratic_make (K := K)) calls hc [x]
  have r0 : readCpp Quadratic_f.eval = some (.add (.add (.var 0) (.mul (.var 0) (.var 0))) (.num 1)) := by decide +kernel
  have r1 : readCpp Quadratic_grad_0.eval = some (.add (.mul (.num 2) (.var 0)) (.num 1)) := by decide +kernel
  have r2 : readCpp Quadratic_hess_0_0.eval = some (.num 2) := by decide +kernel
  refine ⟨?_, ?_, ?_⟩
  · have := h .f trivial
    simp only [single, compFn] at this
    rw [objN_eval r0 (by simp [Ast.vars])] at this
    rw [this]
    simp only [Except.map, Ast.eval, List.getD_cons_zero, Rat.cast_one]
    ring_nf
  · have := h (.g 0) (by simp [getter, FCall.InRange, quadratic])
    simp only [single, compFn, List.map_cons, List.map_nil, List.getElem?_cons_zero, Option.getD_some] at this
    rw [objN_eval r1 (by simp [Ast.vars])] at this
    rw [show ((0 : Int)) = ((0 : Nat) : Int) from rfl, this]
    simp [Except.map, Ast.eval]
  · have := h (.h 0 0) (by simp [getter, FCall.InRange, quadratic])
    simp only [single, compFn, List.map_cons, List.map_nil, List.getElem?_cons_zero, Option.getD_some] at this
    rw [objN_eval r2 (by simp [Ast.vars])] at this
    rw [show ((0 : Int)) = ((0 : Nat) : Int) from rfl, this]
    simp [Except.map, Ast.eval]

example : ∀ c ∈ ([.evalAt [2], .evalGrad [3], .hessAt [1] 0 0, .get] : List (FCall (List ℚ))), c.InRange 1 := by
  simp [FCall.InRange]

/-- **C66** `MyFunc`, after any history of calls: value, gradient and Hessian at `(x, y)`. -/
theorem C66_myfunc (calls : List (FCall (List K))) (hc : ∀ c ∈ calls, c.InRange 2) (x y : K) :
    let p := (runCalls Flex.sem calls myFunc).2
    (Flex.sem (.evalAt [x, y]) p).1 = .ok (.num (x ^ 3 + x ^ 2 * y + x * y ^ 2 + y ^ 3)) ∧
      (Flex.sem (.gradAt [x, y] 0) p).1 = .ok (.num (3 * x ^ 2 + 2 * x * y + y ^ 2)) ∧
      (Flex.sem (.gradAt [x, y] 1) p).1 = .ok (.num (x ^ 2 + 2 * x * y + 3 * y ^ 2)) ∧
      (Flex.sem (.hessAt [x, y] 0 0) p).1 = .ok (.num (6 * x + 2 * y)) ∧
      (Flex.sem (.hessAt [x, y] 0 1) p).1 = .ok (.num (2 * x + 2 * y)) ∧
      (Flex.sem (.hessAt [x, y] 1 0) p).1 = .ok (.num (2 * x + 2 * y)) ∧
      (Flex.sem (.hessAt [x, y] 1 1) p).1 = .ok (.num (2 * x + 6 * y)) := by
  have h := C42_components _ _ _ _ _ (myFunc_make (K := K)) calls hc [x, y]
  have r0 : readCpp MyFunc_f.eval = some (.add (.add (.add (.mul (.mul (.var 0) (.var 0)) (.var 1)) (.mul (.mul (.var 0) (.var 0)) (.var 0)))
    (.mul (.var 0) (.mul (.var 1) (.var 1)))) (.mul (.mul (.var 1) (.var 1)) (.var 1))) := by decide +kernel
  have r1 : readCpp MyFunc_grad_0.eval = some (.add (.add (.mul (.mul (.num 2) (.var 1)) (.var 0)) (.mul (.num 3) (.mul (.var 0) (.var 0))))
    (.mul (.var 1) (.var 1))) := by decide +kernel
  have r2 : readCpp MyFunc_grad_1.eval = some (.add (.add (.mul (.num 3) (.mul (.var 1) (.var 1))) (.mul (.mul (.num 2) (.var 1)) (.var 0)))
    (.mul (.var 0) (.var 0))) := by decide +kernel
  have r3 : readCpp MyFunc_hess_0_0.eval = some (.add (.mul (.num 6) (.var 0)) (.mul (.num 2) (.var 1))) := by decide +kernel
  have r4 : readCpp MyFunc_hess_0_1.eval = some (.add (.mul (.num 2) (.var 0)) (.mul (.num 2) (.var 1))) := by decide +kernel
  have r5 : readCpp MyFunc_hess_1_0.eval = some (.add (.mul (.num 2) (.var 1)) (.mul (.num 2) (.var 0))) := by decide +kernel
  have r6 : readCpp MyFunc_hess_1_1.eval = some (.add (.mul (.num 2) (.var 0)) (.mul (.num 6) (.var 1))) := by decide +kernel
  have e0 : (0 : Int) = ((0 : Nat) : Int) := rfl
  have e1 : (1 : Int) = ((1 : Nat) : Int) := rfl
  refine ⟨?_, ?_, ?_, ?_, ?_, ?_, ?_⟩
  · have := h .f trivial
    simp only [single, compFn] at this
    rw [objN_eval r0 (by simp [Ast.vars])] at this
    rw [this]
    simp only [Except.map, Ast.eval, List.getD_cons_zero, List.getD_cons_succ]
    ring_nf
  · have := h (.g 0) (by simp [getter, FCall.InRange, myFunc])
    simp only [single, compFn, List.map_cons, List.map_nil, List.getElem?_cons_zero, Option.getD_some] at this
    rw [objN_eval r1 (by simp [Ast.vars])] at this
    rw [e0, this]
    simp only [Except.map, Ast.eval, List.getD_cons_zero, List.getD_cons_succ]
    push_cast; ring_nf
  · have := h (.g 1) (by simp [getter, FCall.InRange, myFunc])
    simp only [single, compFn, List.map_cons, List.map_nil, List.getElem?_cons_zero, List.getElem?_cons_succ, Option.getD_some] at this
    rw [objN_eval r2 (by simp [Ast.vars])] at this
    rw [e1, this]
    simp only [Except.map, Ast.eval, List.getD_cons_zero, List.getD_cons_succ]
    push_cast; ring_nf
  · have := h (.h 0 0) (by simp [getter, FCall.InRange, myFunc])
    simp only [single, compFn, List.map_cons, List.map_nil, List.getElem?_cons_zero, Option.getD_some] at this
    rw [objN_eval r3 (by simp [Ast.vars])] at this
    rw [e0, this]
    simp [Except.map, Ast.eval]
  · have := h (.h 0 1) (by simp [getter, FCall.InRange, myFunc])
    simp only [single, compFn, List.map_cons, List.map_nil, List.getElem?_cons_zero, List.getElem?_cons_succ, Option.getD_some] at this
    rw [objN_eval r4 (by simp [Ast.vars])] at this
    rw [e0, e1, this]
    simp [Except.map, Ast.eval]
  · have := h (.h 1 0) (by simp [getter, FCall.InRange, myFunc])
    simp only [single, compFn, List.map_cons, List.map_nil, List.getElem?_cons_zero, List.getElem?_cons_succ, Option.getD_some] at this
    rw [objN_eval r5 (by simp [Ast.vars])] at this
    rw [e0, e1, this]
    simp only [Except.map, Ast.eval, List.getD_cons_zero, List.getD_cons_succ]
    push_cast; ring_nf
  · have := h (.h 1 1) (by simp [getter, FCall.InRange, myFunc])
    simp only [single, compFn, List.map_cons, List.map_nil, List.getElem?_cons_succ, List.getElem?_cons_zero, Option.getD_some] at this
    rw [objN_eval r6 (by simp [Ast.vars])] at this
    rw [e1, this]
    simp [Except.map, Ast.eval]

example : ∀ c ∈ ([.evalAt [2, 1], .gradAt [3, 0] 1, .hessAt [1, 1] 0 1, .getHess 1 1] : List (FCall (List ℚ))), c.InRange 2 := by
  simp [FCall.InRange]

end

/-- **C66** Gradient and Hessian of `Quadratic` are the derivatives of its value. -/
theorem C66_quadratic_derivatives (calls : List (FCall (List ℝ))) (hc : ∀ c ∈ calls, c.InRange 1) :
    let p := (runCalls Flex.sem calls quadratic).2
    ∃ f f' f'' : ℝ → ℝ, (∀ x, (Flex.sem (.evalAt [x]) p).1 = .ok (.num (f x))) ∧
      (∀ x, (Flex.sem (.gradAt [x] 0) p).1 = .ok (.num (f' x))) ∧ (∀ x, (Flex.sem (.hessAt [x] 0 0) p).1 = .ok (.num (f'' x))) ∧
      (∀ x, HasDerivAt f (f' x) x) ∧ ∀ x, HasDerivAt f' (f'' x) x := by
  have hv := C66_quadratic calls hc
  refine ⟨fun x => x ^ 2 + x + 1, fun x => 2 * x + 1, fun _ => 2, fun x => (hv x).1, fun x => (hv x).2.1, fun x => (hv x).2.2, fun x => ?_, fun x => ?_⟩
  · refine (((hasDerivAt_pow 2 x).add (hasDerivAt_id x)).add_const (1 : ℝ)).congr_deriv ?_
    norm_num
  · refine (((hasDerivAt_id x).const_mul (2 : ℝ)).add_const (1 : ℝ)).congr_deriv ?_
    norm_num

/-- **C66** Gradient and Hessian of `MyFunc` are the partial derivatives of its value and of its gradient. -/
theorem C66_myfunc_derivatives (calls : List (FCall (List ℝ))) (hc : ∀ c ∈ calls, c.InRange 2) :
    let p := (runCalls Flex.sem calls myFunc).2
    ∃ (f : ℝ → ℝ → ℝ) (g : Nat → ℝ → ℝ → ℝ) (h : Nat → Nat → ℝ → ℝ → ℝ),
      (∀ x y, (Flex.sem (.evalAt [x, y]) p).1 = .ok (.num (f x y))) ∧
      (∀ i : Nat, i < 2 → ∀ x y, (Flex.sem (.gradAt [x, y] i) p).1 = .ok (.num (g i x y))) ∧
      (∀ i j : Nat, i < 2 → j < 2 → ∀ x y, (Flex.sem (.hessAt [x, y] i j) p).1 = .ok (.num (h i j x y))) ∧
      (∀ x y, HasDerivAt (fun x => f x y) (g 0 x y) x ∧ HasDerivAt (fun y => f x y) (g 1 x y) y) ∧
      ∀ i < 2, ∀ x y, HasDerivAt (fun x => g i x y) (h i 0 x y) x ∧ HasDerivAt (fun y => g i x y) (h i 1 x y) y := by
  have hv := C66_myfunc calls hc
  have P : ∀ a b c d x : ℝ, HasDerivAt (fun x => a * x ^ 3 + b * x ^ 2 + c * x + d) (3 * a * x ^ 2 + 2 * b * x + c) x := by
    intro a b c d x
    refine (((((hasDerivAt_pow 3 x).const_mul a).add ((hasDerivAt_pow 2 x).const_mul b)).add
      ((hasDerivAt_id x).const_mul c)).add_const d).congr_deriv ?_
    simp; ring
  refine ⟨fun x y => x ^ 3 + x ^ 2 * y + x * y ^ 2 + y ^ 3, fun i x y => if i = 0 then 3 * x ^ 2 + 2 * x * y + y ^ 2 else x ^ 2 + 2 * x * y + 3 * y ^ 2,
    fun i j x y => if i = 0 then (if j = 0 then 6 * x + 2 * y else 2 * x + 2 * y) else if j = 0 then 2 * x + 2 * y else 2 * x + 6 * y,
    fun x y => (hv x y).1, ?_, ?_, ?_, ?_⟩
  · intro i hi x y
    obtain ⟨_, h1, h2, _⟩ := hv x y
    interval_cases i
    · exact h1
    · exact h2
  · intro i j hi hj x y
    obtain ⟨_, _, _, h1, h2, h3, h4⟩ := hv x y
    interval_cases i <;> interval_cases j
    · exact h1
    · exact h2
    · exact h3
    · exact h4
  · intro x y
    constructor
    · refine ((P 1 y (y ^ 2) (y ^ 3) x).congr_deriv (by norm_num; try ring)).congr_of_eventuallyEq (Filter.Eventually.of_forall fun t => ?_)
      simp only; ring
    · refine ((P 1 x (x ^ 2) (x ^ 3) y).congr_deriv (by norm_num; try ring)).congr_of_eventuallyEq (Filter.Eventually.of_forall fun t => ?_)
      simp only; ring
  · intro i hi x y
    interval_cases i
    · constructor
      · refine ((P 0 3 (2 * y) (y ^ 2) x).congr_deriv (by norm_num; try ring)).congr_of_eventuallyEq (Filter.Eventually.of_forall fun t => ?_)
        simp; ring
      · refine ((P 0 1 (2 * x) (3 * x ^ 2) y).congr_deriv (by norm_num; try ring)).congr_of_eventuallyEq (Filter.Eventually.of_forall fun t => ?_)
        simp; ring
    · constructor
      · refine ((P 0 1 (2 * y) (3 * y ^ 2) x).congr_deriv (by norm_num; try ring)).congr_of_eventuallyEq (Filter.Eventually.of_forall fun t => ?_)
        simp; ring
      · refine ((P 0 3 (2 * x) (x ^ 2) y).congr_deriv (by norm_num; try ring)).congr_of_eventuallyEq (Filter.Eventually.of_forall fun t => ?_)
        simp; ring

/-- No member of a flexible function changes its names. -/
theorem flex_base_run {K : Type} [Field K] (cs : List (FCall (List K))) (p : Flex (List K) K) : (runCalls Flex.sem cs p).2.base = p.base := by
  have hb : ∀ (c : FCall (List K)) (p : Flex (List K) K), (Flex.sem c p).2.base = p.base := by
    intro c p
    cases c <;> simp only [Flex.sem, FBase.sem, Flex.ov, Flex.evalAt, Flex.gradAt, Flex.hessAt, Flex.evalGrad, Flex.evalHess]
    · split <;> rfl
    · split <;> (try split) <;> rfl
  induction cs generalizing p with
  | nil => rfl
  | cons c cs ih => simp only [runCalls]; rw [ih, hb]

/-- **C66** Copying a generated function, or assigning one to another, in any states: the result behaves like the source. -/
theorem C66_copy_assign {K : Type} [Field K] (c1 c2 : List (FCall (List K))) :
    (∀ f ∈ [quadratic (K := K), myFunc], ∃ p q, p = (runCalls Flex.sem c1 f).2 ∧ q = (runCalls Flex.sem c2 f).2 ∧
      genCopy f.base q = q ∧ genAssign f.base p q = q) := by
  intro f _
  refine ⟨_, _, rfl, rfl, ?_, ?_⟩
  · have := flex_base_run c2 f
    simp only [genCopy, ← this]
  · have h1 := flex_base_run c1 f
    have h2 := flex_base_run c2 f
    simp only [genAssign, genCopy]
    rw [h1, ← h2]

/-- **C66** The names: after any history, also on a copy and on the target of an assignment, the two functions report their name, their
variables and the descriptions of them. -/
theorem C66_names {K : Type} [Field K] (c1 c2 c3 : List (FCall (List K))) :
    (∀ f ∈ [(runCalls Flex.sem c1 (quadratic (K := K))).2, genCopy (quadratic (K := K)).base (runCalls Flex.sem c1 quadratic).2,
        genAssign (quadratic (K := K)).base (runCalls Flex.sem c1 quadratic).2 (runCalls Flex.sem c2 quadratic).2],
      let p := (runCalls Flex.sem c3 f).2
      (Flex.sem .name p).1 = .ok (.str "Quadratic") ∧ (Flex.sem .size p).1 = .ok (.size 1) ∧ (Flex.sem .varNames p).1 = .ok (.strs ["x"]) ∧
        (Flex.sem .varDescs p).1 = .ok (.strs ["A quadratic function of one variable"])) ∧
    (∀ f ∈ [(runCalls Flex.sem c1 (myFunc (K := K))).2, genCopy (myFunc (K := K)).base (runCalls Flex.sem c1 myFunc).2,
        genAssign (myFunc (K := K)).base (runCalls Flex.sem c1 myFunc).2 (runCalls Flex.sem c2 myFunc).2],
      let p := (runCalls Flex.sem c3 f).2
      (Flex.sem .name p).1 = .ok (.str "MyFunc") ∧ (Flex.sem .size p).1 = .ok (.size 2) ∧ (Flex.sem .varNames p).1 = .ok (.strs ["x", "y"]) ∧
        (Flex.sem .varDescs p).1 = .ok (.strs ["x variable", "y_variable"])) := by
  have key : ∀ (g : Flex (List K) K), ∀ f ∈ [(runCalls Flex.sem c1 g).2, genCopy g.base (runCalls Flex.sem c1 g).2,
      genAssign g.base (runCalls Flex.sem c1 g).2 (runCalls Flex.sem c2 g).2], (runCalls Flex.sem c3 f).2.base = g.base := by
    intro g f hf
    rw [flex_base_run]
    simp only [List.mem_cons, List.not_mem_nil, or_false] at hf
    rcases hf with rfl | rfl | rfl
    · exact flex_base_run _ _
    · rfl
    · exact flex_base_run _ _
  constructor <;> intro f hf p <;> have e := key _ f hf <;> simp only [Flex.sem, FBase.sem] <;> rw [e] <;> exact ⟨rfl, rfl, rfl, rfl⟩

/-- The names of the parts of a function. -/
def partNames {K : Type} (p : Flex (List K) K) : Option String × List (Option String) × List (List (Option String)) :=
  (p.val.map SObj.name, p.grad.map (Option.map SObj.name), p.hess.map (List.map (Option.map SObj.name)))

theorem map_set_same {α β : Type} {f : α → β} {l : List α} {i : Nat} {a b : α} (h : l[i]? = some a) (hf : f b = f a) : (l.set i b).map f = l.map f := by
  rw [List.map_set, hf]
  apply List.ext_getElem?
  intro j
  by_cases e : i = j
  · subst e
    obtain ⟨h1, h2⟩ := List.getElem?_eq_some_iff.mp h
    simp [List.getElem?_set, h1, h2]
  · simp [List.getElem?_set, e]

/-- No member of a flexible function changes the names of its parts. -/
theorem flex_parts_run {K : Type} [Field K] (cs : List (FCall (List K))) (p : Flex (List K) K) : partNames (runCalls Flex.sem cs p).2 = partNames p := by
  have h0 : ∀ (h : SFun (List K) K) (v : List K), (h.evalAt v).2.map SObj.name = h.map SObj.name := by
    intro h v
    cases h with
    | none => rfl
    | some o => simp only [SFun.evalAt, SObj.evalAt]; cases o.evalFn v <;> rfl
  have h1 : ∀ (v : List K) (l : List (SFun (List K) K)), (SFun.evalAll v l).2.map (Option.map SObj.name) = l.map (Option.map SObj.name) := by
    intro v l
    induction l with
    | nil => rfl
    | cons h hs ih =>
      have := h0 h v
      simp only [SFun.evalAll]
      revert this
      rcases h.evalAt v with ⟨_ | _, h'⟩ <;> intro this <;> simp_all
  have h2 : ∀ (v : List K) (l : List (List (SFun (List K) K))),
      (SFun.evalRows v l).2.map (List.map (Option.map SObj.name)) = l.map (List.map (Option.map SObj.name)) := by
    intro v l
    induction l with
    | nil => rfl
    | cons h hs ih =>
      have := h1 v h
      simp only [SFun.evalRows]
      revert this
      rcases SFun.evalAll v h with ⟨_ | _, h'⟩ <;> intro this <;> simp_all
  have hb : ∀ (c : FCall (List K)) (p : Flex (List K) K), partNames (Flex.sem c p).2 = partNames p := by
    intro c p
    cases c <;> simp only [Flex.sem, FBase.sem, Flex.ov, Flex.evalAt, Flex.gradAt, Flex.hessAt, Flex.evalGrad, Flex.evalHess] <;>
      try simp only [partNames, h0, h1, h2]
    · split
      · rfl
      · rename_i h hg
        obtain ⟨_, hg⟩ := vget_ok.mp hg
        simp only [map_set_same hg (h0 _ _)]
    · split
      · rfl
      · rename_i row hg
        split
        · rfl
        · rename_i h hh
          obtain ⟨_, hg⟩ := vget_ok.mp hg
          obtain ⟨_, hh⟩ := vget_ok.mp hh
          simp only [map_set_same hg (map_set_same hh (h0 _ _))]
  induction cs generalizing p with
  | nil => rfl
  | cons c cs ih => simp only [runCalls]; rw [ih, hb]

/-- **C66** The parts the functions hand out (`simplefunction`, `grad_simplefunction`, `hess_simplefunction`), after any history: they report the names
`Quadratic_f`, `Quadratic_grad_0`, ..., `MyFunc_hess_1_1`, also after any calls on the part itself. -/
theorem C66_part_names {K : Type} [Field K] (calls : List (FCall (List K))) (sc : List (SCall (List K))) (i j : Nat) (o : SObj (List K) K) :
    (∀ p, p = (runCalls Flex.sem calls (quadratic (K := K))).2 →
      ((Flex.sem .simple p).1 = .ok (.simple (some o)) → (SObj.sem .name (runCalls SObj.sem sc o).2).1 = .ok (.str "Quadratic_f")) ∧
      ((Flex.sem (.gradSimple i) p).1 = .ok (.simple (some o)) → (SObj.sem .name (runCalls SObj.sem sc o).2).1 = .ok (.str s!"Quadratic_grad_{i}")) ∧
      ((Flex.sem (.hessSimple i j) p).1 = .ok (.simple (some o)) →
        (SObj.sem .name (runCalls SObj.sem sc o).2).1 = .ok (.str s!"Quadratic_hess_{i}_{j}"))) ∧
    (∀ p, p = (runCalls Flex.sem calls (myFunc (K := K))).2 →
      ((Flex.sem .simple p).1 = .ok (.simple (some o)) → (SObj.sem .name (runCalls SObj.sem sc o).2).1 = .ok (.str "MyFunc_f")) ∧
      ((Flex.sem (.gradSimple i) p).1 = .ok (.simple (some o)) → (SObj.sem .name (runCalls SObj.sem sc o).2).1 = .ok (.str s!"MyFunc_grad_{i}")) ∧
      ((Flex.sem (.hessSimple i j) p).1 = .ok (.simple (some o)) →
        (SObj.sem .name (runCalls SObj.sem sc o).2).1 = .ok (.str s!"MyFunc_hess_{i}_{j}"))) := by
  have hs : (SObj.sem .name (runCalls SObj.sem sc o).2).1 = .ok (.str o.name) := by
    simp only [SObj.sem]
    have one : ∀ (c : SCall (List K)) (o : SObj (List K) K), (SObj.sem c o).2.name = o.name := by
      intro c o
      cases c <;> simp only [SObj.sem, SObj.evalAt]
      · split <;> rfl
      · split <;> rfl
    have : (runCalls SObj.sem sc o).2.name = o.name := by
      induction sc generalizing o with
      | nil => rfl
      | cons c cs ih => simp only [runCalls]; rw [ih, one]
    rw [this]
  have get : ∀ (p : Flex (List K) K) (v : Option String) (g : List (Option String)) (h : List (List (Option String))), partNames p = (v, g, h) →
      ((Flex.sem .simple p).1 = .ok (.simple (some o)) → v = some o.name) ∧
      ((Flex.sem (.gradSimple i) p).1 = .ok (.simple (some o)) → g[i]? = some (some o.name)) ∧
      ((Flex.sem (.hessSimple i j) p).1 = .ok (.simple (some o)) → (h[i]?.bind (·[j]?)) = some (some o.name)) := by
    intro p v g h hp
    obtain ⟨e1, e2, e3⟩ := by simpa [partNames] using hp
    subst e1; subst e2; subst e3
    refine ⟨fun hh => ?_, fun hh => ?_, fun hh => ?_⟩
    · simp only [Flex.sem, FBase.sem, Flex.ov, Except.ok.injEq, FOut.simple.injEq] at hh
      rw [hh]; rfl
    · simp only [Flex.sem, FBase.sem, Flex.ov] at hh
      cases hv : vget p.grad (i : Int) with
      | error e => rw [hv] at hh; simp [Except.map] at hh
      | ok q =>
        rw [hv] at hh
        simp only [Except.map, Except.ok.injEq, FOut.simple.injEq] at hh
        subst hh
        have := (vget_ok.mp hv).2
        simp only [Int.toNat_natCast] at this
        simp [this]
    · simp only [Flex.sem, FBase.sem, Flex.ov] at hh
      cases hv : vget p.hess (i : Int) with
      | error e => rw [hv] at hh; simp [Except.bind] at hh
      | ok row =>
        rw [hv] at hh
        simp only [Except.bind] at hh
        cases hw : vget row (j : Int) with
        | error e => rw [hw] at hh; simp [Except.map] at hh
        | ok q =>
          rw [hw] at hh
          simp only [Except.map, Except.ok.injEq, FOut.simple.injEq] at hh
          subst hh
          have h1 := (vget_ok.mp hv).2
          have h2 := (vget_ok.mp hw).2
          simp only [Int.toNat_natCast] at h1 h2
          simp [h1, h2]
  constructor <;> intro p hp <;> obtain ⟨k1, k2, k3⟩ := get p _ _ _ (hp ▸ flex_parts_run _ _ : partNames p = partNames _)
  · refine ⟨fun h => ?_, fun h => ?_, fun h => ?_⟩ <;> rw [hs]
    · have := k1 h
      rw [← Option.some.inj this]; rfl
    · have := k2 h
      rcases i with _ | i <;> simp [quadratic] at this
      rw [← this]; simp only [ClassText.objN, ClassText.obj, Except.ok.injEq, SOut.str.injEq] <;> decide +kernel
    · have := k3 h
      rcases i with _ | i <;> rcases j with _ | j <;> simp [quadratic] at this
      rw [← this]; simp only [ClassText.objN, ClassText.obj, Except.ok.injEq, SOut.str.injEq] <;> decide +kernel
  · refine ⟨fun h => ?_, fun h => ?_, fun h => ?_⟩ <;> rw [hs]
    · have := k1 h
      rw [← Option.some.inj this]; rfl
    · have := k2 h
      rcases i with _ | _ | i <;> simp [myFunc] at this <;> rw [← this] <;> simp only [ClassText.objN, ClassText.obj, Except.ok.injEq, SOut.str.injEq] <;> decide +kernel
    · have := k3 h
      rcases i with _ | _ | i <;> rcases j with _ | _ | j <;> simp [myFunc] at this <;> rw [← this] <;> simp only [ClassText.objN, ClassText.obj, Except.ok.injEq, SOut.str.injEq] <;> decide +kernel

/-- The parts are handed out: the derivative of `MyFunc` by the second variable, after an evaluation. -/
example : ∃ o, (Flex.sem (.gradSimple 1) (runCalls Flex.sem [.evalGrad [2, 3]] (myFunc (K := ℚ))).2).1 = .ok (.simple (some o)) :=
  ⟨_, rfl⟩

/-! ## C67 -/

section
variable {K : Type} [Field K] [CharZero K]

/-- **C67** After any history of calls on a set of monomials or Chebyshev polynomials, `resize(m)` with `m` at most 30 keeps the stored
values and the functions of the terms that remain (new ones are 0) and gives `m` terms; with `m` larger than 30 the program exits with status 1; so does
construction with more than 30 terms. -/
theorem C67_resize (cls : TermClass) (hcls : cls = monomialClass ∨ cls = chebyshevClass) (n : Nat) :
    (n ≤ 30 → ∃ s0 : TermSet K, make cls n = .ok s0 ∧ s0.val = List.replicate n 0 ∧ ∀ calls s, s0.run calls = .ok s → ∀ m,
      (m ≤ 30 → ∃ s', s.resize m = .ok s' ∧ s'.val = vresize s.val m 0 ∧ s'.grad = vresize s.grad m 0 ∧
        s'.hess = vresize s.hess m 0 ∧ s'.fn.length = m ∧ ∀ k < min s.fn.length m, s'.fn[k]? = s.fn[k]?) ∧
      (30 < m → s.resize m = .error (.exit 1))) ∧
    (30 < n → (make cls n : Res (TermSet K)) = .error (.exit 1)) := by
  refine ⟨fun hn => ?_, make_big⟩
  have hd : ∃ F : Family K, cls.Denotes F := by
    rcases hcls with rfl | rfl
    · exact ⟨_, mono_denotes 0⟩
    · exact ⟨_, cheb_denotes 0⟩
  obtain ⟨F, hd⟩ := hd
  obtain ⟨s0, e, g, _, hv, _⟩ := make_of hd hn
  refine ⟨s0, e, hv, fun calls s hr m => ?_⟩
  obtain ⟨_, _, k, g'⟩ := run_good calls g hr
  refine ⟨fun hm => ?_, fun hm => resize_big g' hm⟩
  obtain ⟨s', e', g'', _, h1, h2, h3, h4⟩ := resize_of g' hm
  exact ⟨s', e', h1, h2, h3, g''.flen, by rw [g'.flen]; exact h4⟩

/-- **C67** Copying a set, or assigning one of the same class to it, gives an equal set. -/
theorem C67_copy_assign (cls : TermClass) (hcls : cls = monomialClass ∨ cls = chebyshevClass) (n m : Nat) (s0 s1 s t : TermSet K)
    (h0 : make cls n = .ok s0) (h1 : make cls m = .ok s1) (c0 c1 : List (BCall K)) (hs : s0.run c0 = .ok s) (ht : s1.run c1 = .ok t) :
    s.copyCtor = .ok s ∧ s.assign t = .ok t := by
  have hd : ∃ F : Family K, cls.Denotes F := by
    rcases hcls with rfl | rfl
    · exact ⟨_, mono_denotes 0⟩
    · exact ⟨_, cheb_denotes 0⟩
  obtain ⟨F, hd⟩ := hd
  have hn : n ≤ 30 := by
    by_contra hn; rw [make_big (by omega)] at h0; cases h0
  have hm : m ≤ 30 := by
    by_contra hm; rw [make_big (by omega)] at h1; cases h1
  obtain ⟨s0', e0, g0, k0, _⟩ := make_of hd hn
  obtain ⟨s1', e1, g1, k1, _⟩ := make_of hd hm
  rw [h0] at e0; cases e0
  rw [h1] at e1; cases e1
  obtain ⟨_, l0, _, gs⟩ := run_good c0 g0 hs
  obtain ⟨_, l1, _, gt⟩ := run_good c1 g1 ht
  exact ⟨copyCtor_of gs, assign_of gs gt (by rw [l0, l1, k0, k1])⟩

example : ∃ (s0 s1 s t : TermSet ℚ), make chebyshevClass 2 = .ok s0 ∧ make chebyshevClass 30 = .ok s1 ∧ s0.run [.resize 5] = .ok s ∧
    s1.run [] = .ok t := by
  obtain ⟨s0, e, g, _⟩ := make_of (cheb_denotes (K := ℚ) 0) (n := 2) (by omega)
  obtain ⟨s1, e1, _⟩ := make_of (cheb_denotes (K := ℚ) 0) (n := 30) (by omega)
  obtain ⟨s', h, _⟩ := resize_of g (m := 5) (by omega)
  exact ⟨s0, s1, s', s1, e, e1, by simp [run, step, h], rfl⟩

/-- **C67** The shipped basis sets are basis sets in the sense of the series (C45-C54): every history of calls ends alike (the same
values, the same undefined access) on a set of monomials or Chebyshev polynomials and on an abstract basis set with these functions,
as long as no size beyond 30 is asked for. -/
theorem C67_is_basis_set (cls : TermClass) (F : Family K)
    (hcls : (cls = monomialClass ∧ F = monomials K 0) ∨ (cls = chebyshevClass ∧ F = chebyshevs K 0)) (n : Nat) (hn : n ≤ 30)
    (calls : List (BCall K)) (hs : ∀ m, BCall.resize m ∈ calls → m ≤ 30) :
    (make cls n >>= fun s => s.run calls).map (fun s => (s.val, s.grad, s.hess)) =
      (BasisSet.run 0 calls (BasisSet.make 0 n (some F.phi) (some F.dphi) (some F.ddphi))).map fun b => (b.val, b.grad, b.hess) := by
  have hd : cls.Denotes F := by
    rcases hcls with ⟨rfl, rfl⟩ | ⟨rfl, rfl⟩
    · exact mono_denotes 0
    · exact cheb_denotes 0
  obtain ⟨s, e, _, _, r⟩ := make_rel hd hn
  have hsm : ∀ c ∈ calls, FitsMax c := by
    intro c hc
    cases c <;> first | trivial | exact hs _ hc
  have := run_rel calls _ _ r hsm
  rw [e, ok_bind]
  generalize s.run calls = p at *
  generalize BasisSet.run 0 calls (BasisSet.make 0 n (some F.phi) (some F.dphi) (some F.ddphi)) = q at *
  cases this with
  | ok h => simp [Except.map, h.val, h.grad, h.hess]
  | err => rfl

end

example : ∃ b : BasisSet ℚ, BasisSet.run 0 [.eval 2, .resize 4, .evalHess 3]
    (BasisSet.make 0 3 (some (monomials ℚ 0).phi) (some (monomials ℚ 0).dphi) (some (monomials ℚ 0).ddphi)) = .ok b ∧
    b.val = [1, 2, 4, 0] ∧ b.hess = [0, 0, 2, 18] := ⟨_, rfl, by decide +kernel, by decide +kernel⟩

/-! ## C77 -/

section
variable {K : Type} [Field K] [CharZero K]

/-- What a function prints is what it computes: `csrc()` is a C++ expression, `sym()` a symbolic and `latex()` a LaTeX form of the
function `f` that it evaluates. -/
def PrintsWhatItComputes (o : SObj K K) (f : K → K) : Prop :=
  (∀ x, (SObj.sem (.evalAt x) o).1 = .ok (.num (f x))) ∧
  (∃ t, (SObj.sem .csrc o).1 = .ok (.str t) ∧ Means readCpp1 t f) ∧
  (∃ t, (SObj.sem .sym o).1 = .ok (.str t) ∧ Means readSym t f) ∧
  ∃ t, (SObj.sem .latex o).1 = .ok (.str t) ∧ Means readLatex t f

theorem prints_of {t : ClassText} {p : List ℚ} (h1 : evalOk p t = true) (h2 : textOk p t = true) {f : K → K}
    (hf : ∀ x, peval x p = f x) : PrintsWhatItComputes (t.obj1 : SObj K K) f := by
  simp only [textOk, Bool.and_eq_true] at h2
  obtain ⟨a, ra, va⟩ := eval_of_hasCoeffs (K := K) h1
  obtain ⟨b, rb, vb⟩ := eval_of_hasCoeffs (K := K) h2.1.1
  obtain ⟨c, rc, vc⟩ := eval_of_hasCoeffs (K := K) h2.1.2
  obtain ⟨d, rd, vd⟩ := eval_of_hasCoeffs (K := K) h2.2
  refine ⟨fun x => ?_, ⟨_, rfl, b, by simpa using rb, fun x => by rw [vb, hf]⟩, ⟨_, rfl, c, by simpa using rc, fun x => by rw [vc, hf]⟩,
    ⟨_, rfl, d, by simpa using rd, fun x => by rw [vd, hf]⟩⟩
  simp only [SObj.sem, SObj.evalAt, SObj.evalFn, ClassText.obj1, ClassText.obj, ra, compute_eval, va, hf, Except.map]

/-- **C77** The source, symbolic and LaTeX forms of every monomial, of its gradient and of its Hessian denote the function it
evaluates. -/
theorem C77_monomial_texts (k : Nat) (hk : k < 30) : ∃ (p : Flex K K) (f g h : SObj K K),
    basisFunction monomialClass k = .ok (some p) ∧ p.val = some f ∧ p.grad = [some g] ∧ p.hess = [[some h]] ∧
      PrintsWhatItComputes f (fun x => x ^ k) ∧ PrintsWhatItComputes g (fun x => k * x ^ (k - 1)) ∧
      PrintsWhatItComputes h fun x => k * (k - 1) * x ^ (k - 2) := by
  obtain ⟨t, ht, a1, a2, a3⟩ := termOk_get mono_eval hk
  obtain ⟨t', ht', b1, b2, b3⟩ := termOk_get mono_text hk
  rw [ht] at ht'; cases ht'
  refine ⟨⟨⟨t.name, ["x"], ["x"]⟩, some t.f.obj1, [some t.grad.obj1], [[some t.hess.obj1]]⟩, _, _, _, ?_, rfl, rfl, rfl,
    prints_of a1 b1 fun x => peval_monoC x k, prints_of a2 b2 fun x => peval_pdiff_mono x k, prints_of a3 b3 fun x => peval_pdiff2_mono x k⟩
  simp only [basisFunction, TermClass.maxSize, ge_iff_le, show ¬ 30 ≤ k by omega, if_false, show monomialClass.terms[k]? = some t from ht]
  rfl

/-- **C77** The same for the Chebyshev polynomials. -/
theorem C77_chebyshev_texts (k : Nat) (hk : k < 30) : ∃ (p : Flex K K) (f g h : SObj K K),
    let T := Polynomial.Chebyshev.T K k
    basisFunction chebyshevClass k = .ok (some p) ∧ p.val = some f ∧ p.grad = [some g] ∧ p.hess = [[some h]] ∧
      PrintsWhatItComputes f (fun x => T.eval x) ∧ PrintsWhatItComputes g (fun x => T.derivative.eval x) ∧
      PrintsWhatItComputes h fun x => T.derivative.derivative.eval x := by
  obtain ⟨t, ht, a1, a2, a3⟩ := termOk_get cheb_eval hk
  obtain ⟨t', ht', b1, b2, b3⟩ := termOk_get cheb_text hk
  rw [ht] at ht'; cases ht'
  have e0 : ∀ x : K, peval x (chebC k).1 = (Polynomial.Chebyshev.T K k).eval x := fun x => (peval_chebC x k).1
  have e1 := peval_pdiff_of e0
  have e2 := peval_pdiff_of e1
  refine ⟨⟨⟨t.name, ["x"], ["x"]⟩, some t.f.obj1, [some t.grad.obj1], [[some t.hess.obj1]]⟩, _, _, _, ?_, rfl, rfl, rfl,
    prints_of a1 b1 e0, prints_of a2 b2 e1, prints_of a3 b3 e2⟩
  simp only [basisFunction, TermClass.maxSize, ge_iff_le, show ¬ 30 ≤ k by omega, if_false, show chebyshevClass.terms[k]? = some t from ht]
  rfl

/-- The same for a function of a vector, of which the first entries are `x` and `y`. -/
def PrintsWhatItComputes2 (o : SObj (List K) K) (f : K → K → K) : Prop :=
  (∀ x y, (SObj.sem (.evalAt [x, y]) o).1 = .ok (.num (f x y))) ∧
  (∃ t, (SObj.sem .csrc o).1 = .ok (.str t) ∧ Means2 readCpp t f) ∧
  (∃ t, (SObj.sem .sym o).1 = .ok (.str t) ∧ Means2 readSym t f) ∧
  ∃ t, (SObj.sem .latex o).1 = .ok (.str t) ∧ Means2 readLatex t f

theorem prints2_of {t : ClassText} {a b c d : Ast} {f : K → K → K} (ra : readCpp t.eval = some a) (rb : readCpp t.csrc = some b)
    (rc : readSym t.sym = some c) (rd : readLatex t.latex = some d) (hv : a.vars ≤ 2)
    (va : ∀ x y, a.eval (fun i => ([x, y] : List K).getD i 0) = f x y) (vb : ∀ x y, b.eval (fun i => if i = 0 then x else y) = f x y)
    (vc : ∀ x y, c.eval (fun i => if i = 0 then x else y) = f x y) (vd : ∀ x y, d.eval (fun i => if i = 0 then x else y) = f x y) :
    PrintsWhatItComputes2 (t.objN : SObj (List K) K) f := by
  refine ⟨fun x y => ?_, ⟨_, rfl, b, by simpa using rb, vb⟩, ⟨_, rfl, c, by simpa using rc, vc⟩, ⟨_, rfl, d, by simpa using rd, vd⟩⟩
  have := objN_eval (K := K) ra (v := [x, y]) (by simpa using hv)
  simp only [SObj.sem, SObj.evalAt, this, Except.map, va]

local macro "prints_tac" : tactic => `(tactic| (simp only [Ast.eval, List.getD_cons_zero, List.getD_cons_succ, if_true, if_false, Nat.one_ne_zero]; push_cast; try ring))

theorem prints_Quadratic_f : PrintsWhatItComputes2 (Quadratic_f.objN : SObj (List K) K) (fun x _ => x ^ 2 + x + 1) :=
  prints2_of (a := .add (.add (.var 0) (.mul (.var 0) (.var 0))) (.num 1))
    (b := .add (.add (.var 0) (.mul (.var 0) (.var 0))) (.num 1))
    (c := .add (.add (.num 1) (.var 0)) (.pow (.var 0) 2))
    (d := .add (.add (.num 1) (.pow (.var 0) 2)) (.var 0))
    (by decide +kernel) (by decide +kernel) (by decide +kernel) (by decide +kernel) (by simp [Ast.vars])
    (fun x y => by prints_tac) (fun x y => by prints_tac) (fun x y => by prints_tac) (fun x y => by prints_tac)

theorem prints_Quadratic_grad_0 : PrintsWhatItComputes2 (Quadratic_grad_0.objN : SObj (List K) K) (fun x _ => 2 * x + 1) :=
  prints2_of (a := .add (.mul (.num 2) (.var 0)) (.num 1))
    (b := .add (.mul (.num 2) (.var 0)) (.num 1))
    (c := .add (.num 1) (.mul (.num 2) (.var 0)))
    (d := .add (.num 1) (.mul (.num 2) (.var 0)))
    (by decide +kernel) (by decide +kernel) (by decide +kernel) (by decide +kernel) (by simp [Ast.vars])
    (fun x y => by prints_tac) (fun x y => by prints_tac) (fun x y => by prints_tac) (fun x y => by prints_tac)

theorem prints_Quadratic_hess_0_0 : PrintsWhatItComputes2 (Quadratic_hess_0_0.objN : SObj (List K) K) (fun _ _ => 2) :=
  prints2_of (a := .num 2)
    (b := .num 2)
    (c := .num 2)
    (d := .num 2)
    (by decide +kernel) (by decide +kernel) (by decide +kernel) (by decide +kernel) (by simp [Ast.vars])
    (fun x y => by prints_tac) (fun x y => by prints_tac) (fun x y => by prints_tac) (fun x y => by prints_tac)

theorem prints_MyFunc_f : PrintsWhatItComputes2 (MyFunc_f.objN : SObj (List K) K) (fun x y => x ^ 3 + x ^ 2 * y + x * y ^ 2 + y ^ 3) :=
  prints2_of (a := .add (.add (.add (.mul (.mul (.var 0) (.var 0)) (.var 1)) (.mul (.mul (.var 0) (.var 0)) (.var 0))) (.mul (.var 0) (.mul (.var 1) (.var 1)))) (.mul (.mul (.var 1) (.var 1)) (.var 1)))
    (b := .add (.add (.add (.mul (.mul (.var 0) (.var 0)) (.var 1)) (.mul (.mul (.var 0) (.var 0)) (.var 0))) (.mul (.var 0) (.mul (.var 1) (.var 1)))) (.mul (.mul (.var 1) (.var 1)) (.var 1)))
    (c := .add (.add (.add (.mul (.var 0) (.pow (.var 1) 2)) (.pow (.var 1) 3)) (.mul (.pow (.var 0) 2) (.var 1))) (.pow (.var 0) 3))
    (d := .add (.add (.add (.mul (.pow (.var 1) 2) (.var 0)) (.pow (.var 1) 3)) (.mul (.var 1) (.pow (.var 0) 2))) (.pow (.var 0) 3))
    (by decide +kernel) (by decide +kernel) (by decide +kernel) (by decide +kernel) (by simp [Ast.vars])
    (fun x y => by prints_tac) (fun x y => by prints_tac) (fun x y => by prints_tac) (fun x y => by prints_tac)

theorem prints_MyFunc_grad_0 : PrintsWhatItComputes2 (MyFunc_grad_0.objN : SObj (List K) K) (fun x y => 3 * x ^ 2 + 2 * x * y + y ^ 2) :=
  prints2_of (a := .add (.add (.mul (.mul (.num 2) (.var 1)) (.var 0)) (.mul (.num 3) (.mul (.var 0) (.var 0)))) (.mul (.var 1) (.var 1)))
    (b := .add (.add (.mul (.mul (.num 2) (.var 1)) (.var 0)) (.mul (.num 3) (.mul (.var 0) (.var 0)))) (.mul (.var 1) (.var 1)))
    (c := .add (.add (.pow (.var 1) 2) (.mul (.mul (.num 2) (.var 0)) (.var 1))) (.mul (.num 3) (.pow (.var 0) 2)))
    (d := .add (.add (.mul (.num 3) (.pow (.var 0) 2)) (.pow (.var 1) 2)) (.mul (.mul (.num 2) (.var 0)) (.var 1)))
    (by decide +kernel) (by decide +kernel) (by decide +kernel) (by decide +kernel) (by simp [Ast.vars])
    (fun x y => by prints_tac) (fun x y => by prints_tac) (fun x y => by prints_tac) (fun x y => by prints_tac)

theorem prints_MyFunc_grad_1 : PrintsWhatItComputes2 (MyFunc_grad_1.objN : SObj (List K) K) (fun x y => x ^ 2 + 2 * x * y + 3 * y ^ 2) :=
  prints2_of (a := .add (.add (.mul (.num 3) (.mul (.var 1) (.var 1))) (.mul (.mul (.num 2) (.var 1)) (.var 0))) (.mul (.var 0) (.var 0)))
    (b := .add (.add (.mul (.num 3) (.mul (.var 1) (.var 1))) (.mul (.mul (.num 2) (.var 1)) (.var 0))) (.mul (.var 0) (.var 0)))
    (c := .add (.add (.pow (.var 0) 2) (.mul (.num 3) (.pow (.var 1) 2))) (.mul (.mul (.num 2) (.var 0)) (.var 1)))
    (d := .add (.add (.mul (.num 3) (.pow (.var 1) 2)) (.mul (.mul (.num 2) (.var 0)) (.var 1))) (.pow (.var 0) 2))
    (by decide +kernel) (by decide +kernel) (by decide +kernel) (by decide +kernel) (by simp [Ast.vars])
    (fun x y => by prints_tac) (fun x y => by prints_tac) (fun x y => by prints_tac) (fun x y => by prints_tac)

theorem prints_MyFunc_hess_0_0 : PrintsWhatItComputes2 (MyFunc_hess_0_0.objN : SObj (List K) K) (fun x y => 6 * x + 2 * y) :=
  prints2_of (a := .add (.mul (.num 6) (.var 0)) (.mul (.num 2) (.var 1)))
    (b := .add (.mul (.num 6) (.var 0)) (.mul (.num 2) (.var 1)))
    (c := .add (.mul (.num 2) (.var 1)) (.mul (.num 6) (.var 0)))
    (d := .add (.mul (.num 6) (.var 0)) (.mul (.num 2) (.var 1)))
    (by decide +kernel) (by decide +kernel) (by decide +kernel) (by decide +kernel) (by simp [Ast.vars])
    (fun x y => by prints_tac) (fun x y => by prints_tac) (fun x y => by prints_tac) (fun x y => by prints_tac)

theorem prints_MyFunc_hess_0_1 : PrintsWhatItComputes2 (MyFunc_hess_0_1.objN : SObj (List K) K) (fun x y => 2 * x + 2 * y) :=
  prints2_of (a := .add (.mul (.num 2) (.var 0)) (.mul (.num 2) (.var 1)))
    (b := .add (.mul (.num 2) (.var 0)) (.mul (.num 2) (.var 1)))
    (c := .add (.mul (.num 2) (.var 1)) (.mul (.num 2) (.var 0)))
    (d := .add (.mul (.num 2) (.var 1)) (.mul (.num 2) (.var 0)))
    (by decide +kernel) (by decide +kernel) (by decide +kernel) (by decide +kernel) (by simp [Ast.vars])
    (fun x y => by prints_tac) (fun x y => by prints_tac) (fun x y => by prints_tac) (fun x y => by prints_tac)

theorem prints_MyFunc_hess_1_0 : PrintsWhatItComputes2 (MyFunc_hess_1_0.objN : SObj (List K) K) (fun x y => 2 * x + 2 * y) :=
  prints2_of (a := .add (.mul (.num 2) (.var 1)) (.mul (.num 2) (.var 0)))
    (b := .add (.mul (.num 2) (.var 1)) (.mul (.num 2) (.var 0)))
    (c := .add (.mul (.num 2) (.var 0)) (.mul (.num 2) (.var 1)))
    (d := .add (.mul (.num 2) (.var 0)) (.mul (.num 2) (.var 1)))
    (by decide +kernel) (by decide +kernel) (by decide +kernel) (by decide +kernel) (by simp [Ast.vars])
    (fun x y => by prints_tac) (fun x y => by prints_tac) (fun x y => by prints_tac) (fun x y => by prints_tac)

theorem prints_MyFunc_hess_1_1 : PrintsWhatItComputes2 (MyFunc_hess_1_1.objN : SObj (List K) K) (fun x y => 2 * x + 6 * y) :=
  prints2_of (a := .add (.mul (.num 2) (.var 0)) (.mul (.num 6) (.var 1)))
    (b := .add (.mul (.num 2) (.var 0)) (.mul (.num 6) (.var 1)))
    (c := .add (.mul (.num 6) (.var 1)) (.mul (.num 2) (.var 0)))
    (d := .add (.mul (.num 2) (.var 0)) (.mul (.num 6) (.var 1)))
    (by decide +kernel) (by decide +kernel) (by decide +kernel) (by decide +kernel) (by simp [Ast.vars])
    (fun x y => by prints_tac) (fun x y => by prints_tac) (fun x y => by prints_tac) (fun x y => by prints_tac)

/-- **C77** The same for the components of `Quadratic` and `MyFunc`. -/
theorem C77_function_texts :
    (∃ f g h : SObj (List K) K, quadratic.val = some f ∧ quadratic.grad = [some g] ∧ quadratic.hess = [[some h]] ∧
      PrintsWhatItComputes2 f (fun x _ => x ^ 2 + x + 1) ∧ PrintsWhatItComputes2 g (fun x _ => 2 * x + 1) ∧
      PrintsWhatItComputes2 h (fun _ _ => 2)) ∧
    ∃ f g0 g1 h00 h01 h10 h11 : SObj (List K) K, myFunc.val = some f ∧ myFunc.grad = [some g0, some g1] ∧
      myFunc.hess = [[some h00, some h01], [some h10, some h11]] ∧
      PrintsWhatItComputes2 f (fun x y => x ^ 3 + x ^ 2 * y + x * y ^ 2 + y ^ 3) ∧
      PrintsWhatItComputes2 g0 (fun x y => 3 * x ^ 2 + 2 * x * y + y ^ 2) ∧
      PrintsWhatItComputes2 g1 (fun x y => x ^ 2 + 2 * x * y + 3 * y ^ 2) ∧
      PrintsWhatItComputes2 h00 (fun x y => 6 * x + 2 * y) ∧ PrintsWhatItComputes2 h01 (fun x y => 2 * x + 2 * y) ∧
      PrintsWhatItComputes2 h10 (fun x y => 2 * x + 2 * y) ∧ PrintsWhatItComputes2 h11 (fun x y => 2 * x + 6 * y) :=
  ⟨⟨_, _, _, rfl, rfl, rfl, prints_Quadratic_f, prints_Quadratic_grad_0, prints_Quadratic_hess_0_0⟩,
    ⟨_, _, _, _, _, _, _, rfl, rfl, rfl, prints_MyFunc_f, prints_MyFunc_grad_0, prints_MyFunc_grad_1, prints_MyFunc_hess_0_0,
      prints_MyFunc_hess_0_1, prints_MyFunc_hess_1_0, prints_MyFunc_hess_1_1⟩⟩

end

end Verif
