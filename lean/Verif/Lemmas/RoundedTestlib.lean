import Verif.Lemmas.TestlibDen
import Verif.Lemmas.RoundedExpr
import Verif.Spec.RoundedTestlib

/-! # The texts of the generated basis functions, evaluated in floating-point arithmetic -/

namespace Verif
open Spec Testlib TermSet

/-- The functions a class computes. -/
def TermClass.computed {K : Type} [Arith K] [Zero K] (cls : TermClass) (n : Nat) : Family K where
  size := n
  phi k x := match (cls.terms[k]?).bind (fun t => readCpp1 t.f.eval) with | some a => a.compute fun _ => x | none => 0
  dphi k x := match (cls.terms[k]?).bind (fun t => readCpp1 t.grad.eval) with | some a => a.compute fun _ => x | none => 0
  ddphi k x := match (cls.terms[k]?).bind (fun t => readCpp1 t.hess.eval) with | some a => a.compute fun _ => x | none => 0

theorem computed_denotes {K : Type} [Arith K] [Zero K] {cls : TermClass} {p : Nat → List ℚ} (n : Nat)
    (h : (List.range 30).all (termOk evalOk cls.terms p) = true) : cls.Denotes (cls.computed (K := K) n) := by
  intro k hk
  obtain ⟨t, ht, h1, h2, h3⟩ := termOk_get h hk
  obtain ⟨a, ra, _⟩ := eval_of_hasCoeffs (K := ℚ) h1
  obtain ⟨b, rb, _⟩ := eval_of_hasCoeffs (K := ℚ) h2
  obtain ⟨c, rc, _⟩ := eval_of_hasCoeffs (K := ℚ) h3
  exact ⟨t, a, b, c, ht, ⟨ra, fun x => by simp [TermClass.computed, ht, ra]⟩, ⟨rb, fun x => by simp [TermClass.computed, ht, rb]⟩,
    ⟨rc, fun x => by simp [TermClass.computed, ht, rc]⟩⟩

/-- Coefficients of `absT`: those of `k` and `k+1`. -/
def absC : Nat → List ℚ × List ℚ
  | 0 => ([1], [0, 1])
  | k + 1 => let p := absC k; (p.2, padd (0 :: pscale 2 p.2) p.1)

/-- What the error bounds need of the text of `eval`: the coefficients `p`, those of the expression without signs (`q`), the number of roundings,
the parity, and whether it is a product. -/
def roundOk (prod odd : Bool) (m : Nat) (p q : List ℚ) (t : ClassText) : Bool :=
  match readCpp1 t.eval with
  | some a => peq (polyOf a) p && peq (polyOf a.mag) q && decide (a.ops ≤ m) &&
    (parity a == some odd || pzero q && parity a == some false) && (!prod || isProd a)
  | none => false

/-- The three texts of term `k`. -/
def termRound (prod : Bool) (m : Nat → Nat) (ts : List TermText) (p q : Nat → List ℚ) (k : Nat) : Bool :=
  match ts[k]? with
  | some t => roundOk prod (k % 2 == 1) (m k) (p k) (q k) t.f && roundOk prod (k % 2 == 0) (m k) (pdiff (p k)) (pdiff (q k)) t.grad &&
    roundOk prod (k % 2 == 1) (m k) (pdiff (pdiff (p k))) (pdiff (pdiff (q k))) t.hess
  | none => false

theorem mono_round : (List.range 30).all (termRound true id monomialTerms monoC monoC) = true := by decide +kernel
theorem cheb_round : (List.range 30).all (termRound false (fun k => 2 * k) chebyshevTerms (fun k => (chebC k).1) fun k => (absC k).1) = true := by
  decide +kernel

theorem termRound_get {prod : Bool} {m : Nat → Nat} {ts : List TermText} {p q : Nat → List ℚ}
    (h : (List.range 30).all (termRound prod m ts p q) = true) {k : Nat} (hk : k < 30) :
    ∃ t, ts[k]? = some t ∧ roundOk prod (k % 2 == 1) (m k) (p k) (q k) t.f = true ∧
      roundOk prod (k % 2 == 0) (m k) (pdiff (p k)) (pdiff (q k)) t.grad = true ∧
      roundOk prod (k % 2 == 1) (m k) (pdiff (pdiff (p k))) (pdiff (pdiff (q k))) t.hess = true := by
  have := List.all_eq_true.mp h k (by simp [hk])
  unfold termRound at this
  split at this
  · next t e => exact ⟨t, e, by simpa [Bool.and_eq_true, and_assoc] using this⟩
  · cases this

section
variable {K : Type} [Field K] [LinearOrder K] [FloorRing K] [IsStrictOrderedRing K] {rnd : K → K} {u : K}

/-- What `eval` of a class computes. -/
def flText (rnd : K → K) (t : ClassText) (x : K) : K :=
  match readCpp1 t.eval with | some a => flEval rnd (fun _ => x) a | none => 0

/-- What holds of a function computed for the polynomial with coefficients `p`. -/
structure FlFun (rnd : K → K) (u : K) (prod odd : Bool) (m : Nat) (p q : List ℚ) (c : K → K) : Prop where
  err : ∀ x, |c x - peval x p| ≤ ((1 + u) ^ m - 1) * peval |x| q
  bound : ∀ x : K, |peval x p| ≤ peval |x| q
  sym : ∀ x, c (-x) = signed odd (c x)
  mono : prod = true → ∀ x y, 0 ≤ x → x ≤ y → 0 ≤ c x ∧ c x ≤ c y
  rel : prod = true → ∀ x : K, peval |x| q = |peval x p|

theorem isProd_mag (v : Nat → K) : ∀ a : Ast, isProd a = true → a.mag.eval (fun i => |v i|) = |a.eval v|
  | .num q, h => by simp only [Ast.mag, Ast.eval, Rat.cast_abs]
  | .var i, _ => rfl
  | .mul a b, h => by
    simp only [isProd, Bool.and_eq_true] at h
    simp only [Ast.mag, Ast.eval, abs_mul, isProd_mag v a h.1, isProd_mag v b h.2]
  | .add a b, h => by simp [isProd] at h
  | .sub a b, h => by simp [isProd] at h
  | .neg a, h => by simp [isProd] at h
  | .pow a n, h => by simp [isProd] at h

theorem flText_ok (R : Rounding rnd u) {prod odd : Bool} {m : Nat} {p q : List ℚ} {t : ClassText} (h : roundOk prod odd m p q t = true) :
    FlFun rnd u prod odd m p q (flText rnd t) := by
  unfold roundOk at h
  split at h
  · next a ra =>
    simp only [Bool.and_eq_true, decide_eq_true_eq, Bool.or_eq_true, beq_iff_eq, Bool.not_eq_true'] at h
    obtain ⟨⟨⟨⟨h1, h2⟩, h3⟩, h4⟩, h5⟩ := h
    have e1 : ∀ x : K, a.eval (fun _ => x) = peval x p := fun x => by rw [eval_polyOf, peval_peq x _ _ h1]
    have e2 : ∀ x : K, a.mag.eval (fun _ => x) = peval x q := fun x => by rw [eval_polyOf, peval_peq x _ _ h2]
    have ec : flText rnd t = fun x => flEval rnd (fun _ => x) a := by funext x; simp only [flText, ra]
    have near : ∀ x : K, Near u m (flText rnd t x) (peval x p) (peval |x| q) := fun x => by
      rw [← e1, ← e2, ec]
      exact (flEval_near R (fun _ => x) a).mono R.u_nonneg h3
    refine ⟨fun x => (near x).err, fun x => (near x).bound, fun x => ?_, fun hp x y hx hxy => ?_, fun hp x => ?_⟩
    · rcases h4 with h4 | ⟨h4, _⟩
      · rw [ec]; exact parity_fl R (fun _ => x) a _ h4
      · have z : ∀ y, flText rnd t y = 0 := fun y => by
          have := (near y).size
          rw [peval_pzero _ _ h4, mul_zero] at this
          exact abs_nonpos_iff.mp this
        rw [z, z]; cases odd <;> simp [signed]
    · rw [ec]
      have hp' : isProd a = true := by simpa [hp] using h5
      exact isProd_mono R (fun _ => hx) (fun _ => hxy) a hp'
    · have hp' : isProd a = true := by simpa [hp] using h5
      rw [← e1, ← e2]; exact isProd_mag _ a hp'
  · cases h

theorem peval_absC (x : K) : ∀ k : Nat, peval x (absC k).1 = (absT K k).eval x ∧ peval x (absC k).2 = (absT K (k + 1)).eval x
  | 0 => by simp [absC, peval, absT]
  | k + 1 => by
    obtain ⟨h1, h2⟩ := peval_absC x k
    refine ⟨h2, ?_⟩
    simp only [absC, peval_padd, peval, peval_pscale, h1, h2, absT]
    simp; ring

/-- The three computed functions of term `k`. -/
theorem computed_round (R : Rounding rnd u) {cls : TermClass} {prod : Bool} {m : Nat → Nat} {p q : Nat → List ℚ}
    (h : (List.range 30).all (termRound prod m cls.terms p q) = true) (n : Nat) {k : Nat} (hk : k < 30) :
    FlFun rnd u prod (k % 2 == 1) (m k) (p k) (q k) ((cls.computed (K := Flt rnd) n).phi k) ∧
    FlFun rnd u prod (k % 2 == 0) (m k) (pdiff (p k)) (pdiff (q k)) ((cls.computed (K := Flt rnd) n).dphi k) ∧
    FlFun rnd u prod (k % 2 == 1) (m k) (pdiff (pdiff (p k))) (pdiff (pdiff (q k))) ((cls.computed (K := Flt rnd) n).ddphi k) := by
  obtain ⟨t, ht, h1, h2, h3⟩ := termRound_get h hk
  have e1 : (cls.computed (K := Flt rnd) n).phi k = flText rnd t.f := by
    funext x; simp only [TermClass.computed, ht, Option.bind_some]; rfl
  have e2 : (cls.computed (K := Flt rnd) n).dphi k = flText rnd t.grad := by
    funext x; simp only [TermClass.computed, ht, Option.bind_some]; rfl
  have e3 : (cls.computed (K := Flt rnd) n).ddphi k = flText rnd t.hess := by
    funext x; simp only [TermClass.computed, ht, Option.bind_some]; rfl
  rw [e1, e2, e3]
  exact ⟨flText_ok R h1, flText_ok R h2, flText_ok R h3⟩

/-- Products of variables and ones. -/
def isPower : Ast → Bool
  | .num q => decide (q = 1)
  | .var _ => true
  | .mul a b => isPower a && isPower b
  | _ => false

theorem isPower_one (R : Rounding rnd u) : ∀ a : Ast, isPower a = true → flEval rnd (fun _ => (1 : K)) a = 1
  | .num q, h => by
    have : q = 1 := by simpa [isPower] using h
    subst this
    show rnd ((1 : ℚ) : K) = 1
    simpa using R.one
  | .var i, _ => rfl
  | .mul a b, h => by
    simp only [isPower, Bool.and_eq_true] at h
    show rnd (flEval rnd (fun _ => (1 : K)) a * flEval rnd (fun _ => (1 : K)) b) = 1
    rw [isPower_one R a h.1, isPower_one R b h.2, mul_one, R.one]
  | .add a b, h => by simp [isPower] at h
  | .sub a b, h => by simp [isPower] at h
  | .neg a, h => by simp [isPower] at h
  | .pow a n, h => by simp [isPower] at h

theorem mono_power : (List.range 30).all (fun k => match (monomialTerms[k]?).bind (fun t => readCpp1 t.f.eval) with
    | some a => isPower a | none => false) = true := by decide +kernel

theorem mono_one (R : Rounding rnd u) (n : Nat) {k : Nat} (hk : k < 30) : (monomialClass.computed (K := Flt rnd) n).phi k (1 : K) = (1 : K) := by
  have := List.all_eq_true.mp mono_power k (by simp [hk])
  split at this
  · next a e =>
    show (match (monomialClass.terms[k]?).bind (fun t => readCpp1 t.f.eval) with
      | some a => flEval rnd (fun _ => (1 : K)) a | none => 0) = 1
    rw [show monomialClass.terms = monomialTerms from rfl, e]
    exact isPower_one R a this
  · cases this

/-- A set of the class made for doubles, after any history. -/
theorem fl_terms {cls : TermClass} {p : Nat → List ℚ} (h : (List.range 30).all (termOk evalOk cls.terms p) = true) {n : Nat}
    {s0 s : TermSet (Flt rnd)} {calls : List (BCall (Flt rnd))} (hmake : make cls n = .ok s0) (hrun : s0.run calls = .ok s) {k : Nat}
    (hk : k < s.val.length) :
    k < 30 ∧ ∀ x : Flt rnd, (∃ s', s.evalTerm k x = .ok ((cls.computed 0).phi k x, s')) ∧
      (∃ s', s.gradTerm k x = .ok ((cls.computed 0).dphi k x, s')) ∧ ∃ s', s.hessTerm k x = .ok ((cls.computed 0).ddphi k x, s') := by
  by_cases hn : n ≤ 30
  · obtain ⟨s1, e, _, g, _⟩ := make_rel (computed_denotes (K := Flt rnd) 0 h) hn
    rw [hmake] at e; cases e
    obtain ⟨_, _, m, g'⟩ := run_good calls g hrun
    exact ⟨by have := g'.le; have := g'.vlen; omega, fun x => terms_good g' hk x⟩
  · rw [make_big (by omega)] at hmake; cases hmake

theorem absT_nonneg {x : K} (hx : 0 ≤ x) : ∀ k : Nat, 0 ≤ (absT K k).eval x
  | 0 => by simp [absT]
  | 1 => by simpa [absT] using hx
  | k + 2 => by
    have h1 := absT_nonneg hx (k + 1)
    have h2 := absT_nonneg hx k
    simp only [absT, Polynomial.eval_add, Polynomial.eval_mul, Polynomial.eval_ofNat, Polynomial.eval_X]
    positivity

theorem absT_le {x : K} (hx : 0 ≤ x) (h1 : x ≤ 1) : ∀ k : Nat, (absT K k).eval x ≤ (5 / 2) ^ k
  | 0 => by simp [absT]
  | 1 => by simp only [absT, Polynomial.eval_X, pow_one]; linarith
  | k + 2 => by
    have i1 := absT_le hx h1 (k + 1)
    have i2 := absT_le hx h1 k
    have n1 := absT_nonneg hx (k + 1)
    have hp : (0 : K) < (5 / 2) ^ k := by positivity
    simp only [absT, Polynomial.eval_add, Polynomial.eval_mul, Polynomial.eval_ofNat, Polynomial.eval_X]
    rw [pow_succ] at i1
    rw [pow_succ, pow_succ]
    nlinarith

end
end Verif
