import Verif.Spec.Testlib
import Verif.Lemmas.Testlib
import Verif.Lemmas.TestlibCheck
import Mathlib.Algebra.Polynomial.Roots

/-! # What the texts of the generated basis functions denote -/

namespace Verif
open Spec Testlib TermSet

section
variable {K : Type} [Field K] [CharZero K]

theorem termOk_get {ok : List ℚ → ClassText → Bool} {ts : List TermText} {p : Nat → List ℚ}
    (h : (List.range 30).all (termOk ok ts p) = true) {k : Nat} (hk : k < 30) :
    ∃ t, ts[k]? = some t ∧ ok (p k) t.f = true ∧ ok (pdiff (p k)) t.grad = true ∧ ok (pdiff (pdiff (p k))) t.hess = true := by
  have := List.all_eq_true.mp h k (by simp [hk])
  unfold termOk at this
  split at this
  · next t e => exact ⟨t, e, by simpa [Bool.and_eq_true, and_assoc] using this⟩
  · cases this

theorem peval_pdiff_mono (x : K) : ∀ k : Nat, peval x (pdiff (monoC k)) = k * x ^ (k - 1)
  | 0 => by simp [monoC, pdiff, peval, padd]
  | k + 1 => by
    simp only [monoC, pdiff, peval_padd, peval, peval_monoC, peval_pdiff_mono x k]
    cases k with
    | zero => simp
    | succ k => simp; ring

theorem poly_of (p : List ℚ) : ∃ P : Polynomial K, (∀ x, P.eval x = peval x p) ∧
    (∀ x, (Polynomial.derivative P).eval x = peval x (pdiff p)) := by
  induction p with
  | nil => exact ⟨0, by simp [peval], by simp [pdiff, peval]⟩
  | cons a p ih =>
    obtain ⟨P, h1, h2⟩ := ih
    refine ⟨Polynomial.C (a : K) + Polynomial.X * P, by simp [peval, h1], ?_⟩
    intro x
    simp [pdiff, peval_padd, peval, h1, h2]

theorem peval_pdiff_of {p : List ℚ} {P : Polynomial K} (h : ∀ x, peval x p = P.eval x) (x : K) :
    peval x (pdiff p) = (Polynomial.derivative P).eval x := by
  obtain ⟨Q, h1, h2⟩ := poly_of (K := K) p
  haveI : Infinite K := Infinite.of_injective (fun n : ℕ => (n : K)) Nat.cast_injective
  have : Q = P := Polynomial.funext fun x => by rw [h1, h]
  rw [← h2, this]

theorem peval_pdiff2_mono (x : K) (k : Nat) : peval x (pdiff (pdiff (monoC k))) = k * (k - 1) * x ^ (k - 2) := by
  rw [peval_pdiff_of (P := Polynomial.C (k : K) * Polynomial.X ^ (k - 1)) (fun x => by simp [peval_pdiff_mono])]
  rcases k with _ | _ | k
  · simp
  · simp
  · simp [Polynomial.derivative_X_pow]; ring

theorem mono_denotes (n : Nat) : monomialClass.Denotes (monomials K n) := by
  intro k hk
  obtain ⟨t, ht, h1, h2, h3⟩ := termOk_get mono_eval hk
  obtain ⟨a, ra, va⟩ := eval_of_hasCoeffs (K := K) h1
  obtain ⟨b, rb, vb⟩ := eval_of_hasCoeffs (K := K) h2
  obtain ⟨c, rc, vc⟩ := eval_of_hasCoeffs (K := K) h3
  refine ⟨t, a, b, c, ht, ⟨ra, fun x => ?_⟩, ⟨rb, fun x => ?_⟩, ⟨rc, fun x => ?_⟩⟩
  · rw [compute_eval, va, peval_monoC]; rfl
  · rw [compute_eval, vb, peval_pdiff_mono]; rfl
  · rw [compute_eval, vc, peval_pdiff2_mono]; rfl

theorem cheb_denotes (n : Nat) : chebyshevClass.Denotes (chebyshevs K n) := by
  intro k hk
  obtain ⟨t, ht, h1, h2, h3⟩ := termOk_get cheb_eval hk
  obtain ⟨a, ra, va⟩ := eval_of_hasCoeffs (K := K) h1
  obtain ⟨b, rb, vb⟩ := eval_of_hasCoeffs (K := K) h2
  obtain ⟨c, rc, vc⟩ := eval_of_hasCoeffs (K := K) h3
  have e0 : ∀ x : K, peval x (chebC k).1 = (Polynomial.Chebyshev.T K k).eval x := fun x => (peval_chebC x k).1
  have e1 := peval_pdiff_of e0
  have e2 := peval_pdiff_of e1
  refine ⟨t, a, b, c, ht, ⟨ra, fun x => ?_⟩, ⟨rb, fun x => ?_⟩, ⟨rc, fun x => ?_⟩⟩
  · rw [compute_eval, va, e0]; rfl
  · rw [compute_eval, vb, e1]; rfl
  · rw [compute_eval, vc, e2]; rfl
end

section
variable {K : Type} [Arith K] [Zero K]

namespace TermSet

/-- The abstract basis set with the stored values of `s`. -/
def toBasis (F : Family K) (s : TermSet K) : BasisSet K := ⟨some F.phi, some F.dphi, some F.ddphi, s.val, s.grad, s.hess⟩

theorem toBasis_rel {F : Family K} {n : Nat} {s : TermSet K} (h : Good F n s) : Rel F s (toBasis F s) :=
  ⟨⟨n, h⟩, rfl, rfl, rfl, rfl, rfl, rfl⟩

theorem onTerm_cls {s : TermSet K} {t : Int} {call : Flex K K → Res K × Flex K K} {r : K × TermSet K} (e : s.onTerm t call = .ok r) :
    r.2.cls = s.cls := by
  simp only [onTerm, bind_eq_ok] at e
  obtain ⟨h, _, e⟩ := e
  split at e
  · cases e
  · simp only [bind_eq_ok] at e
    obtain ⟨y, _, e⟩ := e
    cases e; rfl

theorem evalTerm_cls {s : TermSet K} {t : Int} {x : K} {r : K × TermSet K} (e : s.evalTerm t x = .ok r) : r.2.cls = s.cls := by
  simp only [evalTerm, bind_eq_ok] at e
  obtain ⟨q, hq, l, _, e⟩ := e
  have := onTerm_cls hq; cases e; exact this

theorem gradTerm_cls {s : TermSet K} {t : Int} {x : K} {r : K × TermSet K} (e : s.gradTerm t x = .ok r) : r.2.cls = s.cls := by
  simp only [gradTerm, bind_eq_ok] at e
  obtain ⟨q, hq, l, _, e⟩ := e
  have := onTerm_cls hq; cases e; exact this

theorem hessTerm_cls {s : TermSet K} {t : Int} {x : K} {r : K × TermSet K} (e : s.hessTerm t x = .ok r) : r.2.cls = s.cls := by
  simp only [hessTerm, bind_eq_ok] at e
  obtain ⟨q, hq, l, _, e⟩ := e
  have := onTerm_cls hq; cases e; exact this

theorem evalLoop_cls {x : K} : ∀ (n i : Nat) {s s' : TermSet K}, evalLoop x n i s = .ok s' → s'.cls = s.cls
  | 0, _, _, _, e => by cases e; rfl
  | n + 1, i, s, s', e => by
    simp only [evalLoop, bind_eq_ok] at e
    obtain ⟨r, hr, e⟩ := e
    rw [evalLoop_cls n (i + 1) e, evalTerm_cls hr]

theorem gradLoop_cls {x : K} : ∀ (n i : Nat) {s s' : TermSet K}, gradLoop x n i s = .ok s' → s'.cls = s.cls
  | 0, _, _, _, e => by cases e; rfl
  | n + 1, i, s, s', e => by
    simp only [gradLoop, bind_eq_ok] at e
    obtain ⟨r, hr, e⟩ := e
    rw [gradLoop_cls n (i + 1) e, gradTerm_cls hr]

theorem hessLoop_cls {x : K} : ∀ (n i : Nat) {s s' : TermSet K}, hessLoop x n i s = .ok s' → s'.cls = s.cls
  | 0, _, _, _, e => by cases e; rfl
  | n + 1, i, s, s', e => by
    simp only [hessLoop, bind_eq_ok] at e
    obtain ⟨r, hr, e⟩ := e
    rw [hessLoop_cls n (i + 1) e, hessTerm_cls hr]

theorem step_good {F : Family K} {n : Nat} {s s' : TermSet K} (h : Good F n s) {c : BCall K} (e : s.step c = .ok s') :
    FitsMax c ∧ s'.cls = s.cls ∧ ∃ m, Good F m s' := by
  have hs : FitsMax c := by
    cases c with
    | resize m =>
      by_contra hm
      have := resize_big h (m := m) (by simpa [FitsMax] using hm)
      simp only [step, this] at e
      cases e
    | _ => trivial
  have hcls : s'.cls = s.cls := by
    cases c with
    | resize m =>
      obtain ⟨s1, e1, _, hc, _⟩ := resize_of h (m := m) hs
      rw [step, e1] at e; cases e; exact hc
    | evalTerm t x => simp only [step, bind_eq_ok] at e; obtain ⟨r, hr, e⟩ := e; cases e; exact evalTerm_cls hr
    | gradTerm t x => simp only [step, bind_eq_ok] at e; obtain ⟨r, hr, e⟩ := e; cases e; exact gradTerm_cls hr
    | hessTerm t x => simp only [step, bind_eq_ok] at e; obtain ⟨r, hr, e⟩ := e; cases e; exact hessTerm_cls hr
    | eval x => exact evalLoop_cls _ _ e
    | evalGrad x => exact gradLoop_cls _ _ e
    | evalHess x => exact hessLoop_cls _ _ e
  have := step_rel (toBasis_rel h) c hs
  rw [e] at this
  generalize (toBasis F s).step 0 c = q at this
  cases this with
  | ok hr => exact ⟨hs, hcls, hr.good⟩

theorem run_good {F : Family K} : ∀ (cs : List (BCall K)) {n : Nat} {s s' : TermSet K}, Good F n s → s.run cs = .ok s' →
    (∀ c ∈ cs, FitsMax c) ∧ s'.cls = s.cls ∧ ∃ m, Good F m s'
  | [], n, s, s', h, e => by cases e; exact ⟨by simp, rfl, n, h⟩
  | c :: cs, n, s, s', h, e => by
    simp only [run, bind_eq_ok] at e
    obtain ⟨s1, e1, e2⟩ := e
    obtain ⟨hc, hk, m, g⟩ := step_good h e1
    obtain ⟨hcs, hk', r⟩ := run_good cs g e2
    exact ⟨by simpa using ⟨hc, hcs⟩, hk'.trans hk, r⟩

theorem terms_good {F : Family K} {n : Nat} {s : TermSet K} (h : Good F n s) {k : Nat} (hk : k < s.val.length) (x : K) :
    (∃ s', s.evalTerm k x = .ok (F.phi k x, s')) ∧ (∃ s', s.gradTerm k x = .ok (F.dphi k x, s')) ∧
      ∃ s', s.hessTerm k x = .ok (F.ddphi k x, s') := by
  have h0 : (0 : Int) ≤ k := by omega
  have h1 : (k : Int) < n := by rw [h.vlen] at hk; exact_mod_cast hk
  refine ⟨?_, ?_, ?_⟩
  · obtain ⟨fn, e, gf⟩ := onTerm_in h h0 h1 (call := fun p => p.evalAt x) (y := F.phi k x) fun p b hp => hp.evalAt x
    exact ⟨_, by simp only [evalTerm, e, ok_bind, vset_nat _ _ _ (show k < s.val.length from hk)]; rfl⟩
  · obtain ⟨fn, e, gf⟩ := onTerm_in h h0 h1 (call := fun p => p.gradAt x 0) (y := F.dphi k x) fun p b hp => hp.gradAt x
    exact ⟨_, by simp only [gradTerm, e, ok_bind, vset_nat _ _ _ (show k < s.grad.length by rw [h.glen, ← h.vlen]; exact hk)]; rfl⟩
  · obtain ⟨fn, e, gf⟩ := onTerm_in h h0 h1 (call := fun p => p.hessAt x 0 0) (y := F.ddphi k x) fun p b hp => hp.hessAt x
    exact ⟨_, by simp only [hessTerm, e, ok_bind, vset_nat _ _ _ (show k < s.hess.length by rw [h.hlen, ← h.vlen]; exact hk)]; rfl⟩

end TermSet
end

end Verif
