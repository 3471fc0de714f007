import Verif.Spec.ChebSeries
import Verif.Props.RoundedTestlib

/-!
# Property C141: series over the shipped Chebyshev polynomials in floating-point arithmetic
-/

namespace Verif
open Spec Testlib TermSet

section
variable {K : Type} [Field K] [LinearOrder K] [FloorRing K] [IsStrictOrderedRing K] {rnd : K → K} {u : K}

omit [LinearOrder K] [FloorRing K] [IsStrictOrderedRing K] in
/-- `F` is the family of functions that a set of `F.size` Chebyshev polynomials computes in floating-point arithmetic. -/
def ChebyshevsIn (rnd : K → K) (F : Family K) : Prop :=
  ∃ s : TermSet (Flt rnd), make chebyshevClass F.size = .ok s ∧ ∀ k, k < F.size → ∀ x : K,
    (s.evalTerm k x).map (·.1) = .ok (F.phi k x) ∧ (s.gradTerm k x).map (·.1) = .ok (F.dphi k x) ∧
    (s.hessTerm k x).map (·.1) = .ok (F.ddphi k x)

/-- The errors of the polynomials (lemma-side). -/
noncomputable def chebErr (u : K) (n : Nat) : Family K where
  size := n
  phi k x := ((1 + u) ^ (2 * k) - 1) * (absT K k).eval |x|
  dphi k x := ((1 + u) ^ (2 * k) - 1) * (Polynomial.derivative (absT K k)).eval |x|
  ddphi k x := ((1 + u) ^ (2 * k) - 1) * (Polynomial.derivative (Polynomial.derivative (absT K k))).eval |x|

theorem cheb_bound {k : Nat} (hk : k < 30) (x : K) :
    |(Polynomial.Chebyshev.T K k).eval x| ≤ (absT K k).eval |x| ∧
    |(Polynomial.derivative (Polynomial.Chebyshev.T K k)).eval x| ≤ (Polynomial.derivative (absT K k)).eval |x| ∧
    |(Polynomial.derivative (Polynomial.derivative (Polynomial.Chebyshev.T K k))).eval x| ≤
      (Polynomial.derivative (Polynomial.derivative (absT K k))).eval |x| := by
  obtain ⟨f1, f2, f3⟩ := computed_round (nearestEven_rounding (K := K) (p := 53) (by norm_num)) (cls := chebyshevClass) cheb_round 0 hk
  have t0 : ∀ x : K, peval x (chebC k).1 = (Polynomial.Chebyshev.T K k).eval x := fun x => (peval_chebC x k).1
  have t1 := peval_pdiff_of t0
  have t2 := peval_pdiff_of t1
  have a0 : ∀ x : K, peval x (absC k).1 = (absT K k).eval x := fun x => (peval_absC x k).1
  have a1 := peval_pdiff_of a0
  have a2 := peval_pdiff_of a1
  refine ⟨?_, ?_, ?_⟩
  · have := f1.bound x
    rwa [t0, a0] at this
  · have := f2.bound x
    rwa [t1, a1] at this
  · have := f3.bound x
    rwa [t2, a2] at this

omit [FloorRing K] in
/-- Sums of products with factors `t`, with magnitudes at most `a`, and computed with errors: `w` (lemma-side). -/
theorem tensorSum_gap : ∀ (l : List (Nat × (Nat → K) × (Nat → K) × (Nat → K) × K)) (c : List Int → K), (∀ t, 0 ≤ c t) →
    (∀ q ∈ l, 1 ≤ q.2.2.2.2 ∧ ∀ k < q.1, 0 ≤ q.2.2.1 k ∧ q.2.2.1 k ≤ q.2.2.2.1 k ∧ 0 ≤ q.2.1 k ∧ q.2.1 k ≤ q.2.2.2.2 * q.2.2.2.1 k ∧
      q.2.1 k - q.2.2.1 k ≤ (q.2.2.2.2 - 1) * q.2.2.2.1 k) →
    let W := tensorSum (l.map fun q => (q.1, q.2.1)) c
    let T := tensorSum (l.map fun q => (q.1, q.2.2.1)) c
    let A := tensorSum (l.map fun q => (q.1, q.2.2.2.1)) c
    let P := (l.map fun q => q.2.2.2.2).prod
    1 ≤ P ∧ 0 ≤ W ∧ 0 ≤ T ∧ T ≤ A ∧ W ≤ P * A ∧ W - T ≤ (P - 1) * A
  | [], c, hc, _ => by simpa [tensorSum] using hc []
  | (n, w, t, a, p) :: l, c, hc, h => by
    obtain ⟨hp, hq⟩ := h _ (List.mem_cons_self)
    have ih := fun k : Nat => tensorSum_gap l (fun t => c ((k : Int) :: t)) (fun t => hc _) fun q hq => h q (List.mem_cons_of_mem _ hq)
    simp only [List.map_cons, tensorSum, List.prod_cons] at hp hq ih ⊢
    have hP := (ih 0).1
    generalize (l.map fun q => q.2.2.2.2).prod = P at hP ih ⊢
    refine ⟨one_le_mul_of_one_le_of_one_le hp hP, Finset.sum_nonneg fun k hk => mul_nonneg ?_ (ih k).2.1,
      Finset.sum_nonneg fun k hk => mul_nonneg ?_ (ih k).2.2.1, Finset.sum_le_sum fun k hk => ?_, ?_, ?_⟩
    · exact (hq k (Finset.mem_range.mp hk)).2.2.1
    · exact (hq k (Finset.mem_range.mp hk)).1
    · obtain ⟨h1, h2, _⟩ := hq k (Finset.mem_range.mp hk)
      exact mul_le_mul h2 (ih k).2.2.2.1 (ih k).2.2.1 (h1.trans h2)
    · rw [Finset.mul_sum]
      refine Finset.sum_le_sum fun k hk => ?_
      obtain ⟨h1, h2, h3, h4, h5⟩ := hq k (Finset.mem_range.mp hk)
      obtain ⟨_, i1, i2, i3, i4, i5⟩ := ih k
      refine (mul_le_mul h4 i4 i1 (h3.trans h4)).trans (le_of_eq (by ring))
    · rw [← Finset.sum_sub_distrib, Finset.mul_sum]
      refine Finset.sum_le_sum fun k hk => ?_
      obtain ⟨h1, h2, h3, h4, h5⟩ := hq k (Finset.mem_range.mp hk)
      obtain ⟨_, i1, i2, i3, i4, i5⟩ := ih k
      have j1 := mul_le_mul_of_nonneg_left i5 h3
      have j2 : w k * ((P - 1) * tensorSum (l.map fun q => (q.1, q.2.2.2.1)) fun t => c ((k : Int) :: t)) ≤
          p * a k * ((P - 1) * tensorSum (l.map fun q => (q.1, q.2.2.2.1)) fun t => c ((k : Int) :: t)) :=
        mul_le_mul_of_nonneg_right h4 (mul_nonneg (by linarith) (i2.trans i3))
      have j3 := mul_le_mul_of_nonneg_right h5 i2
      have j4 : (p - 1) * a k * tensorSum (l.map fun q => (q.1, q.2.2.1)) (fun t => c ((k : Int) :: t)) ≤
          (p - 1) * a k * tensorSum (l.map fun q => (q.1, q.2.2.2.1)) fun t => c ((k : Int) :: t) :=
        mul_le_mul_of_nonneg_left i3 (mul_nonneg (by linarith) (h1.trans h2))
      linarith

omit [FloorRing K] in
theorem gap_combine {C P A W T : K} (hC : 1 ≤ C) (h1 : W ≤ P * A) (h2 : W - T ≤ (P - 1) * A) : C * W - T ≤ (C * P - 1) * A := by
  have := mul_le_mul_of_nonneg_left h1 (show 0 ≤ C - 1 by linarith)
  linarith

theorem chebErr_bound (hu : 0 ≤ u) (fs : List (Family K)) (h30 : ∀ F ∈ fs, F.size ≤ 30) {m : List Nat} (hm : m.length = fs.length) {x : List K}
    (hx : x.length = fs.length) (c : List Int → K) :
    seriesError u (fs.map fun F => chebyshevs K F.size) (fs.map fun F => chebErr u F.size) m c x ≤
      chebyshevError u (fs.map Family.size) m c x := by
  have hl : (m.zip x).length = fs.length := by simp [hm, hx]
  have key := tensorSum_gap ((fs.zip (m.zip x)).map fun p => (p.1.size,
      fun k => ((chebyshevs K p.1.size).widen (chebErr u p.1.size)).deriv p.2.1 k p.2.2,
      fun k => (chebyshevs K p.1.size).abs.deriv p.2.1 k p.2.2,
      fun k => (absChebyshevs K p.1.size).deriv p.2.1 k p.2.2, (1 + u) ^ (2 * (p.1.size - 1)))) (fun t => |c t|) (fun t => abs_nonneg _) (by
    intro q hq
    obtain ⟨p, hp, rfl⟩ := List.mem_map.mp hq
    have hp30 : p.1.size ≤ 30 := h30 _ (List.of_mem_zip hp).1
    have h1 : ∀ k : Nat, (1 : K) ≤ (1 + u) ^ k := fun k => one_le_pow₀ (by linarith)
    refine ⟨h1 _, fun k hk => ?_⟩
    simp only at hk
    have hk' : (1 + u) ^ (2 * k) ≤ (1 + u) ^ (2 * (p.1.size - 1)) := pow_le_pow_right₀ (by linarith) (by omega)
    have gen : ∀ a b : K, |a| ≤ b → 0 ≤ |a| ∧ |a| ≤ b ∧ 0 ≤ |a| + ((1 + u) ^ (2 * k) - 1) * b ∧
        |a| + ((1 + u) ^ (2 * k) - 1) * b ≤ (1 + u) ^ (2 * (p.1.size - 1)) * b ∧
        |a| + ((1 + u) ^ (2 * k) - 1) * b - |a| ≤ ((1 + u) ^ (2 * (p.1.size - 1)) - 1) * b := fun a b hab => by
      have h0 := abs_nonneg a
      have h2 := h1 (2 * k)
      have hb : 0 ≤ b := h0.trans hab
      have h3 := mul_le_mul_of_nonneg_right hk' hb
      have h4 : 0 ≤ ((1 + u) ^ (2 * k) - 1) * b := mul_nonneg (by linarith) hb
      refine ⟨h0, hab, by linarith, ?_, ?_⟩ <;> linarith
    obtain ⟨b0, b1, b2⟩ := cheb_bound (K := K) (k := k) (by omega) p.2.2
    simp only [Family.deriv, Family.widen, Family.abs, chebyshevs, chebErr, absChebyshevs]
    split
    · exact gen _ _ b0
    · split
      · exact gen _ _ b1
      · exact gen _ _ b2)
  simp only [List.map_map] at key
  obtain ⟨k1, k2, k3, k4, k5, k6⟩ := key
  have e1 : series (List.zipWith Family.widen (fs.map fun F => chebyshevs K F.size) (fs.map fun F => chebErr u F.size)) m (fun t => |c t|) x =
      tensorSum ((fs.zip (m.zip x)).map fun p => (p.1.size,
        fun k => ((chebyshevs K p.1.size).widen (chebErr u p.1.size)).deriv p.2.1 k p.2.2)) (fun t => |c t|) := by
    rw [List.zipWith_map, List.zipWith_self, series, List.zip_map_left, List.map_map]
    rfl
  have e2 : series ((fs.map fun F => chebyshevs K F.size).map Family.abs) m (fun t => |c t|) x =
      tensorSum ((fs.zip (m.zip x)).map fun p => (p.1.size, fun k => (chebyshevs K p.1.size).abs.deriv p.2.1 k p.2.2)) (fun t => |c t|) := by
    rw [List.map_map, series, List.zip_map_left, List.map_map]
    rfl
  have e4 : series ((fs.map Family.size).map (absChebyshevs K)) m (fun t => |c t|) x =
      tensorSum ((fs.zip (m.zip x)).map fun p => (p.1.size, fun k => (absChebyshevs K p.1.size).deriv p.2.1 k p.2.2)) (fun t => |c t|) := by
    rw [List.map_map, series, List.zip_map_left, List.map_map]
    rfl
  have e3 : ((fs.zip (m.zip x)).map fun p => (1 + u) ^ (2 * (p.1.size - 1))).prod = (1 + u) ^ (2 * ((fs.map Family.size).map fun n => n - 1).sum) := by
    rw [prod_zip_pow (1 + u) (fun F => 2 * (F.size - 1)) fs (m.zip x) hl, List.map_map, ← List.sum_map_mul_left]; rfl
  have e5 : roundings (fs.map fun F => chebyshevs K F.size) = (fs.map Family.size).prod + (fs.map Family.size).length := by
    simp only [roundings, List.map_map, List.length_map]; rfl
  have k5' : tensorSum ((fs.zip (m.zip x)).map fun p => (p.1.size,
        fun k => ((chebyshevs K p.1.size).widen (chebErr u p.1.size)).deriv p.2.1 k p.2.2)) (fun t => |c t|) ≤
      ((fs.zip (m.zip x)).map fun p => (1 + u) ^ (2 * (p.1.size - 1))).prod *
      tensorSum ((fs.zip (m.zip x)).map fun p => (p.1.size, fun k => (absChebyshevs K p.1.size).deriv p.2.1 k p.2.2)) (fun t => |c t|) := k5
  have k6' : tensorSum ((fs.zip (m.zip x)).map fun p => (p.1.size,
        fun k => ((chebyshevs K p.1.size).widen (chebErr u p.1.size)).deriv p.2.1 k p.2.2)) (fun t => |c t|) -
      tensorSum ((fs.zip (m.zip x)).map fun p => (p.1.size, fun k => (chebyshevs K p.1.size).abs.deriv p.2.1 k p.2.2)) (fun t => |c t|) ≤
      (((fs.zip (m.zip x)).map fun p => (1 + u) ^ (2 * (p.1.size - 1))).prod - 1) *
      tensorSum ((fs.zip (m.zip x)).map fun p => (p.1.size, fun k => (absChebyshevs K p.1.size).deriv p.2.1 k p.2.2)) (fun t => |c t|) := k6
  clear k1 k2 k3 k4 k5 k6
  unfold seriesError chebyshevError
  rw [e1, e2, e4, e5, pow_add _ ((fs.map Family.size).prod + (fs.map Family.size).length)]
  rw [e3] at k5' k6'
  have hC : (1 : K) ≤ (1 + u) ^ ((fs.map Family.size).prod + (fs.map Family.size).length) := one_le_pow₀ (by linarith)
  exact gap_combine hC k5' k6'

theorem cheb_size {F : Family K} {s : TermSet (Flt rnd)} (hs : make chebyshevClass F.size = .ok s) : F.size ≤ 30 ∧ s.val.length = F.size := by
  by_cases hn : F.size ≤ 30
  · obtain ⟨s1, e, _, g, _⟩ := make_rel (computed_denotes (K := Flt rnd) (cls := chebyshevClass) 0 cheb_eval) hn
    rw [hs] at e; cases e
    exact ⟨hn, g.vlen⟩
  · rw [make_big (by omega)] at hs; cases hs

theorem chebyshevs_approx (R : Rounding rnd u) {F : Family K} (h : ChebyshevsIn rnd F) (x : K) :
    F.Approx (chebyshevs K F.size) (chebErr u F.size) x := by
  obtain ⟨s, hs, h⟩ := h
  have hlen := (cheb_size hs).2
  have key := fun k (hk : k < F.size) => C117_chebyshev_partial R F.size s s [] hs rfl k (by omega) x
  refine ⟨rfl, fun k hk => ?_, fun k hk => ?_, fun k hk => ?_⟩
  · obtain ⟨y, s', e, b⟩ := (key k hk).1
    have := (h k hk x).1
    rw [e] at this
    cases this
    exact b
  · obtain ⟨y, s', e, b⟩ := (key k hk).2.1
    have := (h k hk x).2.1
    rw [e] at this
    cases this
    exact b
  · obtain ⟨y, s', e, b⟩ := (key k hk).2.2
    have := (h k hk x).2.2
    rw [e] at this
    cases this
    exact b

theorem chebyshevs_approxAt (R : Rounding rnd u) {fs : List (Family K)} (hf : ∀ F ∈ fs, ChebyshevsIn rnd F) {x : List K}
    (hx : x.length = fs.length) : ApproxAt fs (fs.map fun F => chebyshevs K F.size) (fs.map fun F => chebErr u F.size) x := by
  refine ⟨by simp, by simp, hx, ?_⟩
  intro j F G E y h1 h2 h3 h4
  simp only [List.getElem?_map, h1, Option.map_some, Option.some.injEq] at h2 h3
  subst h2 h3
  exact chebyshevs_approx R (hf F (List.mem_of_getElem? h1)) y

/-- **C141** A series over shipped sets of Chebyshev polynomials, all in floating-point arithmetic: after any history of calls, `f(x)` is
`sum C_ij... T_i(x0) T_j(x1) ...` up to the bound. -/
theorem C141_value (R : Rounding rnd u) (fs : List (Family K)) (hf : ∀ F ∈ fs, ChebyshevsIn rnd F) (hg : GoodDims (extents fs)) (s : Series K)
    (hs : Fl.Ser.Over rnd fs s) (c : List Int → K) (hc : s.Coeffs fs c) (x : List K) (hx : x.length = fs.length) :
    ∃ y s', Fl.Ser.evalAt rnd s x = .ok (y, s') ∧ s'.get = .ok y ∧
      |y - series (fs.map fun F => chebyshevs K F.size) (value fs.length) c x| ≤
        chebyshevError u (fs.map Family.size) (value fs.length) c x := by
  obtain ⟨y, s', h1, h2, _, h4⟩ := C102_value R fs _ _ hg s hs c hc x (chebyshevs_approxAt R hf hx)
  rw [List.length_map] at h4
  exact ⟨y, s', h1, h2, h4.trans (chebErr_bound R.u_nonneg fs (fun F hF => (cheb_size (hf F hF).choose_spec.1).1) (by simp [value]) hx c)⟩

/-- **C141** The gradient. -/
theorem C141_gradient (R : Rounding rnd u) (fs : List (Family K)) (hf : ∀ F ∈ fs, ChebyshevsIn rnd F) (hg : GoodDims (extents fs))
    (s : Series K) (hs : Fl.Ser.Over rnd fs s) (c : List Int → K) (hc : s.Coeffs fs c) (x : List K) (hx : x.length = fs.length) :
    ∃ s', Fl.Ser.evalGrad rnd s x = .ok s' ∧ ∀ di : Nat, di < fs.length → ∃ y, s'.getGrad di = .ok y ∧
      |y - series (fs.map fun F => chebyshevs K F.size) (gradient fs.length di) c x| ≤
        chebyshevError u (fs.map Family.size) (gradient fs.length di) c x := by
  obtain ⟨s', h1, h2⟩ := C102_gradient R fs _ _ hg s hs c hc x (chebyshevs_approxAt R hf hx)
  rw [List.length_map] at h2
  refine ⟨s', h1, fun di hd => ?_⟩
  obtain ⟨y, h3, h4⟩ := h2 di hd
  exact ⟨y, h3, h4.trans (chebErr_bound R.u_nonneg fs (fun F hF => (cheb_size (hf F hF).choose_spec.1).1) (by simp [gradient]) hx c)⟩

/-- **C141** The Hessian. -/
theorem C141_hessian (R : Rounding rnd u) (fs : List (Family K)) (hf : ∀ F ∈ fs, ChebyshevsIn rnd F) (hg : GoodDims (extents fs))
    (s : Series K) (hs : Fl.Ser.Over rnd fs s) (c : List Int → K) (hc : s.Coeffs fs c) (x : List K) (hx : x.length = fs.length) :
    ∃ s', Fl.Ser.evalHess rnd s x = .ok s' ∧ ∀ di dj : Nat, di < fs.length → dj < fs.length → ∃ y, s'.getHess di dj = .ok y ∧
      |y - series (fs.map fun F => chebyshevs K F.size) (hessian fs.length di dj) c x| ≤
        chebyshevError u (fs.map Family.size) (hessian fs.length di dj) c x := by
  obtain ⟨s', h1, h2⟩ := C102_hessian R fs _ _ hg s hs c hc x (chebyshevs_approxAt R hf hx)
  rw [List.length_map] at h2
  refine ⟨s', h1, fun di dj hd hd' => ?_⟩
  obtain ⟨y, h3, h4⟩ := h2 di dj hd hd'
  exact ⟨y, h3, h4.trans (chebErr_bound R.u_nonneg fs (fun F hF => (cheb_size (hf F hF).choose_spec.1).1) (by simp [hessian]) hx c)⟩

/-- **C141** On `[-1,1]` the error of the value is at most `((1+u)^n - 1) sum |C_ij...| (5/2)^(i+j+...)`. -/
theorem C141_interval (R : Rounding rnd u) (fs : List (Family K)) (hf : ∀ F ∈ fs, ChebyshevsIn rnd F) (hg : GoodDims (extents fs)) (s : Series K)
    (hs : Fl.Ser.Over rnd fs s) (c : List Int → K) (hc : s.Coeffs fs c) (x : List K) (hx : x.length = fs.length) (h1 : ∀ y ∈ x, |y| ≤ 1) :
    let sizes := fs.map Family.size
    ∃ y s', Fl.Ser.evalAt rnd s x = .ok (y, s') ∧ s'.get = .ok y ∧
      |y - series (sizes.map (chebyshevs K)) (value fs.length) c x| ≤
        ((1 + u) ^ (sizes.prod + sizes.length + 2 * (sizes.map fun n => n - 1).sum) - 1) *
          series (sizes.map (geometric K)) (value fs.length) (fun t => |c t|) x := by
  intro sizes
  obtain ⟨y, s', e1, e2, e3⟩ := C141_value R fs hf hg s hs c hc x hx
  refine ⟨y, s', e1, e2, ?_⟩
  have hm : sizes.map (chebyshevs K) = fs.map fun F => chebyshevs K F.size := by simp only [sizes, List.map_map]; rfl
  rw [hm]
  refine e3.trans (mul_le_mul_of_nonneg_left ?_ ?_)
  · have key := tensorSum_scale ((fs.zip ((value fs.length).zip x)).map fun p => (p.1.size, fun k => (absChebyshevs K p.1.size).phi k p.2.2,
      fun k => (geometric K p.1.size).phi k p.2.2, (1 : K))) (fun t => |c t|) (fun t => abs_nonneg _) (by
        intro q hq
        obtain ⟨p, hp, rfl⟩ := List.mem_map.mp hq
        have hy : |p.2.2| ≤ 1 := h1 _ (List.of_mem_zip (List.of_mem_zip hp).2).2
        refine ⟨zero_le_one, fun k _ => ⟨absT_nonneg (abs_nonneg _) k, pow_nonneg (by norm_num) k, ?_⟩⟩
        rw [one_mul]
        exact absT_le (abs_nonneg _) hy k)
    simp only [List.map_map] at key
    have e5 : ∀ G : Nat → Family K, (∀ n, (G n).size = n) → series (sizes.map G) (value fs.length) (fun t => |c t|) x =
        tensorSum ((fs.zip ((value fs.length).zip x)).map fun p => (p.1.size, fun k => (G p.1.size).phi k p.2.2)) (fun t => |c t|) := by
      intro G hG
      simp only [sizes]
      rw [List.map_map, series, List.zip_map_left, List.map_map]
      congr 1
      refine List.map_congr_left fun p hp => ?_
      have h0 : p.2.1 = 0 := by
        have := (List.of_mem_zip (List.of_mem_zip hp).2).1
        exact (List.mem_replicate.mp this).2
      simp [Function.comp, h0, hG, Family.deriv]
    rw [e5 _ (fun _ => rfl), e5 _ (fun _ => rfl)]
    have := key.2
    rw [show (List.map ((fun q => q.2.2.2) ∘ fun p => (p.1.size, fun k => (absChebyshevs K p.1.size).phi k p.2.2,
      fun k => (geometric K p.1.size).phi k p.2.2, (1 : K))) (fs.zip ((value fs.length).zip x))).prod = 1 from List.prod_eq_one (by intro a ha; obtain ⟨_, _, rfl⟩ := List.mem_map.mp ha; rfl), one_mul] at this
    exact this
  · have := one_le_pow₀ (n := sizes.prod + sizes.length + 2 * (sizes.map fun n => n - 1).sum) (show (1 : K) ≤ 1 + u by have := R.u_nonneg; linarith)
    linarith

end

namespace FlCheb

/-- Chebyshev polynomials as the shipped set computes them. -/
def comp (n : Nat) : Family ℚ := chebyshevClass.computed (K := Flt r64) n

def fs : List (Family ℚ) := [comp 2, comp 3]

theorem shipped (n : Nat) (hn : n ≤ 30) : ChebyshevsIn r64 (comp n) := by
  obtain ⟨s, e, _, g, _⟩ := make_rel (computed_denotes (K := Flt r64) (cls := chebyshevClass) n cheb_eval) hn
  refine ⟨s, e, fun k hk x => ?_⟩
  obtain ⟨⟨s1, h1⟩, ⟨s2, h2⟩, ⟨s3, h3⟩⟩ := terms_good g (k := k) (by rw [g.vlen]; exact hk) x
  rw [h1, h2, h3]
  exact ⟨rfl, rfl, rfl⟩

theorem all_shipped : ∀ F ∈ fs, ChebyshevsIn r64 F := by
  intro F hF
  simp only [fs, List.mem_cons, List.not_mem_nil, or_false] at hF
  rcases hF with rfl | rfl
  · exact shipped 2 (by omega)
  · exact shipped 3 (by omega)

theorem good : GoodDims (extents fs) := by
  rw [show extents fs = [2, 3] from rfl]
  exact ⟨by simp, by simp, by simp [Spec.prod]⟩

/-- The state after `set`. -/
def ser0 : Series ℚ :=
  ⟨⟨[2, 3], [3, 1], [0, 0, 0, 0, 0, 0], 2, 6⟩, 1, 0, [some (Demo.newBasis (comp 2)), some (Demo.newBasis (comp 3))], some 0, [0, 0],
    [[0, 0], [0, 0]]⟩

/-- The state after `coeff()([1,2]) = 0.3`. -/
def ser : Series ℚ :=
  ⟨⟨[2, 3], [3, 1], [0, 0, 0, 0, 0, r64 (3 / 10)], 2, 6⟩, 1, 0, [some (Demo.newBasis (comp 2)), some (Demo.newBasis (comp 3))], some 0, [0, 0],
    [[0, 0], [0, 0]]⟩

theorem ser0_set : (Series.make 0 1).set [some (Demo.newBasis (comp 2)), some (Demo.newBasis (comp 3))] = .ok ser0 := by
  have h := NDArray.resize_good (0 : ℚ) (NDArray.clear NDArray.empty) good
  have hs : Series.sizes [some (Demo.newBasis (comp 2)), some (Demo.newBasis (comp 3))] = .ok (extents fs) := rfl
  have hs' : Series.copyBases [some (Demo.newBasis (comp 2)), some (Demo.newBasis (comp 3))] =
    .ok [some (Demo.newBasis (comp 2)), some (Demo.newBasis (comp 3))] := rfl
  simp only [Series.set, hs, hs', ok_bind, Series.make, Series.clear, h]
  rfl

theorem over : Fl.Ser.Over r64 fs ser := by
  refine ⟨Series.make 0 1, _, [some (Demo.newBasis (comp 2)), some (Demo.newBasis (comp 3))], [.setCoeff [1, 2] (r64 (3 / 10))], rfl, rfl, ?_,
    ser0_set, ?_, ?_⟩
  · exact .cons ⟨_, rfl, 2, [], rfl, rfl⟩ (.cons ⟨_, rfl, 3, [], rfl, rfl⟩ .nil)
  · simp [SerOp.KeepsBasis]
  · rfl

/-- The coefficients. -/
def c : List Int → ℚ := fun t => if t = [1, 2] then r64 (3 / 10) else 0

theorem coeffs : ser.Coeffs fs c := by
  intro t ht
  match t, ht with
  | [a, b], ht =>
    obtain ⟨⟨h1, h2⟩, ⟨h3, h4⟩, _⟩ := ht
    simp only [comp, TermClass.computed, Nat.cast_ofNat] at h2 h4
    obtain rfl | rfl : a = 0 ∨ a = 1 := by omega
    all_goals obtain rfl | rfl | rfl : b = 0 ∨ b = 1 ∨ b = 2 := by omega
    all_goals rfl

/-- The series is `0.3 T_1(x) T_2(y)`. -/
theorem sum (x y : ℚ) : series ((fs.map Family.size).map (chebyshevs ℚ)) (value fs.length) c [x, y] = r64 (3 / 10) * x * (2 * y ^ 2 - 1) := by
  have e : series ((fs.map Family.size).map (chebyshevs ℚ)) (value fs.length) c [x, y] =
      tensorSum [(2, fun k => (Polynomial.Chebyshev.T ℚ k).eval x), (3, fun k => (Polynomial.Chebyshev.T ℚ k).eval y)] c := rfl
  rw [e]
  simp [tensorSum, Finset.sum_range_succ, c, Polynomial.Chebyshev.T_two]
  ring

end FlCheb

open FlCheb in
/-- At `(1/10, 7/10)` (as doubles) the value computed is within `2e-14` of `0.3 x (2 y^2 - 1)`, which is about -0.0006. -/
example : ∃ y s', Fl.Ser.evalAt r64 ser [r64 (1 / 10), r64 (7 / 10)] = .ok (y, s') ∧
    |y - r64 (3 / 10) * r64 (1 / 10) * (2 * r64 (7 / 10) ^ 2 - 1)| ≤ 2 / 10 ^ 14 := by
  obtain ⟨y, s', h1, _, h4⟩ := C141_interval r64_rounding fs all_shipped good ser over c coeffs [r64 (1 / 10), r64 (7 / 10)] rfl (by decide +kernel)
  refine ⟨y, s', h1, ?_⟩
  rw [sum] at h4
  exact h4.trans (by decide +kernel)

end Verif
