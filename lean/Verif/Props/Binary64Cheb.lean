import Verif.Lemmas.Binary64Cheb
import Verif.Props.Binary64Series
import Verif.Props.ChebSeries

/-!
# Property C141 on doubles with their exponent range

The shipped Chebyshev polynomials, and series of them, on a machine whose doubles overflow and underflow, at moderate arguments.
-/

namespace Verif
open Spec Testlib TermSet

section
variable {K : Type} [Field K] [LinearOrder K] [FloorRing K] [IsStrictOrderedRing K] {f : K → K} {V A : Nat}

namespace B64

/-- The exponents of an expression are at most `n` and 55 (lemma-side). -/
def textSg (n : Nat) (t : ClassText) : Bool :=
  match (readCpp1 t.eval).bind sg with
  | some (n', p', g', q') => decide (n' ≤ n) && decide (p' ≤ 55) && decide (g' ≤ 55) && decide (q' ≤ 55)
  | none => false

/-- Lemma-side. -/
def chebSg (k : Nat) : Bool :=
  match chebyshevTerms[k]? with
  | some t => textSg k t.f && textSg k t.grad && textSg k t.hess
  | none => false

theorem cheb_sg : (List.range 30).all chebSg = true := by decide +kernel

theorem flText_grid (hB : IsBinary64 f) {n : Nat} {t : ClassText} (h : textSg n t = true) {x : K} (hx : Moderate A x) (hq : n * A + 55 ≤ 1022) :
    flText f t x = flText r t x ∧ Sized (n * A + 55) (n * A + 55) (flText r t x) := by
  unfold textSg at h
  split at h
  · next n' p' g' q' e =>
    simp only [Bool.and_eq_true, decide_eq_true_eq] at h
    obtain ⟨⟨⟨h1, h2⟩, h3⟩, h4⟩ := h
    obtain ⟨a, ha, hs⟩ := Option.bind_eq_some_iff.mp e
    have hm : n' * A ≤ n * A := Nat.mul_le_mul_right _ h1
    obtain ⟨k1, _, _, k3⟩ := grid_flEval hB (A := A) (v := fun _ => x) (fun _ => hx) a n' p' g' q' hs (by omega) (by omega) (by omega)
    simp only [flText, ha]
    exact ⟨k1, sized_mono (by omega) (by omega) k3⟩
  · cases h

/-- What term `k` computes in the arithmetic `g` (lemma-side). -/
def cphi (g : K → K) (k : Nat) : K → K := (chebyshevClass.computed (K := Flt g) 0).phi k
/-- Lemma-side. -/
def cdphi (g : K → K) (k : Nat) : K → K := (chebyshevClass.computed (K := Flt g) 0).dphi k
/-- Lemma-side. -/
def cddphi (g : K → K) (k : Nat) : K → K := (chebyshevClass.computed (K := Flt g) 0).ddphi k

theorem cheb_same (hB : IsBinary64 f) {k : Nat} (hk : k < 30) {x : K} (hx : Moderate A x) (hA : k * A + 55 ≤ 1022) :
    (cphi f k x = cphi r k x ∧ Sized (k * A + 55) (k * A + 55) (cphi r k x)) ∧
    (cdphi f k x = cdphi r k x ∧ Sized (k * A + 55) (k * A + 55) (cdphi r k x)) ∧
    (cddphi f k x = cddphi r k x ∧ Sized (k * A + 55) (k * A + 55) (cddphi r k x)) := by
  have h := List.all_eq_true.mp cheb_sg k (List.mem_range.mpr hk)
  unfold chebSg at h
  split at h
  · next t ht =>
    simp only [Bool.and_eq_true] at h
    have ht' : chebyshevClass.terms[k]? = some t := ht
    have e : ∀ g : K → K, cphi g k x = flText g t.f x ∧ cdphi g k x = flText g t.grad x ∧ cddphi g k x = flText g t.hess x := fun g => by
      refine ⟨?_, ?_, ?_⟩ <;> simp only [cphi, cdphi, cddphi, TermClass.computed, ht', Option.bind_some] <;> rfl
    obtain ⟨f1, f2, f3⟩ := e f
    obtain ⟨g1, g2, g3⟩ := e r
    rw [f1, f2, f3, g1, g2, g3]
    exact ⟨flText_grid hB h.1.1 hx hA, flText_grid hB h.1.2 hx hA, flText_grid hB h.2 hx hA⟩
  · cases h

theorem cheb_near (hB : IsBinary64 f) {k : Nat} (hk : k < 30) {x : K} (hx : Moderate A x) (hA : k * A + 55 ≤ 1022) :
    let u : K := (2 : K) ^ (-(53 : Int))
    let T := Polynomial.Chebyshev.T K k
    let a := absT K k
    |cphi f k x - T.eval x| ≤ ((1 + u) ^ (2 * k) - 1) * a.eval |x| ∧
    |cdphi f k x - T.derivative.eval x| ≤ ((1 + u) ^ (2 * k) - 1) * a.derivative.eval |x| ∧
    |cddphi f k x - T.derivative.derivative.eval x| ≤ ((1 + u) ^ (2 * k) - 1) * a.derivative.derivative.eval |x| := by
  intro u T a
  obtain ⟨f1, f2, f3⟩ := computed_round R (K := K) (cls := chebyshevClass) cheb_round 0 hk
  obtain ⟨⟨a1, _⟩, ⟨b1, _⟩, c1, _⟩ := cheb_same hB hk hx hA
  have t0 : ∀ x : K, peval x (chebC k).1 = (Polynomial.Chebyshev.T K k).eval x := fun x => (peval_chebC x k).1
  have t1 := peval_pdiff_of t0
  have t2 := peval_pdiff_of t1
  have a0 : ∀ x : K, peval x (absC k).1 = (absT K k).eval x := fun x => (peval_absC x k).1
  have a1' := peval_pdiff_of a0
  have a2 := peval_pdiff_of a1'
  rw [a1, b1, c1]
  refine ⟨?_, ?_, ?_⟩
  · have := f1.err x
    rw [t0, a0] at this; exact this
  · have := f2.err x
    rw [t1, a1'] at this; exact this
  · have := f3.err x
    rw [t2, a2] at this; exact this

theorem cheb_at (hB : IsBinary64 f) {fs : List (Family K)} (hf : ∀ F ∈ fs, ChebyshevsIn f F) {N : Nat} (hN : ∀ F ∈ fs, F.size ≤ N + 1) {x : List K}
    (hx : x.length = fs.length) (hxm : ∀ y ∈ x, Moderate A y) (hA : fs.length * (N * A + 55) ≤ 1022) :
    ApproxAt fs (fs.map fun F => chebyshevs K F.size) (fs.map fun F => chebErr ((2 : K) ^ (-(53 : Int))) F.size) x ∧
    BasisSized (N * A + 55) fs x := by
  have key : ∀ F ∈ fs, ∀ y ∈ x, ∀ k, k < F.size → k < 30 ∧ k * A ≤ N * A ∧ k * A + 55 ≤ 1022 ∧ F.phi k y = cphi f k y ∧ F.dphi k y = cdphi f k y ∧
      F.ddphi k y = cddphi f k y := by
    intro F hF y hy k hk
    obtain ⟨s, hs, h⟩ := hf F hF
    have hlen := (cheb_size hs).2
    obtain ⟨h30, h'⟩ := fl_terms cheb_eval hs (calls := []) rfl (k := k) (by omega)
    obtain ⟨⟨s1, e1⟩, ⟨s2, e2⟩, ⟨s3, e3⟩⟩ := h' y
    obtain ⟨k1, k2, k3⟩ := h k hk y
    rw [e1] at k1; rw [e2] at k2; rw [e3] at k3
    have hm : k * A ≤ N * A := Nat.mul_le_mul_right _ (by have := hN F hF; omega)
    have h1 : 1 ≤ fs.length := List.length_pos_of_mem hF
    have h2 : N * A + 55 ≤ fs.length * (N * A + 55) := Nat.le_mul_of_pos_left _ h1
    exact ⟨h30, hm, by omega, (Except.ok.inj k1).symm, (Except.ok.inj k2).symm, (Except.ok.inj k3).symm⟩
  refine ⟨⟨by simp, by simp, hx, ?_⟩, ?_⟩
  · intro j F G E y h1 h2 h3 h4
    simp only [List.getElem?_map, h1, Option.map_some, Option.some.injEq] at h2 h3
    subst h2 h3
    refine ⟨rfl, fun k hk => ?_, fun k hk => ?_, fun k hk => ?_⟩ <;>
      obtain ⟨i1, _, i2, i3, i4, i5⟩ := key F (List.mem_of_getElem? h1) y (List.mem_of_getElem? h4) k hk <;>
      obtain ⟨j1, j2, j3⟩ := cheb_near hB i1 (hxm y (List.mem_of_getElem? h4)) i2
    · rw [i3]; exact j1
    · rw [i4]; exact j2
    · rw [i5]; exact j3
  · intro j F y h1 h4 k hk
    obtain ⟨i1, i0, i2, i3, i4, i5⟩ := key F (List.mem_of_getElem? h1) y (List.mem_of_getElem? h4) k hk
    obtain ⟨⟨a1, a2⟩, ⟨b1, b2⟩, c1, c2⟩ := cheb_same hB i1 (hxm y (List.mem_of_getElem? h4)) i2
    rw [i3, i4, i5, a1, b1, c1]
    exact ⟨sized_mono (by omega) (by omega) a2, sized_mono (by omega) (by omega) b2, sized_mono (by omega) (by omega) c2⟩

end B64

/-- **C141** A set of Chebyshev polynomials on doubles with their exponent range, after any history of calls: at an argument that is 0 or between
`2^-A` and `2^A` in magnitude, with `k A + 55 ≤ 1022`, the bounds of C117 hold. (For all 30 polynomials: `A = 33`, magnitudes from `1e-9` to `1e9`.) -/
theorem C141_doubles_terms (hB : IsBinary64 f) (n : Nat) (s0 s : TermSet (Flt f)) (calls : List (BCall (Flt f)))
    (hmake : make chebyshevClass n = .ok s0) (hrun : s0.run calls = .ok s) (k : Nat) (hk : k < s.val.length) (x : K) (hx : Moderate A x)
    (hA : k * A + 55 ≤ 1022) :
    let u : K := (2 : K) ^ (-(53 : Int))
    let T := Polynomial.Chebyshev.T K k
    let a := absT K k
    (∃ (y : K) (s' : TermSet (Flt f)), s.evalTerm k x = .ok (y, s') ∧ |y - T.eval x| ≤ ((1 + u) ^ (2 * k) - 1) * a.eval |x|) ∧
    (∃ (y : K) (s' : TermSet (Flt f)), s.gradTerm k x = .ok (y, s') ∧
      |y - T.derivative.eval x| ≤ ((1 + u) ^ (2 * k) - 1) * a.derivative.eval |x|) ∧
    ∃ (y : K) (s' : TermSet (Flt f)), s.hessTerm k x = .ok (y, s') ∧
      |y - T.derivative.derivative.eval x| ≤ ((1 + u) ^ (2 * k) - 1) * a.derivative.derivative.eval |x| := by
  obtain ⟨h30, h⟩ := fl_terms cheb_eval hmake hrun hk
  obtain ⟨⟨s1, e1⟩, ⟨s2, e2⟩, ⟨s3, e3⟩⟩ := h x
  obtain ⟨k1, k2, k3⟩ := B64.cheb_near hB h30 hx hA
  exact ⟨⟨_, s1, e1, k1⟩, ⟨_, s2, e2, k2⟩, ⟨_, s3, e3, k3⟩⟩

/-- **C141** A series over shipped sets of at most `N+1` Chebyshev polynomials on such a machine: with coefficients between `2^-V` and `2^V` and
arguments between `2^-A` and `2^A` (or 0), `f(x)` is `sum C_ij... T_i(x0) T_j(x1) ...` up to the same bound, with `u = 2^-53`. -/
theorem C141_doubles_value (hB : IsBinary64 f) (fs : List (Family K)) (hf : ∀ F ∈ fs, ChebyshevsIn f F) {N : Nat} (hN : ∀ F ∈ fs, F.size ≤ N + 1)
    (hg : GoodDims (extents fs)) (s : Series K) (hs : Fl.Ser.Over f fs s) (c : List Int → K) (hc : s.Coeffs fs c)
    (hcm : ∀ t, InBox (extents fs) t → Moderate V (c t)) (x : List K) (hx : x.length = fs.length) (hxm : ∀ y ∈ x, Moderate A y)
    (hV : V + fs.length * (N * A + 55) ≤ 970) :
    ∃ y s', Fl.Ser.evalAt f s x = .ok (y, s') ∧ s'.get = .ok y ∧
      |y - series (fs.map fun F => chebyshevs K F.size) (value fs.length) c x| ≤
        chebyshevError ((2 : K) ^ (-(53 : Int))) (fs.map Family.size) (value fs.length) c x := by
  obtain ⟨ha, hb⟩ := B64.cheb_at hB hf hN hx hxm (by omega)
  obtain ⟨y, s', h1, h2, _, h4⟩ := C134_value hB fs _ _ hg s hs c hc hcm x ha hb hV
  rw [List.length_map] at h4
  exact ⟨y, s', h1, h2, h4.trans (chebErr_bound B64.R.u_nonneg fs (fun F hF => (cheb_size (hf F hF).choose_spec.1).1) (by simp [value]) hx c)⟩

/-- **C141** The gradient. -/
theorem C141_doubles_gradient (hB : IsBinary64 f) (fs : List (Family K)) (hf : ∀ F ∈ fs, ChebyshevsIn f F) {N : Nat}
    (hN : ∀ F ∈ fs, F.size ≤ N + 1) (hg : GoodDims (extents fs)) (s : Series K) (hs : Fl.Ser.Over f fs s) (c : List Int → K) (hc : s.Coeffs fs c)
    (hcm : ∀ t, InBox (extents fs) t → Moderate V (c t)) (x : List K) (hx : x.length = fs.length) (hxm : ∀ y ∈ x, Moderate A y)
    (hV : V + fs.length * (N * A + 55) ≤ 970) :
    ∃ s', Fl.Ser.evalGrad f s x = .ok s' ∧ ∀ di : Nat, di < fs.length → ∃ y, s'.getGrad di = .ok y ∧
      |y - series (fs.map fun F => chebyshevs K F.size) (gradient fs.length di) c x| ≤
        chebyshevError ((2 : K) ^ (-(53 : Int))) (fs.map Family.size) (gradient fs.length di) c x := by
  obtain ⟨ha, hb⟩ := B64.cheb_at hB hf hN hx hxm (by omega)
  obtain ⟨s', h1, h2⟩ := C134_gradient hB fs _ _ hg s hs c hc hcm x ha hb hV
  rw [List.length_map] at h2
  refine ⟨s', h1, fun di hd => ?_⟩
  obtain ⟨y, h3, h4⟩ := h2 di hd
  exact ⟨y, h3, h4.trans (chebErr_bound B64.R.u_nonneg fs (fun F hF => (cheb_size (hf F hF).choose_spec.1).1) (by simp [gradient]) hx c)⟩

/-- **C141** The Hessian. -/
theorem C141_doubles_hessian (hB : IsBinary64 f) (fs : List (Family K)) (hf : ∀ F ∈ fs, ChebyshevsIn f F) {N : Nat}
    (hN : ∀ F ∈ fs, F.size ≤ N + 1) (hg : GoodDims (extents fs)) (s : Series K) (hs : Fl.Ser.Over f fs s) (c : List Int → K) (hc : s.Coeffs fs c)
    (hcm : ∀ t, InBox (extents fs) t → Moderate V (c t)) (x : List K) (hx : x.length = fs.length) (hxm : ∀ y ∈ x, Moderate A y)
    (hV : V + fs.length * (N * A + 55) ≤ 970) :
    ∃ s', Fl.Ser.evalHess f s x = .ok s' ∧ ∀ di dj : Nat, di < fs.length → dj < fs.length → ∃ y, s'.getHess di dj = .ok y ∧
      |y - series (fs.map fun F => chebyshevs K F.size) (hessian fs.length di dj) c x| ≤
        chebyshevError ((2 : K) ^ (-(53 : Int))) (fs.map Family.size) (hessian fs.length di dj) c x := by
  obtain ⟨ha, hb⟩ := B64.cheb_at hB hf hN hx hxm (by omega)
  obtain ⟨s', h1, h2⟩ := C134_hessian hB fs _ _ hg s hs c hc hcm x ha hb hV
  rw [List.length_map] at h2
  refine ⟨s', h1, fun di dj hd hd' => ?_⟩
  obtain ⟨y, h3, h4⟩ := h2 di dj hd hd'
  exact ⟨y, h3, h4.trans (chebErr_bound B64.R.u_nonneg fs (fun F hF => (cheb_size (hf F hF).choose_spec.1).1) (by simp [hessian]) hx c)⟩

end

/-! ## Non-vacuity -/

namespace FlCheb64
open FlMono64 (g64 isB)

/-- Chebyshev polynomials as the shipped set computes them on such a machine. -/
def comp (n : Nat) : Family ℚ := chebyshevClass.computed (K := Flt g64) n

def fs : List (Family ℚ) := [comp 2, comp 3]

theorem shipped (n : Nat) (hn : n ≤ 30) : ChebyshevsIn g64 (comp n) := by
  obtain ⟨s, e, _, g, _⟩ := make_rel (computed_denotes (K := Flt g64) (cls := chebyshevClass) n cheb_eval) hn
  refine ⟨s, e, fun k hk x => ?_⟩
  obtain ⟨⟨s1, h1⟩, ⟨s2, h2⟩, ⟨s3, h3⟩⟩ := terms_good g (k := k) (by rw [g.vlen]; exact hk) x
  rw [h1, h2, h3]
  exact ⟨rfl, rfl, rfl⟩

theorem all_shipped : ∀ F ∈ fs, ChebyshevsIn g64 F := by
  intro F hF
  simp only [fs, List.mem_cons, List.not_mem_nil, or_false] at hF
  rcases hF with rfl | rfl
  · exact shipped 2 (by omega)
  · exact shipped 3 (by omega)

theorem good : GoodDims (extents fs) := by
  rw [show extents fs = [2, 3] from rfl]
  exact ⟨by simp, by simp, by simp [Spec.prod]⟩

/-- The state after `set`. -/
def ser0 : Series ℚ :=
  ⟨⟨[2, 3], [3, 1], [0, 0, 0, 0, 0, 0], 2, 6⟩, 1, 0, [some (Demo.newBasis (comp 2)), some (Demo.newBasis (comp 3))], some 0, [0, 0],
    [[0, 0], [0, 0]]⟩

/-- The state after `coeff()([1,2]) = 0.3`. -/
def ser : Series ℚ :=
  ⟨⟨[2, 3], [3, 1], [0, 0, 0, 0, 0, r64 (3 / 10)], 2, 6⟩, 1, 0, [some (Demo.newBasis (comp 2)), some (Demo.newBasis (comp 3))], some 0, [0, 0],
    [[0, 0], [0, 0]]⟩

theorem ser0_set : (Series.make 0 1).set [some (Demo.newBasis (comp 2)), some (Demo.newBasis (comp 3))] = .ok ser0 := by
  have h := NDArray.resize_good (0 : ℚ) (NDArray.clear NDArray.empty) good
  have hs : Series.sizes [some (Demo.newBasis (comp 2)), some (Demo.newBasis (comp 3))] = .ok (extents fs) := rfl
  have hs' : Series.copyBases [some (Demo.newBasis (comp 2)), some (Demo.newBasis (comp 3))] =
    .ok [some (Demo.newBasis (comp 2)), some (Demo.newBasis (comp 3))] := rfl
  simp only [Series.set, hs, hs', ok_bind, Series.make, Series.clear, h]
  rfl

theorem over : Fl.Ser.Over g64 fs ser := by
  refine ⟨Series.make 0 1, _, [some (Demo.newBasis (comp 2)), some (Demo.newBasis (comp 3))], [.setCoeff [1, 2] (r64 (3 / 10))], rfl, rfl, ?_,
    ser0_set, ?_, ?_⟩
  · exact .cons ⟨_, rfl, 2, [], rfl, rfl⟩ (.cons ⟨_, rfl, 3, [], rfl, rfl⟩ .nil)
  · simp [SerOp.KeepsBasis]
  · rfl

theorem coeffs : ser.Coeffs fs FlMono64.c := by
  intro t ht
  match t, ht with
  | [a, b], ht =>
    obtain ⟨⟨h1, h2⟩, ⟨h3, h4⟩, _⟩ := ht
    simp only [comp, TermClass.computed, Nat.cast_ofNat] at h2 h4
    obtain rfl | rfl : a = 0 ∨ a = 1 := by omega
    all_goals obtain rfl | rfl | rfl : b = 0 ∨ b = 1 ∨ b = 2 := by omega
    all_goals rfl

end FlCheb64

open FlCheb64 in
/-- All hypotheses at `(3.3e19, 1.4e-21)`, with the conclusion. -/
example : ∃ y s', Fl.Ser.evalAt FlMono64.g64 ser FlMono64.x = .ok (y, s') ∧ s'.get = .ok y ∧
    |y - series (fs.map fun F => chebyshevs ℚ F.size) (value fs.length) FlMono64.c FlMono64.x| ≤
      chebyshevError ((2 : ℚ) ^ (-(53 : Int))) (fs.map Family.size) (value fs.length) FlMono64.c FlMono64.x :=
  C141_doubles_value (V := 300) (A := 70) FlMono64.isB fs all_shipped (N := 2) (by decide) good ser over FlMono64.c coeffs
    (fun t _ => FlMono64.moderate t) FlMono64.x rfl (by decide +kernel) (by decide)

/-- Sets of 30 polynomials: accurate between `2^-33` and `2^33`; an argument of moderate size. -/
example : (∃ s0 : TermSet (Flt FlMono64.g64), make chebyshevClass 30 = .ok s0 ∧ s0.val.length = 30 ∧ s0.run [] = .ok s0) ∧
    Moderate 33 (r64 (1 / 10)) ∧ 29 * 33 + 55 ≤ 1022 := by
  refine ⟨?_, by decide +kernel, by decide⟩
  obtain ⟨s0, e, _, g, _⟩ := make_rel (computed_denotes (K := Flt FlMono64.g64) (cls := chebyshevClass) 0 cheb_eval) (n := 30) (by omega)
  exact ⟨s0, e, g.vlen, rfl⟩

end Verif
