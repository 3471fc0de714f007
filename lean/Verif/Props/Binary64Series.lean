import Verif.Lemmas.Binary64Series
import Verif.Spec.Binary64Series
import Verif.Props.RoundedTestlib
import Verif.Props.Binary64

/-!
# Property C134: series and the shipped functions on doubles with their exponent range

C102, C116, C118 and C119 are about arithmetic rounded with an unbounded exponent. For a machine whose doubles overflow and underflow, they hold as they
are when coefficients, basis functions and arguments are of moderate size.
-/

namespace Verif
open Spec Testlib TermSet

section
variable {K : Type} [Field K] [LinearOrder K] [FloorRing K] [IsStrictOrderedRing K] {f : K → K} {V B A : Nat}

omit [FloorRing K] [IsStrictOrderedRing K] in
theorem B64.facSized {fs : List (Family K)} {x : List K} (h : BasisSized B fs x) : B64.FacSized B fs x := by
  intro j F y h1 h2 o k hk
  obtain ⟨a, b, c⟩ := h j F y h1 h2 k hk
  unfold Family.deriv
  split
  · exact a
  · split
    · exact b
    · exact c

/-- **C134** When coefficients and basis functions are of moderate size (their product at most `2^970` in magnitude and at least `2^-970`), the machine
computes the value, the gradient and the Hessian of a series, after any history of calls, as with an unbounded exponent. -/
theorem C134_same (hB : IsBinary64 f) (fs : List (Family K)) (hg : GoodDims (extents fs)) (s : Series K) (hs : Fl.Ser.Over f fs s)
    (c : List Int → K) (hc : s.Coeffs fs c) (hcm : ∀ t, InBox (extents fs) t → Moderate V (c t)) (x : List K) (hx : x.length = fs.length)
    (hb : BasisSized B fs x) (hV : V + fs.length * B ≤ 970) :
    Fl.Ser.evalAt f s x = Fl.Ser.evalAt (nearestEven 53) s x ∧ Fl.Ser.evalGrad f s x = Fl.Ser.evalGrad (nearestEven 53) s x ∧
    Fl.Ser.evalHess f s x = Fl.Ser.evalHess (nearestEven 53) s x := by
  have hw := hs.wf hg
  have hm := B64.coeff_mod (V := V) hw hc hcm
  exact ⟨B64.evalAt_same hB hw hx.ge (B64.facSized hb) hm hV, B64.evalGrad_same hB hw hx.ge (B64.facSized hb) hm hV,
    B64.evalHess_same hB hw hx.ge (B64.facSized hb) hm hV⟩

/-- **C134** So `f(x)` is the series over the exact basis functions up to the error bound of C102, with `u = 2^-53`. -/
theorem C134_value (hB : IsBinary64 f) (fs gs es : List (Family K)) (hg : GoodDims (extents fs)) (s : Series K) (hs : Fl.Ser.Over f fs s)
    (c : List Int → K) (hc : s.Coeffs fs c) (hcm : ∀ t, InBox (extents fs) t → Moderate V (c t)) (x : List K) (ha : ApproxAt fs gs es x)
    (hb : BasisSized B fs x) (hV : V + fs.length * B ≤ 970) :
    ∃ y s', Fl.Ser.evalAt f s x = .ok (y, s') ∧ s'.get = .ok y ∧ s'.Coeffs fs c ∧
      |y - series gs (value gs.length) c x| ≤ seriesError ((2 : K) ^ (-(53 : Int))) gs es (value gs.length) c x := by
  obtain ⟨y, s', h1, h2, h3, _, h5, _⟩ := Fl.Ser.evalAt_near B64.R (hs.wf hg) ha hc
  rw [ha.1, (C134_same hB fs hg s hs c hc hcm x ha.2.2.1 hb hV).1]
  exact ⟨y, s', h1, h2, h5, h3⟩

/-- **C134** The gradient. -/
theorem C134_gradient (hB : IsBinary64 f) (fs gs es : List (Family K)) (hg : GoodDims (extents fs)) (s : Series K) (hs : Fl.Ser.Over f fs s)
    (c : List Int → K) (hc : s.Coeffs fs c) (hcm : ∀ t, InBox (extents fs) t → Moderate V (c t)) (x : List K) (ha : ApproxAt fs gs es x)
    (hb : BasisSized B fs x) (hV : V + fs.length * B ≤ 970) :
    ∃ s', Fl.Ser.evalGrad f s x = .ok s' ∧ ∀ di : Nat, di < gs.length → ∃ y, s'.getGrad di = .ok y ∧
      |y - series gs (gradient gs.length di) c x| ≤ seriesError ((2 : K) ^ (-(53 : Int))) gs es (gradient gs.length di) c x := by
  rw [ha.1, (C134_same hB fs hg s hs c hc hcm x ha.2.2.1 hb hV).2.1]
  exact Fl.Ser.evalGrad_near B64.R (hs.wf hg) ha hc

/-- **C134** The Hessian. -/
theorem C134_hessian (hB : IsBinary64 f) (fs gs es : List (Family K)) (hg : GoodDims (extents fs)) (s : Series K) (hs : Fl.Ser.Over f fs s)
    (c : List Int → K) (hc : s.Coeffs fs c) (hcm : ∀ t, InBox (extents fs) t → Moderate V (c t)) (x : List K) (ha : ApproxAt fs gs es x)
    (hb : BasisSized B fs x) (hV : V + fs.length * B ≤ 970) :
    ∃ s', Fl.Ser.evalHess f s x = .ok s' ∧ ∀ di dj : Nat, di < gs.length → dj < gs.length → ∃ y, s'.getHess di dj = .ok y ∧
      |y - series gs (hessian gs.length di dj) c x| ≤ seriesError ((2 : K) ^ (-(53 : Int))) gs es (hessian gs.length di dj) c x := by
  rw [ha.1, (C134_same hB fs hg s hs c hc hcm x ha.2.2.1 hb hV).2.2]
  exact Fl.Ser.evalHess_near B64.R (hs.wf hg) ha hc

/-! ## The shipped functions -/

namespace B64

/-- The exponents of an expression are at most `n`, 0 and `q` (lemma-side). -/
def textSz (n q : Nat) (t : ClassText) : Bool :=
  match (readCpp1 t.eval).bind sz with
  | some (n', p', q') => decide (n' ≤ n) && decide (p' = 0) && decide (q' ≤ q)
  | none => false

/-- Lemma-side. -/
def termSz (k : Nat) : Bool :=
  match monomialTerms[k]? with
  | some t => textSz k 10 t.f && textSz (k - 1) 10 t.grad && textSz (k - 2) 10 t.hess
  | none => false

theorem mono_sz : (List.range 30).all termSz = true := by decide +kernel

theorem flText_same (hB : IsBinary64 f) {n q : Nat} {t : ClassText} (h : textSz n q t = true) {x : K} (hx : Moderate A x)
    (hq : n * A + q ≤ 1022) : flText f t x = flText r t x ∧ Sized (n * A + q) (n * A + q) (flText r t x) := by
  unfold textSz at h
  split at h
  · next n' p' q' e =>
    simp only [Bool.and_eq_true, decide_eq_true_eq] at h
    obtain ⟨⟨h1, rfl⟩, h3⟩ := h
    obtain ⟨a, ha, hs⟩ := Option.bind_eq_some_iff.mp e
    have hm : n' * A ≤ n * A := Nat.mul_le_mul_right _ h1
    obtain ⟨k1, _, k3⟩ := flEval_same hB (A := A) (v := fun _ => x) (fun _ => hx) a n' 0 q' hs (by omega) (by omega)
    simp only [flText, ha]
    exact ⟨k1, sized_mono (by omega) (by omega) k3⟩
  · cases h

/-- What term `k` of the monomials computes in the arithmetic `g` (lemma-side). -/
def mphi (g : K → K) (k : Nat) : K → K := (monomialClass.computed (K := Flt g) 0).phi k
/-- Lemma-side. -/
def mdphi (g : K → K) (k : Nat) : K → K := (monomialClass.computed (K := Flt g) 0).dphi k
/-- Lemma-side. -/
def mddphi (g : K → K) (k : Nat) : K → K := (monomialClass.computed (K := Flt g) 0).ddphi k

/-- What the monomials of the machine compute at a moderate argument. -/
theorem mono_same (hB : IsBinary64 f) {k : Nat} (hk : k < 30) {x : K} (hx : Moderate A x) (hA : k * A + 10 ≤ 1022) :
    (mphi f k x = mphi r k x ∧ Sized (k * A + 10) (k * A + 10) (mphi r k x)) ∧
    (mdphi f k x = mdphi r k x ∧ Sized (k * A + 10) (k * A + 10) (mdphi r k x)) ∧
    (mddphi f k x = mddphi r k x ∧ Sized (k * A + 10) (k * A + 10) (mddphi r k x)) := by
  have h := List.all_eq_true.mp mono_sz k (List.mem_range.mpr hk)
  unfold termSz at h
  split at h
  · next t ht =>
    simp only [Bool.and_eq_true] at h
    have ht' : monomialClass.terms[k]? = some t := ht
    have m1 : (k - 1) * A ≤ k * A := Nat.mul_le_mul_right _ (by omega)
    have m2 : (k - 2) * A ≤ k * A := Nat.mul_le_mul_right _ (by omega)
    have e : ∀ g : K → K, mphi g k x = flText g t.f x ∧ mdphi g k x = flText g t.grad x ∧ mddphi g k x = flText g t.hess x := fun g => by
      refine ⟨?_, ?_, ?_⟩ <;> simp only [mphi, mdphi, mddphi, TermClass.computed, ht', Option.bind_some] <;> rfl
    obtain ⟨f1, f2, f3⟩ := e f
    obtain ⟨g1, g2, g3⟩ := e r
    rw [f1, f2, f3, g1, g2, g3]
    obtain ⟨a1, a2⟩ := flText_same hB h.1.1 hx (by omega)
    obtain ⟨b1, b2⟩ := flText_same hB h.1.2 hx (by omega)
    obtain ⟨c1, c2⟩ := flText_same hB h.2 hx (by omega)
    exact ⟨⟨a1, a2⟩, ⟨b1, sized_mono (by omega) (by omega) b2⟩, c1, sized_mono (by omega) (by omega) c2⟩
  · cases h

theorem mono_near (hB : IsBinary64 f) {k : Nat} (hk : k < 30) {x : K} (hx : Moderate A x) (hA : k * A + 10 ≤ 1022) :
    let u : K := (2 : K) ^ (-(53 : Int))
    |mphi f k x - x ^ k| ≤ ((1 + u) ^ k - 1) * |x ^ k| ∧
    |mdphi f k x - k * x ^ (k - 1)| ≤ ((1 + u) ^ k - 1) * |k * x ^ (k - 1)| ∧
    |mddphi f k x - k * (k - 1) * x ^ (k - 2)| ≤ ((1 + u) ^ k - 1) * |k * (k - 1) * x ^ (k - 2)| := by
  intro u
  obtain ⟨f1, f2, f3⟩ := computed_round R (K := K) (cls := monomialClass) mono_round 0 hk
  obtain ⟨⟨a1, _⟩, ⟨b1, _⟩, c1, _⟩ := mono_same hB hk hx hA
  rw [a1, b1, c1]
  refine ⟨?_, ?_, ?_⟩
  · have := f1.err x
    rw [f1.rel rfl, peval_monoC] at this; exact this
  · have := f2.err x
    rw [f2.rel rfl, peval_pdiff_mono] at this; exact this
  · have := f3.err x
    rw [f3.rel rfl, peval_pdiff2_mono] at this; exact this

theorem mono_at (hB : IsBinary64 f) {fs : List (Family K)} (hf : ∀ F ∈ fs, MonomialsIn f F) {N : Nat} (hN : ∀ F ∈ fs, F.size ≤ N + 1) {x : List K}
    (hx : x.length = fs.length) (hxm : ∀ y ∈ x, Moderate A y) (hA : fs.length * (N * A + 10) ≤ 1022) :
    ApproxAt fs (fs.map fun F => monomials K F.size) (fs.map fun F => monoErr ((2 : K) ^ (-(53 : Int))) F.size) x ∧
    BasisSized (N * A + 10) fs x := by
  have key : ∀ F ∈ fs, ∀ y ∈ x, ∀ k, k < F.size → k < 30 ∧ k * A ≤ N * A ∧ k * A + 10 ≤ 1022 ∧ F.phi k y = mphi f k y ∧ F.dphi k y = mdphi f k y ∧
      F.ddphi k y = mddphi f k y := by
    intro F hF y hy k hk
    obtain ⟨s, hs, h⟩ := hf F hF
    have hlen : s.val.length = F.size := by
      by_cases hn : F.size ≤ 30
      · obtain ⟨s1, e, _, g, _⟩ := make_rel (computed_denotes (K := Flt f) (cls := monomialClass) 0 mono_eval) hn
        rw [hs] at e; cases e
        exact g.vlen
      · rw [make_big (by omega)] at hs; cases hs
    obtain ⟨h30, h'⟩ := fl_terms mono_eval hs (calls := []) rfl (k := k) (by omega)
    obtain ⟨⟨s1, e1⟩, ⟨s2, e2⟩, ⟨s3, e3⟩⟩ := h' y
    obtain ⟨k1, k2, k3⟩ := h k hk y
    rw [e1] at k1; rw [e2] at k2; rw [e3] at k3
    have hm : k * A ≤ N * A := Nat.mul_le_mul_right _ (by have := hN F hF; omega)
    have h1 : 1 ≤ fs.length := List.length_pos_of_mem hF
    have h2 : N * A + 10 ≤ fs.length * (N * A + 10) := Nat.le_mul_of_pos_left _ h1
    exact ⟨h30, hm, by omega, (Except.ok.inj k1).symm, (Except.ok.inj k2).symm, (Except.ok.inj k3).symm⟩
  refine ⟨⟨by simp, by simp, hx, ?_⟩, ?_⟩
  · intro j F G E y h1 h2 h3 h4
    simp only [List.getElem?_map, h1, Option.map_some, Option.some.injEq] at h2 h3
    subst h2 h3
    refine ⟨rfl, fun k hk => ?_, fun k hk => ?_, fun k hk => ?_⟩ <;>
      obtain ⟨i1, _, i2, i3, i4, i5⟩ := key F (List.mem_of_getElem? h1) y (List.mem_of_getElem? h4) k hk <;>
      obtain ⟨j1, j2, j3⟩ := mono_near hB i1 (hxm y (List.mem_of_getElem? h4)) i2
    · rw [i3]; exact j1
    · rw [i4]; exact j2
    · rw [i5]; exact j3
  · intro j F y h1 h4 k hk
    obtain ⟨i1, i0, i2, i3, i4, i5⟩ := key F (List.mem_of_getElem? h1) y (List.mem_of_getElem? h4) k hk
    obtain ⟨⟨a1, a2⟩, ⟨b1, b2⟩, c1, c2⟩ := mono_same hB i1 (hxm y (List.mem_of_getElem? h4)) i2
    rw [i3, i4, i5, a1, b1, c1]
    exact ⟨sized_mono (by omega) (by omega) a2, sized_mono (by omega) (by omega) b2, sized_mono (by omega) (by omega) c2⟩

end B64

/-- **C134** A set of monomials on such a machine, after any history of calls: at an argument that is 0 or between `2^-A` and `2^A` in magnitude, with
`k A + 10 ≤ 1022`, the values computed for `x^k`, `k x^(k-1)` and `k(k-1) x^(k-2)` have a relative error of at most `(1+2^-53)^k - 1`. -/
theorem C134_monomials (hB : IsBinary64 f) (n : Nat) (s0 s : TermSet (Flt f)) (calls : List (BCall (Flt f)))
    (hmake : make monomialClass n = .ok s0) (hrun : s0.run calls = .ok s) (k : Nat) (hk : k < s.val.length) (x : K) (hx : Moderate A x)
    (hA : k * A + 10 ≤ 1022) :
    let u : K := (2 : K) ^ (-(53 : Int))
    (∃ (y : K) (s' : TermSet (Flt f)), s.evalTerm k x = .ok (y, s') ∧ |y - x ^ k| ≤ ((1 + u) ^ k - 1) * |x ^ k|) ∧
    (∃ (y : K) (s' : TermSet (Flt f)), s.gradTerm k x = .ok (y, s') ∧
      |y - k * x ^ (k - 1)| ≤ ((1 + u) ^ k - 1) * |k * x ^ (k - 1)|) ∧
    ∃ (y : K) (s' : TermSet (Flt f)), s.hessTerm k x = .ok (y, s') ∧
      |y - k * (k - 1) * x ^ (k - 2)| ≤ ((1 + u) ^ k - 1) * |k * (k - 1) * x ^ (k - 2)| := by
  obtain ⟨h30, h⟩ := fl_terms mono_eval hmake hrun hk
  obtain ⟨⟨s1, e1⟩, ⟨s2, e2⟩, ⟨s3, e3⟩⟩ := h x
  obtain ⟨k1, k2, k3⟩ := B64.mono_near hB h30 hx hA
  exact ⟨⟨_, s1, e1, k1⟩, ⟨_, s2, e2, k2⟩, ⟨_, s3, e3, k3⟩⟩

/-- **C134** A series over shipped sets of at most `N` monomials on such a machine, after any history of calls: with coefficients between `2^-V` and `2^V`
and arguments between `2^-A` and `2^A` (or 0), `f(x)` is the polynomial up to the bound of C119. For instance for three variables and cubic
polynomials, with `A = 70` and `V = 300`: between `1e-21` and `1e21`, and between `1e-90` and `1e90`. -/
theorem C134_polynomial_value (hB : IsBinary64 f) (fs : List (Family K)) (hf : ∀ F ∈ fs, MonomialsIn f F) {N : Nat} (hN : ∀ F ∈ fs, F.size ≤ N + 1)
    (hg : GoodDims (extents fs)) (s : Series K) (hs : Fl.Ser.Over f fs s) (c : List Int → K) (hc : s.Coeffs fs c)
    (hcm : ∀ t, InBox (extents fs) t → Moderate V (c t)) (x : List K) (hx : x.length = fs.length) (hxm : ∀ y ∈ x, Moderate A y)
    (hV : V + fs.length * (N * A + 10) ≤ 970) :
    ∃ y s', Fl.Ser.evalAt f s x = .ok (y, s') ∧ s'.get = .ok y ∧
      |y - series (fs.map fun F => monomials K F.size) (value fs.length) c x| ≤
        polynomialError ((2 : K) ^ (-(53 : Int))) (fs.map Family.size) (value fs.length) c x := by
  obtain ⟨ha, hb⟩ := B64.mono_at hB hf hN hx hxm (by omega)
  obtain ⟨y, s', h1, h2, _, h4⟩ := C134_value hB fs _ _ hg s hs c hc hcm x ha hb hV
  rw [List.length_map] at h4
  exact ⟨y, s', h1, h2, h4.trans (monoErr_bound B64.R.u_nonneg fs (by simp [value]) hx c)⟩

/-- **C134** The gradient. -/
theorem C134_polynomial_gradient (hB : IsBinary64 f) (fs : List (Family K)) (hf : ∀ F ∈ fs, MonomialsIn f F) {N : Nat}
    (hN : ∀ F ∈ fs, F.size ≤ N + 1) (hg : GoodDims (extents fs)) (s : Series K) (hs : Fl.Ser.Over f fs s) (c : List Int → K) (hc : s.Coeffs fs c)
    (hcm : ∀ t, InBox (extents fs) t → Moderate V (c t)) (x : List K) (hx : x.length = fs.length) (hxm : ∀ y ∈ x, Moderate A y)
    (hV : V + fs.length * (N * A + 10) ≤ 970) :
    ∃ s', Fl.Ser.evalGrad f s x = .ok s' ∧ ∀ di : Nat, di < fs.length → ∃ y, s'.getGrad di = .ok y ∧
      |y - series (fs.map fun F => monomials K F.size) (gradient fs.length di) c x| ≤
        polynomialError ((2 : K) ^ (-(53 : Int))) (fs.map Family.size) (gradient fs.length di) c x := by
  obtain ⟨ha, hb⟩ := B64.mono_at hB hf hN hx hxm (by omega)
  obtain ⟨s', h1, h2⟩ := C134_gradient hB fs _ _ hg s hs c hc hcm x ha hb hV
  rw [List.length_map] at h2
  refine ⟨s', h1, fun di hd => ?_⟩
  obtain ⟨y, h3, h4⟩ := h2 di hd
  exact ⟨y, h3, h4.trans (monoErr_bound B64.R.u_nonneg fs (by simp [gradient]) hx c)⟩

/-- **C134** The Hessian. -/
theorem C134_polynomial_hessian (hB : IsBinary64 f) (fs : List (Family K)) (hf : ∀ F ∈ fs, MonomialsIn f F) {N : Nat}
    (hN : ∀ F ∈ fs, F.size ≤ N + 1) (hg : GoodDims (extents fs)) (s : Series K) (hs : Fl.Ser.Over f fs s) (c : List Int → K) (hc : s.Coeffs fs c)
    (hcm : ∀ t, InBox (extents fs) t → Moderate V (c t)) (x : List K) (hx : x.length = fs.length) (hxm : ∀ y ∈ x, Moderate A y)
    (hV : V + fs.length * (N * A + 10) ≤ 970) :
    ∃ s', Fl.Ser.evalHess f s x = .ok s' ∧ ∀ di dj : Nat, di < fs.length → dj < fs.length → ∃ y, s'.getHess di dj = .ok y ∧
      |y - series (fs.map fun F => monomials K F.size) (hessian fs.length di dj) c x| ≤
        polynomialError ((2 : K) ^ (-(53 : Int))) (fs.map Family.size) (hessian fs.length di dj) c x := by
  obtain ⟨ha, hb⟩ := B64.mono_at hB hf hN hx hxm (by omega)
  obtain ⟨s', h1, h2⟩ := C134_hessian hB fs _ _ hg s hs c hc hcm x ha hb hV
  rw [List.length_map] at h2
  refine ⟨s', h1, fun di dj hd hd' => ?_⟩
  obtain ⟨y, h3, h4⟩ := h2 di dj hd hd'
  exact ⟨y, h3, h4.trans (monoErr_bound B64.R.u_nonneg fs (by simp [hessian]) hx c)⟩

theorem B64.objN_same (hB : IsBinary64 f) {t : ClassText} {a : Ast} (h : readCpp t.eval = some a) {v : List K} (hv : a.vars ≤ v.length)
    {r : Res (FOut (List (Flt f)) (Flt f))} (hr : r = ((t.objN : SObj (List (Flt f)) (Flt f)).evalFn v).map .num) {m : Nat} (hm : a.ops ≤ m) {e M : K}
    (he : a.eval (fun i => v.getD i 0) = e) (hM : a.mag.eval (fun i => |v.getD i 0|) = M) (hx : ∀ i, Moderate A (v.getD i 0)) (N P : Nat)
    (hs : (B64.sz a).any (fun t => decide (t.1 ≤ N ∧ t.2.1 ≤ P ∧ t.2.2 ≤ P)) = true) (h1 : N * A + P ≤ 1022) : Returns ((2 : K) ^ (-(53 : Int))) r m e M := by
  have e1 : (t.objN : SObj (List (Flt f)) (Flt f)).evalFn v = .ok (flEval (K := K) f (fun i => v.getD i 0) a) := by
    simp only [ClassText.objN, ClassText.obj, SObj.evalFn, h]
    exact if_pos hv
  refine ⟨flEval f (fun i => v.getD i 0) a, by rw [hr, e1]; rfl, ?_⟩
  obtain ⟨⟨n, p, q⟩, hs, hb⟩ : ∃ t, B64.sz a = some t ∧ decide (t.1 ≤ N ∧ t.2.1 ≤ P ∧ t.2.2 ≤ P) = true := by
    cases h : B64.sz a with
    | none => simp [h] at hs
    | some t => exact ⟨t, rfl, by simpa only [h, Option.any_some] using hs⟩
  have hb := of_decide_eq_true hb
  have hnA := Nat.mul_le_mul_right A hb.1
  simp only at hb hnA
  rw [(B64.flEval_same hB hx a n p q hs (by omega) (by omega)).1]
  have := (flEval_near B64.R (fun i => v.getD i 0) a).mono B64.R.u_nonneg hm
  rw [he, hM] at this
  exact this.err

local macro "ast_tac" : tactic => `(tactic| (simp only [Ast.eval, Ast.mag, List.getD_cons_zero, List.getD_cons_succ, abs_one, show |(2 : ℚ)| = 2 by norm_num,
  show |(3 : ℚ)| = 3 by norm_num, show |(6 : ℚ)| = 6 by norm_num]; push_cast; try ring))

/-- **C134** `Quadratic` on such a machine, after any history of calls, at an argument that is 0 or between `2^-459` and `2^459` in magnitude. -/
theorem C134_quadratic (hB : IsBinary64 f) (calls : List (FCall (List (Flt f)))) (hc : ∀ c ∈ calls, c.InRange 1) (x : K) (hA : A ≤ 459) (hx : Moderate A x) :
    let p : Flex (List (Flt f)) (Flt f) := (runCalls Flex.sem calls quadratic).2
    let v : List (Flt f) := [x]
    Returns ((2 : K) ^ (-(53 : Int))) (Flex.sem (.evalAt v) p).1 3 (x ^ 2 + x + 1) (|x| ^ 2 + |x| + 1) ∧
      Returns ((2 : K) ^ (-(53 : Int))) (Flex.sem (.gradAt v 0) p).1 3 (2 * x + 1) (2 * |x| + 1) ∧
      Returns ((2 : K) ^ (-(53 : Int))) (Flex.sem (.hessAt v 0 0) p).1 1 2 2 := by
  have hv : ∀ i, Moderate A ([x].getD i 0) := by
    intro i
    rcases i with _ | i
    · exact hx
    · exact ⟨B64.R.zero, Or.inl rfl⟩
  have h := C42_components _ _ _ _ _ (quadratic_make (K := Flt f)) calls hc [x]
  refine ⟨?_, ?_, ?_⟩
  · exact B64.objN_same hB (A := A) (t := Quadratic_f) (a := .add (.add (.var 0) (.mul (.var 0) (.var 0))) (.num 1)) (by decide +kernel) (v := [x])
      (by simp [Ast.vars]) (h .f trivial) (by decide) (by ast_tac) (by ast_tac) hv 2 104 (by decide +kernel) (by omega)
  · exact B64.objN_same hB (A := A) (t := Quadratic_grad_0) (a := .add (.mul (.num 2) (.var 0)) (.num 1)) (by decide +kernel) (v := [x]) (by simp [Ast.vars])
      (h (.g 0) (by simp [getter, FCall.InRange, quadratic])) (by decide) (by ast_tac) (by ast_tac) hv 2 104 (by decide +kernel) (by omega)
  · exact B64.objN_same hB (A := A) (t := Quadratic_hess_0_0) (a := .num 2) (by decide +kernel) (v := [x]) (by simp [Ast.vars])
      (h (.h 0 0) (by simp [getter, FCall.InRange, quadratic])) (by decide) (by ast_tac) (by ast_tac) hv 2 104 (by decide +kernel) (by omega)

/-- **C134** `MyFunc`, at arguments that are 0 or between `2^-288` and `2^288` in magnitude. -/
theorem C134_myfunc (hB : IsBinary64 f) (calls : List (FCall (List (Flt f)))) (hc : ∀ c ∈ calls, c.InRange 2) (x y : K) (hA : A ≤ 288) (hx : Moderate A x) (hy : Moderate A y) :
    let p : Flex (List (Flt f)) (Flt f) := (runCalls Flex.sem calls myFunc).2
    let v : List (Flt f) := [x, y]
    Returns ((2 : K) ^ (-(53 : Int))) (Flex.sem (.evalAt v) p).1 5 (x ^ 3 + x ^ 2 * y + x * y ^ 2 + y ^ 3)
        (|x| ^ 3 + |x| ^ 2 * |y| + |x| * |y| ^ 2 + |y| ^ 3) ∧
      Returns ((2 : K) ^ (-(53 : Int))) (Flex.sem (.gradAt v 0) p).1 5 (3 * x ^ 2 + 2 * x * y + y ^ 2) (3 * |x| ^ 2 + 2 * |x| * |y| + |y| ^ 2) ∧
      Returns ((2 : K) ^ (-(53 : Int))) (Flex.sem (.gradAt v 1) p).1 5 (x ^ 2 + 2 * x * y + 3 * y ^ 2) (|x| ^ 2 + 2 * |x| * |y| + 3 * |y| ^ 2) ∧
      Returns ((2 : K) ^ (-(53 : Int))) (Flex.sem (.hessAt v 0 0) p).1 3 (6 * x + 2 * y) (6 * |x| + 2 * |y|) ∧
      Returns ((2 : K) ^ (-(53 : Int))) (Flex.sem (.hessAt v 0 1) p).1 3 (2 * x + 2 * y) (2 * |x| + 2 * |y|) ∧
      Returns ((2 : K) ^ (-(53 : Int))) (Flex.sem (.hessAt v 1 0) p).1 3 (2 * x + 2 * y) (2 * |x| + 2 * |y|) ∧
      Returns ((2 : K) ^ (-(53 : Int))) (Flex.sem (.hessAt v 1 1) p).1 3 (2 * x + 6 * y) (2 * |x| + 6 * |y|) := by
  have hv : ∀ i, Moderate A ([x, y].getD i 0) := by
    intro i
    rcases i with _ | _ | i
    · exact hx
    · exact hy
    · exact ⟨B64.R.zero, Or.inl rfl⟩
  have h := C42_components _ _ _ _ _ (myFunc_make (K := Flt f)) calls hc [x, y]
  refine ⟨?_, ?_, ?_, ?_, ?_, ?_, ?_⟩
  · exact B64.objN_same hB (A := A) (t := MyFunc_f) (a := .add (.add (.add (.mul (.mul (.var 0) (.var 0)) (.var 1)) (.mul (.mul (.var 0) (.var 0)) (.var 0)))
      (.mul (.var 0) (.mul (.var 1) (.var 1)))) (.mul (.mul (.var 1) (.var 1)) (.var 1))) (by decide +kernel) (v := [x, y]) (by simp [Ast.vars])
      (h .f trivial) (by decide) (by ast_tac) (by ast_tac) hv 3 156 (by decide +kernel) (by omega)
  · exact B64.objN_same hB (A := A) (t := MyFunc_grad_0) (a := .add (.add (.mul (.mul (.num 2) (.var 1)) (.var 0)) (.mul (.num 3) (.mul (.var 0) (.var 0))))
      (.mul (.var 1) (.var 1))) (by decide +kernel) (v := [x, y]) (by simp [Ast.vars])
      (h (.g 0) (by simp [getter, FCall.InRange, myFunc])) (by decide) (by ast_tac) (by ast_tac) hv 3 156 (by decide +kernel) (by omega)
  · exact B64.objN_same hB (A := A) (t := MyFunc_grad_1) (a := .add (.add (.mul (.num 3) (.mul (.var 1) (.var 1))) (.mul (.mul (.num 2) (.var 1)) (.var 0)))
      (.mul (.var 0) (.var 0))) (by decide +kernel) (v := [x, y]) (by simp [Ast.vars])
      (h (.g 1) (by simp [getter, FCall.InRange, myFunc])) (by decide) (by ast_tac) (by ast_tac) hv 3 156 (by decide +kernel) (by omega)
  · exact B64.objN_same hB (A := A) (t := MyFunc_hess_0_0) (a := .add (.mul (.num 6) (.var 0)) (.mul (.num 2) (.var 1))) (by decide +kernel) (v := [x, y]) (by simp [Ast.vars])
      (h (.h 0 0) (by simp [getter, FCall.InRange, myFunc])) (by decide) (by ast_tac) (by ast_tac) hv 3 156 (by decide +kernel) (by omega)
  · exact B64.objN_same hB (A := A) (t := MyFunc_hess_0_1) (a := .add (.mul (.num 2) (.var 0)) (.mul (.num 2) (.var 1))) (by decide +kernel) (v := [x, y]) (by simp [Ast.vars])
      (h (.h 0 1) (by simp [getter, FCall.InRange, myFunc])) (by decide) (by ast_tac) (by ast_tac) hv 3 156 (by decide +kernel) (by omega)
  · exact B64.objN_same hB (A := A) (t := MyFunc_hess_1_0) (a := .add (.mul (.num 2) (.var 1)) (.mul (.num 2) (.var 0))) (by decide +kernel) (v := [x, y]) (by simp [Ast.vars])
      (h (.h 1 0) (by simp [getter, FCall.InRange, myFunc])) (by decide) (by ast_tac) (by ast_tac) hv 3 156 (by decide +kernel) (by omega)
  · exact B64.objN_same hB (A := A) (t := MyFunc_hess_1_1) (a := .add (.mul (.num 2) (.var 0)) (.mul (.num 6) (.var 1))) (by decide +kernel) (v := [x, y]) (by simp [Ast.vars])
      (h (.h 1 1) (by simp [getter, FCall.InRange, myFunc])) (by decide) (by ast_tac) (by ast_tac) hv 3 156 (by decide +kernel) (by omega)

end

/-! ## Non-vacuity -/

namespace FlMono64

/-- Doubles with gradual underflow. -/
abbrev g64 : ℚ → ℚ := gradual

theorem isB : IsBinary64 g64 := B64.gradual_isBinary64

instance (x : ℚ) (V : Nat) : Decidable (Moderate V x) := inferInstanceAs (Decidable (nearestEven 53 x = x ∧ (x = 0 ∨ _)))

/-- Monomials as the shipped set computes them. -/
def comp (n : Nat) : Family ℚ := monomialClass.computed (K := Flt g64) n

def fs : List (Family ℚ) := [comp 2, comp 3]

theorem shipped (n : Nat) (hn : n ≤ 30) : MonomialsIn g64 (comp n) := by
  obtain ⟨s, e, _, g, _⟩ := make_rel (computed_denotes (K := Flt g64) (cls := monomialClass) n mono_eval) hn
  refine ⟨s, e, fun k hk x => ?_⟩
  obtain ⟨⟨s1, h1⟩, ⟨s2, h2⟩, ⟨s3, h3⟩⟩ := terms_good g (k := k) (by rw [g.vlen]; exact hk) x
  rw [h1, h2, h3]
  exact ⟨rfl, rfl, rfl⟩

theorem all_shipped : ∀ F ∈ fs, MonomialsIn g64 F := by
  intro F hF
  simp only [fs, List.mem_cons, List.not_mem_nil, or_false] at hF
  rcases hF with rfl | rfl
  · exact shipped 2 (by omega)
  · exact shipped 3 (by omega)

theorem good : GoodDims (extents fs) := by
  rw [show extents fs = [2, 3] from rfl]
  exact ⟨by simp, by simp, by simp [Spec.prod]⟩

/-- The state after `set`. -/
def ser0 : Series ℚ :=
  ⟨⟨[2, 3], [3, 1], [0, 0, 0, 0, 0, 0], 2, 6⟩, 1, 0, [some (Demo.newBasis (comp 2)), some (Demo.newBasis (comp 3))], some 0, [0, 0],
    [[0, 0], [0, 0]]⟩

/-- The state after `coeff()([1,2]) = 0.3`. -/
def ser : Series ℚ :=
  ⟨⟨[2, 3], [3, 1], [0, 0, 0, 0, 0, r64 (3 / 10)], 2, 6⟩, 1, 0, [some (Demo.newBasis (comp 2)), some (Demo.newBasis (comp 3))], some 0, [0, 0],
    [[0, 0], [0, 0]]⟩

theorem ser0_set : (Series.make 0 1).set [some (Demo.newBasis (comp 2)), some (Demo.newBasis (comp 3))] = .ok ser0 := by
  have h := NDArray.resize_good (0 : ℚ) (NDArray.clear NDArray.empty) good
  have hs : Series.sizes [some (Demo.newBasis (comp 2)), some (Demo.newBasis (comp 3))] = .ok (extents fs) := rfl
  have hs' : Series.copyBases [some (Demo.newBasis (comp 2)), some (Demo.newBasis (comp 3))] =
    .ok [some (Demo.newBasis (comp 2)), some (Demo.newBasis (comp 3))] := rfl
  simp only [Series.set, hs, hs', ok_bind, Series.make, Series.clear, h]
  rfl

theorem over : Fl.Ser.Over g64 fs ser := by
  refine ⟨Series.make 0 1, _, [some (Demo.newBasis (comp 2)), some (Demo.newBasis (comp 3))], [.setCoeff [1, 2] (r64 (3 / 10))], rfl, rfl, ?_,
    ser0_set, ?_, ?_⟩
  · exact .cons ⟨_, rfl, 2, [], rfl, rfl⟩ (.cons ⟨_, rfl, 3, [], rfl, rfl⟩ .nil)
  · simp [SerOp.KeepsBasis]
  · rfl

def c : List Int → ℚ := fun t => if t = [1, 2] then r64 (3 / 10) else 0

theorem coeffs : ser.Coeffs fs c := by
  intro t ht
  match t, ht with
  | [a, b], ht =>
    obtain ⟨⟨h1, h2⟩, ⟨h3, h4⟩, _⟩ := ht
    simp only [comp, TermClass.computed, Nat.cast_ofNat] at h2 h4
    obtain rfl | rfl : a = 0 ∨ a = 1 := by omega
    all_goals obtain rfl | rfl | rfl : b = 0 ∨ b = 1 ∨ b = 2 := by omega
    all_goals rfl

theorem moderate (t : List Int) : Moderate 300 (c t) := by
  unfold c
  split
  · decide +kernel
  · exact ⟨B64.R.zero, Or.inl rfl⟩

/-- A big and a small argument. -/
def x : List ℚ := [r64 (10 ^ 20 / 3), r64 (1 / (7 * 10 ^ 20))]

end FlMono64

open FlMono64 in
/-- At `(3.3e19, 1.4e-21)` the value computed is that of `0.3 x y^2`, about `2e-23`, within `1e-37`. -/
example : ∃ y s', Fl.Ser.evalAt g64 ser x = .ok (y, s') ∧ |y - r64 (3 / 10) * r64 (10 ^ 20 / 3) * r64 (1 / (7 * 10 ^ 20)) ^ 2| ≤ 1 / 10 ^ 37 := by
  obtain ⟨y, s', h1, _, h4⟩ := C134_polynomial_value (V := 300) (A := 70) isB fs all_shipped (N := 2) (by decide) good ser over c coeffs
    (fun t _ => moderate t) x rfl (by decide +kernel) (by decide)
  refine ⟨y, s', h1, ?_⟩
  have e1 : series (fs.map fun F => monomials ℚ F.size) (value fs.length) c x = r64 (3 / 10) * r64 (10 ^ 20 / 3) * r64 (1 / (7 * 10 ^ 20)) ^ 2 := by
    decide +kernel
  have e2 : polynomialError (2 ^ (-53 : Int)) (fs.map Family.size) (value fs.length) c x ≤ 1 / 10 ^ 37 := by decide +kernel
  rw [e1] at h4
  exact h4.trans e2

open FlMono64 in
/-- The hypotheses of `C134_same`, `C134_value`, `C134_gradient` and `C134_hessian`. -/
example : ApproxAt fs (fs.map fun F => monomials ℚ F.size) (fs.map fun F => monoErr ((2 : ℚ) ^ (-(53 : Int))) F.size) x ∧
    BasisSized 150 fs x ∧ 300 + fs.length * 150 ≤ 970 := by
  obtain ⟨h1, h2⟩ := B64.mono_at (A := 70) isB (fs := fs) all_shipped (N := 2) (by decide) (x := x) rfl (by decide +kernel) (by decide)
  exact ⟨h1, h2, by decide⟩

open FlMono64 in
/-- Sets of 30 doubles: all of them are accurate between `2^-34` and `2^34`; at `2^-600` the square is 0. -/
example : (∃ s0 : TermSet (Flt g64), make monomialClass 30 = .ok s0 ∧ s0.val.length = 30 ∧ s0.run [] = .ok s0) ∧ Moderate 34 (r64 (1 / 10)) ∧
    29 * 34 + 10 ≤ 1022 ∧ B64.mphi g64 2 (1 / 2 ^ 600) = 0 := by
  refine ⟨?_, by decide +kernel, by decide, by decide +kernel⟩
  obtain ⟨s0, e, _, g, _⟩ := make_rel (computed_denotes (K := Flt g64) (cls := monomialClass) 0 mono_eval) (n := 30) (by omega)
  exact ⟨s0, e, g.vlen, rfl⟩

open FlMono64 in
/-- Arguments of `Quadratic` and `MyFunc`. -/
example : Moderate 459 (r64 (1 / 10 ^ 100)) ∧ Moderate 288 (r64 (10 ^ 80)) ∧ Moderate 288 (r64 (-1 / 10)) ∧
    (∀ c ∈ ([.evalAt [2, 1], .gradAt [3, 1] 1, .hessAt [1, 0] 0 1, .get] : List (FCall (List ℚ))), c.InRange 2) := by
  refine ⟨by decide +kernel, by decide +kernel, by decide +kernel, ?_⟩
  simp [FCall.InRange]

end Verif
