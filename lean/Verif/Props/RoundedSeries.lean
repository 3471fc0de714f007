import Verif.Lemmas.RoundedSeries
import Verif.Lemmas.RoundedSeriesId
import Verif.Props.Series

/-!
# Property C102: series in floating-point arithmetic

The theorems hold for every rounding with unit roundoff `u`, IEEE round-to-nearest-even (`nearestEven 53` for binary64, `u = 2^-53`) among
them, and for basis functions that are themselves computed with errors. The specification is `Spec/RoundedSeries.lean`.
-/

namespace Verif
open Spec NDArray
section
variable {K : Type} [Field K] [LinearOrder K] [FloorRing K]

/-- `s` is a series created with zero 0 and identity 1 on which `set` was called with basis sets that compute `fs`, in any earlier state `s0`,
and then any calls that do not replace the basis sets, in floating-point arithmetic. -/
def Fl.Ser.Over (rnd : K → K) (fs : List (Family K)) (s : Series K) : Prop :=
  ∃ (s0 s1 : Series K) (bs : List (Option (BasisSet K))) (ops : List (SerOp K)),
    s0.zeroVal = 0 ∧ s0.identityVal = 1 ∧ List.Forall₂ BasisSet.HandleOf fs bs ∧ s0.set bs = .ok s1 ∧
    (∀ op ∈ ops, op.KeepsBasis) ∧ Fl.Ser.run rnd ops s1 = .ok s

variable {rnd : K → K} {u : K}

theorem Fl.Ser.Over.wf {fs : List (Family K)} {s : Series K} (h : Fl.Ser.Over rnd fs s) (hg : GoodDims (extents fs)) :
    Series.WF 0 1 fs s := by
  obtain ⟨s0, s1, bs, ops, h0, h1, hb, hs, hk, hr⟩ := h
  obtain ⟨s1', e1, e2, _⟩ := Series.set_wf s0 (holdsFam_of hb) hg
  rw [hs] at e1; cases e1
  rw [h0, h1] at e2
  exact (Fl.Ser.run_keeps ops hk e2 hr).1

variable [IsStrictOrderedRing K]

/-- **C102** `f(x)` is the series up to the error bound, and the getter returns the same number afterwards; the coefficients are not changed. -/
theorem C102_value (R : Rounding rnd u) (fs gs es : List (Family K)) (hg : GoodDims (extents fs)) (s : Series K) (hs : Fl.Ser.Over rnd fs s)
    (c : List Int → K) (hc : s.Coeffs fs c) (x : List K) (ha : ApproxAt fs gs es x) :
    ∃ y s', Fl.Ser.evalAt rnd s x = .ok (y, s') ∧ s'.get = .ok y ∧ s'.Coeffs fs c ∧
      |y - series gs (value gs.length) c x| ≤ seriesError u gs es (value gs.length) c x := by
  obtain ⟨y, s', h1, h2, h3, _, h5, _⟩ := Fl.Ser.evalAt_near R (hs.wf hg) ha hc
  rw [ha.1]
  exact ⟨y, s', h1, h2, h5, h3⟩

/-- **C102** After `eval_grad(x)`, `grad(di)` is the sum with the basis functions of direction `di` differentiated once, up to the error
bound. -/
theorem C102_gradient (R : Rounding rnd u) (fs gs es : List (Family K)) (hg : GoodDims (extents fs)) (s : Series K)
    (hs : Fl.Ser.Over rnd fs s) (c : List Int → K) (hc : s.Coeffs fs c) (x : List K) (ha : ApproxAt fs gs es x) :
    ∃ s', Fl.Ser.evalGrad rnd s x = .ok s' ∧ ∀ di : Nat, di < gs.length → ∃ y, s'.getGrad di = .ok y ∧
      |y - series gs (gradient gs.length di) c x| ≤ seriesError u gs es (gradient gs.length di) c x := by
  rw [ha.1]
  exact Fl.Ser.evalGrad_near R (hs.wf hg) ha hc

/-- **C102** After `eval_hess(x)`, `hess(di,dj)` is the sum with the basis functions of directions `di` and `dj` differentiated, up to the error
bound. -/
theorem C102_hessian (R : Rounding rnd u) (fs gs es : List (Family K)) (hg : GoodDims (extents fs)) (s : Series K)
    (hs : Fl.Ser.Over rnd fs s) (c : List Int → K) (hc : s.Coeffs fs c) (x : List K) (ha : ApproxAt fs gs es x) :
    ∃ s', Fl.Ser.evalHess rnd s x = .ok s' ∧ ∀ di dj : Nat, di < gs.length → dj < gs.length → ∃ y, s'.getHess di dj = .ok y ∧
      |y - series gs (hessian gs.length di dj) c x| ≤ seriesError u gs es (hessian gs.length di dj) c x := by
  rw [ha.1]
  exact Fl.Ser.evalHess_near R (hs.wf hg) ha hc

omit [FloorRing K] in
theorem widen_noError (gs es : List (Family K)) (hl : es.length = gs.length) (he : ∀ E ∈ es, E = Family.noError) :
    List.zipWith Family.widen gs es = gs.map Family.abs := by
  induction gs generalizing es with
  | nil => simp
  | cons G gs ih =>
    match es, hl, he with
    | E :: es, hl, he =>
      simp only [List.zipWith_cons_cons, List.map_cons]
      rw [ih es (by simpa using hl) (fun E hE => he E (by simp [hE])), he E (by simp)]
      simp [Family.widen, Family.abs, Family.noError]

omit [FloorRing K] in
/-- **C102** The error bound when the basis functions have no errors: `(1+u)^n - 1` times the sum of the absolute values of the terms, where `n`
is the number of coefficients plus the number of variables; if `n*u ≤ 1/2` this is at most `2*n*u` times that sum. -/
theorem C102_bound (R : Rounding rnd u) (gs es : List (Family K)) (hl : es.length = gs.length) (he : ∀ E ∈ es, E = Family.noError)
    (m : List Nat) (c : List Int → K) (x : List K) :
    seriesError u gs es m c x = ((1 + u) ^ roundings gs - 1) * series (gs.map Family.abs) m (fun t => |c t|) x ∧
    (roundings gs * u ≤ 1 / 2 → seriesError u gs es m c x ≤ 2 * roundings gs * u * series (gs.map Family.abs) m (fun t => |c t|) x) := by
  have h1 : seriesError u gs es m c x = ((1 + u) ^ roundings gs - 1) * series (gs.map Family.abs) m (fun t => |c t|) x := by
    rw [seriesError, widen_noError gs es hl he]; ring
  refine ⟨h1, fun hn => ?_⟩
  rw [h1]
  have hu := Fl.Ser.u_nonneg R
  refine mul_le_mul_of_nonneg_right ?_ (Fl.Ser.series_abs_nonneg gs m c x)
  exact Fl.Ser.pow_sub_one_le hu hn

/-- **C102** `basis(t,x)`, `basis_grad(t,x,di)` and `basis_hess(t,x,di,dj)` are the products of basis functions, up to the error bound. -/
theorem C102_products (R : Rounding rnd u) (fs gs es : List (Family K)) (hg : GoodDims (extents fs)) (s : Series K) (hs : Fl.Ser.Over rnd fs s)
    (t : List Int) (ht : InBox (extents fs) t) (x : List K) (ha : ApproxAt fs gs es x) :
    (∃ y s', Fl.Ser.basisProd rnd Series.evVal s t x = .ok (y, s') ∧
      |y - tensorBasis gs (value gs.length) t x| ≤ productError u gs es (value gs.length) t x) ∧
    (∀ di : Nat, ∃ y s', Fl.Ser.basisProd rnd (Series.evGrad di) s t x = .ok (y, s') ∧
      |y - tensorBasis gs (gradient gs.length di) t x| ≤ productError u gs es (gradient gs.length di) t x) ∧
    ∀ di dj : Nat, ∃ y s', Fl.Ser.basisProd rnd (Series.evHess di dj) s t x = .ok (y, s') ∧
      |y - tensorBasis gs (hessian gs.length di dj) t x| ≤ productError u gs es (hessian gs.length di dj) t x := by
  have hw := hs.wf hg
  have e : ∀ a b : Nat, ((a : Int) = (b : Int)) ↔ a = b := by intro a b; omega
  rw [ha.1]
  refine ⟨?_, fun di => ?_, fun di dj => ?_⟩
  · exact Fl.Ser.basisProd_near R hw ha (m := value fs.length) (by simp [value])
      (ev := Series.evVal) (fun j o ho => ⟨.v, rfl, (get_value ho).symm⟩) ht
  · exact Fl.Ser.basisProd_near R hw ha (m := gradient fs.length di) (by simp [gradient])
      (ev := Series.evGrad di) (fun j o ho => ⟨_, Series.evGrad_kind _ _, by
        have := Series.get_range_map ho
        subst this
        by_cases hj : j = di <;> simp [hj, e, Series.ordOf]⟩) ht
  · exact Fl.Ser.basisProd_near R hw ha (m := hessian fs.length di dj) (by simp [hessian])
      (ev := Series.evHess di dj) (fun j o ho => ⟨_, Series.evHess_kind _ _ _, by
        have := Series.get_range_map ho
        subst this
        simp only [e]
        by_cases hj : j = di <;> by_cases hk : j = dj
        · rw [if_pos (Or.inl hj), if_pos (by omega), if_pos hj, if_pos hk]; rfl
        · rw [if_pos (Or.inl hj), if_neg (by omega), if_pos hj, if_neg hk]; rfl
        · rw [if_pos (Or.inr hk), if_neg (by omega), if_neg hj, if_pos hk]; rfl
        · rw [if_neg (by omega), if_neg hj, if_neg hk]; rfl⟩) ht

/-- **C102** The getters of products, after `eval_basis(x)`, `eval_basis_grad(x)`, `eval_basis_hess(x)`. -/
theorem C102_product_getters (R : Rounding rnd u) (fs gs es : List (Family K)) (hg : GoodDims (extents fs)) (s : Series K)
    (hs : Fl.Ser.Over rnd fs s) (x : List K) (ha : ApproxAt fs gs es x) :
    ∃ s', Fl.Ser.run rnd [.basisAll .v x, .basisAll .g x, .basisAll .h x] s = .ok s' ∧ ∀ t, InBox (extents fs) t →
      (∃ y, Fl.Ser.basisGet rnd Series.facVal s' t = .ok y ∧
        |y - tensorBasis gs (value gs.length) t x| ≤ productError u gs es (value gs.length) t x) ∧
      (∀ di : Nat, ∃ y, Fl.Ser.basisGet rnd (Series.facGrad di) s' t = .ok y ∧
        |y - tensorBasis gs (gradient gs.length di) t x| ≤ productError u gs es (gradient gs.length di) t x) ∧
      ∀ di dj : Nat, ∃ y, Fl.Ser.basisGet rnd (Series.facHess di dj) s' t = .ok y ∧
        |y - tensorBasis gs (hessian gs.length di dj) t x| ≤ productError u gs es (hessian gs.length di dj) t x := by
  have hx : fs.length ≤ x.length := by rw [ha.2.2.1]
  obtain ⟨s1, h1, h2, h3, h4⟩ := Series.evalBasis_of (hs.wf hg) hx (Series.evald_none fs x s)
  obtain ⟨s2, k1, k2, k3, k4⟩ := Series.evalBasisGrad_of h2 hx h4
  obtain ⟨s3, l1, l2, l3, l4⟩ := Series.evalBasisHess_of k2 hx k4
  rw [ha.1]
  refine ⟨s3, by simp [Fl.Ser.run, Fl.Ser.step, Series.step, Series.basisAll, h1, k1, l1], fun t ht => ⟨?_, fun di => ?_, fun di dj => ?_⟩⟩
  · exact Fl.Ser.basisGet_near R l2 ha (m := value fs.length) (by simp [value]) (Series.reads_val l4) ht
  · exact Fl.Ser.basisGet_near R l2 ha (m := gradient fs.length di) (by simp [gradient]) (Series.reads_grad di l4) ht
  · exact Fl.Ser.basisGet_near R l2 ha (m := hessian fs.length di dj) (by simp [hessian]) (Series.reads_hess di dj l4) ht

end

/-! ### Non-vacuity: `f(x,y) = 0.3 x y^2` in binary64, the monomials computed and rounded -/

namespace FlSer

/-- Round to nearest even, 53 binary digits. -/
abbrev r : ℚ → ℚ := nearestEven 53

/-- `2^-53`. -/
abbrev u : ℚ := (2 : ℚ) ^ (-53 : Int)

theorem rounding : Rounding r u := nearestEven_rounding (by norm_num)

/-- Monomials, rounded. -/
def comp (n : Nat) : Family ℚ :=
  ⟨n, fun k x => r (x ^ k), fun k x => r (k * x ^ (k - 1)), fun k x => r (k * (k - 1 : Nat) * x ^ (k - 2))⟩

/-- Their errors. -/
def errs (n : Nat) : Family ℚ :=
  ⟨n, fun k x => u * |x ^ k|, fun k x => u * |k * x ^ (k - 1)|, fun k x => u * |k * (k - 1 : Nat) * x ^ (k - 2)|⟩

def fs : List (Family ℚ) := [comp 2, comp 3]
def gs : List (Family ℚ) := [Demo.mono ℚ 2, Demo.mono ℚ 3]
def es : List (Family ℚ) := [errs 2, errs 3]

theorem approx (n : Nat) (x : ℚ) : (comp n).Approx (Demo.mono ℚ n) (errs n) x :=
  ⟨rfl, fun _ _ => rounding.err _, fun _ _ => rounding.err _, fun _ _ => rounding.err _⟩

theorem approxAt (x y : ℚ) : ApproxAt fs gs es [x, y] := by
  refine ⟨rfl, rfl, rfl, ?_⟩
  intro j F G E z h1 h2 h3 h4
  match j with
  | 0 => cases h1; cases h2; cases h3; cases h4; exact approx 2 _
  | 1 => cases h1; cases h2; cases h3; cases h4; exact approx 3 _
  | j + 2 => simp [fs] at h1

theorem good : GoodDims (extents fs) := by
  refine ⟨by simp [extents, fs], ?_, ?_⟩
  · simp [extents, fs, comp]
  · simp [extents, fs, comp, prod]

/-- The state after `set`. -/
def ser0 : Series ℚ :=
  ⟨⟨[2, 3], [3, 1], [0, 0, 0, 0, 0, 0], 2, 6⟩, 1, 0, [some (Demo.newBasis (comp 2)), some (Demo.newBasis (comp 3))], some 0, [0, 0],
    [[0, 0], [0, 0]]⟩

/-- The state after `coeff()([1,2]) = 0.3`. -/
def ser : Series ℚ :=
  ⟨⟨[2, 3], [3, 1], [0, 0, 0, 0, 0, r (3 / 10)], 2, 6⟩, 1, 0, [some (Demo.newBasis (comp 2)), some (Demo.newBasis (comp 3))], some 0, [0, 0],
    [[0, 0], [0, 0]]⟩

theorem ser0_set : (Series.make 0 1).set [some (Demo.newBasis (comp 2)), some (Demo.newBasis (comp 3))] = .ok ser0 := by
  have h := resize_good (0 : ℚ) (NDArray.clear NDArray.empty) good
  have hs : Series.sizes [some (Demo.newBasis (comp 2)), some (Demo.newBasis (comp 3))] = .ok (extents fs) := rfl
  have hs' : Series.copyBases [some (Demo.newBasis (comp 2)), some (Demo.newBasis (comp 3))] =
    .ok [some (Demo.newBasis (comp 2)), some (Demo.newBasis (comp 3))] := rfl
  simp only [Series.set, hs, hs', ok_bind, Series.make, Series.clear, h]
  rfl

theorem over : Fl.Ser.Over r fs ser := by
  refine ⟨Series.make 0 1, _, [some (Demo.newBasis (comp 2)), some (Demo.newBasis (comp 3))], [.setCoeff [1, 2] (r (3 / 10))], rfl, rfl, ?_,
    ser0_set, ?_, ?_⟩
  · exact .cons ⟨_, rfl, 2, [], rfl, rfl⟩ (.cons ⟨_, rfl, 3, [], rfl, rfl⟩ .nil)
  · simp [SerOp.KeepsBasis]
  · rfl

theorem coeffs : ser.Coeffs fs (fun t => if t = [1, 2] then r (3 / 10) else 0) := by
  intro t ht
  match t, ht with
  | [a, b], ht =>
    obtain ⟨⟨h1, h2⟩, ⟨h3, h4⟩, _⟩ := ht
    simp only [comp, Nat.cast_ofNat] at h2 h4
    obtain rfl | rfl : a = 0 ∨ a = 1 := by omega
    all_goals obtain rfl | rfl | rfl : b = 0 ∨ b = 1 ∨ b = 2 := by omega
    all_goals rfl

end FlSer

/-- At `(1/10, 7/10)` (as doubles) the value computed is within `2e-17` of `0.3 x y^2`, which is about 0.0147. -/
example : ∃ y s', Fl.Ser.evalAt FlSer.r FlSer.ser [FlSer.r (1 / 10), FlSer.r (7 / 10)] = .ok (y, s') ∧
    |y - FlSer.r (3 / 10) * FlSer.r (1 / 10) * FlSer.r (7 / 10) ^ 2| ≤ 2 / 10 ^ 17 := by
  obtain ⟨y, s', h1, _, _, h4⟩ := C102_value FlSer.rounding FlSer.fs FlSer.gs FlSer.es FlSer.good FlSer.ser FlSer.over _ FlSer.coeffs _
    (FlSer.approxAt (FlSer.r (1 / 10)) (FlSer.r (7 / 10)))
  refine ⟨y, s', h1, ?_⟩
  have e1 : series FlSer.gs (value FlSer.gs.length) (fun t => if t = [1, 2] then FlSer.r (3 / 10) else 0) [FlSer.r (1 / 10), FlSer.r (7 / 10)] =
    FlSer.r (3 / 10) * FlSer.r (1 / 10) * FlSer.r (7 / 10) ^ 2 := by decide +kernel
  have e2 : seriesError FlSer.u FlSer.gs FlSer.es (value FlSer.gs.length) (fun t => if t = [1, 2] then FlSer.r (3 / 10) else 0)
    [FlSer.r (1 / 10), FlSer.r (7 / 10)] ≤ 2 / 10 ^ 17 := by decide +kernel
  rw [e1] at h4
  exact h4.trans e2

/-- The derivatives: `grad(0)` there is within `2e-16` of `0.3 y^2`, and `hess(0,1)` within `5e-16` of `0.6 y`. -/
example : (∃ s' y, Fl.Ser.evalGrad FlSer.r FlSer.ser [FlSer.r (1 / 10), FlSer.r (7 / 10)] = .ok s' ∧ s'.getGrad 0 = .ok y ∧
      |y - FlSer.r (3 / 10) * FlSer.r (7 / 10) ^ 2| ≤ 2 / 10 ^ 16) ∧
    ∃ s' y, Fl.Ser.evalHess FlSer.r FlSer.ser [FlSer.r (1 / 10), FlSer.r (7 / 10)] = .ok s' ∧ s'.getHess 0 1 = .ok y ∧
      |y - FlSer.r (3 / 10) * 2 * FlSer.r (7 / 10)| ≤ 5 / 10 ^ 16 := by
  have ha := FlSer.approxAt (FlSer.r (1 / 10)) (FlSer.r (7 / 10))
  obtain ⟨s1, h1, h2⟩ := C102_gradient FlSer.rounding FlSer.fs FlSer.gs FlSer.es FlSer.good FlSer.ser FlSer.over _ FlSer.coeffs _ ha
  obtain ⟨s2, k1, k2⟩ := C102_hessian FlSer.rounding FlSer.fs FlSer.gs FlSer.es FlSer.good FlSer.ser FlSer.over _ FlSer.coeffs _ ha
  obtain ⟨y, y1, y2⟩ := h2 0 (by decide)
  obtain ⟨z, z1, z2⟩ := k2 0 1 (by decide) (by decide)
  refine ⟨⟨s1, y, h1, y1, ?_⟩, s2, z, k1, z1, ?_⟩
  · have e1 : series FlSer.gs (gradient FlSer.gs.length 0) (fun t => if t = [1, 2] then FlSer.r (3 / 10) else 0)
      [FlSer.r (1 / 10), FlSer.r (7 / 10)] = FlSer.r (3 / 10) * FlSer.r (7 / 10) ^ 2 := by decide +kernel
    have e2 : seriesError FlSer.u FlSer.gs FlSer.es (gradient FlSer.gs.length 0) (fun t => if t = [1, 2] then FlSer.r (3 / 10) else 0)
      [FlSer.r (1 / 10), FlSer.r (7 / 10)] ≤ 2 / 10 ^ 16 := by decide +kernel
    rw [e1] at y2
    exact y2.trans e2
  · have e1 : series FlSer.gs (hessian FlSer.gs.length 0 1) (fun t => if t = [1, 2] then FlSer.r (3 / 10) else 0)
      [FlSer.r (1 / 10), FlSer.r (7 / 10)] = FlSer.r (3 / 10) * 2 * FlSer.r (7 / 10) := by decide +kernel
    have e2 : seriesError FlSer.u FlSer.gs FlSer.es (hessian FlSer.gs.length 0 1) (fun t => if t = [1, 2] then FlSer.r (3 / 10) else 0)
      [FlSer.r (1 / 10), FlSer.r (7 / 10)] ≤ 5 / 10 ^ 16 := by decide +kernel
    rw [e1] at z2
    exact z2.trans e2

/-- The value is not exact: rounding shows. -/
example : (Fl.Ser.evalAt FlSer.r FlSer.ser [FlSer.r (1 / 10), FlSer.r (7 / 10)]).map Prod.fst ≠
    .ok (FlSer.r (3 / 10) * FlSer.r (1 / 10) * FlSer.r (7 / 10) ^ 2) := by decide +kernel

end Verif
