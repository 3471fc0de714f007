import Verif.Lemmas.SeriesDeriv
import Mathlib.Algebra.Order.Ring.Rat
import Mathlib.Data.Rat.Floor
import Mathlib.Analysis.Calculus.Deriv.Pow
import Mathlib.Tactic.NormNum

/-!
# Basis sets and series (C45-C54, C73)
-/

namespace Verif
open Spec NDArray IStream

section
variable {K : Type} [Field K] [LinearOrder K] [FloorRing K]

/-- `b` is a basis set with the functions of `F`, created with any size and used in any way, whose size is now `F.size`. -/
def BasisSet.Of (F : Family K) (b : BasisSet K) : Prop :=
  ∃ n cs, BasisSet.run 0 cs (BasisSet.make 0 n (some F.phi) (some F.dphi) (some F.ddphi)) = .ok b ∧ b.size = F.size

/-- The handle holds such a basis set. -/
def BasisSet.HandleOf (F : Family K) (h : Option (BasisSet K)) : Prop := ∃ b, h = some b ∧ b.Of F

/-- The extents of the coefficient array. -/
def extents (fs : List (Family K)) : List Int := fs.map fun F => (F.size : Int)

/-- `s` is a series created with zero 0 and identity 1 on which `set` was called with basis sets for `fs`, in any earlier state `s0`, and
then any calls that do not replace the basis sets. -/
def Series.Over (fs : List (Family K)) (s : Series K) : Prop :=
  ∃ (s0 s1 : Series K) (bs : List (Option (BasisSet K))) (ops : List (SerOp K)),
    s0.zeroVal = 0 ∧ s0.identityVal = 1 ∧ List.Forall₂ BasisSet.HandleOf fs bs ∧ s0.set bs = .ok s1 ∧
    (∀ op ∈ ops, op.KeepsBasis) ∧ Series.run ops s1 = .ok s

/-- `c` are the coefficients a client reads. -/
def Series.Coeffs (fs : List (Family K)) (s : Series K) (c : List Int → K) : Prop :=
  ∀ t, InBox (extents fs) t → s.coeff.get t = .ok (c t)

theorem BasisSet.Of.impl {F : Family K} {b : BasisSet K} (h : b.Of F) : Impl F b := by
  obtain ⟨n, cs, h1, h2⟩ := h
  have hm := BasisSet.make_impl (0 : K) { F with size := n }
  obtain ⟨m, hm'⟩ := BasisSet.run_impl (F := F) 0 cs ⟨n, hm⟩ h1
  have : m = F.size := by rw [← h2]; exact hm'.vlen.symm
  subst this
  exact hm'

theorem holdsFam_of {fs : List (Family K)} {bs : List (Option (BasisSet K))} (h : List.Forall₂ BasisSet.HandleOf fs bs) :
    All2 HoldsFam fs bs := by
  induction h with
  | nil => exact .nil
  | cons h _ ih =>
    obtain ⟨b, rfl, hb⟩ := h
    exact .cons ⟨b, rfl, hb.impl⟩ ih

theorem Series.Over.wf {fs : List (Family K)} {s : Series K} (h : s.Over fs) (hg : GoodDims (extents fs)) :
    Series.WF 0 1 fs s := by
  obtain ⟨s0, s1, bs, ops, h0, h1, hb, hs, hk, hr⟩ := h
  obtain ⟨s1', e1, e2, _⟩ := Series.set_wf s0 (holdsFam_of hb) hg
  rw [hs] at e1; cases e1
  rw [h0, h1] at e2
  exact (Series.run_keeps ops hk e2 hr).1

theorem BasisSet.run_snoc {z : K} {cs : List (BCall K)} {b b1 b2 : BasisSet K} {c : BCall K} (h : BasisSet.run z cs b = .ok b1)
    (h2 : b1.step z c = .ok b2) : BasisSet.run z (cs ++ [c]) b = .ok b2 := by
  induction cs generalizing b with
  | nil => cases h; simp [BasisSet.run, h2]
  | cons a cs ih =>
    simp only [BasisSet.run, bind_eq_ok] at h
    obtain ⟨b', e1, e2⟩ := h
    simp only [List.cons_append, BasisSet.run, e1, ok_bind]
    exact ih e2

/-- **C45** `eval(x)`, `eval_grad(x)`, `eval_hess(x)` store the value (derivative) of every term and leave the others' storage alone. -/
theorem C45_eval_all (F : Family K) (b : BasisSet K) (hb : b.Of F) (x : K) :
    (∃ b', b.eval x = .ok b' ∧ b'.Of F ∧ (∀ t : Nat, t < F.size → b'.getVal t = .ok (F.phi t x)) ∧
      ∀ t, b'.getGrad t = b.getGrad t ∧ b'.getHess t = b.getHess t) ∧
    (∃ b', b.evalGrad x = .ok b' ∧ b'.Of F ∧ (∀ t : Nat, t < F.size → b'.getGrad t = .ok (F.dphi t x)) ∧
      ∀ t, b'.getVal t = b.getVal t ∧ b'.getHess t = b.getHess t) ∧
    (∃ b', b.evalHess x = .ok b' ∧ b'.Of F ∧ (∀ t : Nat, t < F.size → b'.getHess t = .ok (F.ddphi t x)) ∧
      ∀ t, b'.getVal t = b.getVal t ∧ b'.getGrad t = b.getGrad t) := by
  have hI := hb.impl
  obtain ⟨n, cs, h1, h2⟩ := hb
  refine ⟨?_, ?_, ?_⟩
  · obtain ⟨l, e1, e2, e3⟩ := BasisSet.eval_of hI x
    refine ⟨_, e1, ⟨n, _, BasisSet.run_snoc (c := .eval x) h1 e1, e2⟩, fun t ht => ?_, fun t => ⟨rfl, rfl⟩⟩
    exact vget_ok.mpr ⟨by omega, by simpa using e3 t ht⟩
  · obtain ⟨l, e1, e2, e3⟩ := BasisSet.evalGrad_of hI x
    refine ⟨_, e1, ⟨n, _, BasisSet.run_snoc (c := .evalGrad x) h1 e1, h2⟩, fun t ht => ?_, fun t => ⟨rfl, rfl⟩⟩
    exact vget_ok.mpr ⟨by omega, by simpa using e3 t ht⟩
  · obtain ⟨l, e1, e2, e3⟩ := BasisSet.evalHess_of hI x
    refine ⟨_, e1, ⟨n, _, BasisSet.run_snoc (c := .evalHess x) h1 e1, h2⟩, fun t ht => ?_, fun t => ⟨rfl, rfl⟩⟩
    exact vget_ok.mpr ⟨by omega, by simpa using e3 t ht⟩

/-- A stored list after one element was replaced. -/
theorem vget_set_ne {α : Type} (l : List α) (t u : Int) (y : α) (ht : 0 ≤ t) (h : u ≠ t) : vget (l.set t.toNat y) u = vget l u := by
  unfold vget
  by_cases hu : 0 ≤ u
  · rw [List.getElem?_set_ne (by omega)]
  · simp [hu]

theorem vget_set_self {α : Type} (l : List α) (t : Int) (y : α) (ht : 0 ≤ t) (h : t.toNat < l.length) : vget (l.set t.toNat y) t = .ok y :=
  vget_ok.mpr ⟨ht, by rw [List.getElem?_set_self h]⟩

/-- **C45** Evaluating a single term returns its value (derivative), stores it and changes no other stored number. -/
theorem C45_eval_term (F : Family K) (b : BasisSet K) (hb : b.Of F) (t : Int) (h0 : 0 ≤ t) (h1 : t < F.size) (x : K) :
    (∃ b', b.evalTerm t x = .ok (F.phi t.toNat x, b') ∧ b'.Of F ∧ b'.getVal t = .ok (F.phi t.toNat x) ∧
      (∀ u, u ≠ t → b'.getVal u = b.getVal u) ∧ ∀ u, b'.getGrad u = b.getGrad u ∧ b'.getHess u = b.getHess u) ∧
    (∃ b', b.gradTerm t x = .ok (F.dphi t.toNat x, b') ∧ b'.Of F ∧ b'.getGrad t = .ok (F.dphi t.toNat x) ∧
      (∀ u, u ≠ t → b'.getGrad u = b.getGrad u) ∧ ∀ u, b'.getVal u = b.getVal u ∧ b'.getHess u = b.getHess u) ∧
    (∃ b', b.hessTerm t x = .ok (F.ddphi t.toNat x, b') ∧ b'.Of F ∧ b'.getHess t = .ok (F.ddphi t.toNat x) ∧
      (∀ u, u ≠ t → b'.getHess u = b.getHess u) ∧ ∀ u, b'.getVal u = b.getVal u ∧ b'.getGrad u = b.getGrad u) := by
  have hI := hb.impl
  obtain ⟨n, cs, r1, r2⟩ := hb
  refine ⟨?_, ?_, ?_⟩
  · have e := BasisSet.evalTerm_of hI h0 h1 x
    refine ⟨_, e, ⟨n, _, BasisSet.run_snoc (c := .evalTerm t x) r1 (by simp [BasisSet.step, e]), by simpa [BasisSet.size] using r2⟩,
      vget_set_self _ _ _ h0 (by rw [hI.vlen]; omega), fun u hu => vget_set_ne _ _ _ _ h0 hu, fun u => ⟨rfl, rfl⟩⟩
  · have e := BasisSet.gradTerm_of hI h0 h1 x
    refine ⟨_, e, ⟨n, _, BasisSet.run_snoc (c := .gradTerm t x) r1 (by simp [BasisSet.step, e]), r2⟩,
      vget_set_self _ _ _ h0 (by rw [hI.glen]; omega), fun u hu => vget_set_ne _ _ _ _ h0 hu, fun u => ⟨rfl, rfl⟩⟩
  · have e := BasisSet.hessTerm_of hI h0 h1 x
    refine ⟨_, e, ⟨n, _, BasisSet.run_snoc (c := .hessTerm t x) r1 (by simp [BasisSet.step, e]), r2⟩,
      vget_set_self _ _ _ h0 (by rw [hI.hlen]; omega), fun u hu => vget_set_ne _ _ _ _ h0 hu, fun u => ⟨rfl, rfl⟩⟩

/-- **C46** `series(x)` is the tensor-product sum over the coefficients, whatever was called before; the getter then returns the same,
and the coefficients are unchanged. -/
theorem C46_value (fs : List (Family K)) (hg : GoodDims (extents fs)) (s : Series K) (hs : s.Over fs) (c : List Int → K)
    (hc : s.Coeffs fs c) (x : List K) (hx : x.length = fs.length) :
    ∃ s', s.evalAt x = .ok (series fs (value fs.length) c x, s') ∧ s'.get = .ok (series fs (value fs.length) c x) ∧
      s'.Coeffs fs c := by
  obtain ⟨s', e1, e2, _, e4, _⟩ := Series.evalAt_of (hs.wf hg) (by omega : fs.length ≤ x.length) hc
  rw [zero_add] at e1 e2
  exact ⟨s', e1, e2, e4⟩

/-- **C46** Coefficients change only when a client assigns them: the coefficients read after any history of evaluations are those read
before. -/
theorem C46_coefficients_kept (fs : List (Family K)) (hg : GoodDims (extents fs)) (s s' : Series K) (hs : s.Over fs)
    (ops : List (SerOp K)) (hk : ∀ op ∈ ops, op.KeepsCoeff) (hr : Series.run ops s = .ok s') : s'.coeff = s.coeff := by
  refine (Series.run_keeps ops ?_ (hs.wf hg) hr).2 hk
  intro op ho
  have := hk op ho
  cases op <;> first | trivial | exact this.elim

/-- **C47** After `eval_grad(x)`, `grad(di)` is the sum with the basis functions of direction `di` differentiated once. -/
theorem C47_gradient (fs : List (Family K)) (hg : GoodDims (extents fs)) (s : Series K) (hs : s.Over fs) (c : List Int → K)
    (hc : s.Coeffs fs c) (x : List K) (hx : x.length = fs.length) :
    ∃ s', s.evalGrad x = .ok s' ∧ ∀ di : Nat, di < fs.length → s'.getGrad di = .ok (series fs (gradient fs.length di) c x) := by
  obtain ⟨s', e1, e2⟩ := Series.evalGrad_of (hs.wf hg) (by omega : fs.length ≤ x.length) hc
  simp only [zero_add] at e2
  exact ⟨s', e1, e2⟩

/-- **C48** After `eval_hess(x)`, `hess(di,dj)` is the sum with the basis functions of directions `di` and `dj` differentiated (twice if
they are equal), and it is symmetric. -/
theorem C48_hessian (fs : List (Family K)) (hg : GoodDims (extents fs)) (s : Series K) (hs : s.Over fs) (c : List Int → K)
    (hc : s.Coeffs fs c) (x : List K) (hx : x.length = fs.length) :
    ∃ s', s.evalHess x = .ok s' ∧ ∀ di dj : Nat, di < fs.length → dj < fs.length →
      s'.getHess di dj = .ok (series fs (hessian fs.length di dj) c x) ∧ s'.getHess di dj = s'.getHess dj di := by
  obtain ⟨s', e1, e2⟩ := Series.evalHess_of (hs.wf hg) (by omega : fs.length ≤ x.length) hc
  simp only [zero_add] at e2
  refine ⟨s', e1, fun di dj h1 h2 => ⟨e2 di dj h1 h2, ?_⟩⟩
  rw [e2 di dj h1 h2, e2 dj di h2 h1, hessian_symm]

end

/-- **C47** The numbers returned by `grad(di)` after `eval_grad(x)` are the partial derivatives of the function returned by
`series(x)`. -/
theorem C47_is_derivative (fs : List (Family ℝ)) (hF : ∀ F ∈ fs, F.Smooth) (hg : GoodDims (extents fs)) (s : Series ℝ)
    (hs : s.Over fs) : ∃ f : List ℝ → ℝ, (∀ y, y.length = fs.length → ∃ s', s.evalAt y = .ok (f y, s')) ∧
      ∀ x, x.length = fs.length → ∃ s', s.evalGrad x = .ok s' ∧
        ∀ (di : Nat) (y : ℝ), x[di]? = some y → ∃ g, s'.getGrad di = .ok g ∧ HasDerivAt (fun t => f (x.set di t)) g y := by
  obtain ⟨c, hc⟩ := (hs.wf hg).coeff_exists
  refine ⟨series fs (value fs.length) c, fun y hy => ?_, fun x hx => ?_⟩
  · obtain ⟨s', e, _⟩ := C46_value fs hg s hs c hc y hy
    exact ⟨s', e⟩
  · obtain ⟨s', e1, e2⟩ := C47_gradient fs hg s hs c hc x hx
    refine ⟨s', e1, fun di y hy => ?_⟩
    have hd : di < fs.length := by rw [← hx]; exact (List.getElem?_eq_some_iff.mp hy).1
    refine ⟨_, e2 di hd, ?_⟩
    have := series_hasDerivAt fs di (value fs.length) x c y 0 hF hd (by simp [value]) hx hy (by simp [value, hd]) (by omega)
    rwa [gradient_eq]

/-- **C48** The numbers returned by `hess(di,dj)` after `eval_hess(x)` are the partial derivatives of the gradients returned by
`grad(di)` after `eval_grad(x)`. -/
theorem C48_is_derivative (fs : List (Family ℝ)) (hF : ∀ F ∈ fs, F.Smooth) (hg : GoodDims (extents fs)) (s : Series ℝ)
    (hs : s.Over fs) : ∃ G : Nat → List ℝ → ℝ,
      (∀ y, y.length = fs.length → ∃ s', s.evalGrad y = .ok s' ∧ ∀ di : Nat, di < fs.length → s'.getGrad di = .ok (G di y)) ∧
      ∀ x, x.length = fs.length → ∃ s', s.evalHess x = .ok s' ∧
        ∀ (di dj : Nat) (y : ℝ), di < fs.length → x[dj]? = some y →
          ∃ h, s'.getHess di dj = .ok h ∧ HasDerivAt (fun t => G di (x.set dj t)) h y := by
  obtain ⟨c, hc⟩ := (hs.wf hg).coeff_exists
  refine ⟨fun di => series fs (gradient fs.length di) c, fun y hy => C47_gradient fs hg s hs c hc y hy, fun x hx => ?_⟩
  obtain ⟨s', e1, e2⟩ := C48_hessian fs hg s hs c hc x hx
  refine ⟨s', e1, fun di dj y hdi hy => ?_⟩
  have hd : dj < fs.length := by rw [← hx]; exact (List.getElem?_eq_some_iff.mp hy).1
  refine ⟨_, (e2 di dj hdi hd).1, ?_⟩
  have := series_hasDerivAt fs dj (gradient fs.length di) x c y (if dj = di then 1 else 0) hF hd (by simp [gradient]) hx hy
    (by simp [gradient, hd]) (by split <;> omega)
  rwa [hessian_eq]

section
variable {K : Type} [Field K] [LinearOrder K] [FloorRing K] [IsStrictOrderedRing K]

omit [IsStrictOrderedRing K] in
theorem size_le_of_good {fs : List (Family K)} (hg : GoodDims (extents fs)) {F : Family K} (hF : F ∈ fs) :
    0 < F.size ∧ (F.size : Int) ≤ intMax := by
  have hp := hg.2.1 F.size (by simp only [extents, List.mem_map]; exact ⟨F, hF, rfl⟩)
  refine ⟨by omega, ?_⟩
  have key : ∀ (ds : List Int), (∀ d ∈ ds, 0 < d) → ∀ d ∈ ds, d ≤ prod ds := by
    intro ds
    induction ds with
    | nil => intro _ d hd; simp at hd
    | cons a ds ih =>
      intro hp d hd
      have h1 := prod_pos (ds := ds) fun x hx => hp x (by simp [hx])
      have h2 : 0 < a := hp a (by simp)
      rcases List.mem_cons.mp hd with rfl | hd
      · show d ≤ d * prod ds; nlinarith
      · have := ih (fun x hx => hp x (by simp [hx])) d hd
        show d ≤ a * prod ds; nlinarith
  have := key _ hg.2.1 F.size (by simp only [extents, List.mem_map]; exact ⟨F, hF, rfl⟩)
  have h2 := hg.2.2
  unfold intMax; omega

theorem termIndex_of {fs : List (Family K)} (hg : GoodDims (extents fs)) {F : Family K} (hF : F ∈ fs) {y : K} (h0 : -1 < y)
    (h1 : y < F.size) : Series.TermIndex F y := by
  obtain ⟨p, q⟩ := size_le_of_good hg hF
  unfold Series.TermIndex d2i
  by_cases hy : 0 ≤ y
  · refine ⟨⌊y⌋, ?_, Int.floor_nonneg.mpr hy, ?_⟩
    · rw [if_pos hy]
      refine ckInt_nonneg _ (Int.floor_nonneg.mpr hy) ?_
      have : ⌊y⌋ < (F.size : Int) := Int.floor_lt.mpr (by simpa using h1)
      omega
    · exact Int.floor_lt.mpr (by simpa using h1)
  · have : ⌈y⌉ = 0 := by
      rw [Int.ceil_eq_zero_iff]
      exact ⟨h0, le_of_lt (not_le.mp hy)⟩
    rw [if_neg hy, this]
    exact ⟨0, ckInt_nonneg 0 (by omega) (by decide), by omega, by omega⟩

/-- **C49** (full statement) Single-shot derivatives are the derivatives at the given point. -/
def C49_statement (fs : List (Family K)) (s : Series K) (c : List Int → K) : Prop :=
  ∀ x, x.length = fs.length →
    (∀ di : Nat, di < fs.length → ∃ s', s.gradAt x di = .ok (series fs (gradient fs.length di) c x, s')) ∧
    ∀ di dj : Nat, di < fs.length → dj < fs.length → ∃ s', s.hessAt x di dj = .ok (series fs (hessian fs.length di dj) c x, s')

/-- **C49** partial: when the series has just been evaluated at the same point `x`, and every coordinate in a direction that is not
differentiated lies between -1 and the number of terms, `grad(x,di)` and `hess(x,di,dj)` return the derivatives at `x`. -/
theorem C49_single_shot_partial (fs : List (Family K)) (hg : GoodDims (extents fs)) (s s1 : Series K) (hs : s.Over fs)
    (c : List Int → K) (hc : s.Coeffs fs c) (x : List K) (hx : x.length = fs.length) (v : K) (he : s.evalAt x = .ok (v, s1)) :
    (∀ di : Nat, di < fs.length → (∀ (j : Nat) F y, j ≠ di → fs[j]? = some F → x[j]? = some y → -1 < y ∧ y < F.size) →
      ∃ s', s1.gradAt x di = .ok (series fs (gradient fs.length di) c x, s')) ∧
    ∀ di dj : Nat, di < fs.length → dj < fs.length →
      (∀ (j : Nat) F y, j ≠ di → j ≠ dj → fs[j]? = some F → x[j]? = some y → -1 < y ∧ y < F.size) →
      ∃ s', s1.hessAt x di dj = .ok (series fs (hessian fs.length di dj) c x, s') := by
  obtain ⟨s', e1, _, e3, e4, e5⟩ := Series.evalAt_of (hs.wf hg) (by omega : fs.length ≤ x.length) hc
  rw [he] at e1; cases e1
  constructor
  · intro di hdi hr
    obtain ⟨s2, h2⟩ := Series.gradAt_of e3 (by omega) e4 e5 hdi fun j F y h1 h2 h3 =>
      termIndex_of hg (List.mem_of_getElem? h2) (hr j F y h1 h2 h3).1 (hr j F y h1 h2 h3).2
    rw [zero_add] at h2
    exact ⟨s2, h2⟩
  · intro di dj hdi hdj hr
    obtain ⟨s2, h2⟩ := Series.hessAt_of e3 (by omega) e4 e5 hdi hdj fun j F y h1 h1' h2 h3 =>
      termIndex_of hg (List.mem_of_getElem? h2) (hr j F y h1 h1' h2 h3).1 (hr j F y h1 h1' h2 h3).2
    rw [zero_add] at h2
    exact ⟨s2, h2⟩

end

section
variable {K : Type} [Field K] [LinearOrder K] [FloorRing K]

/-- **C50** violated: on a series used as a `PFuncBase` (through a `PFunction`), every derivative member throws, for every state and
arguments, and changes nothing. -/
theorem C50_through_PFunction_violated (s : Series K) (x : List K) (di dj : Int) :
    Series.sem (.gradAt x di) s = (.error .runtimeError, s) ∧ Series.sem (.hessAt x di dj) s = (.error .runtimeError, s) ∧
    Series.sem (.getGrad di) s = (.error .runtimeError, s) ∧ Series.sem (.getHess di dj) s = (.error .runtimeError, s) ∧
    Series.sem .simple s = (.error .runtimeError, s) := ⟨rfl, rfl, rfl, rfl, rfl⟩

/-- **C50** partial: the value is available through a `PFunction`, by `f(x)` and by `f.eval(x); f()`. -/
theorem C50_value_partial (fs : List (Family K)) (hg : GoodDims (extents fs)) (s : Series K) (hs : s.Over fs) (c : List Int → K)
    (hc : s.Coeffs fs c) (x : List K) (hx : x.length = fs.length) :
    (runCalls Series.sem [.evalAt x] s).1 = [.ok (.num (series fs (value fs.length) c x))] ∧
    (runCalls Series.sem [.eval x, .get] s).1 = [.ok .void, .ok (.num (series fs (value fs.length) c x))] := by
  obtain ⟨s', e1, e2, _⟩ := C46_value fs hg s hs c hc x hx
  constructor
  · simp [runCalls, Series.sem, FBase.sem, Series.ov, Series.member, e1]
  · simp [runCalls, Series.sem, FBase.sem, Series.ov, Series.member, e1, e2]

/-- **C73** violated: seen as a function, a series of any number of variables has size 0, no name and no variable names. -/
theorem C73_series_metadata_violated (s : Series K) (i : Int) :
    Series.sem .size s = (.ok (.size 0), s) ∧ Series.sem .name s = (.ok (.str ""), s) ∧ Series.sem .varNames s = (.ok (.strs []), s) ∧
    Series.sem (.varName i) s = (.error (.ub .oob), s) := by
  refine ⟨rfl, rfl, rfl, ?_⟩
  simp only [Series.sem, FBase.sem, vget_err (v := ([] : List String)) (i := i) (by simp)]
  rfl

/-- The order in which direction `j` is differentiated, for the product members. -/
theorem get_value {n j o : Nat} (h : (value n)[j]? = some o) : o = 0 := by
  simp only [value, List.getElem?_replicate] at h
  split at h <;> simp_all

/-- **C51** `basis(t,x)`, `basis_grad(t,x,di)`, `basis_hess(t,x,di,dj)` are the products of the basis factors, differentiated in the
given directions. -/
theorem C51_products (fs : List (Family K)) (hg : GoodDims (extents fs)) (s : Series K) (hs : s.Over fs) (t : List Int)
    (ht : InBox (extents fs) t) (x : List K) (hx : x.length = fs.length) :
    (∃ s', s.basisProd Series.evVal t x = .ok (tensorBasis fs (value fs.length) t x, s')) ∧
    (∀ di : Nat, ∃ s', s.basisProd (Series.evGrad di) t x = .ok (tensorBasis fs (gradient fs.length di) t x, s')) ∧
    ∀ di dj : Nat, ∃ s', s.basisProd (Series.evHess di dj) t x = .ok (tensorBasis fs (hessian fs.length di dj) t x, s') := by
  have hw := hs.wf hg
  have e : ∀ a b : Nat, ((a : Int) = (b : Int)) ↔ a = b := by intro a b; omega
  refine ⟨?_, fun di => ?_, fun di dj => ?_⟩
  · obtain ⟨s', h'⟩ := Series.basisProd_of hw (by omega : fs.length ≤ x.length) (m := value fs.length) (by simp [value])
      (ev := Series.evVal) (fun j o ho => ⟨.v, rfl, (get_value ho).symm⟩) ht
    rw [one_mul] at h'
    exact ⟨s', h'⟩
  · obtain ⟨s', h'⟩ := Series.basisProd_of hw (by omega : fs.length ≤ x.length) (m := gradient fs.length di) (by simp [gradient])
      (ev := Series.evGrad di) (fun j o ho => ⟨_, Series.evGrad_kind _ _, by
        have := Series.get_range_map ho
        subst this
        by_cases hj : j = di <;> simp [hj, e, Series.ordOf]⟩) ht
    rw [one_mul] at h'
    exact ⟨s', h'⟩
  · obtain ⟨s', h'⟩ := Series.basisProd_of hw (by omega : fs.length ≤ x.length) (m := hessian fs.length di dj) (by simp [hessian])
      (ev := Series.evHess di dj) (fun j o ho => ⟨_, Series.evHess_kind _ _ _, by
        have := Series.get_range_map ho
        subst this
        simp only [e]
        by_cases hj : j = di <;> by_cases hk : j = dj
        · rw [if_pos (Or.inl hj), if_pos (by omega), if_pos hj, if_pos hk]; rfl
        · rw [if_pos (Or.inl hj), if_neg (by omega), if_pos hj, if_neg hk]; rfl
        · rw [if_pos (Or.inr hk), if_neg (by omega), if_neg hj, if_pos hk]; rfl
        · rw [if_neg (by omega), if_neg hj, if_neg hk]; rfl⟩) ht
    rw [one_mul] at h'
    exact ⟨s', h'⟩

/-- **C51** The getters return the same products at the point where the basis functions were last evaluated: after `eval_basis(x)`,
`eval_basis_grad(x)`, `eval_basis_hess(x)`. -/
theorem C51_product_getters (fs : List (Family K)) (hg : GoodDims (extents fs)) (s : Series K) (hs : s.Over fs) (x : List K)
    (hx : x.length = fs.length) :
    ∃ s', Series.run [.basisAll .v x, .basisAll .g x, .basisAll .h x] s = .ok s' ∧ ∀ t, InBox (extents fs) t →
      s'.basisGet Series.facVal t = .ok (tensorBasis fs (value fs.length) t x) ∧
      (∀ di : Nat, s'.basisGet (Series.facGrad di) t = .ok (tensorBasis fs (gradient fs.length di) t x)) ∧
      ∀ di dj : Nat, s'.basisGet (Series.facHess di dj) t = .ok (tensorBasis fs (hessian fs.length di dj) t x) := by
  obtain ⟨s1, h1, h2, h3, h4⟩ := Series.evalBasis_of (hs.wf hg) (by omega) (Series.evald_none fs x s)
  obtain ⟨s2, k1, k2, k3, k4⟩ := Series.evalBasisGrad_of h2 (by omega) h4
  obtain ⟨s3, l1, l2, l3, l4⟩ := Series.evalBasisHess_of k2 (by omega) k4
  refine ⟨s3, by simp [Series.run, Series.step, Series.basisAll, h1, k1, l1], fun t ht => ⟨?_, fun di => ?_, fun di dj => ?_⟩⟩
  · have := Series.basisGet_of l2 (by omega : fs.length ≤ x.length) (m := value fs.length) (by simp [value]) (Series.reads_val l4) ht
    rwa [one_mul] at this
  · have := Series.basisGet_of l2 (by omega : fs.length ≤ x.length) (m := gradient fs.length di) (by simp [gradient])
      (Series.reads_grad di l4) ht
    rwa [one_mul] at this
  · have := Series.basisGet_of l2 (by omega : fs.length ≤ x.length) (m := hessian fs.length di dj) (by simp [hessian])
      (Series.reads_hess di dj l4) ht
    rwa [one_mul] at this

theorem tensorSum_zero {K : Type} [CommRing K] (fl : List (Nat × (Nat → K))) : tensorSum fl (fun _ => 0) = 0 := by
  induction fl with
  | nil => rfl
  | cons p fl ih => obtain ⟨n, f⟩ := p; simp [tensorSum, ih]

theorem tensorSum_lin {K : Type} [CommRing K] (a b : K) (fl : List (Nat × (Nat → K))) : ∀ (c d : List Int → K),
    tensorSum fl (fun t => a * c t + b * d t) = a * tensorSum fl c + b * tensorSum fl d := by
  induction fl with
  | nil => intro c d; rfl
  | cons p fl ih =>
    intro c d
    obtain ⟨n, f⟩ := p
    simp only [tensorSum]
    rw [Finset.mul_sum, Finset.mul_sum, ← Finset.sum_add_distrib]
    refine Finset.sum_congr rfl fun k _ => ?_
    rw [ih]; ring

/-- **C52** `set(basis_sets)`, in any state of the series, succeeds; the coefficient array has one dimension per basis set with that
set's size as its extent, every coefficient is 0, and the series is 0 at every point. -/
theorem C52_set (fs : List (Family K)) (hg : GoodDims (extents fs)) (s0 : Series K) (hz : s0.zeroVal = 0) (hi : s0.identityVal = 1)
    (bs : List (Option (BasisSet K))) (hb : List.Forall₂ BasisSet.HandleOf fs bs) :
    ∃ s1, s0.set bs = .ok s1 ∧ s1.Over fs ∧ s1.coeff.dim = extents fs ∧ s1.coeff.order = (fs.length : Int) ∧
      s1.Coeffs fs (fun _ => 0) ∧ ∀ x, x.length = fs.length → ∃ s2, s1.evalAt x = .ok (0, s2) := by
  obtain ⟨s1, e1, e2, e3, e4, e5, e6⟩ := Series.set_wf s0 (holdsFam_of hb) hg
  have ho : s1.Over fs := ⟨s0, s1, bs, [], hz, hi, hb, e1, by simp, rfl⟩
  refine ⟨s1, e1, ho, e5, e6, e3, fun x hx => ?_⟩
  obtain ⟨s2, h2, _⟩ := C46_value fs hg s1 ho (fun _ => 0) e3 x hx
  refine ⟨s2, ?_⟩
  rw [h2]
  congr 2
  exact tensorSum_zero _

/-- Reading the text printed by one series into another of the same shape gives every coefficient the value `back y` that the text of its
value `y` denotes. -/
theorem Series.read_printed (fmt : K → List Char) (scan : List Char → Option K × List Char) (back : K → K) (fs : List (Family K))
    (hg : GoodDims (extents fs)) (s s' : Series K) (hs : s.Over fs) (hs' : s'.Over fs)
    (hfmt : ∀ t y, InBox (extents fs) t → s.coeff.get t = .ok y → Denotes scan (fmt y) (back y)) :
    ∃ text, s.printCoeff fmt = .ok text ∧ ∀ rest, ∃ sin s'' w, s'.readCoeff scan (ofText (text ++ rest)) = .ok (sin, s'') ∧
      (∀ t, InBox (extents fs) t → s''.coeff.get t = (s.coeff.get t).map back) ∧ s''.coeff.dim = s'.coeff.dim ∧
      sin = ofText (w ++ rest) ∧ ∀ ch ∈ w, Blank ch := by
  have hw := hs.wf hg
  have hw' := hs'.wf hg
  have hp := prod_pos hg.2.1
  have e1 := Series.printLoop_of fmt hw (prod (extents fs)).toNat 0 (List.replicate fs.length 0)
    (by show ((0 : Nat) : Int) + _ = prod (extents fs); omega) (by simp)
  refine ⟨_, by rw [Series.printCoeff, hw.order, hw.shaped.vol_eq]; exact e1, fun rest => ?_⟩
  obtain ⟨sin, s'', f1, f2, f3, ⟨w, hwb, f4⟩, _, f6⟩ := Series.readLoop_of (fmt := fmt) (scan := scan) (fun l => s.coeff.val.getD l 0)
    (fun l => back (s.coeff.val.getD l 0)) (fun l hl => by
      have hbox := digits_inBox hg.2.1 (l := (l : Int)) (by omega) hl
      obtain ⟨y, hy, hy'⟩ := NDArray.get_of hw.shaped hg hbox
      have hdd : dot (extents fs) (digits (extents fs) (l : Int)) = l := dot_digits hg.2.1 (by omega) hl
      rw [show sizesOf fs = extents fs from rfl, hdd, Int.toNat_natCast] at hy'
      simp only [List.getD_eq_getElem?_getD, hy', Option.getD_some]
      exact hfmt _ y hbox hy) rest
    (prod (extents fs)).toNat 0 (List.replicate fs.length 0) [] s' hw'
    (by show ((0 : Nat) : Int) + _ = prod (extents fs); omega) (by simp) (by simp)
  refine ⟨sin, s'', w, ?_, ?_, ?_, f4, hwb⟩
  · rw [Series.readCoeff, hw'.order, hw'.shaped.vol_eq]; exact f1
  · intro t ht
    obtain ⟨y, hy, hy'⟩ := NDArray.get_of hw.shaped hg ht
    obtain ⟨u, hu, hu'⟩ := NDArray.get_of f2.shaped hg ht
    have h0 := dot_nonneg hg.2.1 ht
    have h1 := dot_lt hg.2.1 ht
    rw [hy, hu]
    show _ = Except.ok _
    rw [show sizesOf fs = extents fs from rfl] at *
    rw [f6 _ (by omega) (by omega)] at hu'
    simp only [List.getD_eq_getElem?_getD, hy', Option.getD_some, Option.some.injEq] at hu'
    rw [hu']
  · rw [f2.shaped.dim_eq, hw'.shaped.dim_eq]

/-- **C53** Reading the text printed by one series into another of the same shape (for instance itself, after its coefficients were
changed) gives every coefficient its printed value; other text behind it is left in the stream. `fmt` writes a value; `scan` reads back
the coefficients of the series. -/
theorem C53_round_trip (fmt : K → List Char) (scan : List Char → Option K × List Char) (fs : List (Family K))
    (hg : GoodDims (extents fs)) (s s' : Series K) (hs : s.Over fs) (hs' : s'.Over fs)
    (hfmt : ∀ t y, InBox (extents fs) t → s.coeff.get t = .ok y → Denotes scan (fmt y) y) :
    ∃ text, s.printCoeff fmt = .ok text ∧ ∀ rest, ∃ sin s'' w, s'.readCoeff scan (ofText (text ++ rest)) = .ok (sin, s'') ∧
      (∀ t, InBox (extents fs) t → s''.coeff.get t = s.coeff.get t) ∧ s''.coeff.dim = s'.coeff.dim ∧
      sin = ofText (w ++ rest) ∧ ∀ ch ∈ w, Blank ch := by
  obtain ⟨text, h1, h2⟩ := Series.read_printed fmt scan id fs hg s s' hs hs' hfmt
  refine ⟨text, h1, fun rest => ?_⟩
  obtain ⟨sin, s'', w, e1, e2, e3⟩ := h2 rest
  refine ⟨sin, s'', w, e1, fun t ht => ?_, e3⟩
  rw [e2 t ht]
  cases s.coeff.get t <;> rfl

/-- **C54** With the same basis sets, coefficients `a*c + b*d` give `a` times the value with `c` plus `b` times the value with `d`; the
same holds for the stored gradient and Hessian. -/
theorem C54_linear (fs : List (Family K)) (hg : GoodDims (extents fs)) (s1 s2 s3 : Series K) (h1 : s1.Over fs) (h2 : s2.Over fs)
    (h3 : s3.Over fs) (a b : K) (c d : List Int → K) (hc : s1.Coeffs fs c) (hd : s2.Coeffs fs d)
    (hcd : s3.Coeffs fs fun t => a * c t + b * d t) (x : List K) (hx : x.length = fs.length) :
    (∃ u v r1 r2 r3, s1.evalAt x = .ok (u, r1) ∧ s2.evalAt x = .ok (v, r2) ∧ s3.evalAt x = .ok (a * u + b * v, r3)) ∧
    (∃ r1 r2 r3, s1.evalGrad x = .ok r1 ∧ s2.evalGrad x = .ok r2 ∧ s3.evalGrad x = .ok r3 ∧ ∀ di : Nat, di < fs.length →
      ∃ u v, r1.getGrad di = .ok u ∧ r2.getGrad di = .ok v ∧ r3.getGrad di = .ok (a * u + b * v)) ∧
    ∃ r1 r2 r3, s1.evalHess x = .ok r1 ∧ s2.evalHess x = .ok r2 ∧ s3.evalHess x = .ok r3 ∧ ∀ di dj : Nat, di < fs.length →
      dj < fs.length → ∃ u v, r1.getHess di dj = .ok u ∧ r2.getHess di dj = .ok v ∧ r3.getHess di dj = .ok (a * u + b * v) := by
  refine ⟨?_, ?_, ?_⟩
  · obtain ⟨r1, e1, _⟩ := C46_value fs hg s1 h1 c hc x hx
    obtain ⟨r2, e2, _⟩ := C46_value fs hg s2 h2 d hd x hx
    obtain ⟨r3, e3, _⟩ := C46_value fs hg s3 h3 _ hcd x hx
    refine ⟨_, _, r1, r2, r3, e1, e2, ?_⟩
    rw [e3]; congr 2; exact tensorSum_lin a b _ c d
  · obtain ⟨r1, e1, f1⟩ := C47_gradient fs hg s1 h1 c hc x hx
    obtain ⟨r2, e2, f2⟩ := C47_gradient fs hg s2 h2 d hd x hx
    obtain ⟨r3, e3, f3⟩ := C47_gradient fs hg s3 h3 _ hcd x hx
    refine ⟨r1, r2, r3, e1, e2, e3, fun di hdi => ⟨_, _, f1 di hdi, f2 di hdi, ?_⟩⟩
    rw [f3 di hdi]; congr 1; exact tensorSum_lin a b _ c d
  · obtain ⟨r1, e1, f1⟩ := C48_hessian fs hg s1 h1 c hc x hx
    obtain ⟨r2, e2, f2⟩ := C48_hessian fs hg s2 h2 d hd x hx
    obtain ⟨r3, e3, f3⟩ := C48_hessian fs hg s3 h3 _ hcd x hx
    refine ⟨r1, r2, r3, e1, e2, e3, fun di dj hdi hdj => ⟨_, _, (f1 di dj hdi hdj).1, (f2 di dj hdi hdj).1, ?_⟩⟩
    rw [(f3 di dj hdi hdj).1]; congr 1; exact tensorSum_lin a b _ c d

end

/-! ### Non-vacuity: a series in two variables with monomials, `f(x,y) = 5 x y^2` -/

namespace Demo

/-- `1, x, x^2, ...` (`n` terms). -/
def mono (K : Type) [Field K] (n : Nat) : Family K :=
  ⟨n, fun k x => x ^ k, fun k x => k * x ^ (k - 1), fun k x => k * (k - 1 : Nat) * x ^ (k - 2)⟩

/-- Two and three terms. -/
def fams (K : Type) [Field K] : List (Family K) := [mono K 2, mono K 3]

/-- A new basis set. -/
def newBasis {K : Type} [Field K] (F : Family K) : BasisSet K := BasisSet.make 0 F.size (some F.phi) (some F.dphi) (some F.ddphi)

/-- The state after `set` and `coeff()([1,2]) = 5`. -/
def ser (K : Type) [Field K] : Series K :=
  ⟨⟨[2, 3], [3, 1], [0, 0, 0, 0, 0, 5], 2, 6⟩, 1, 0, [some (newBasis (mono K 2)), some (newBasis (mono K 3))], some 0, [0, 0],
    [[0, 0], [0, 0]]⟩

theorem good (K : Type) [Field K] : GoodDims (extents (fams K)) := by
  refine ⟨by simp [extents, fams], ?_, ?_⟩
  · simp [extents, fams, mono]
  · simp [extents, fams, mono, prod]

variable {K : Type} [Field K] [LinearOrder K] [FloorRing K]

/-- The state after `set`. -/
def ser0 (K : Type) [Field K] : Series K :=
  ⟨⟨[2, 3], [3, 1], [0, 0, 0, 0, 0, 0], 2, 6⟩, 1, 0, [some (newBasis (mono K 2)), some (newBasis (mono K 3))], some 0, [0, 0],
    [[0, 0], [0, 0]]⟩

theorem ser0_set : (Series.make 0 1).set [some (newBasis (mono K 2)), some (newBasis (mono K 3))] = .ok (ser0 K) := by
  have h := resize_good (0 : K) (NDArray.clear NDArray.empty) (good K)
  have hs : Series.sizes [some (newBasis (mono K 2)), some (newBasis (mono K 3))] = .ok (extents (fams K)) := by
    simp [Series.sizes, extents, fams, newBasis, mono, BasisSet.size, BasisSet.make, BasisSet.resize]
  have hs' : Series.copyBases [some (newBasis (mono K 2)), some (newBasis (mono K 3))] =
    .ok [some (newBasis (mono K 2)), some (newBasis (mono K 3))] := rfl
  simp only [Series.set, hs, hs', ok_bind, Series.make, Series.clear, h]
  rfl

theorem ser_over : (ser K).Over (fams K) := by
  refine ⟨Series.make 0 1, _, [some (newBasis (mono K 2)), some (newBasis (mono K 3))], [.setCoeff [1, 2] 5], rfl, rfl, ?_, ser0_set, ?_, ?_⟩
  · exact .cons ⟨_, rfl, 2, [], rfl, rfl⟩ (.cons ⟨_, rfl, 3, [], rfl, rfl⟩ .nil)
  · simp [SerOp.KeepsBasis]
  · rfl

theorem ser_coeffs : (ser K).Coeffs (fams K) (fun t => if t = [1, 2] then 5 else 0) := by
  intro t ht
  match t, ht with
  | [a, b], ht =>
    obtain ⟨⟨h1, h2⟩, ⟨h3, h4⟩, _⟩ := ht
    simp only [mono, Nat.cast_ofNat] at h2 h4
    obtain rfl | rfl : a = 0 ∨ a = 1 := by omega
    all_goals obtain rfl | rfl | rfl : b = 0 ∨ b = 1 ∨ b = 2 := by omega
    all_goals rfl

end Demo

/-- Value, gradient and Hessian of `5 x y^2` at `(2,3)`: the theorems apply and give 90, (45, 60), 30. -/
example : ∃ s', (Demo.ser ℚ).evalAt [2, 3] = .ok (90, s') := by
  obtain ⟨s', e, _⟩ := C46_value _ (Demo.good ℚ) _ Demo.ser_over _ Demo.ser_coeffs [2, 3] rfl
  refine ⟨s', e.trans ?_⟩
  congr 2
  decide +kernel

example : ∃ s', (Demo.ser ℚ).evalGrad [2, 3] = .ok s' ∧ s'.getGrad 0 = .ok 45 ∧ s'.getGrad 1 = .ok 60 := by
  obtain ⟨s', e, h⟩ := C47_gradient _ (Demo.good ℚ) _ Demo.ser_over _ Demo.ser_coeffs [2, 3] rfl
  refine ⟨s', e, (h 0 (by decide)).trans ?_, (h 1 (by decide)).trans ?_⟩ <;> (congr 1; decide +kernel)

example : ∃ s', (Demo.ser ℚ).evalHess [2, 3] = .ok s' ∧ s'.getHess 0 1 = .ok 30 ∧ s'.getHess 0 0 = .ok 0 ∧ s'.getHess 1 1 = .ok 20 := by
  obtain ⟨s', e, h⟩ := C48_hessian _ (Demo.good ℚ) _ Demo.ser_over _ Demo.ser_coeffs [2, 3] rfl
  refine ⟨s', e, (h 0 1 (by decide) (by decide)).1.trans ?_, (h 0 0 (by decide) (by decide)).1.trans ?_,
    (h 1 1 (by decide) (by decide)).1.trans ?_⟩ <;> (congr 1; decide +kernel)

/-- **C49** violated: `grad((1/2,1/2), 0)` of `5 x y^2` on a series that has not been evaluated returns 0 instead of 5/4. -/
theorem C49_stale_violated : ((Demo.ser ℚ).gradAt [1/2, 1/2] 0).map Prod.fst = .ok 0 ∧
    series (Demo.fams ℚ) (gradient 2 0) (fun t => if t = [1, 2] then 5 else 0) [1/2, 1/2] = 5/4 := by
  constructor <;> decide +kernel

/-- **C49** violated: `grad((1,4), 0)` reads a term index 4 of a basis set with 3 terms. -/
theorem C49_out_of_bounds_violated : (Demo.ser ℚ).gradAt [1, 4] 0 = .error (.ub .oob) := by
  rfl

/-- Just evaluated at `(1/2,1/2)`, the same call gives 5/4. -/
example : ∃ v s1 s', (Demo.ser ℚ).evalAt [1/2, 1/2] = .ok (v, s1) ∧ s1.gradAt [1/2, 1/2] 0 = .ok (5/4, s') := by
  obtain ⟨s1, e, _⟩ := C46_value _ (Demo.good ℚ) _ Demo.ser_over _ Demo.ser_coeffs [1/2, 1/2] rfl
  obtain ⟨s', h⟩ := (C49_single_shot_partial _ (Demo.good ℚ) _ _ Demo.ser_over _ Demo.ser_coeffs [1/2, 1/2] rfl _ e).1 0 (by decide)
    (by
      intro j F y hj hF hy
      match j, hj with
      | 1, _ =>
        simp only [Demo.fams, List.getElem?_cons_succ, List.getElem?_cons_zero, Option.some.injEq] at hF hy
        subst hF hy
        norm_num [Demo.mono]
      | j + 2, _ => simp at hy)
  refine ⟨_, s1, s', e, h.trans ?_⟩
  congr 2
  decide +kernel

/-- A basis set of three monomials, once resized and evaluated. -/
example : ∃ b : BasisSet ℚ, b.Of (Demo.mono ℚ 3) := by
  obtain ⟨b', h1, h2, _⟩ := (C45_eval_all (Demo.mono ℚ 3) ((Demo.newBasis (Demo.mono ℚ 2)).resize 0 3) ⟨2, [.resize 3], rfl, rfl⟩ (1/2)).1
  exact ⟨b', h2⟩

/-- Monomials are smooth families. -/
theorem Demo.mono_smooth (n : Nat) : (Demo.mono ℝ n).Smooth := by
  intro k x
  refine ⟨?_, ?_⟩
  · exact hasDerivAt_pow k x
  · have := (hasDerivAt_pow (k - 1) x).const_mul (k : ℝ)
    simp only [Demo.mono]
    rw [mul_assoc]
    exact this

example : ∃ fs : List (Family ℝ), fs.length = 2 ∧ (∀ F ∈ fs, F.Smooth) ∧ GoodDims (extents fs) ∧ ∃ s : Series ℝ, s.Over fs :=
  ⟨Demo.fams ℝ, rfl, by simp [Demo.fams, Demo.mono_smooth], Demo.good ℝ, Demo.ser ℝ, Demo.ser_over⟩

/-- The hypotheses of C51-C54 hold for the series above; a format for its coefficients is that of natural numbers. -/
example : ∃ (fmt : ℚ → List Char) (scan : List Char → Option ℚ × List Char),
    (∀ t y, InBox (extents (Demo.fams ℚ)) t → (Demo.ser ℚ).coeff.get t = .ok y → Denotes scan (fmt y) y) ∧
    InBox (extents (Demo.fams ℚ)) [1, 2] := by
  refine ⟨fun y => dec ⌊y⌋.toNat, fun t => match scanNat t with | (n, r) => (n.map fun k => (k : ℚ), r), ?_, ?_⟩
  · have key : ∀ n : Nat, Denotes (fun t => match scanNat t with | (n, r) => (n.map fun k => (k : ℚ), r)) (dec ⌊(n : ℚ)⌋.toNat) (n : ℚ) := by
      intro n
      have hd := denotes_dec n
      have : ⌊(n : ℚ)⌋.toNat = n := by simp
      rw [this]
      exact ⟨hd.start, fun w hw => by simp [hd.conv w hw]⟩
    intro t y ht hy
    rw [Demo.ser_coeffs t ht] at hy
    cases hy
    dsimp only
    by_cases h : t = [1, 2]
    · rw [if_pos h]; exact key 5
    · rw [if_neg h]; exact_mod_cast key 0
  · simp [extents, Demo.fams, Demo.mono, InBox]

end Verif
