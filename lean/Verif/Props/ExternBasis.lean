import Verif.Props.ExternMore
import Verif.Props.SeriesMore

/-!
# The basis functions of a series through the C interface (C83) and from Python (C84)
-/

namespace Verif
open Spec
variable {K : Type} [Field K] [LinearOrder K] [FloorRing K]

/-- The functions of a family, or their first or second derivatives. -/
def Kind.fn (F : Family K) : Kind → Nat → K → K
  | .v => F.phi | .g => F.dphi | .h => F.ddphi

namespace XSeries

/-- A member that evaluates a basis set stores the functions of that kind and changes nothing else. -/
theorem evMember_of (k : Kind) {F : Family K} {b : BasisSet K} (h : Impl F b) (y : K) :
    ∃ b', Series.evMember k b y = .ok b' ∧ Impl F b' ∧
      ∀ k', (k' = k → ∀ t : Nat, t < F.size → (match k' with | .v => b'.getVal t | .g => b'.getGrad t | .h => b'.getHess t) = .ok (k.fn F t y)) ∧
        (k' ≠ k → ∀ t : Int, (match k' with | .v => b'.getVal t | .g => b'.getGrad t | .h => b'.getHess t) =
          (match k' with | .v => b.getVal t | .g => b.getGrad t | .h => b.getHess t)) := by
  have get : ∀ {l : List K} {f : Nat → K}, (∀ t : Nat, t < F.size → l[t]? = some (f t)) → ∀ t : Nat, t < F.size → vget l t = .ok (f t) :=
    fun h t ht => vget_ok.mpr ⟨Int.natCast_nonneg t, by simpa using h t ht⟩
  cases k with
  | v =>
    obtain ⟨l, e1, _, e3⟩ := BasisSet.eval_of h y
    refine ⟨_, e1, BasisSet.eval_keeps h e1, fun k' => ⟨?_, ?_⟩⟩
    · rintro rfl; exact get e3
    · intro hk t; cases k' <;> first | exact absurd rfl hk | rfl
  | g =>
    obtain ⟨l, e1, _, e3⟩ := BasisSet.evalGrad_of h y
    refine ⟨_, e1, BasisSet.evalGrad_keeps h e1, fun k' => ⟨?_, ?_⟩⟩
    · rintro rfl; exact get e3
    · intro hk t; cases k' <;> first | exact absurd rfl hk | rfl
  | h =>
    obtain ⟨l, e1, _, e3⟩ := BasisSet.evalHess_of h y
    refine ⟨_, e1, BasisSet.evalHess_keeps h e1, fun k' => ⟨?_, ?_⟩⟩
    · rintro rfl; exact get e3
    · intro hk t; cases k' <;> first | exact absurd rfl hk | rfl

theorem getBasis_c (k : Kind) (b t : Int) (s : Series K) :
    (seriesC (.getBasis k, [.int b, .int t, .refDbl]) s).1 = (getBasis1 k s b t).map XOut.num := by
  cases k <;> rfl

end XSeries

/-- **C83** Single basis functions through the C interface, after any calls other than `clear`: `calc_basis`, `calc_basis_grad`,
`calc_basis_hess` store function `t` of basis set `j`, or its derivatives, at coordinate `j`; `eval_basis(x, j)` (and for derivatives)
makes `get_basis` (and for derivatives) return them for basis set `j`, and leaves everything else that can be got unchanged;
`eval_basis(x)` (and for derivatives) does so for every basis set. -/
theorem C83_single_basis (fs : List (Family K)) (hg : GoodDims (extents fs)) (s : Series K) (hs : s.Over fs)
    (cs : List (SeriesFn × List (CVal K))) (hcs : ∀ c ∈ cs, c.1 ≠ .clear) (k : Kind) (x : List K) :
    let r := (runCalls seriesC cs s).2
    (∀ (j : Nat) F y, fs[j]? = some F → x[j]? = some y →
      (∀ t : Nat, t < F.size → (seriesC (.calcBasis k, [.int j, .int t, .dbls x, .refDbl]) r).1 = .ok (.num (k.fn F t y))) ∧
      ∃ r', seriesC (.evalBasis k, [.dbls x, .int j]) r = (.ok .void, r') ∧
        (∀ t : Nat, t < F.size → (seriesC (.getBasis k, [.int j, .int t, .refDbl]) r').1 = .ok (.num (k.fn F t y))) ∧
        ∀ (k' : Kind) (i : Nat) (t : Int), k' ≠ k ∨ i ≠ j →
          (seriesC (.getBasis k', [.int i, .int t, .refDbl]) r').1 = (seriesC (.getBasis k', [.int i, .int t, .refDbl]) r).1) ∧
    (x.length = fs.length → ∃ r', seriesC (.evalBasisAll k, [.dbls x]) r = (.ok .void, r') ∧
      ∀ (j : Nat) F y (t : Nat), fs[j]? = some F → x[j]? = some y → t < F.size →
        (seriesC (.getBasis k, [.int j, .int t, .refDbl]) r').1 = .ok (.num (k.fn F t y))) := by
  intro r
  have hr : r.Over fs := XSeries.over_calls cs hs hcs
  generalize r = r at hr
  have hw := hr.wf hg
  refine ⟨fun j F y hF hx => ⟨fun t ht => ?_, ?_⟩, fun hx => ?_⟩
  · obtain ⟨h1, h2, h3⟩ := C51_single fs hg r hr j F hF x y hx t ht
    have : ∃ s', r.basis1 (Series.termMember k) j t x = .ok (k.fn F t y, s') := by
      cases k
      · exact h1
      · exact h2
      · exact h3
    obtain ⟨s', e⟩ := this
    show (XSeries.numM (fun s => s.basis1 (Series.termMember k) j t x) r).1 = _
    simp only [XSeries.numM, e]
  · obtain ⟨b, h1, h2, h3⟩ := hw.at hF
    have hy := vget_ok.mpr ⟨Int.natCast_nonneg j, show x[(j : Int).toNat]? = some y by simpa using hx⟩
    have hlt : j < r.basis.length := by
      by_contra h; rw [List.getElem?_eq_none (by omega)] at h1; cases h1
    obtain ⟨b', e1, _, e3⟩ := XSeries.evMember_of k h3 y
    have put : (r.putBasis j b').basisAt j = .ok b' := by
      have : vget (r.putBasis j b').basis (j : Int) = .ok (some b') :=
        vget_ok.mpr ⟨Int.natCast_nonneg j, by simp [Series.putBasis, hlt]⟩
      simp only [Series.basisAt, this, ok_bind]
    have ne : ∀ i : Nat, i ≠ j → (r.putBasis j b').basisAt i = r.basisAt i := by
      intro i hij
      have : vget (r.putBasis j b').basis (i : Int) = vget r.basis (i : Int) := vget_set_ne r.basis j i (some b') (by omega) (by omega)
      simp only [Series.basisAt, this]
    refine ⟨r.putBasis j b', ?_, fun t ht => ?_, fun k' i t hne => ?_⟩
    · show XSeries.voidM (fun s => s.step (.basisOne k x j)) r = _
      simp only [XSeries.voidM, Series.step, Series.evalBasis1, h2, hy, e1, ok_bind]
    · rw [XSeries.getBasis_c]
      have := (e3 k).1 rfl t ht
      simp only [XSeries.getBasis1, put, ok_bind]
      cases k <;> (dsimp only at this ⊢; rw [this]; rfl)
    · rw [XSeries.getBasis_c, XSeries.getBasis_c]
      by_cases hij : i = j
      · subst hij
        have hk : k' ≠ k := by rcases hne with h | h; exact h; exact absurd rfl h
        have := (e3 k').2 hk t
        simp only [XSeries.getBasis1, put, h2, ok_bind]
        cases k' <;> (dsimp only at this ⊢; rw [this])
      · simp only [XSeries.getBasis1, ne i hij]
  · obtain ⟨s', e1, e2, e3⟩ : ∃ s', r.basisAll k x = .ok s' ∧ Series.WF 0 1 fs s' ∧
        Series.Evald fs x (k matches .v) (k matches .g) (k matches .h) s' := by
      cases k with
      | v =>
        obtain ⟨s1, h1, h2, _, h4⟩ := Series.evalBasis_of hw (by omega) (Series.evald_none fs x r)
        exact ⟨s1, h1, h2, h4⟩
      | g =>
        obtain ⟨s1, h1, h2, _, h4⟩ := Series.evalBasisGrad_of hw (by omega) (Series.evald_none fs x r)
        exact ⟨s1, h1, h2, h4⟩
      | h =>
        obtain ⟨s1, h1, h2, _, h4⟩ := Series.evalBasisHess_of hw (by omega) (Series.evald_none fs x r)
        exact ⟨s1, h1, h2, h4⟩
    refine ⟨s', ?_, fun j F y t hF hy ht => ?_⟩
    · show XSeries.voidM (fun s => s.step (.basisAll k x)) r = _
      simp only [XSeries.voidM, Series.step, e1]
    · obtain ⟨b, h1, h2, _⟩ := e2.at hF
      obtain ⟨k1, k2, k3⟩ := e3 j F y b hF hy h1
      rw [XSeries.getBasis_c]
      have get : ∀ {l : List K} {f : Nat → K}, (∀ t : Nat, t < F.size → l[t]? = some (f t)) → vget l t = .ok (f t) :=
        fun h => vget_ok.mpr ⟨Int.natCast_nonneg t, by simpa using h t ht⟩
      simp only [XSeries.getBasis1, h2, ok_bind]
      cases k with
      | v => rw [show b.getVal t = _ from get (k1 rfl)]; rfl
      | g => rw [show b.getGrad t = _ from get (k2 rfl)]; rfl
      | h => rw [show b.getHess t = _ from get (k3 rfl)]; rfl

/-- **C83** Products of basis functions through the C interface, after any calls other than `clear`: `calc_tensor_basis` and its
derivatives, and `get_tensor_basis` and its derivatives after `eval_basis`, `eval_basis_grad`, `eval_basis_hess` at the same point. -/
theorem C83_tensor_basis (fs : List (Family K)) (hg : GoodDims (extents fs)) (s : Series K) (hs : s.Over fs)
    (cs : List (SeriesFn × List (CVal K))) (hcs : ∀ c ∈ cs, c.1 ≠ .clear) (x : List K) (hx : x.length = fs.length) :
    let r := (runCalls seriesC cs s).2
    (∀ t, InBox (extents fs) t →
      (seriesC (.calcTensorBasis, [.ints t, .dbls x, .refDbl]) r).1 = .ok (.num (tensorBasis fs (value fs.length) t x)) ∧
      (∀ di : Nat, (seriesC (.calcTensorBasisGrad, [.ints t, .dbls x, .int di, .refDbl]) r).1 =
        .ok (.num (tensorBasis fs (gradient fs.length di) t x))) ∧
      ∀ di dj : Nat, (seriesC (.calcTensorBasisHess, [.ints t, .dbls x, .int di, .int dj, .refDbl]) r).1 =
        .ok (.num (tensorBasis fs (hessian fs.length di dj) t x))) ∧
    ∃ r', runCalls seriesC [(.evalBasisAll .v, [.dbls x]), (.evalBasisAll .g, [.dbls x]), (.evalBasisAll .h, [.dbls x])] r =
        ([.ok .void, .ok .void, .ok .void], r') ∧
      ∀ t, InBox (extents fs) t →
        (seriesC (.getTensorBasis, [.ints t, .refDbl]) r').1 = .ok (.num (tensorBasis fs (value fs.length) t x)) ∧
        (∀ di : Nat, (seriesC (.getTensorBasisGrad, [.ints t, .int di, .refDbl]) r').1 =
          .ok (.num (tensorBasis fs (gradient fs.length di) t x))) ∧
        ∀ di dj : Nat, (seriesC (.getTensorBasisHess, [.ints t, .int di, .int dj, .refDbl]) r').1 =
          .ok (.num (tensorBasis fs (hessian fs.length di dj) t x)) := by
  intro r
  have hr : r.Over fs := XSeries.over_calls cs hs hcs
  generalize r = r at hr
  constructor
  · intro t ht
    obtain ⟨⟨s1, h1⟩, h2, h3⟩ := C51_products fs hg r hr t ht x hx
    refine ⟨?_, fun di => ?_, fun di dj => ?_⟩
    · show (XSeries.numM (fun s => s.basisProd Series.evVal t x) r).1 = _
      simp only [XSeries.numM, h1]
    · obtain ⟨s2, h2⟩ := h2 di
      show (XSeries.numM (fun s => s.basisProd (Series.evGrad di) t x) r).1 = _
      simp only [XSeries.numM, h2]
    · obtain ⟨s3, h3⟩ := h3 di dj
      show (XSeries.numM (fun s => s.basisProd (Series.evHess di dj) t x) r).1 = _
      simp only [XSeries.numM, h3]
  · obtain ⟨s', e, h⟩ := C51_product_getters fs hg r hr x hx
    simp only [Series.run] at e
    obtain ⟨s1, e1, e⟩ := bind_eq_ok.mp e
    obtain ⟨s2, e2, e⟩ := bind_eq_ok.mp e
    obtain ⟨s3, e3, e⟩ := bind_eq_ok.mp e
    cases e
    have step : ∀ (k : Kind) (a b : Series K), a.step (.basisAll k x) = .ok b → seriesC (.evalBasisAll k, [.dbls x]) a = (.ok .void, b) := by
      intro k a b hab
      show XSeries.voidM (fun s => s.step (.basisAll k x)) a = _
      simp only [XSeries.voidM, hab]
    refine ⟨s', ?_, fun t ht => ?_⟩
    · simp only [runCalls, step _ _ _ e1, step _ _ _ e2, step _ _ _ e3]
    · obtain ⟨h1, h2, h3⟩ := h t ht
      refine ⟨?_, fun di => ?_, fun di dj => ?_⟩
      · show (s'.basisGet Series.facVal t).map XOut.num = _
        rw [h1]; rfl
      · show (s'.basisGet (Series.facGrad di) t).map XOut.num = _
        rw [h2]; rfl
      · show (s'.basisGet (Series.facHess di dj) t).map XOut.num = _
        rw [h3]; rfl

/-- **C84** partial: the basis functions of a series in Python, after any methods other than `clear`, `calc_basis_grad` and
`calc_basis_hess` (which are broken: `C84_series_methods_violated`). -/
theorem C84_series_basis_partial (fs : List (Family K)) (hg : GoodDims (extents fs)) (s : Series K) (hs : s.Over fs) (ms : List (PySer K))
    (hm : ∀ m ∈ ms, m.Sound) (x : List K) (hx : x.length = fs.length) :
    let r := (pyRun PySer.sem ms s).2
    (∀ (j : Nat) F y (t : Nat), fs[j]? = some F → x[j]? = some y → t < F.size →
      (PySer.sem (.calcBasis j t x) r).1 = .ok (.num (F.phi t y)) ∧
      ∀ k, ((PySer.sem (.evalBasis k x j) r).1 = .ok .none ∧
          (PySer.sem (.getBasis k j t) (PySer.sem (.evalBasis k x j) r).2).1 = .ok (.num (k.fn F t y))) ∧
        (PySer.sem (.evalBasisAll k x) r).1 = .ok .none ∧
          (PySer.sem (.getBasis k j t) (PySer.sem (.evalBasisAll k x) r).2).1 = .ok (.num (k.fn F t y))) ∧
    (∀ t, InBox (extents fs) t →
      (PySer.sem (.calcTensorBasis t x) r).1 = .ok (.num (tensorBasis fs (value fs.length) t x)) ∧
      (∀ di : Nat, (PySer.sem (.calcTensorBasisGrad t x di) r).1 = .ok (.num (tensorBasis fs (gradient fs.length di) t x))) ∧
      ∀ di dj : Nat, (PySer.sem (.calcTensorBasisHess t x di dj) r).1 = .ok (.num (tensorBasis fs (hessian fs.length di dj) t x))) ∧
    let q := (pyRun PySer.sem [.evalBasisAll .v x, .evalBasisAll .g x, .evalBasisAll .h x] r).2
    ∀ t, InBox (extents fs) t →
      (PySer.sem (.getTensorBasis t) q).1 = .ok (.num (tensorBasis fs (value fs.length) t x)) ∧
      (∀ di : Nat, (PySer.sem (.getTensorBasisGrad t di) q).1 = .ok (.num (tensorBasis fs (gradient fs.length di) t x))) ∧
      ∀ di dj : Nat, (PySer.sem (.getTensorBasisHess t di dj) q).1 = .ok (.num (tensorBasis fs (hessian fs.length di dj) t x)) := by
  intro r
  have hr : r.Over fs := pySer_run ms hs hm
  generalize r = r at hr
  have snd : ∀ c (s : Series K), (pySerC c s).2 = (seriesC c s).2 := fun c s => by rw [pySerC, pyCall_snd]
  obtain ⟨t1, r', t2, t3⟩ := C83_tensor_basis fs hg r hr [] (by simp) x hx
  simp only [show (runCalls seriesC [] r).2 = r from rfl] at t1 t2
  refine ⟨fun j F y t hF hy ht => ⟨?_, fun k => ⟨?_, ?_⟩⟩, fun t ht => ?_, fun t ht => ?_⟩
  · have := (C83_single_basis fs hg r hr [] (by simp) .v x).1 j F y hF hy
    exact pySerC_fst _ _ (this.1 t ht)
  · obtain ⟨_, r1, e1, e2, _⟩ := (C83_single_basis fs hg r hr [] (by simp) k x).1 j F y hF hy
    simp only [show (runCalls seriesC [] r).2 = r from rfl] at e1
    refine ⟨pySerC_fst _ _ (congrArg Prod.fst e1), ?_⟩
    have : (PySer.sem (.evalBasis k x j) r).2 = r1 := (snd _ _).trans (congrArg Prod.snd e1)
    rw [this]
    exact pySerC_fst _ _ (e2 t ht)
  · obtain ⟨r1, e1, e2⟩ := (C83_single_basis fs hg r hr [] (by simp) k x).2 hx
    simp only [show (runCalls seriesC [] r).2 = r from rfl] at e1
    refine ⟨pySerC_fst _ _ (congrArg Prod.fst e1), ?_⟩
    have : (PySer.sem (.evalBasisAll k x) r).2 = r1 := (snd _ _).trans (congrArg Prod.snd e1)
    rw [this]
    exact pySerC_fst _ _ (e2 j F y t hF hy ht)
  · obtain ⟨h1, h2, h3⟩ := t1 t ht
    exact ⟨pySerC_fst _ _ h1, fun di => pySerC_fst _ _ (h2 di), fun di dj => pySerC_fst _ _ (h3 di dj)⟩
  · have : (pyRun PySer.sem [.evalBasisAll .v x, .evalBasisAll .g x, .evalBasisAll .h x] r).2 = r' := by
      have := congrArg Prod.snd t2
      simp only [runCalls] at this
      simp only [pyRun, PySer.sem, snd]
      exact this
    rw [this]
    obtain ⟨h1, h2, h3⟩ := t3 t ht
    exact ⟨pySerC_fst _ _ h1, fun di => pySerC_fst _ _ (h2 di), fun di dj => pySerC_fst _ _ (h3 di dj)⟩

/-- The theorems apply to the series of two families of monomials (2 and 3 terms), evaluated once; `x y^2` differentiated in both
directions at (2,3) is 6. -/
example : (Demo.ser ℚ).Over (Demo.fams ℚ) ∧ GoodDims (extents (Demo.fams ℚ)) ∧ InBox (extents (Demo.fams ℚ)) [1, 2] ∧
    tensorBasis (Demo.fams ℚ) (hessian 2 0 1) [1, 2] [2, 3] = 6 := by
  refine ⟨Demo.ser_over, Demo.good ℚ, by simp [extents, Demo.fams, Demo.mono, InBox], ?_⟩
  decide +kernel

end Verif
