import Verif.Lemmas.Series
import Verif.Model.SeriesOps

/-! Helper lemmas about series: every call keeps a series well formed; what `eval_grad` and `eval_hess` store. -/

namespace Verif
open Spec NDArray

section
variable {K : Type} [Field K] [LinearOrder K] [FloorRing K]

namespace BasisSet

theorem eval_keeps {F : Family K} {b b' : BasisSet K} {x : K} (h : Impl F b) (e : b.eval x = .ok b') : Impl F b' := by
  obtain ⟨l, e1, e2, _⟩ := eval_of h x
  rw [e1] at e; cases e
  exact ⟨h.phi, h.dphi, h.ddphi, e2, h.glen, h.hlen⟩

theorem evalGrad_keeps {F : Family K} {b b' : BasisSet K} {x : K} (h : Impl F b) (e : b.evalGrad x = .ok b') : Impl F b' := by
  obtain ⟨l, e1, e2, _⟩ := evalGrad_of h x
  rw [e1] at e; cases e
  exact ⟨h.phi, h.dphi, h.ddphi, h.vlen, e2, h.hlen⟩

theorem evalHess_keeps {F : Family K} {b b' : BasisSet K} {x : K} (h : Impl F b) (e : b.evalHess x = .ok b') : Impl F b' := by
  obtain ⟨l, e1, e2, _⟩ := evalHess_of h x
  rw [e1] at e; cases e
  exact ⟨h.phi, h.dphi, h.ddphi, h.vlen, h.glen, e2⟩

end BasisSet

namespace Series
variable {z e : K} {fs : List (Family K)} {s s' : Series K}

theorem WF.basisAt_ok (h : WF z e fs s) {i : Int} {b : BasisSet K} (hb : s.basisAt i = .ok b) :
    ∃ (j : Nat) (F : Family K), i = j ∧ fs[j]? = some F ∧ Impl F b := by
  simp only [basisAt, bind_eq_ok] at hb
  obtain ⟨o, ho, hb⟩ := hb
  obtain ⟨h0, h1⟩ := vget_ok.mp ho
  cases o with
  | none => cases hb
  | some b' =>
    cases hb
    have hl := (List.getElem?_eq_some_iff.mp h1).1
    rw [← h.basis.length] at hl
    obtain ⟨F, hF⟩ : ∃ F, fs[i.toNat]? = some F := ⟨fs[i.toNat], by simp [hl]⟩
    obtain ⟨b'', e1, _, e3⟩ := h.at hF
    rw [h1] at e1; cases e1
    exact ⟨i.toNat, F, by omega, hF, e3⟩

theorem WF.put' (h : WF z e fs s) {i : Int} {b b' : BasisSet K} (hb : s.basisAt i = .ok b)
    (hk : ∀ F, Impl F b → Impl F b') : WF z e fs (s.putBasis i b') := by
  obtain ⟨j, F, rfl, hF, hI⟩ := h.basisAt_ok hb
  exact h.put hF (hk F hI)

theorem basisLoop_keeps {f : BasisSet K → K → Res (BasisSet K)} (hf : ∀ F b b' x, Impl F b → f b x = .ok b' → Impl F b')
    (var : List K) (n : Nat) : ∀ (i : Nat) (s : Series K), WF z e fs s → basisLoop f var n i s = .ok s' →
      WF z e fs s' ∧ s'.coeff = s.coeff := by
  induction n with
  | zero => intro i s h he; cases he; exact ⟨h, rfl⟩
  | succ n ih =>
    intro i s h he
    simp only [basisLoop, bind_eq_ok] at he
    obtain ⟨b, hb, x, hx, b', hb', he⟩ := he
    exact ih (i + 1) (s.putBasis i b') (h.put' hb fun F hI => hf F b b' x hI hb') he

theorem calcVal_keeps {y : K} (h : WF z e fs s) (he : s.calcVal = .ok (y, s')) : WF z e fs s' ∧ s'.coeff = s.coeff := by
  simp only [calcVal, bind_eq_ok] at he
  obtain ⟨v, _, he⟩ := he
  cases he
  exact ⟨⟨h.good, h.shaped, h.basis, h.glen, h.hlen, h.hrow, h.zero, h.ident⟩, rfl⟩

theorem calcGrad_keeps {y : K} {di : Int} (h : WF z e fs s) (he : s.calcGrad di = .ok (y, s')) :
    WF z e fs s' ∧ s'.coeff = s.coeff := by
  simp only [calcGrad, bind_eq_ok] at he
  obtain ⟨_, _, v, _, g, hg, he⟩ := he
  cases he
  obtain ⟨_, _, rfl⟩ := vset_ok.mp hg
  exact ⟨⟨h.good, h.shaped, h.basis, by simp [h.glen], h.hlen, h.hrow, h.zero, h.ident⟩, rfl⟩

theorem calcHess_keeps {y : K} {di dj : Int} (h : WF z e fs s) (he : s.calcHess di dj = .ok (y, s')) :
    WF z e fs s' ∧ s'.coeff = s.coeff := by
  simp only [calcHess, bind_eq_ok] at he
  obtain ⟨row, hrow, _, _, v, _, row', hr', H, hH, he⟩ := he
  cases he
  obtain ⟨_, _, rfl⟩ := vset_ok.mp hr'
  obtain ⟨_, _, rfl⟩ := vset_ok.mp hH
  refine ⟨⟨h.good, h.shaped, h.basis, h.glen, by simp [h.hlen], ?_, h.zero, h.ident⟩, rfl⟩
  intro r hr
  rcases List.mem_or_eq_of_mem_set hr with hr | rfl
  · exact h.hrow r hr
  · rw [List.length_set]
    exact h.hrow row (List.mem_of_getElem? (vget_ok.mp hrow).2)

theorem gradAtLoop_keeps (var : List K) (di : Int) (n : Nat) : ∀ (i : Nat) (s : Series K), WF z e fs s →
    gradAtLoop var di n i s = .ok s' → WF z e fs s' ∧ s'.coeff = s.coeff := by
  induction n with
  | zero => intro i s h he; cases he; exact ⟨h, rfl⟩
  | succ n ih =>
    intro i s h he
    simp only [gradAtLoop, bind_eq_ok] at he
    obtain ⟨b, hb, x, hx, he⟩ := he
    split at he
    · simp only [bind_eq_ok] at he
      obtain ⟨b', hb', he⟩ := he
      exact ih (i + 1) (s.putBasis i b') (h.put' hb fun F hI => BasisSet.evalGrad_keeps hI hb') he
    · simp only [bind_eq_ok] at he
      obtain ⟨_, _, _, _, he⟩ := he
      exact ih (i + 1) _ h he

theorem hessAtLoop_keeps (var : List K) (di dj : Int) (n : Nat) : ∀ (i : Nat) (s : Series K), WF z e fs s →
    hessAtLoop var di dj n i s = .ok s' → WF z e fs s' ∧ s'.coeff = s.coeff := by
  induction n with
  | zero => intro i s h he; cases he; exact ⟨h, rfl⟩
  | succ n ih =>
    intro i s h he
    simp only [hessAtLoop, bind_eq_ok] at he
    obtain ⟨b, hb, x, hx, he⟩ := he
    by_cases hd : (i : Int) = di ∨ (i : Int) = dj
    · by_cases hij : di = dj
      · rw [if_pos hd, if_pos hij] at he
        obtain ⟨b', hb', he⟩ := bind_eq_ok.mp he
        exact ih (i + 1) (s.putBasis i b') (h.put' hb fun F hI => BasisSet.evalHess_keeps hI hb') he
      · rw [if_pos hd, if_neg hij] at he
        obtain ⟨b', hb', he⟩ := bind_eq_ok.mp he
        exact ih (i + 1) (s.putBasis i b') (h.put' hb fun F hI => BasisSet.evalGrad_keeps hI hb') he
    · simp only [hd, if_false, bind_eq_ok] at he
      obtain ⟨_, _, _, _, he⟩ := he
      exact ih (i + 1) _ h he

theorem calcGrads_keeps (n : Nat) : ∀ (i : Nat) (s : Series K), WF z e fs s → calcGrads n i s = .ok s' →
    WF z e fs s' ∧ s'.coeff = s.coeff := by
  induction n with
  | zero => intro i s h he; cases he; exact ⟨h, rfl⟩
  | succ n ih =>
    intro i s h he
    simp only [calcGrads, bind_eq_ok] at he
    obtain ⟨⟨y, s1⟩, h1, he⟩ := he
    obtain ⟨w1, w2⟩ := calcGrad_keeps h h1
    obtain ⟨v1, v2⟩ := ih (i + 1) _ w1 he
    exact ⟨v1, v2.trans w2⟩

theorem calcHessRow_keeps (i n : Nat) : ∀ (j : Nat) (s : Series K), WF z e fs s → calcHessRow i n j s = .ok s' →
    WF z e fs s' ∧ s'.coeff = s.coeff := by
  induction n with
  | zero => intro j s h he; cases he; exact ⟨h, rfl⟩
  | succ n ih =>
    intro j s h he
    simp only [calcHessRow, bind_eq_ok] at he
    obtain ⟨⟨y, s1⟩, h1, he⟩ := he
    obtain ⟨w1, w2⟩ := calcHess_keeps h h1
    obtain ⟨v1, v2⟩ := ih (j + 1) _ w1 he
    exact ⟨v1, v2.trans w2⟩

theorem calcHesss_keeps (n : Nat) : ∀ (i : Nat) (s : Series K), WF z e fs s → calcHesss n i s = .ok s' →
    WF z e fs s' ∧ s'.coeff = s.coeff := by
  induction n with
  | zero => intro i s h he; cases he; exact ⟨h, rfl⟩
  | succ n ih =>
    intro i s h he
    simp only [calcHesss, bind_eq_ok] at he
    obtain ⟨s1, h1, he⟩ := he
    obtain ⟨w1, w2⟩ := calcHessRow_keeps _ _ _ _ h h1
    obtain ⟨v1, v2⟩ := ih (i + 1) _ w1 he
    exact ⟨v1, v2.trans w2⟩

theorem basisProdLoop_keeps {ev : Int → BasisSet K → Int → K → Res (K × BasisSet K)}
    (hf : ∀ j F b t x r, Impl F b → ev j b t x = .ok r → Impl F r.2) (term : List Int) (var : List K) (n : Nat) :
    ∀ (i : Nat) (tmp : K) (s : Series K) (y : K), WF z e fs s → basisProdLoop ev term var n i tmp s = .ok (y, s') →
      WF z e fs s' ∧ s'.coeff = s.coeff := by
  induction n with
  | zero => intro i tmp s y h he; cases he; exact ⟨h, rfl⟩
  | succ n ih =>
    intro i tmp s y h he
    simp only [basisProdLoop, bind_eq_ok] at he
    obtain ⟨b, hb, t, ht, x, hx, r, hr, he⟩ := he
    exact ih (i + 1) _ (s.putBasis i r.2) y (h.put' hb fun F hI => hf _ F b t x r hI hr) he

theorem setLin_shaped {c c' : NDArray K} {dim : List Int} {i : Int} {y : K} (h : Shaped c dim) (e : c.setLin i y = .ok c') :
    Shaped c' dim := by
  simp only [NDArray.setLin, bind_eq_ok] at e
  obtain ⟨v, hv, e⟩ := e
  obtain ⟨_, _, rfl⟩ := vset_ok.mp hv
  cases e
  exact ⟨h.dim_eq, h.unroll_eq, h.order_eq, h.vol_eq, by simpa using h.len_eq⟩

theorem WF.withCoeff (h : WF z e fs s) {c : NDArray K} (hc : Shaped c (sizesOf fs)) : WF z e fs { s with coeff := c } :=
  ⟨h.good, hc, h.basis, h.glen, h.hlen, h.hrow, h.zero, h.ident⟩

theorem readLoop_keeps (scan : List Char → Option K × List Char) (n : Nat) : ∀ (i : Nat) (term : List Int) (sin : IStream)
    (s : Series K) (r : IStream × Series K), WF z e fs s → readLoop scan n i term sin s = .ok r → WF z e fs r.2 := by
  induction n with
  | zero => intro i term sin s r h he; cases he; exact h
  | succ n ih =>
    intro i term sin s r h he
    simp only [readLoop, bind_eq_ok] at he
    obtain ⟨old, _, c, hc, he⟩ := he
    exact ih _ _ _ _ _ (h.withCoeff (setLin_shaped h.shaped hc)) he

theorem termMember_keeps (k : Kind) {F : Family K} {b : BasisSet K} {t : Int} {x : K} {r : K × BasisSet K} (h : Impl F b)
    (he : termMember k b t x = .ok r) : Impl F r.2 := by
  obtain ⟨y, b'⟩ := r
  cases k with
  | v => exact (BasisSet.evalTerm_inv h he).1
  | g => exact (BasisSet.gradTerm_inv h he).1
  | h => exact (BasisSet.hessTerm_inv h he).1

theorem evMember_keeps (k : Kind) {F : Family K} {b b' : BasisSet K} {x : K} (h : Impl F b)
    (he : evMember k b x = .ok b') : Impl F b' := by
  cases k with
  | v => exact BasisSet.eval_keeps h he
  | g => exact BasisSet.evalGrad_keeps h he
  | h => exact BasisSet.evalHess_keeps h he

theorem basisAll_eq (k : Kind) (s : Series K) (x : List K) : s.basisAll k x = basisLoop (evMember k) x s.coeff.order.toNat 0 s := by
  cases k <;> rfl

theorem evVal_kind (j : Int) : (evVal j : BasisSet K → _) = termMember .v := rfl
theorem evGrad_kind (di j : Int) : (evGrad di j : BasisSet K → _) = termMember (if j = di then .g else .v) := by
  unfold evGrad; split <;> rfl
theorem evHess_kind (di dj j : Int) : (evHess di dj j : BasisSet K → _) =
    termMember (if j = di ∨ j = dj then (if di = dj then .h else .g) else .v) := by
  unfold evHess; split <;> [split; skip] <;> rfl

/-- Every call that does not replace the basis sets keeps a series well formed. -/
theorem step_keeps {op : SerOp K} (hop : op.KeepsBasis) (h : WF z e fs s) (he : s.step op = .ok s') :
    WF z e fs s' ∧ (op.KeepsCoeff → s'.coeff = s.coeff) := by
  cases op with
  | set bs => exact hop.elim
  | clear => exact hop.elim
  | evalAt x =>
    simp only [step, bind_eq_ok, Series.evalAt] at he
    obtain ⟨⟨y, s2⟩, ⟨s1, h1, h2⟩, he⟩ := he
    cases he
    obtain ⟨w1, w2⟩ := basisLoop_keeps (fun _ _ _ _ => BasisSet.eval_keeps) _ _ _ _ h h1
    obtain ⟨v1, v2⟩ := calcVal_keeps w1 h2
    exact ⟨v1, fun _ => v2.trans w2⟩
  | gradAt x di =>
    simp only [step, bind_eq_ok, Series.gradAt] at he
    obtain ⟨⟨y, s2⟩, ⟨s1, h1, h2⟩, he⟩ := he
    cases he
    obtain ⟨w1, w2⟩ := gradAtLoop_keeps _ _ _ _ _ h h1
    obtain ⟨v1, v2⟩ := calcGrad_keeps w1 h2
    exact ⟨v1, fun _ => v2.trans w2⟩
  | hessAt x di dj =>
    simp only [step, bind_eq_ok, Series.hessAt] at he
    obtain ⟨⟨y, s2⟩, ⟨s1, h1, h2⟩, he⟩ := he
    cases he
    obtain ⟨w1, w2⟩ := hessAtLoop_keeps _ _ _ _ _ _ h h1
    obtain ⟨v1, v2⟩ := calcHess_keeps w1 h2
    exact ⟨v1, fun _ => v2.trans w2⟩
  | evalGrad x =>
    simp only [step, bind_eq_ok, Series.evalGrad] at he
    obtain ⟨s1, h1, s2, h2, he⟩ := he
    obtain ⟨w1, w2⟩ := basisLoop_keeps (fun _ _ _ _ => BasisSet.eval_keeps) _ _ _ _ h h1
    obtain ⟨v1, v2⟩ := basisLoop_keeps (fun _ _ _ _ => BasisSet.evalGrad_keeps) _ _ _ _ w1 h2
    obtain ⟨u1, u2⟩ := calcGrads_keeps _ _ _ v1 he
    exact ⟨u1, fun _ => u2.trans (v2.trans w2)⟩
  | evalHess x =>
    simp only [step, bind_eq_ok, Series.evalHess] at he
    obtain ⟨s1, h1, s2, h2, s3, h3, he⟩ := he
    obtain ⟨w1, w2⟩ := basisLoop_keeps (fun _ _ _ _ => BasisSet.eval_keeps) _ _ _ _ h h1
    obtain ⟨v1, v2⟩ := basisLoop_keeps (fun _ _ _ _ => BasisSet.evalGrad_keeps) _ _ _ _ w1 h2
    obtain ⟨t1, t2⟩ := basisLoop_keeps (fun _ _ _ _ => BasisSet.evalHess_keeps) _ _ _ _ v1 h3
    obtain ⟨u1, u2⟩ := calcHesss_keeps _ _ _ t1 he
    exact ⟨u1, fun _ => u2.trans (t2.trans (v2.trans w2))⟩
  | basisAll k x =>
    simp only [step, basisAll_eq] at he
    obtain ⟨w1, w2⟩ := basisLoop_keeps (fun _ _ _ _ => evMember_keeps k) _ _ _ _ h he
    exact ⟨w1, fun _ => w2⟩
  | basisOne k x i =>
    simp only [step, Series.evalBasis1, bind_eq_ok] at he
    obtain ⟨b, hb, y, hy, b', hb', he⟩ := he
    cases he
    exact ⟨h.put' hb fun F hI => evMember_keeps k hI hb', fun _ => rfl⟩
  | basis1 k bi t x =>
    simp only [step, Series.basis1, bind_eq_ok] at he
    obtain ⟨⟨y, s2⟩, ⟨b, hb, y', hy, r, hr, h2⟩, he⟩ := he
    cases h2; cases he
    exact ⟨h.put' hb fun F hI => termMember_keeps k hI hr, fun _ => rfl⟩
  | prod t x =>
    simp only [step, Series.basisProd, bind_eq_ok] at he
    obtain ⟨⟨y, s2⟩, h1, he⟩ := he
    cases he
    obtain ⟨w1, w2⟩ := basisProdLoop_keeps (fun _ _ _ _ _ _ hI hr => termMember_keeps .v hI hr) _ _ _ _ _ _ _ h h1
    exact ⟨w1, fun _ => w2⟩
  | prodGrad t x di =>
    simp only [step, Series.basisProd, bind_eq_ok] at he
    obtain ⟨⟨y, s2⟩, h1, he⟩ := he
    cases he
    obtain ⟨w1, w2⟩ := basisProdLoop_keeps (fun _ _ _ _ _ _ hI hr => termMember_keeps _ hI (by rw [← evGrad_kind]; exact hr))
      _ _ _ _ _ _ _ h h1
    exact ⟨w1, fun _ => w2⟩
  | prodHess t x di dj =>
    simp only [step, Series.basisProd, bind_eq_ok] at he
    obtain ⟨⟨y, s2⟩, h1, he⟩ := he
    cases he
    obtain ⟨w1, w2⟩ := basisProdLoop_keeps (fun _ _ _ _ _ _ hI hr => termMember_keeps _ hI (by rw [← evHess_kind]; exact hr))
      _ _ _ _ _ _ _ h h1
    exact ⟨w1, fun _ => w2⟩
  | setCoeff t y =>
    simp only [step, bind_eq_ok, NDArray.set] at he
    obtain ⟨c, ⟨l, hl, hc⟩, he⟩ := he
    cases he
    exact ⟨h.withCoeff (setLin_shaped h.shaped hc), fun hk => hk.elim⟩
  | setCoeffLin i y =>
    simp only [step, bind_eq_ok] at he
    obtain ⟨c, hc, he⟩ := he
    cases he
    exact ⟨h.withCoeff (setLin_shaped h.shaped hc), fun hk => hk.elim⟩
  | readCoeff scan sin =>
    simp only [step, bind_eq_ok, Series.readCoeff] at he
    obtain ⟨r, hr, he⟩ := he
    cases he
    exact ⟨readLoop_keeps _ _ _ _ _ _ _ h hr, fun hk => hk.elim⟩

theorem run_keeps (ops : List (SerOp K)) : ∀ {s : Series K}, (∀ op ∈ ops, op.KeepsBasis) → WF z e fs s → run ops s = .ok s' →
    WF z e fs s' ∧ ((∀ op ∈ ops, op.KeepsCoeff) → s'.coeff = s.coeff) := by
  induction ops with
  | nil => intro s _ h he; cases he; exact ⟨h, fun _ => rfl⟩
  | cons op ops ih =>
    intro s hk h he
    simp only [run, bind_eq_ok] at he
    obtain ⟨s1, h1, he⟩ := he
    obtain ⟨w1, w2⟩ := step_keeps (hk op (by simp)) h h1
    obtain ⟨v1, v2⟩ := ih (fun o ho => hk o (by simp [ho])) w1 he
    exact ⟨v1, fun hc => (v2 fun o ho => hc o (by simp [ho])).trans (w2 (hc op (by simp)))⟩

/-- `_zero_val` and `_identity_val` never change. -/
theorem sizes_of {bs : List (Option (BasisSet K))} (h : All2 HoldsFam fs bs) : sizes bs = .ok (sizesOf fs) := by
  induction h with
  | nil => rfl
  | @cons F hd l m hF _ ih =>
    obtain ⟨b, rfl, hI⟩ := hF
    simp [sizes, ih, sizesOf, BasisSet.size, hI.vlen]

theorem copyBases_of {bs : List (Option (BasisSet K))} (h : All2 HoldsFam fs bs) : copyBases bs = .ok bs := by
  induction h with
  | nil => rfl
  | @cons F hd l m hF _ ih =>
    obtain ⟨b, rfl, hI⟩ := hF
    simp [copyBases, ih]

/-- `set` gives a well-formed series with zero coefficients, whatever was there before. -/
theorem set_wf (s : Series K) {bs : List (Option (BasisSet K))} (h : All2 HoldsFam fs bs) (hg : GoodDims (sizesOf fs)) :
    ∃ s', s.set bs = .ok s' ∧ WF s.zeroVal s.identityVal fs s' ∧ (∀ t, InBox (sizesOf fs) t → s'.coeff.get t = .ok 0) ∧
      s'.basis = bs ∧ s'.coeff.dim = sizesOf fs ∧ s'.coeff.order = (fs.length : Int) := by
  have hr := resize_good (0 : K) s.clear.coeff hg
  have hsh := resize_shaped (0 : K) s.clear.coeff hg
  have hl : (sizesOf fs).length = fs.length := by simp [sizesOf]
  simp only [Series.set, sizes_of h, ok_bind, hr, copyBases_of h]
  rw [hr] at hsh
  simp only at hsh
  refine ⟨_, rfl, ⟨hg, hsh, h, ?_, ?_, ?_, rfl, rfl⟩, ?_, rfl, rfl, ?_⟩
  · simp [sizesOf]
  · simp [sizesOf]
  · intro r hr'
    rw [List.eq_of_mem_replicate hr']; simp [sizesOf]
  · intro t ht
    obtain ⟨x, hx, hx'⟩ := NDArray.get_of hsh hg ht
    rw [hx]
    simp only [clear, NDArray.clear, vresize, List.take_nil, List.nil_append] at hx'
    rw [List.getElem?_replicate] at hx'
    split at hx' <;> cases hx'
    rfl
  · simp [sizesOf]

/-- What `eval_grad` stores. -/
theorem calcGrads_of {x : List K} {hh : Bool} {c : List Int → K} (hx : fs.length ≤ x.length) (n : Nat) :
    ∀ (i : Nat) (s : Series K), WF z e fs s → Evald fs x true true hh s → HasCoeff s fs c → i + n = fs.length →
      ∃ g, calcGrads n i s = .ok { s with gradVal := g } ∧ g.length = fs.length ∧ (∀ j : Nat, j < i → g[j]? = s.gradVal[j]?) ∧
        ∀ j : Nat, i ≤ j → j < fs.length → g[j]? = some (z + series fs (gradient fs.length j) c x) := by
  induction n with
  | zero => intro i s h _ _ hi; exact ⟨s.gradVal, rfl, h.glen, fun _ _ => rfl, fun j h1 h2 => by omega⟩
  | succ n ih =>
    intro i s h hs hc hi
    have hsum := calcSum_of h (factors_dims (m := gradient fs.length i) (by simp [gradient]) hx) (reads_grad i hs) hc
    have hv : ∀ y : K, vset s.gradVal (i : Int) y = .ok (s.gradVal.set i y) := fun y => vset_nat _ _ _ (by rw [h.glen]; omega)
    have e1 : s.calcGrad i = .ok (z + series fs (gradient fs.length i) c x,
        { s with gradVal := s.gradVal.set i (z + series fs (gradient fs.length i) c x) }) := by
      simp only [calcGrad, hv, ok_bind, hsum]; rfl
    have w := (calcGrad_keeps h e1).1
    obtain ⟨g, e2, e3, e4, e5⟩ := ih (i + 1) _ w hs hc (by omega)
    refine ⟨g, ?_, e3, fun j hj => ?_, fun j h1 h2 => ?_⟩
    · simp only [calcGrads, e1, ok_bind]; exact e2
    · rw [e4 j (by omega)]; simp only; rw [List.getElem?_set_ne (by omega)]
    · rcases Nat.eq_or_lt_of_le h1 with rfl | hlt
      · rw [e4 i (by omega)]; simp only; rw [List.getElem?_set_self (by rw [h.glen]; omega)]
      · exact e5 j hlt h2

theorem calcHessRow_of {x : List K} {c : List Int → K} (hx : fs.length ≤ x.length) (i : Nat) (hi : i < fs.length) (n : Nat) :
    ∀ (j : Nat) (s : Series K), WF z e fs s → Evald fs x true true true s → HasCoeff s fs c → j + n = fs.length →
      ∃ H row row0, calcHessRow i n j s = .ok { s with hessVal := H } ∧ WF z e fs { s with hessVal := H } ∧
        H[i]? = some row ∧ s.hessVal[i]? = some row0 ∧
        (∀ k : Nat, k ≠ i → H[k]? = s.hessVal[k]?) ∧ (∀ k : Nat, k < j → row[k]? = row0[k]?) ∧
        ∀ k : Nat, j ≤ k → k < fs.length → row[k]? = some (z + series fs (hessian fs.length i k) c x) := by
  induction n with
  | zero =>
    intro j s h _ _ hj
    have hl : i < s.hessVal.length := by rw [h.hlen]; exact hi
    exact ⟨s.hessVal, s.hessVal[i], s.hessVal[i], rfl, h, by simp, by simp, fun _ _ => rfl, fun _ _ => rfl, fun k h1 h2 => by omega⟩
  | succ n ih =>
    intro j s h hs hc hj
    have hl : i < s.hessVal.length := by rw [h.hlen]; exact hi
    have hrl : (s.hessVal[i]).length = fs.length := h.hrow _ (List.getElem_mem hl)
    have hsum := calcSum_of h (factors_dims (m := hessian fs.length i j) (by simp [hessian]) hx) (reads_hess i j hs) hc
    have hg : vget s.hessVal (i : Int) = .ok s.hessVal[i] := vget_nat _ _ hl
    have hv : ∀ y : K, vset s.hessVal[i] (j : Int) y = .ok (s.hessVal[i].set j y) := fun y => vset_nat _ _ _ (by omega)
    have hv2 : ∀ r, vset s.hessVal (i : Int) r = .ok (s.hessVal.set i r) := fun r => vset_nat _ _ _ hl
    have e1 : s.calcHess i j = .ok (z + series fs (hessian fs.length i j) c x,
        { s with hessVal := s.hessVal.set i (s.hessVal[i].set j (z + series fs (hessian fs.length i j) c x)) }) := by
      simp only [calcHess, hg, hv, hv2, ok_bind, hsum]; rfl
    have w := (calcHess_keeps h e1).1
    obtain ⟨H, row, row0, e2, e3, e4, e5, e6, e7, e8⟩ := ih (j + 1) _ w hs hc (by omega)
    simp only [List.getElem?_set_self hl, Option.some.injEq] at e5
    subst e5
    refine ⟨H, row, s.hessVal[i], ?_, e3, e4, by simp, fun k hk => ?_, fun k hk => ?_, fun k h1 h2 => ?_⟩
    · simp only [calcHessRow, e1, ok_bind]; exact e2
    · rw [e6 k hk]; simp only; rw [List.getElem?_set_ne (by omega)]
    · rw [e7 k (by omega), List.getElem?_set_ne (by omega)]
    · rcases Nat.eq_or_lt_of_le h1 with rfl | hlt
      · rw [e7 j (by omega), List.getElem?_set_self (by omega)]
      · exact e8 k hlt h2

/-- What `eval_hess` stores. -/
theorem calcHesss_of {x : List K} {c : List Int → K} (hx : fs.length ≤ x.length) (n : Nat) :
    ∀ (i : Nat) (s : Series K), WF z e fs s → Evald fs x true true true s → HasCoeff s fs c → i + n = fs.length →
      ∃ H, calcHesss n i s = .ok { s with hessVal := H } ∧ WF z e fs { s with hessVal := H } ∧
        (∀ j : Nat, j < i → H[j]? = s.hessVal[j]?) ∧
        ∀ j : Nat, i ≤ j → j < fs.length → ∃ row, H[j]? = some row ∧
          ∀ k : Nat, k < fs.length → row[k]? = some (z + series fs (hessian fs.length j k) c x) := by
  induction n with
  | zero => intro i s h _ _ hi; exact ⟨s.hessVal, rfl, h, fun _ _ => rfl, fun j h1 h2 => by omega⟩
  | succ n ih =>
    intro i s h hs hc hi
    obtain ⟨H1, row, row0, e1, e2, e3, e4, e5, e6, e7⟩ := calcHessRow_of hx i (by omega) fs.length 0 s h hs hc (by omega)
    obtain ⟨H, f1, f2, f3, f4⟩ := ih (i + 1) _ e2 hs hc (by omega)
    refine ⟨H, ?_, f2, fun j hj => ?_, fun j h1 h2 => ?_⟩
    · simp only [calcHesss, h.order, e1, ok_bind]; exact f1
    · rw [f3 j (by omega)]; exact e5 j (by omega)
    · rcases Nat.eq_or_lt_of_le h1 with rfl | hlt
      · exact ⟨row, by rw [f3 i (by omega)]; exact e3, fun k hk => e7 k (by omega) hk⟩
      · exact f4 j hlt h2

theorem evalAt_of {x : List K} {c : List Int → K} (h : WF z e fs s) (hx : fs.length ≤ x.length) (hc : HasCoeff s fs c) :
    ∃ s', s.evalAt x = .ok (z + series fs (value fs.length) c x, s') ∧ s'.get = .ok (z + series fs (value fs.length) c x) ∧
      WF z e fs s' ∧ HasCoeff s' fs c ∧ Evald fs x true false false s' := by
  obtain ⟨s1, h1, h2, h3, h4⟩ := evalBasis_of h hx (evald_none fs x s)
  have hc1 : HasCoeff s1 fs c := by rw [h3]; exact hc
  have hsum := calcSum_of h2 (factors_dims (m := value fs.length) (by simp [value]) hx) (reads_val h4) hc1
  refine ⟨{ s1 with val := some (z + series fs (value fs.length) c x) }, ?_, rfl,
    ⟨h2.good, h2.shaped, h2.basis, h2.glen, h2.hlen, h2.hrow, h2.zero, h2.ident⟩, hc1, h4⟩
  simp only [evalAt, h1, ok_bind, calcVal, hsum]; rfl

theorem evalGrad_of {x : List K} {c : List Int → K} (h : WF z e fs s) (hx : fs.length ≤ x.length) (hc : HasCoeff s fs c) :
    ∃ s', s.evalGrad x = .ok s' ∧ ∀ di : Nat, di < fs.length → s'.getGrad di = .ok (z + series fs (gradient fs.length di) c x) := by
  obtain ⟨s1, h1, h2, h3, h4⟩ := evalBasis_of h hx (evald_none fs x s)
  obtain ⟨s2, k1, k2, k3, k4⟩ := evalBasisGrad_of h2 hx h4
  have hc2 : HasCoeff s2 fs c := by rw [k3, h3]; exact hc
  obtain ⟨g, e1, e2, _, e4⟩ := calcGrads_of hx fs.length 0 s2 k2 k4 hc2 (by omega)
  refine ⟨_, by simp only [evalGrad, h1, k1, ok_bind, k2.order]; exact e1, fun di hd => ?_⟩
  exact vget_ok.mpr ⟨by omega, by simpa using e4 di (by omega) hd⟩

theorem evalHess_of {x : List K} {c : List Int → K} (h : WF z e fs s) (hx : fs.length ≤ x.length) (hc : HasCoeff s fs c) :
    ∃ s', s.evalHess x = .ok s' ∧ ∀ di dj : Nat, di < fs.length → dj < fs.length →
      s'.getHess di dj = .ok (z + series fs (hessian fs.length di dj) c x) := by
  obtain ⟨s1, h1, h2, h3, h4⟩ := evalBasis_of h hx (evald_none fs x s)
  obtain ⟨s2, k1, k2, k3, k4⟩ := evalBasisGrad_of h2 hx h4
  obtain ⟨s3, l1, l2, l3, l4⟩ := evalBasisHess_of k2 hx k4
  have hc3 : HasCoeff s3 fs c := by rw [l3, k3, h3]; exact hc
  obtain ⟨H, e1, _, _, e4⟩ := calcHesss_of hx fs.length 0 s3 l2 l4 hc3 (by omega)
  refine ⟨_, by simp only [evalHess, h1, k1, l1, ok_bind, l2.order]; exact e1, fun di dj hd hd' => ?_⟩
  obtain ⟨row, r1, r2⟩ := e4 di (by omega) hd
  have g1 : vget H (di : Int) = .ok row := vget_ok.mpr ⟨by omega, by simpa using r1⟩
  simp only [getHess, g1, ok_bind]
  exact vget_ok.mpr ⟨by omega, by simpa using r2 dj hd'⟩

end Series
end
end Verif
