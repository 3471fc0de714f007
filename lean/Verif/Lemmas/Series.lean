import Verif.Lemmas.TensorSum
import Verif.Props.NDArray

/-! Helper lemmas about series: what the loops compute. -/

namespace Verif
open Spec NDArray

section
variable {K : Type} [Field K] [LinearOrder K] [FloorRing K]

/-- Sizes of the families, as extents. -/
def sizesOf (fs : List (Family K)) : List Int := fs.map fun F => (F.size : Int)

/-- The handle holds a basis set that implements `F`. -/
def HoldsFam (F : Family K) (h : Option (BasisSet K)) : Prop := ∃ b, h = some b ∧ Impl F b

/-- A series over families `fs`, with `_zero_val = z` and `_identity_val = e`. -/
structure Series.WF (z e : K) (fs : List (Family K)) (s : Series K) : Prop where
  good : GoodDims (sizesOf fs)
  shaped : Shaped s.coeff (sizesOf fs)
  basis : All2 HoldsFam fs s.basis
  glen : s.gradVal.length = fs.length
  hlen : s.hessVal.length = fs.length
  hrow : ∀ r ∈ s.hessVal, r.length = fs.length
  zero : s.zeroVal = z
  ident : s.identityVal = e

namespace Series
variable {z e : K} {fs : List (Family K)} {s : Series K}

theorem WF.order (h : WF z e fs s) : s.coeff.order.toNat = fs.length := by
  rw [h.shaped.order_eq]; simp [sizesOf]

theorem WF.at (h : WF z e fs s) {j : Nat} {F : Family K} (hF : fs[j]? = some F) :
    ∃ b, s.basis[j]? = some (some b) ∧ s.basisAt j = .ok b ∧ Impl F b := by
  obtain ⟨hd, h1, b, rfl, h2⟩ := h.basis.getElem? hF
  refine ⟨b, h1, ?_, h2⟩
  have hg : vget s.basis (j : Int) = .ok (some b) := vget_ok.mpr ⟨by omega, by simpa using h1⟩
  simp only [basisAt, hg, ok_bind]

theorem WF.put (h : WF z e fs s) {j : Nat} {F : Family K} {b : BasisSet K} (hF : fs[j]? = some F) (hb : Impl F b) :
    WF z e fs (s.putBasis j b) := by
  refine ⟨h.good, h.shaped, ?_, h.glen, h.hlen, h.hrow, h.zero, h.ident⟩
  refine h.basis.set ?_ fun _ _ _ _ _ hr => hr
  intro F' hF'
  rw [show ((j : Nat) : Int).toNat = j by omega, hF] at hF'
  cases hF'
  exact ⟨b, rfl, hb⟩

omit [LinearOrder K] [FloorRing K] in
theorem inBox_get {ds ts : List Int} (h : InBox ds ts) {j : Nat} {d : Int} (hd : ds[j]? = some d) :
    ∃ t, ts[j]? = some t ∧ 0 ≤ t ∧ t < d := by
  induction ds generalizing ts j with
  | nil => simp at hd
  | cons a ds ih =>
    cases ts with
    | nil => exact absurd h (by simp [InBox])
    | cons t ts =>
      cases j with
      | zero => simp at hd; subst hd; exact ⟨t, rfl, h.1⟩
      | succ j => simpa using ih h.2 (by simpa using hd)

/-- `fac` reads the factors `fl`. -/
def Reads (fac : Int → BasisSet K → Int → Res K) (s : Series K) (fl : List (Nat × (Nat → K))) : Prop :=
  ∀ (j : Nat) b p, s.basis[j]? = some (some b) → fl[j]? = some p → ∀ t : Int, 0 ≤ t → t < p.1 → fac j b t = .ok (p.2 t.toNat)

theorem prodLoop_of {fac : Int → BasisSet K → Int → Res K} {fl : List (Nat × (Nat → K))} (h : WF z e fs s)
    (hlen : fl.length = fs.length) (hr : Reads fac s fl) {t : List Int} (ht : InBox (dimsOf fl) t) (n : Nat) :
    ∀ (j : Nat) (tmp : K), j + n = fl.length → prodLoop fac s t n j tmp = .ok (tmp * facProd (fl.drop j) (t.drop j)) := by
  induction n with
  | zero =>
    intro j tmp hj
    rw [List.drop_eq_nil_of_le (by omega)]
    simp [prodLoop, facProd]
  | succ n ih =>
    intro j tmp hj
    obtain ⟨F, hF⟩ : ∃ F, fs[j]? = some F := ⟨fs[j]'(by omega), by simp⟩
    obtain ⟨p, hp⟩ : ∃ p, fl[j]? = some p := ⟨fl[j]'(by omega), by simp⟩
    obtain ⟨b, h1, h2, _⟩ := h.at hF
    obtain ⟨u, hu, hu0, hu1⟩ := inBox_get ht (j := j) (d := (p.1 : Int)) (by simp [dimsOf, hp])
    have hv : vget t (j : Int) = .ok u := vget_ok.mpr ⟨by omega, by simpa using hu⟩
    simp only [prodLoop, h2, hv, hr j b p h1 hp u hu0 hu1, ok_bind]
    rw [ih (j + 1) _ (by omega)]
    obtain ⟨hj1, hj2⟩ := List.getElem?_eq_some_iff.mp hp
    obtain ⟨hj3, hj4⟩ := List.getElem?_eq_some_iff.mp hu
    rw [List.drop_eq_getElem_cons hj1, List.drop_eq_getElem_cons hj3, hj2, hj4]
    obtain ⟨m, f⟩ := p
    simp only [facProd, List.headD_cons, List.tail_cons, mul_assoc]

theorem calcLoop_of {fac : Int → BasisSet K → Int → Res K} {fl : List (Nat × (Nat → K))} (h : WF z e fs s)
    (hd : dimsOf fl = sizesOf fs) (hr : Reads fac s fl) (n : Nat) :
    ∀ (i : Nat) (tindex : List Int) (acc : K), (i : Int) + n = prod (sizesOf fs) → tindex.length = fs.length →
      calcLoop fac s n i tindex acc =
        .ok (acc + ∑ l ∈ Finset.range n, s.coeff.val.getD (i + l) 0 * facProd fl (digits (sizesOf fs) ((i + l : Nat) : Int))) := by
  have hlen : fl.length = fs.length := by
    have := congrArg List.length hd; simpa [dimsOf, sizesOf] using this
  induction n with
  | zero => intro i tindex acc _ _; simp [calcLoop]
  | succ n ih =>
    intro i tindex acc hi ht
    have hl := h.shaped.len_eq
    have hi' : i < s.coeff.val.length := by omega
    have hg : s.coeff.getLin i = .ok (s.coeff.val.getD i 0) := by
      rw [getLin, vget_nat _ _ hi']; simp [hi']
    have htI := tensorIndices_of h.shaped h.good (term := tindex) (by simpa [sizesOf] using ht) (l := (i : Int)) (by omega) (by omega)
    have hbox := digits_inBox h.good.2.1 (l := (i : Int)) (by omega) (by omega)
    have hp := prodLoop_of h hlen hr (t := digits (sizesOf fs) i) (by rw [hd]; exact hbox) fs.length 0 (s.coeff.val.getD i 0) (by omega)
    simp only [List.drop_zero] at hp
    simp only [calcLoop, hg, htI, ok_bind, h.order, hp]
    rw [ih (i + 1) _ _ (by push_cast; omega) (by simp [sizesOf])]
    rw [Finset.sum_range_succ', add_assoc]
    congr 2
    rw [add_comm]
    congr 1
    refine Finset.sum_congr rfl fun l _ => ?_
    rw [show i + 1 + l = i + (l + 1) by omega]

/-- The coefficients a client reads. -/
def HasCoeff (s : Series K) (fs : List (Family K)) (c : List Int → K) : Prop :=
  ∀ t, InBox (sizesOf fs) t → s.coeff.get t = .ok (c t)

theorem calcSum_of {fac : Int → BasisSet K → Int → Res K} {fl : List (Nat × (Nat → K))} (h : WF z e fs s)
    (hd : dimsOf fl = sizesOf fs) (hr : Reads fac s fl) {c : List Int → K} (hc : HasCoeff s fs c) :
    s.calcSum fac = .ok (z + tensorSum fl c) := by
  have hpos := prod_pos h.good.2.1
  rw [calcSum, calcLoop_of h hd hr _ 0 _ _ (by rw [h.shaped.vol_eq]; omega) (by simp [h.order]), h.zero, h.shaped.vol_eq]
  have e1 := tensorSum_eq fl (by rw [hd]; exact h.good.2.1) (fun l => s.coeff.val.getD l 0)
  rw [hd] at e1
  congr 2
  simp only [Nat.zero_add]
  rw [e1]
  refine tensorSum_congr fun t ht => ?_
  rw [hd] at ht
  obtain ⟨x, hx, hx'⟩ := NDArray.get_of h.shaped h.good ht
  rw [hc t ht] at hx
  cases hx
  simp [List.getD_eq_getElem?_getD, hx']

/-- Every array position in range has a coefficient. -/
theorem WF.coeff_exists (h : WF z e fs s) : ∃ c, HasCoeff s fs c := by
  classical
  refine ⟨fun t => match s.coeff.get t with | .ok y => y | .error _ => 0, fun t ht => ?_⟩
  obtain ⟨x, hx, _⟩ := NDArray.get_of h.shaped h.good ht
  simp only [hx]

/-- A pass over all basis sets. -/
theorem basisLoop_of {f : BasisSet K → K → Res (BasisSet K)} {Q : Family K → K → BasisSet K → BasisSet K → Prop}
    (hf : ∀ F b, Impl F b → ∀ x, ∃ b', f b x = .ok b' ∧ Impl F b' ∧ Q F x b b') (var : List K) (hv : fs.length ≤ var.length) (n : Nat) :
    ∀ (i : Nat) (s : Series K), WF z e fs s → i + n = fs.length →
      ∃ s', basisLoop f var n i s = .ok s' ∧ WF z e fs s' ∧ s' = { s with basis := s'.basis } ∧
        (∀ j, j < i → s'.basis[j]? = s.basis[j]?) ∧
        ∀ (j : Nat) F x b, i ≤ j → fs[j]? = some F → var[j]? = some x → s.basis[j]? = some (some b) →
          ∃ b', s'.basis[j]? = some (some b') ∧ Q F x b b' := by
  induction n with
  | zero =>
    intro i s h hi
    refine ⟨s, rfl, h, rfl, fun _ _ => rfl, fun j F x b hj hF => ?_⟩
    have := (List.getElem?_eq_some_iff.mp hF).1
    omega
  | succ n ih =>
    intro i s h hi
    obtain ⟨F, hF⟩ : ∃ F, fs[i]? = some F := ⟨fs[i]'(by omega), by simp⟩
    obtain ⟨x, hx⟩ : ∃ x, var[i]? = some x := ⟨var[i]'(by omega), by simp⟩
    obtain ⟨b, h1, h2, h3⟩ := h.at hF
    have hvx : vget var (i : Int) = .ok x := vget_ok.mpr ⟨by omega, by simpa using hx⟩
    obtain ⟨b', e1, e2, e3⟩ := hf F b h3 x
    obtain ⟨s', g1, g2, g3, g4, g5⟩ := ih (i + 1) _ (h.put hF e2) (by omega)
    have hblen : i < s.basis.length := (List.getElem?_eq_some_iff.mp h1).1
    refine ⟨s', by simp only [basisLoop, h2, hvx, e1, ok_bind]; exact g1, g2, by rw [g3]; rfl, fun j hj => ?_, ?_⟩
    · rw [g4 j (by omega)]; simp only [putBasis, Int.toNat_natCast]; rw [List.getElem?_set_ne (by omega)]
    · intro j F' x' b0 hj hF' hx' hb0
      rcases Nat.eq_or_lt_of_le hj with rfl | hlt
      · rw [hF] at hF'; cases hF'
        rw [hx] at hx'; cases hx'
        rw [h1] at hb0; cases hb0
        refine ⟨b', ?_, e3⟩
        rw [g4 i (by omega)]
        simp only [putBasis, Int.toNat_natCast]
        rw [List.getElem?_set_self hblen]
      · refine g5 j F' x' b0 hlt hF' hx' ?_
        simp only [putBasis, Int.toNat_natCast]
        rw [List.getElem?_set_ne (by omega)]
        exact hb0

/-- All basis sets hold values / derivatives at `x`: those selected by the flags. -/
def Evald (fs : List (Family K)) (x : List K) (v g hh : Bool) (s : Series K) : Prop :=
  ∀ (j : Nat) F y b, fs[j]? = some F → x[j]? = some y → s.basis[j]? = some (some b) →
    (v = true → ∀ t, t < F.size → b.val[t]? = some (F.phi t y)) ∧
    (g = true → ∀ t, t < F.size → b.grad[t]? = some (F.dphi t y)) ∧
    (hh = true → ∀ t, t < F.size → b.hess[t]? = some (F.ddphi t y))

theorem evalBasis_of (h : WF z e fs s) {x : List K} (hx : fs.length ≤ x.length) {g hh v : Bool} (hs : Evald fs x v g hh s) :
    ∃ s', s.evalBasis x = .ok s' ∧ WF z e fs s' ∧ s' = { s with basis := s'.basis } ∧ Evald fs x true g hh s' := by
  obtain ⟨s', e1, e2, e3, _, e5⟩ := basisLoop_of (f := BasisSet.eval)
    (Q := fun F y b b' => (∀ t, t < F.size → b'.val[t]? = some (F.phi t y)) ∧ b'.grad = b.grad ∧ b'.hess = b.hess)
    (fun F b hb y => by
      obtain ⟨l, h1, h2, h3⟩ := BasisSet.eval_of hb y
      exact ⟨_, h1, ⟨hb.phi, hb.dphi, hb.ddphi, h2, hb.glen, hb.hlen⟩, h3, rfl, rfl⟩) x hx fs.length 0 s h (by omega)
  refine ⟨s', by rw [evalBasis, h.order]; exact e1, e2, e3, ?_⟩
  intro j F y b' hF hy hb'
  obtain ⟨b, hb, _⟩ := h.at hF
  obtain ⟨b'', hb'', q1, q2, q3⟩ := e5 j F y b (by omega) hF hy hb
  rw [hb'] at hb''; cases hb''
  obtain ⟨_, s2, s3⟩ := hs j F y b hF hy hb
  exact ⟨fun _ => q1, by rw [q2]; exact s2, by rw [q3]; exact s3⟩

theorem evalBasisGrad_of (h : WF z e fs s) {x : List K} (hx : fs.length ≤ x.length) {g hh v : Bool} (hs : Evald fs x v g hh s) :
    ∃ s', s.evalBasisGrad x = .ok s' ∧ WF z e fs s' ∧ s' = { s with basis := s'.basis } ∧ Evald fs x v true hh s' := by
  obtain ⟨s', e1, e2, e3, _, e5⟩ := basisLoop_of (f := BasisSet.evalGrad)
    (Q := fun F y b b' => (∀ t, t < F.size → b'.grad[t]? = some (F.dphi t y)) ∧ b'.val = b.val ∧ b'.hess = b.hess)
    (fun F b hb y => by
      obtain ⟨l, h1, h2, h3⟩ := BasisSet.evalGrad_of hb y
      exact ⟨_, h1, ⟨hb.phi, hb.dphi, hb.ddphi, hb.vlen, h2, hb.hlen⟩, h3, rfl, rfl⟩) x hx fs.length 0 s h (by omega)
  refine ⟨s', by rw [evalBasisGrad, h.order]; exact e1, e2, e3, ?_⟩
  intro j F y b' hF hy hb'
  obtain ⟨b, hb, _⟩ := h.at hF
  obtain ⟨b'', hb'', q1, q2, q3⟩ := e5 j F y b (by omega) hF hy hb
  rw [hb'] at hb''; cases hb''
  obtain ⟨s1, _, s3⟩ := hs j F y b hF hy hb
  exact ⟨by rw [q2]; exact s1, fun _ => q1, by rw [q3]; exact s3⟩

theorem evalBasisHess_of (h : WF z e fs s) {x : List K} (hx : fs.length ≤ x.length) {g hh v : Bool} (hs : Evald fs x v g hh s) :
    ∃ s', s.evalBasisHess x = .ok s' ∧ WF z e fs s' ∧ s' = { s with basis := s'.basis } ∧ Evald fs x v g true s' := by
  obtain ⟨s', e1, e2, e3, _, e5⟩ := basisLoop_of (f := BasisSet.evalHess)
    (Q := fun F y b b' => (∀ t, t < F.size → b'.hess[t]? = some (F.ddphi t y)) ∧ b'.val = b.val ∧ b'.grad = b.grad)
    (fun F b hb y => by
      obtain ⟨l, h1, h2, h3⟩ := BasisSet.evalHess_of hb y
      exact ⟨_, h1, ⟨hb.phi, hb.dphi, hb.ddphi, hb.vlen, hb.glen, h2⟩, h3, rfl, rfl⟩) x hx fs.length 0 s h (by omega)
  refine ⟨s', by rw [evalBasisHess, h.order]; exact e1, e2, e3, ?_⟩
  intro j F y b' hF hy hb'
  obtain ⟨b, hb, _⟩ := h.at hF
  obtain ⟨b'', hb'', q1, q2, q3⟩ := e5 j F y b (by omega) hF hy hb
  rw [hb'] at hb''; cases hb''
  obtain ⟨s1, s2, _⟩ := hs j F y b hF hy hb
  exact ⟨by rw [q2]; exact s1, by rw [q3]; exact s2, fun _ => q1⟩

theorem evald_none (fs : List (Family K)) (x : List K) (s : Series K) : Evald fs x false false false s := by
  intro j F y b _ _ _; simp

/-- The factors of `Spec.series`. -/
def factors (fs : List (Family K)) (m : List Nat) (x : List K) : List (Nat × (Nat → K)) :=
  fs.zip (m.zip x) |>.map fun p => (p.1.size, fun k => p.1.deriv p.2.1 k p.2.2)

theorem factors_get {m : List Nat} {x : List K} {j : Nat} {p : Nat × (Nat → K)} (h : (factors fs m x)[j]? = some p) :
    ∃ F o y, fs[j]? = some F ∧ m[j]? = some o ∧ x[j]? = some y ∧ p = (F.size, fun k => F.deriv o k y) := by
  simp only [factors, List.getElem?_map, List.getElem?_zip_eq_some, Option.map_eq_some_iff] at h
  obtain ⟨⟨F, o, y⟩, ⟨h1, h2⟩, rfl⟩ := h
  exact ⟨F, o, y, h1, h2.1, h2.2, rfl⟩

theorem factors_dims {m : List Nat} {x : List K} (hm : m.length = fs.length) (hx : fs.length ≤ x.length) :
    dimsOf (factors fs m x) = sizesOf fs := by
  simp only [dimsOf, factors, sizesOf, List.map_map]
  apply List.ext_getElem?
  intro j
  simp only [List.getElem?_map]
  by_cases hj : j < fs.length
  · simp [List.getElem?_zip_eq_some, List.getElem?_eq_getElem, hj, hm, show j < x.length by omega]
  · rw [List.getElem?_eq_none (by simp; omega), List.getElem?_eq_none (by omega)]; rfl

theorem reads_val {x : List K} (hs : Evald fs x true g hh s) : Reads facVal s (factors fs (value fs.length) x) := by
  intro j b p hb hp t h0 h1
  obtain ⟨F, o, y, hF, ho, hy, rfl⟩ := factors_get hp
  obtain ⟨s1, _, _⟩ := hs j F y b hF hy hb
  have : o = 0 := by
    simp only [value, List.getElem?_replicate] at ho
    split at ho <;> simp_all
  subst this
  simp only at h1
  exact vget_ok.mpr ⟨h0, s1 rfl t.toNat (by omega)⟩

theorem get_range_map {α : Type} {n j : Nat} {f : Nat → α} {a : α} (h : ((List.range n).map f)[j]? = some a) : a = f j := by
  rw [List.getElem?_map] at h
  cases hj : (List.range n)[j]? with
  | none => rw [hj] at h; cases h
  | some k =>
    rw [hj] at h; cases h
    obtain ⟨_, hk⟩ := List.getElem?_eq_some_iff.mp hj
    simp at hk; subst hk; rfl

theorem reads_grad {x : List K} (i : Nat) (hs : Evald fs x true true hh s) :
    Reads (facGrad i) s (factors fs (gradient fs.length i) x) := by
  intro j b p hb hp t h0 h1
  obtain ⟨F, o, y, hF, ho, hy, rfl⟩ := factors_get hp
  obtain ⟨s1, s2, _⟩ := hs j F y b hF hy hb
  have ho' := get_range_map ho
  simp only at h1
  by_cases hji : j = i
  · subst hji
    simp only [if_true] at ho'
    subst ho'
    simp only [facGrad, if_true]
    exact vget_ok.mpr ⟨h0, s2 rfl t.toNat (by omega)⟩
  · simp only [hji, if_false] at ho'
    subst ho'
    simp only [facGrad, show ¬ ((j : Int) = (i : Int)) by omega, if_false]
    exact vget_ok.mpr ⟨h0, s1 rfl t.toNat (by omega)⟩

theorem reads_hess {x : List K} (i k : Nat) (hs : Evald fs x true true true s) :
    Reads (facHess i k) s (factors fs (hessian fs.length i k) x) := by
  intro j b p hb hp t h0 h1
  obtain ⟨F, o, y, hF, ho, hy, rfl⟩ := factors_get hp
  obtain ⟨s1, s2, s3⟩ := hs j F y b hF hy hb
  have ho' := get_range_map ho
  simp only at h1
  have e : ∀ a b : Nat, ((a : Int) = (b : Int)) ↔ a = b := by intro a b; omega
  simp only [facHess, e]
  by_cases hji : j = i <;> by_cases hjk : j = k
  · subst hji; subst hjk
    simp only [if_true] at ho'
    subst ho'
    simp only [true_or, if_true]
    exact vget_ok.mpr ⟨h0, s3 rfl t.toNat (by omega)⟩
  · rw [if_pos hji, if_neg hjk] at ho'
    subst ho'
    rw [if_pos (Or.inl hji), if_neg (by rintro rfl; exact hjk hji)]
    exact vget_ok.mpr ⟨h0, s2 rfl t.toNat (by omega)⟩
  · rw [if_neg hji, if_pos hjk] at ho'
    subst ho'
    rw [if_pos (Or.inr hjk), if_neg (by rintro rfl; exact hji hjk)]
    exact vget_ok.mpr ⟨h0, s2 rfl t.toNat (by omega)⟩
  · simp only [hji, hjk, if_false] at ho'
    subst ho'
    rw [if_neg (by simp [hji, hjk])]
    exact vget_ok.mpr ⟨h0, s1 rfl t.toNat (by omega)⟩

end Series
end
end Verif
