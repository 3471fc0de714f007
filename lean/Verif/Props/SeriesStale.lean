import Verif.Props.Series

/-!
# Property C49: what single-shot derivatives of a series are, in every case

`grad(x, di)` and `hess(x, di, dj)` evaluate the basis functions of the differentiated directions only; those of the other directions keep the values of the last
evaluation of the series. So the number returned is the derivative at a point put together from two: the differentiated coordinates of `x` and the other coordinates of
the last evaluation. That holds where every other coordinate of `x`, truncated, is the number of a term; everywhere else the call is undefined behaviour.
-/

namespace Verif
open Spec NDArray

section
variable {K : Type} [Field K] [LinearOrder K] [FloorRing K]

namespace Series
variable {z e : K} {fs : List (Family K)} {s s' : Series K}

/-- The stored values of the basis functions of direction `j` are those at `y j`. -/
def ValuesAt (fs : List (Family K)) (y : List K) (s : Series K) : Prop :=
  ∀ (j : Nat) F w b, fs[j]? = some F → y[j]? = some w → s.basis[j]? = some (some b) → ∀ t, t < F.size → b.val[t]? = some (F.phi t w)

/-- The loop stops where a coordinate that is not differentiated is no term index. -/
theorem ptLoop_stops {sel : Nat → Bool} {f : BasisSet K → K → Res (BasisSet K)}
    (hf : ∀ F b, Impl F b → ∀ x, ∃ b', f b x = .ok b' ∧ Impl F b') (var : List K) (hv : fs.length ≤ var.length) (n : Nat) :
    ∀ (i : Nat) (s : Series K), WF z e fs s → i + n = fs.length →
      (∃ (j : Nat) (F : Family K) (y : K), i ≤ j ∧ sel j = false ∧ fs[j]? = some F ∧ var[j]? = some y ∧ ¬ TermIndex F y) →
      ∃ u, ptLoop sel f var n i s = .error (.ub u) := by
  induction n with
  | zero =>
    rintro i s h hi ⟨j, F, y, hj, _, hF, _⟩
    have := (List.getElem?_eq_some_iff.mp hF).1
    omega
  | succ n ih =>
    rintro i s h hi ⟨j, F', y', hj, hsj, hF', hy', hn⟩
    obtain ⟨F, hF⟩ : ∃ F, fs[i]? = some F := ⟨fs[i]'(by omega), by simp⟩
    obtain ⟨x, hx⟩ : ∃ x, var[i]? = some x := ⟨var[i]'(by omega), by simp⟩
    obtain ⟨b, h1, h2, h3⟩ := h.at hF
    have hvx : vget var (i : Int) = .ok x := vget_ok.mpr ⟨by omega, by simpa using hx⟩
    cases hsel : sel i with
    | true =>
      obtain ⟨b', e1, e2⟩ := hf F b h3 x
      have hji : i + 1 ≤ j := by
        rcases Nat.eq_or_lt_of_le hj with rfl | hlt
        · rw [hsel] at hsj; cases hsj
        · omega
      obtain ⟨u, hu⟩ := ih (i + 1) _ (h.put hF e2) (by omega) ⟨j, F', y', hji, hsj, hF', hy', hn⟩
      exact ⟨u, by simp only [ptLoop, h2, hvx, e1, ok_bind, hsel, if_true]; exact hu⟩
    | false =>
      simp only [ptLoop, h2, hvx, ok_bind, hsel, Bool.false_eq_true, if_false]
      cases ht : d2i x with
      | error er =>
        rw [d2i] at ht
        generalize (if 0 ≤ x then ⌊x⌋ else ⌈x⌉) = q at ht
        unfold ckInt at ht
        split at ht
        · cases ht
        · cases ht
          exact ⟨.overflow, rfl⟩
      | ok t =>
        simp only [ok_bind]
        by_cases htr : 0 ≤ t ∧ t < F.size
        · obtain ⟨w, hw, _⟩ := vget_of_lt b.val t htr.1 (by rw [h3.vlen]; exact htr.2)
          have hg : b.getVal t = .ok w := hw
          rw [hg, ok_bind]
          have hji : i + 1 ≤ j := by
            rcases Nat.eq_or_lt_of_le hj with rfl | hlt
            · rw [hF] at hF'; cases hF'
              rw [hx] at hy'; cases hy'
              exact absurd ⟨t, ht, htr.1, htr.2⟩ hn
            · omega
          exact ih (i + 1) s h (by omega) ⟨j, F', y', hji, hsj, hF', hy', hn⟩
        · refine ⟨.oob, ?_⟩
          have hg : b.getVal t = .error (.ub .oob) := by
            refine vget_err ?_
            have := h3.vlen
            omega
          rw [hg]; rfl

/-- A loop that ends keeps the stored values and everything but the basis sets. -/
theorem ptLoop_vals {sel : Nat → Bool} {f : BasisSet K → K → Res (BasisSet K)}
    (hf : ∀ F b, Impl F b → ∀ x b', f b x = .ok b' → Impl F b' ∧ b'.val = b.val) (var : List K) (n : Nat) :
    ∀ (i : Nat) (s s' : Series K), WF z e fs s → i + n = fs.length → ptLoop sel f var n i s = .ok s' →
      WF z e fs s' ∧ s' = { s with basis := s'.basis } ∧
      ∀ (j : Nat) b', s'.basis[j]? = some (some b') → ∃ b, s.basis[j]? = some (some b) ∧ b'.val = b.val := by
  induction n with
  | zero => intro i s s' h _ he; cases he; exact ⟨h, rfl, fun j b' hb => ⟨b', hb, rfl⟩⟩
  | succ n ih =>
    intro i s s' h hi he
    obtain ⟨F, hF⟩ : ∃ F, fs[i]? = some F := ⟨fs[i]'(by omega), by simp⟩
    obtain ⟨b, h1, h2, h3⟩ := h.at hF
    simp only [ptLoop, h2, ok_bind, bind_eq_ok] at he
    obtain ⟨x, hx, he⟩ := he
    cases hsel : sel i with
    | true =>
      rw [if_pos hsel] at he
      obtain ⟨b1, hb1, he⟩ := bind_eq_ok.mp he
      obtain ⟨k1, k2⟩ := hf F b h3 x b1 hb1
      obtain ⟨w1, w2, w3⟩ := ih (i + 1) _ _ (h.put hF k1) (by omega) he
      refine ⟨w1, by rw [w2]; rfl, fun j b' hb => ?_⟩
      obtain ⟨b2, g1, g2⟩ := w3 j b' hb
      simp only [putBasis, Int.toNat_natCast] at g1
      by_cases hji : j = i
      · subst hji
        rw [List.getElem?_set_self (List.getElem?_eq_some_iff.mp h1).1] at g1
        cases g1
        exact ⟨b, h1, by rw [g2, k2]⟩
      · rw [List.getElem?_set_ne (by omega)] at g1
        exact ⟨b2, g1, g2⟩
    | false =>
      rw [if_neg (by simp [hsel])] at he
      obtain ⟨t, _, he⟩ := bind_eq_ok.mp he
      obtain ⟨_, _, he⟩ := bind_eq_ok.mp he
      exact ih (i + 1) _ _ h (by omega) he

theorem gradKeep {F : Family K} {b : BasisSet K} (hb : Impl F b) (x : K) (b' : BasisSet K) (h : b.evalGrad x = .ok b') :
    Impl F b' ∧ b'.val = b.val := by
  obtain ⟨l, h1, h2, _⟩ := BasisSet.evalGrad_of hb x
  rw [h] at h1; cases h1
  exact ⟨⟨hb.phi, hb.dphi, hb.ddphi, hb.vlen, h2, hb.hlen⟩, rfl⟩

theorem hessKeep {F : Family K} {b : BasisSet K} (hb : Impl F b) (x : K) (b' : BasisSet K) (h : b.evalHess x = .ok b') :
    Impl F b' ∧ b'.val = b.val := by
  obtain ⟨l, h1, h2, _⟩ := BasisSet.evalHess_of hb x
  rw [h] at h1; cases h1
  exact ⟨⟨hb.phi, hb.dphi, hb.ddphi, hb.vlen, hb.glen, h2⟩, rfl⟩

theorem ValuesAt.keep {y : List K} (hv : ValuesAt fs y s)
    (hk : ∀ (j : Nat) b', s'.basis[j]? = some (some b') → ∃ b, s.basis[j]? = some (some b) ∧ b'.val = b.val) : ValuesAt fs y s' := by
  intro j F w b' hF hw hb' t ht
  obtain ⟨b, hb, hval⟩ := hk j b' hb'
  rw [hval]
  exact hv j F w b hF hw hb t ht

/-- `grad(x,di)` keeps the stored values of the basis functions. -/
theorem gradAt_keeps {y x : List K} {di : Int} {v : K} (h : WF z e fs s) (hv : ValuesAt fs y s) (he : s.gradAt x di = .ok (v, s')) :
    WF z e fs s' ∧ ValuesAt fs y s' ∧ s'.coeff = s.coeff := by
  simp only [gradAt, gradAtLoop_eq, h.order, bind_eq_ok] at he
  obtain ⟨s1, h1, h2⟩ := he
  obtain ⟨w1, w2, w3⟩ := ptLoop_vals (fun F b hb x b' hq => gradKeep hb x b' hq) x fs.length 0 s s1 h (by omega) h1
  have hv1 : ValuesAt fs y s1 := hv.keep w3
  obtain ⟨u1, u2⟩ := calcGrad_keeps w1 h2
  refine ⟨u1, ?_, by rw [u2, w2]⟩
  simp only [calcGrad, bind_eq_ok] at h2
  obtain ⟨_, _, _, _, g, _, h2⟩ := h2
  cases h2
  exact hv1

/-- `hess(x,di,dj)` keeps the stored values of the basis functions. -/
theorem hessAt_keeps {y x : List K} {di dj : Int} {v : K} (h : WF z e fs s) (hv : ValuesAt fs y s) (he : s.hessAt x di dj = .ok (v, s')) :
    WF z e fs s' ∧ ValuesAt fs y s' ∧ s'.coeff = s.coeff := by
  simp only [hessAt, hessAtLoop_eq, h.order, bind_eq_ok] at he
  obtain ⟨s1, h1, h2⟩ := he
  obtain ⟨w1, w2, w3⟩ := ptLoop_vals (fun F b hb x b' hq => by
    split at hq
    · exact hessKeep hb x b' hq
    · exact gradKeep hb x b' hq) x fs.length 0 s s1 h (by omega) h1
  have hv1 : ValuesAt fs y s1 := hv.keep w3
  obtain ⟨u1, u2⟩ := calcHess_keeps w1 h2
  refine ⟨u1, ?_, by rw [u2, w2]⟩
  simp only [calcHess, bind_eq_ok] at h2
  obtain ⟨_, _, _, _, _, _, _, _, g, _, h2⟩ := h2
  cases h2
  exact hv1

/-- `grad(x,di)` with the values of `y` stored: the derivative at `p`, which is `y` but for direction `di`, where it is `x`. -/
theorem gradAt_mixed {x y p : List K} {c : List Int → K} (h : WF z e fs s) (hx : fs.length ≤ x.length) (hp : fs.length ≤ p.length) (hc : HasCoeff s fs c)
    (hs : ValuesAt fs y s) {di : Nat} (hdi : di < fs.length) (hpx : p[di]? = x[di]?) (hpy : ∀ j, j ≠ di → p[j]? = y[j]?)
    (hT : ∀ (j : Nat) F w, j ≠ di → fs[j]? = some F → x[j]? = some w → TermIndex F w) :
    ∃ s', s.gradAt x di = .ok (z + series fs (gradient fs.length di) c p, s') := by
  obtain ⟨s1, e1, e2, e3, _, e5⟩ := ptLoop_of (sel := fun j => decide ((j : Int) = (di : Int))) (f := BasisSet.evalGrad)
    (Q := fun F y b b' => (∀ t, t < F.size → b'.grad[t]? = some (F.dphi t y)) ∧ b'.val = b.val)
    (fun F b hb y => by
      obtain ⟨l, h1, h2, h3⟩ := BasisSet.evalGrad_of hb y
      exact ⟨_, h1, ⟨hb.phi, hb.dphi, hb.ddphi, hb.vlen, h2, hb.hlen⟩, h3, rfl⟩) x hx
    (fun j F y hj => hT j F y (by simpa using hj)) fs.length 0 s h (by omega)
  have hc1 : HasCoeff s1 fs c := by rw [e3]; exact hc
  have hr : Reads (facGrad di) s1 (factors fs (gradient fs.length di) p) := by
    intro j b' q hb' hq0 t h0 h1
    obtain ⟨F, o, w, hF, ho, hw, rfl⟩ := factors_get hq0
    clear hq0
    obtain ⟨b, hb, _⟩ := h.at hF
    have hjl := (List.getElem?_eq_some_iff.mp hF).1
    obtain ⟨w', hw'⟩ : ∃ w', x[j]? = some w' := ⟨x[j]'(by omega), by simp⟩
    obtain ⟨b'', hb'', hq⟩ := e5 j F w' b (by omega) hF hw' hb
    rw [hb'] at hb''; cases hb''
    have ho' := get_range_map ho
    simp only at h1
    by_cases hji : j = di
    · subst hji
      rw [hpx, hw'] at hw; cases hw
      simp only [decide_true, if_true] at hq ho'
      subst ho'
      simp only [facGrad, if_true]
      exact vget_ok.mpr ⟨h0, hq.1 t.toNat (by omega)⟩
    · have hne : ¬ ((j : Int) = (di : Int)) := by omega
      rw [hpy j hji] at hw
      simp only [hne, decide_false, Bool.false_eq_true, if_false] at hq
      rw [if_neg hji] at ho'
      subst ho' hq
      simp only [facGrad, hne, if_false]
      exact vget_ok.mpr ⟨h0, hs j F w _ hF hw hb t.toNat (by omega)⟩
  have hsum := calcSum_of e2 (factors_dims (m := gradient fs.length di) (by simp [gradient]) hp) hr hc1
  have hv : ∀ y : K, vset s1.gradVal (di : Int) y = .ok (s1.gradVal.set di y) := fun y => vset_nat _ _ _ (by rw [e2.glen]; omega)
  refine ⟨{ s1 with gradVal := s1.gradVal.set di (z + series fs (gradient fs.length di) c p) }, ?_⟩
  rw [gradAt, gradAtLoop_eq, h.order, e1]
  simp only [ok_bind, calcGrad, hv, hsum]; rfl

/-- `hess(x,di,dj)` with the values of `y` stored. -/
theorem hessAt_mixed {x y p : List K} {c : List Int → K} (h : WF z e fs s) (hx : fs.length ≤ x.length) (hp : fs.length ≤ p.length) (hc : HasCoeff s fs c)
    (hs : ValuesAt fs y s) {di dj : Nat} (hdi : di < fs.length) (hdj : dj < fs.length) (hpx : p[di]? = x[di]?) (hpx' : p[dj]? = x[dj]?)
    (hpy : ∀ j, j ≠ di → j ≠ dj → p[j]? = y[j]?)
    (hT : ∀ (j : Nat) F w, j ≠ di → j ≠ dj → fs[j]? = some F → x[j]? = some w → TermIndex F w) :
    ∃ s', s.hessAt x di dj = .ok (z + series fs (hessian fs.length di dj) c p, s') := by
  have e : ∀ a b : Nat, ((a : Int) = (b : Int)) ↔ a = b := by intro a b; omega
  obtain ⟨s1, e1, e2, e3, _, e5⟩ := ptLoop_of (sel := fun j => decide ((j : Int) = (di : Int) ∨ (j : Int) = (dj : Int)))
    (f := if (di : Int) = (dj : Int) then BasisSet.evalHess else BasisSet.evalGrad)
    (Q := fun F y b b' => (if di = dj then (∀ t, t < F.size → b'.hess[t]? = some (F.ddphi t y))
      else (∀ t, t < F.size → b'.grad[t]? = some (F.dphi t y))) ∧ b'.val = b.val)
    (fun F b hb y => by
      by_cases hij : di = dj
      · obtain ⟨l, h1, h2, h3⟩ := BasisSet.evalHess_of hb y
        rw [if_pos (by omega)]
        exact ⟨_, h1, ⟨hb.phi, hb.dphi, hb.ddphi, hb.vlen, hb.glen, h2⟩, by rw [if_pos hij]; exact h3, rfl⟩
      · obtain ⟨l, h1, h2, h3⟩ := BasisSet.evalGrad_of hb y
        rw [if_neg (by omega)]
        exact ⟨_, h1, ⟨hb.phi, hb.dphi, hb.ddphi, hb.vlen, h2, hb.hlen⟩, by rw [if_neg hij]; exact h3, rfl⟩) x hx
    (fun j F y hj => by
      simp only [e, decide_eq_false_iff_not, not_or] at hj
      exact hT j F y hj.1 hj.2) fs.length 0 s h (by omega)
  have hc1 : HasCoeff s1 fs c := by rw [e3]; exact hc
  have hr : Reads (facHess di dj) s1 (factors fs (hessian fs.length di dj) p) := by
    intro j b' q hb' hq0 t h0 h1
    obtain ⟨F, o, w, hF, ho, hw, rfl⟩ := factors_get hq0
    clear hq0
    obtain ⟨b, hb, _⟩ := h.at hF
    have hjl := (List.getElem?_eq_some_iff.mp hF).1
    obtain ⟨w', hw'⟩ : ∃ w', x[j]? = some w' := ⟨x[j]'(by omega), by simp⟩
    obtain ⟨b'', hb'', hq⟩ := e5 j F w' b (by omega) hF hw' hb
    rw [hb'] at hb''; cases hb''
    have ho' := get_range_map ho
    simp only at h1
    simp only [facHess, e]
    simp only [e, decide_eq_true_eq] at hq
    by_cases hji : j = di <;> by_cases hjk : j = dj
    · rw [show p[j]? = x[j]? by rw [hji]; exact hpx, hw'] at hw; cases hw
      rw [if_pos (Or.inl hji), if_pos (by omega)] at hq
      rw [if_pos hji, if_pos hjk] at ho'
      subst ho'
      rw [if_pos (Or.inl hji), if_pos (by omega)]
      exact vget_ok.mpr ⟨h0, hq.1 t.toNat (by omega)⟩
    · rw [show p[j]? = x[j]? by rw [hji]; exact hpx, hw'] at hw; cases hw
      rw [if_pos (Or.inl hji), if_neg (by omega)] at hq
      rw [if_pos hji, if_neg hjk] at ho'
      subst ho'
      rw [if_pos (Or.inl hji), if_neg (by omega)]
      exact vget_ok.mpr ⟨h0, hq.1 t.toNat (by omega)⟩
    · rw [show p[j]? = x[j]? by rw [hjk]; exact hpx', hw'] at hw; cases hw
      rw [if_pos (Or.inr hjk), if_neg (by omega)] at hq
      rw [if_neg hji, if_pos hjk] at ho'
      subst ho'
      rw [if_pos (Or.inr hjk), if_neg (by omega)]
      exact vget_ok.mpr ⟨h0, hq.1 t.toNat (by omega)⟩
    · rw [hpy j hji hjk] at hw
      rw [if_neg (by simp [hji, hjk])] at hq
      rw [if_neg hji, if_neg hjk] at ho'
      subst ho' hq
      rw [if_neg (by simp [hji, hjk])]
      exact vget_ok.mpr ⟨h0, hs j F w _ hF hw hb t.toNat (by omega)⟩
  have hsum := calcSum_of e2 (factors_dims (m := hessian fs.length di dj) (by simp [hessian]) hp) hr hc1
  have hl : di < s1.hessVal.length := by rw [e2.hlen]; exact hdi
  have hrl : (s1.hessVal[di]).length = fs.length := e2.hrow _ (List.getElem_mem hl)
  have hg : vget s1.hessVal (di : Int) = .ok s1.hessVal[di] := vget_nat _ _ hl
  have hv : ∀ y : K, vset s1.hessVal[di] (dj : Int) y = .ok (s1.hessVal[di].set dj y) := fun y => vset_nat _ _ _ (by omega)
  have hv2 : ∀ r, vset s1.hessVal (di : Int) r = .ok (s1.hessVal.set di r) := fun r => vset_nat _ _ _ hl
  refine ⟨{ s1 with hessVal := s1.hessVal.set di (s1.hessVal[di].set dj (z + series fs (hessian fs.length di dj) c p)) }, ?_⟩
  rw [hessAt, hessAtLoop_eq, h.order, e1]
  simp only [ok_bind, calcHess, hg, hv, hv2, hsum]; rfl

end Series
end

section
variable {K : Type} [Field K] [LinearOrder K] [FloorRing K] [IsStrictOrderedRing K]

/-- The states a series goes through by calls of `grad(x,di)` and `hess(x,di,dj)` that return. -/
inductive Series.Shots : Series K → Series K → Prop where
  | none (s : Series K) : Shots s s
  | grad {s s1 s2 : Series K} (x : List K) (di : Int) (v : K) : Shots s s1 → s1.gradAt x di = .ok (v, s2) → Shots s s2
  | hess {s s1 s2 : Series K} (x : List K) (di dj : Int) (v : K) : Shots s s1 → s1.hessAt x di dj = .ok (v, s2) → Shots s s2

/-- A number between `-1` and the number of terms is what the code takes for a term index, and no other. -/
theorem termIndex_iff {fs : List (Family K)} (hg : GoodDims (extents fs)) {F : Family K} (hF : F ∈ fs) (y : K) :
    Series.TermIndex F y ↔ -1 < y ∧ y < F.size := by
  refine ⟨?_, fun h => termIndex_of hg hF h.1 h.2⟩
  rintro ⟨t, h1, h2, h3⟩
  rw [d2i] at h1
  have h1' : (if 0 ≤ y then ⌊y⌋ else ⌈y⌉) = t := by
    generalize (if 0 ≤ y then ⌊y⌋ else ⌈y⌉) = q at h1
    unfold ckInt at h1
    split at h1
    · exact Except.ok.inj h1
    · cases h1
  clear h1
  rename' h1' => h1
  · by_cases hy : 0 ≤ y
    · rw [if_pos hy] at h1
      refine ⟨by linarith, ?_⟩
      have : ⌊y⌋ < (F.size : Int) := by omega
      simpa using Int.floor_lt.mp this
    · rw [if_neg hy] at h1
      have hy' := not_le.mp hy
      refine ⟨?_, ?_⟩
      · have : (-1 : Int) < ⌈y⌉ := by omega
        simpa using Int.lt_ceil.mp this
      · have h0 : (0 : K) ≤ F.size := by positivity
        linarith

/-- The state after `operator()(y)` and single-shot derivatives. -/
theorem Series.Shots.keeps {fs : List (Family K)} {z e : K} {y : List K} {s s1 : Series K} (hr : Series.Shots s s1) (h : WF z e fs s)
    (hv : ValuesAt fs y s) : WF z e fs s1 ∧ ValuesAt fs y s1 ∧ s1.coeff = s.coeff := by
  induction hr with
  | none => exact ⟨h, hv, rfl⟩
  | grad x di v _ he ih =>
    obtain ⟨a1, a2, a3⟩ := ih
    obtain ⟨b1, b2, b3⟩ := gradAt_keeps a1 a2 he
    exact ⟨b1, b2, b3.trans a3⟩
  | hess x di dj v _ he ih =>
    obtain ⟨a1, a2, a3⟩ := ih
    obtain ⟨b1, b2, b3⟩ := hessAt_keeps a1 a2 he
    exact ⟨b1, b2, b3.trans a3⟩

/-- **C49** (what is returned, in every case) After evaluating a series at `y`, and any single-shot derivatives that returned, `grad(x, di)` is the derivative in direction `di` at
`y` with coordinate `di` replaced by that of `x`, provided every other coordinate of `x` lies between -1 and the number of terms in its direction; if one does not, the call
is undefined behaviour. -/
theorem C49_grad_exact_partial (fs : List (Family K)) (hg : GoodDims (extents fs)) (s s1 s2 : Series K) (hs : s.Over fs) (c : List Int → K)
    (hc : s.Coeffs fs c) (y : List K) (hy : y.length = fs.length) (v : K) (he : s.evalAt y = .ok (v, s1)) (hr : Series.Shots s1 s2)
    (x : List K) (hx : x.length = fs.length) (di : Nat) (w : K) (hw : x[di]? = some w) :
    ((∀ (j : Nat) F a, j ≠ di → fs[j]? = some F → x[j]? = some a → -1 < a ∧ a < F.size) →
      ∃ s', s2.gradAt x di = .ok (series fs (gradient fs.length di) c (y.set di w), s')) ∧
    ((∃ (j : Nat) (F : Family K) (a : K), j ≠ di ∧ fs[j]? = some F ∧ x[j]? = some a ∧ (a ≤ -1 ∨ F.size ≤ a)) →
      ∃ u, s2.gradAt x di = .error (.ub u)) := by
  have hdi : di < fs.length := by rw [← hx]; exact (List.getElem?_eq_some_iff.mp hw).1
  obtain ⟨s', e1, _, e3, e4, e5⟩ := Series.evalAt_of (hs.wf hg) (by omega : fs.length ≤ y.length) hc
  rw [he] at e1; cases e1
  obtain ⟨a1, a2, a3⟩ := hr.keeps e3 (y := y) fun j F w b h1 h2 h3 t ht => (e5 j F w b h1 h2 h3).1 rfl t ht
  have hc2 : Series.HasCoeff s2 fs c := by
    intro t ht; rw [a3]; exact e4 t ht
  constructor
  · intro hT
    obtain ⟨s', h'⟩ := Series.gradAt_mixed (p := y.set di w) a1 (by omega) (by simp; omega) hc2 a2 hdi
      (by rw [List.getElem?_set_self (by omega), hw]) (fun j hj => List.getElem?_set_ne (by omega))
      fun j F a h1 h2 h3 => termIndex_of hg (List.mem_of_getElem? h2) (hT j F a h1 h2 h3).1 (hT j F a h1 h2 h3).2
    rw [zero_add] at h'
    exact ⟨s', h'⟩
  · rintro ⟨j, F, a, h1, h2, h3, h4⟩
    obtain ⟨u, hu⟩ := Series.ptLoop_stops (sel := fun j => decide ((j : Int) = (di : Int))) (f := BasisSet.evalGrad) (fun F b hb y => by
      obtain ⟨l, k1, k2, _⟩ := BasisSet.evalGrad_of hb y
      exact ⟨_, k1, ⟨hb.phi, hb.dphi, hb.ddphi, hb.vlen, k2, hb.hlen⟩⟩) x (by omega : fs.length ≤ x.length) fs.length 0 s2 a1 (by omega)
      ⟨j, F, a, by omega, by simpa using h1, h2, h3, fun hti => by
        have := (termIndex_iff hg (List.mem_of_getElem? h2) a).mp hti
        rcases h4 with h4 | h4
        · exact absurd this.1 (not_lt.mpr h4)
        · exact absurd this.2 (not_lt.mpr h4)⟩
    refine ⟨u, ?_⟩
    rw [Series.gradAt, Series.gradAtLoop_eq, a1.order, hu]; rfl

/-- **C49** (what is returned, in every case) The same for `hess(x, di, dj)`: the second derivative at `y` with coordinates `di` and `dj` replaced by those of `x`, or undefined
behaviour. -/
theorem C49_hess_exact_partial (fs : List (Family K)) (hg : GoodDims (extents fs)) (s s1 s2 : Series K) (hs : s.Over fs) (c : List Int → K)
    (hc : s.Coeffs fs c) (y : List K) (hy : y.length = fs.length) (v : K) (he : s.evalAt y = .ok (v, s1)) (hr : Series.Shots s1 s2)
    (x : List K) (hx : x.length = fs.length) (di dj : Nat) (w w' : K) (hw : x[di]? = some w) (hw' : x[dj]? = some w') :
    ((∀ (j : Nat) F a, j ≠ di → j ≠ dj → fs[j]? = some F → x[j]? = some a → -1 < a ∧ a < F.size) →
      ∃ s', s2.hessAt x di dj = .ok (series fs (hessian fs.length di dj) c ((y.set di w).set dj w'), s')) ∧
    ((∃ (j : Nat) (F : Family K) (a : K), j ≠ di ∧ j ≠ dj ∧ fs[j]? = some F ∧ x[j]? = some a ∧ (a ≤ -1 ∨ F.size ≤ a)) →
      ∃ u, s2.hessAt x di dj = .error (.ub u)) := by
  have hdi : di < fs.length := by rw [← hx]; exact (List.getElem?_eq_some_iff.mp hw).1
  have hdj : dj < fs.length := by rw [← hx]; exact (List.getElem?_eq_some_iff.mp hw').1
  obtain ⟨s', e1, _, e3, e4, e5⟩ := Series.evalAt_of (hs.wf hg) (by omega : fs.length ≤ y.length) hc
  rw [he] at e1; cases e1
  obtain ⟨a1, a2, a3⟩ := hr.keeps e3 (y := y) fun j F w b h1 h2 h3 t ht => (e5 j F w b h1 h2 h3).1 rfl t ht
  have hc2 : Series.HasCoeff s2 fs c := by
    intro t ht; rw [a3]; exact e4 t ht
  constructor
  · intro hT
    obtain ⟨s', h'⟩ := Series.hessAt_mixed (p := (y.set di w).set dj w') a1 (by omega) (by simp; omega) hc2 a2 hdi hdj
      (by
        by_cases hd : dj = di
        · subst hd
          rw [List.getElem?_set_self (by simp; omega), hw']
        · rw [List.getElem?_set_ne hd, List.getElem?_set_self (by omega), hw])
      (by rw [List.getElem?_set_self (by simp; omega), hw'])
      (fun j hj hj' => by rw [List.getElem?_set_ne (by omega), List.getElem?_set_ne (by omega)])
      fun j F a h1 h1' h2 h3 => termIndex_of hg (List.mem_of_getElem? h2) (hT j F a h1 h1' h2 h3).1 (hT j F a h1 h1' h2 h3).2
    rw [zero_add] at h'
    exact ⟨s', h'⟩
  · rintro ⟨j, F, a, h1, h1', h2, h3, h4⟩
    obtain ⟨u, hu⟩ := Series.ptLoop_stops (sel := fun j => decide ((j : Int) = (di : Int) ∨ (j : Int) = (dj : Int)))
      (f := if (di : Int) = (dj : Int) then BasisSet.evalHess else BasisSet.evalGrad) (fun F b hb y => by
      split
      · obtain ⟨l, k1, k2, _⟩ := BasisSet.evalHess_of hb y
        exact ⟨_, k1, ⟨hb.phi, hb.dphi, hb.ddphi, hb.vlen, hb.glen, k2⟩⟩
      · obtain ⟨l, k1, k2, _⟩ := BasisSet.evalGrad_of hb y
        exact ⟨_, k1, ⟨hb.phi, hb.dphi, hb.ddphi, hb.vlen, k2, hb.hlen⟩⟩) x (by omega : fs.length ≤ x.length) fs.length 0 s2 a1 (by omega)
      ⟨j, F, a, by omega, by simp only [decide_eq_false_iff_not]; omega, h2, h3, fun hti => by
        have := (termIndex_iff hg (List.mem_of_getElem? h2) a).mp hti
        rcases h4 with h4 | h4
        · exact absurd this.1 (not_lt.mpr h4)
        · exact absurd this.2 (not_lt.mpr h4)⟩
    refine ⟨u, ?_⟩
    rw [Series.hessAt, Series.hessAtLoop_eq, a1.order, hu]; rfl

end

/-- `5 x y^2` evaluated at `(2, 2)`: then `grad((1, 1/2), 0)` is the derivative at `(1, 2)`, which is 20 and not the `5/4` of `(1, 1/2)`; and so it is after another single-shot derivative. -/
example : ∃ v s1 s2 w s', (Demo.ser ℚ).evalAt [2, 2] = .ok (v, s1) ∧ s1.gradAt [0, 0] 1 = .ok (w, s2) ∧ s2.gradAt [1, 1/2] 0 = .ok (20, s') ∧
    series (Demo.fams ℚ) (gradient 2 0) (fun t => if t = [1, 2] then 5 else 0) [1, 1/2] = 5/4 := by
  obtain ⟨s1, e, _⟩ := C46_value _ (Demo.good ℚ) _ Demo.ser_over _ Demo.ser_coeffs [2, 2] rfl
  have side : ∀ (a : ℚ) (di : Nat), -1 < a → a < 2 → ∀ (j : Nat) F y, j ≠ di → (Demo.fams ℚ)[j]? = some F → (if di = 0 then [1, a] else [a, 0])[j]? = some y →
      -1 < y ∧ y < F.size := by
    intro a di h1 h2 j F y hj hF hy
    match j, di, hj with
    | 1, 0, _ =>
      simp [Demo.fams] at hF hy
      subst hF hy
      exact ⟨h1, by simp only [Demo.mono]; push_cast; linarith⟩
    | 0, di + 1, _ =>
      simp [Demo.fams] at hF hy
      subst hF hy
      exact ⟨h1, by simp only [Demo.mono]; push_cast; linarith⟩
    | 1, di + 1, _ =>
      simp [Demo.fams] at hF hy
      subst hF hy
      exact ⟨by norm_num, by simp only [Demo.mono]; norm_num⟩
    | j + 2, _, _ => simp [Demo.fams] at hF
  obtain ⟨s2, h2⟩ := (C49_grad_exact_partial _ (Demo.good ℚ) _ _ _ Demo.ser_over _ Demo.ser_coeffs [2, 2] rfl _ e (.none _) [0, 0] rfl 1 0 rfl).1
    (side 0 1 (by norm_num) (by norm_num))
  obtain ⟨s', h3⟩ := (C49_grad_exact_partial _ (Demo.good ℚ) _ _ _ Demo.ser_over _ Demo.ser_coeffs [2, 2] rfl _ e (.grad _ _ _ (.none _) h2) [1, 1/2] rfl 0 1 rfl).1
    (side (1/2) 0 (by norm_num) (by norm_num))
  refine ⟨_, s1, s2, _, s', e, h2, h3.trans ?_, by decide +kernel⟩
  congr 2
  decide +kernel

/-- After evaluating at `(2, 2)`, `grad((1, 4), 0)` and `grad((1, -1), 0)` are undefined behaviour. -/
example : ∃ v s1, (Demo.ser ℚ).evalAt [2, 2] = .ok (v, s1) ∧ (∃ u, s1.gradAt [1, 4] 0 = .error (.ub u)) ∧ ∃ u, s1.gradAt [1, -1] 0 = .error (.ub u) := by
  obtain ⟨s1, e, _⟩ := C46_value _ (Demo.good ℚ) _ Demo.ser_over _ Demo.ser_coeffs [2, 2] rfl
  refine ⟨_, s1, e, ?_, ?_⟩
  · exact (C49_grad_exact_partial _ (Demo.good ℚ) _ _ _ Demo.ser_over _ Demo.ser_coeffs [2, 2] rfl _ e (.none _) [1, 4] rfl 0 1 rfl).2
      ⟨1, Demo.mono ℚ 3, 4, by decide, rfl, rfl, Or.inr (by simp only [Demo.mono]; norm_num)⟩
  · exact (C49_grad_exact_partial _ (Demo.good ℚ) _ _ _ Demo.ser_over _ Demo.ser_coeffs [2, 2] rfl _ e (.none _) [1, -1] rfl 0 1 rfl).2
      ⟨1, Demo.mono ℚ 3, -1, by decide, rfl, rfl, Or.inl (by norm_num)⟩

end Verif
