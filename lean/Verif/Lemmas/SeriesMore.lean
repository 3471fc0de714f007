import Verif.Lemmas.SeriesOps
import Verif.Lemmas.Stream

/-! Helper lemmas about series: basis products, single-shot derivatives, printing and reading coefficients. -/

namespace Verif
open Spec NDArray IStream

section
variable {K : Type} [Field K] [LinearOrder K] [FloorRing K]

namespace Series
variable {z e : K} {fs : List (Family K)} {s s' : Series K}

theorem tensorBasis_eq : ∀ (fs : List (Family K)) (m : List Nat) (t : List Int) (x : List K), m.length = fs.length →
    t.length = fs.length → fs.length ≤ x.length → tensorBasis fs m t x = facProd (factors fs m x) t := by
  intro fs
  induction fs with
  | nil => intro m t x _ _ _; simp [tensorBasis, factors, facProd]
  | cons F fs ih =>
    intro m t x hm ht hx
    match m, t, x, hm, ht, hx with
    | o :: m, u :: t, y :: x, hm, ht, hx =>
      have := ih m t x (by simpa using hm) (by simpa using ht) (by simpa using hx)
      simp only [tensorBasis, factors] at this
      simp only [tensorBasis, factors, List.zip_cons_cons, List.map_cons, List.prod_cons, facProd, List.headD_cons, List.tail_cons, this]

theorem basisProdLoop_of {ev : Int → BasisSet K → Int → K → Res (K × BasisSet K)} {fl : List (Nat × (Nat → K))} {x : List K}
    (hx : fs.length ≤ x.length) (hd : dimsOf fl = sizesOf fs)
    (hev : ∀ (j : Nat) F b p y, fs[j]? = some F → Impl F b → fl[j]? = some p → x[j]? = some y → ∀ u : Int, 0 ≤ u → u < p.1 →
      ∃ b', ev j b u y = .ok (p.2 u.toNat, b') ∧ Impl F b')
    {t : List Int} (ht : InBox (dimsOf fl) t) (n : Nat) : ∀ (j : Nat) (tmp : K) (s : Series K), WF z e fs s → j + n = fl.length →
      ∃ s', basisProdLoop ev t x n j tmp s = .ok (tmp * facProd (fl.drop j) (t.drop j), s') := by
  have hlen : fl.length = fs.length := by
    have := congrArg List.length hd; simpa [dimsOf, sizesOf] using this
  induction n with
  | zero =>
    intro j tmp s h hj
    rw [List.drop_eq_nil_of_le (by omega)]
    exact ⟨s, by simp [basisProdLoop, facProd]⟩
  | succ n ih =>
    intro j tmp s h hj
    obtain ⟨F, hF⟩ : ∃ F, fs[j]? = some F := ⟨fs[j]'(by omega), by simp⟩
    obtain ⟨p, hp⟩ : ∃ p, fl[j]? = some p := ⟨fl[j]'(by omega), by simp⟩
    obtain ⟨y, hy⟩ : ∃ y, x[j]? = some y := ⟨x[j]'(by omega), by simp⟩
    obtain ⟨b, h1, h2, hI⟩ := h.at hF
    obtain ⟨u, hu, hu0, hu1⟩ := inBox_get ht (j := j) (d := (p.1 : Int)) (by simp [dimsOf, hp])
    have hv : vget t (j : Int) = .ok u := vget_ok.mpr ⟨by omega, by simpa using hu⟩
    have hvx : vget x (j : Int) = .ok y := vget_ok.mpr ⟨by omega, by simpa using hy⟩
    obtain ⟨b', e1, e2⟩ := hev j F b p y hF hI hp hy u hu0 hu1
    obtain ⟨s', e3⟩ := ih (j + 1) (tmp * p.2 u.toNat) _ (h.put hF e2) (by omega)
    refine ⟨s', ?_⟩
    simp only [basisProdLoop, h2, hv, hvx, e1, ok_bind]
    rw [e3]
    obtain ⟨hj1, hj2⟩ := List.getElem?_eq_some_iff.mp hp
    obtain ⟨hj3, hj4⟩ := List.getElem?_eq_some_iff.mp hu
    rw [List.drop_eq_getElem_cons hj1, List.drop_eq_getElem_cons hj3, hj2, hj4]
    obtain ⟨m, f⟩ := p
    simp only [facProd, List.headD_cons, List.tail_cons, mul_assoc]

/-- The order of differentiation a member evaluates. -/
def ordOf : Kind → Nat
  | .v => 0 | .g => 1 | .h => 2

theorem termMember_of (k : Kind) {F : Family K} {b : BasisSet K} (h : Impl F b) {u : Int} (h0 : 0 ≤ u) (h1 : u < F.size) (y : K) :
    ∃ b', termMember k b u y = .ok (F.deriv (ordOf k) u.toNat y, b') ∧ Impl F b' := by
  cases k with
  | v => exact ⟨_, BasisSet.evalTerm_of h h0 h1 y, (BasisSet.evalTerm_inv h (BasisSet.evalTerm_of h h0 h1 y)).1⟩
  | g => exact ⟨_, BasisSet.gradTerm_of h h0 h1 y, (BasisSet.gradTerm_inv h (BasisSet.gradTerm_of h h0 h1 y)).1⟩
  | h => exact ⟨_, BasisSet.hessTerm_of h h0 h1 y, (BasisSet.hessTerm_inv h (BasisSet.hessTerm_of h h0 h1 y)).1⟩

/-- The products of basis functions. -/
theorem basisProd_of (h : WF z e fs s) {x : List K} (hx : fs.length ≤ x.length) {m : List Nat} (hm : m.length = fs.length)
    {ev : Int → BasisSet K → Int → K → Res (K × BasisSet K)}
    (hk : ∀ (j : Nat) o, m[j]? = some o → ∃ k, ev j = termMember k ∧ ordOf k = o) {t : List Int} (ht : InBox (sizesOf fs) t) :
    ∃ s', s.basisProd ev t x = .ok (e * tensorBasis fs m t x, s') := by
  have hd := factors_dims (fs := fs) hm hx
  have hlen : (factors fs m x).length = fs.length := by
    have := congrArg List.length hd; simpa [dimsOf, sizesOf] using this
  obtain ⟨s', e1⟩ := basisProdLoop_of (s := s) (ev := ev) (fl := factors fs m x) hx hd (by
    intro j F b p y hF hI hp hy u h0 h1
    obtain ⟨F', o, y', hF', ho, hy', rfl⟩ := factors_get hp
    rw [hF] at hF'; cases hF'
    rw [hy] at hy'; cases hy'
    obtain ⟨k, k1, rfl⟩ := hk j o ho
    rw [k1]
    exact termMember_of k hI h0 h1 y) (t := t) (by rw [hd]; exact ht) fs.length 0 s.identityVal h (by omega)
  refine ⟨s', ?_⟩
  rw [basisProd, h.order, e1, h.ident, List.drop_zero, List.drop_zero,
    tensorBasis_eq fs m t x hm (by rw [inBox_length ht]; simp [sizesOf]) hx]

/-- The getters of basis products. -/
theorem basisGet_of (h : WF z e fs s) {x : List K} (hx : fs.length ≤ x.length) {m : List Nat} (hm : m.length = fs.length)
    {fac : Int → BasisSet K → Int → Res K} (hr : Reads fac s (factors fs m x)) {t : List Int} (ht : InBox (sizesOf fs) t) :
    s.basisGet fac t = .ok (e * tensorBasis fs m t x) := by
  have hd := factors_dims (fs := fs) hm hx
  have hlen : (factors fs m x).length = fs.length := by
    have := congrArg List.length hd; simpa [dimsOf, sizesOf] using this
  have := prodLoop_of h hlen hr (t := t) (by rw [hd]; exact ht) fs.length 0 s.identityVal (by omega)
  rw [basisGet, h.order, this, h.ident, List.drop_zero, List.drop_zero,
    tensorBasis_eq fs m t x hm (by rw [inBox_length ht]; simp [sizesOf]) hx]

/-- `grad(var,di)` and `hess(var,di,dj)` share a loop: the selected directions are evaluated, for the others `(int) var[i]` must be a
term index. -/
def ptLoop (sel : Nat → Bool) (f : BasisSet K → K → Res (BasisSet K)) (var : List K) : Nat → Nat → Series K → Res (Series K)
  | 0, _, s => .ok s
  | n + 1, i, s => do
    let b ← s.basisAt i
    let x ← vget var i
    if sel i then do
      let b' ← f b x
      ptLoop sel f var n (i + 1) (s.putBasis i b')
    else do
      let t ← d2i x
      let _ ← b.getVal t
      ptLoop sel f var n (i + 1) s

theorem gradAtLoop_eq (var : List K) (di : Int) (n : Nat) : ∀ (i : Nat) (s : Series K),
    gradAtLoop var di n i s = ptLoop (fun j => decide ((j : Int) = di)) BasisSet.evalGrad var n i s := by
  induction n with
  | zero => intro i s; rfl
  | succ n ih => intro i s; simp only [gradAtLoop, ptLoop, ih, decide_eq_true_eq]

theorem hessAtLoop_eq (var : List K) (di dj : Int) (n : Nat) : ∀ (i : Nat) (s : Series K),
    hessAtLoop var di dj n i s = ptLoop (fun j => decide ((j : Int) = di ∨ (j : Int) = dj))
      (if di = dj then BasisSet.evalHess else BasisSet.evalGrad) var n i s := by
  induction n with
  | zero => intro i s; rfl
  | succ n ih =>
    intro i s
    by_cases h : di = dj
    · subst h
      simp only [if_true] at ih
      simp only [hessAtLoop, ptLoop, ih, decide_eq_true_eq, if_true]
    · simp only [h, if_false] at ih
      simp only [hessAtLoop, ptLoop, ih, decide_eq_true_eq, h, if_false]

/-- The number, as the code converts it to a term index, is a term of the family. -/
def TermIndex (F : Family K) (y : K) : Prop := ∃ t : Int, d2i y = .ok t ∧ 0 ≤ t ∧ t < F.size

theorem ptLoop_of {sel : Nat → Bool} {f : BasisSet K → K → Res (BasisSet K)}
    {Q : Family K → K → BasisSet K → BasisSet K → Prop}
    (hf : ∀ F b, Impl F b → ∀ x, ∃ b', f b x = .ok b' ∧ Impl F b' ∧ Q F x b b') (var : List K) (hv : fs.length ≤ var.length)
    (hT : ∀ (j : Nat) F y, sel j = false → fs[j]? = some F → var[j]? = some y → TermIndex F y) (n : Nat) :
    ∀ (i : Nat) (s : Series K), WF z e fs s → i + n = fs.length →
      ∃ s', ptLoop sel f var n i s = .ok s' ∧ WF z e fs s' ∧ s' = { s with basis := s'.basis } ∧
        (∀ j, j < i → s'.basis[j]? = s.basis[j]?) ∧
        ∀ (j : Nat) F x b, i ≤ j → fs[j]? = some F → var[j]? = some x → s.basis[j]? = some (some b) →
          ∃ b', s'.basis[j]? = some (some b') ∧ if sel j then Q F x b b' else b' = b := by
  induction n with
  | zero =>
    intro i s h hi
    refine ⟨s, rfl, h, rfl, fun _ _ => rfl, fun j F x b hj hF => ?_⟩
    have := (List.getElem?_eq_some_iff.mp hF).1
    omega
  | succ n ih =>
    intro i s h hi
    obtain ⟨F, hF⟩ : ∃ F, fs[i]? = some F := ⟨fs[i]'(by omega), by simp⟩
    obtain ⟨x, hx⟩ : ∃ x, var[i]? = some x := ⟨var[i]'(by omega), by simp⟩
    obtain ⟨b, h1, h2, h3⟩ := h.at hF
    have hvx : vget var (i : Int) = .ok x := vget_ok.mpr ⟨by omega, by simpa using hx⟩
    have hblen : i < s.basis.length := (List.getElem?_eq_some_iff.mp h1).1
    cases hsel : sel i with
    | true =>
      obtain ⟨b', e1, e2, e3⟩ := hf F b h3 x
      obtain ⟨s', g1, g2, g3, g4, g5⟩ := ih (i + 1) _ (h.put hF e2) (by omega)
      refine ⟨s', by simp only [ptLoop, h2, hvx, e1, ok_bind, hsel, if_true]; exact g1, g2, by rw [g3]; rfl, fun j hj => ?_, ?_⟩
      · rw [g4 j (by omega)]; simp only [putBasis, Int.toNat_natCast]; rw [List.getElem?_set_ne (by omega)]
      · intro j F' x' b0 hj hF' hx' hb0
        rcases Nat.eq_or_lt_of_le hj with rfl | hlt
        · rw [hF] at hF'; cases hF'
          rw [hx] at hx'; cases hx'
          rw [h1] at hb0; cases hb0
          refine ⟨b', ?_, by rw [hsel]; exact e3⟩
          rw [g4 i (by omega)]
          simp only [putBasis, Int.toNat_natCast]
          rw [List.getElem?_set_self hblen]
        · refine g5 j F' x' b0 hlt hF' hx' ?_
          simp only [putBasis, Int.toNat_natCast]
          rw [List.getElem?_set_ne (by omega)]
          exact hb0
    | false =>
      obtain ⟨t, t1, t2, t3⟩ := hT i F x hsel hF hx
      have hg : ∃ y, b.getVal t = .ok y := by
        obtain ⟨y, hy, _⟩ := vget_of_lt b.val t t2 (by rw [h3.vlen]; exact t3)
        exact ⟨y, hy⟩
      obtain ⟨y, hy⟩ := hg
      obtain ⟨s', g1, g2, g3, g4, g5⟩ := ih (i + 1) s h (by omega)
      refine ⟨s', by simp only [ptLoop, h2, hvx, t1, hy, ok_bind, hsel]; exact g1, g2, g3, fun j hj => g4 j (by omega), ?_⟩
      intro j F' x' b0 hj hF' hx' hb0
      rcases Nat.eq_or_lt_of_le hj with rfl | hlt
      · exact ⟨b0, by rw [g4 i (by omega)]; exact hb0, by rw [hsel]; rfl⟩
      · exact g5 j F' x' b0 hlt hF' hx' hb0

/-- `grad(var,di)` when the values are already stored at `var`. -/
theorem gradAt_of {x : List K} {c : List Int → K} (h : WF z e fs s) (hx : fs.length ≤ x.length) (hc : HasCoeff s fs c)
    (hs : Evald fs x true false false s) {di : Nat} (hdi : di < fs.length)
    (hT : ∀ (j : Nat) F y, j ≠ di → fs[j]? = some F → x[j]? = some y → TermIndex F y) :
    ∃ s', s.gradAt x di = .ok (z + series fs (gradient fs.length di) c x, s') := by
  obtain ⟨s1, e1, e2, e3, _, e5⟩ := ptLoop_of (sel := fun j => decide ((j : Int) = (di : Int))) (f := BasisSet.evalGrad)
    (Q := fun F y b b' => (∀ t, t < F.size → b'.grad[t]? = some (F.dphi t y)) ∧ b'.val = b.val)
    (fun F b hb y => by
      obtain ⟨l, h1, h2, h3⟩ := BasisSet.evalGrad_of hb y
      exact ⟨_, h1, ⟨hb.phi, hb.dphi, hb.ddphi, hb.vlen, h2, hb.hlen⟩, h3, rfl⟩) x hx
    (fun j F y hj => hT j F y (by simpa using hj)) fs.length 0 s h (by omega)
  have hc1 : HasCoeff s1 fs c := by rw [e3]; exact hc
  have hr : Reads (facGrad di) s1 (factors fs (gradient fs.length di) x) := by
    intro j b' p hb' hp t h0 h1
    obtain ⟨F, o, y, hF, ho, hy, rfl⟩ := factors_get hp
    obtain ⟨b, hb, _⟩ := h.at hF
    obtain ⟨b'', hb'', hq⟩ := e5 j F y b (by omega) hF hy hb
    rw [hb'] at hb''; cases hb''
    obtain ⟨s1', _, _⟩ := hs j F y b hF hy hb
    have ho' := get_range_map ho
    simp only at h1
    by_cases hji : j = di
    · subst hji
      simp only [decide_true, if_true] at hq ho'
      subst ho'
      simp only [facGrad, if_true]
      exact vget_ok.mpr ⟨h0, hq.1 t.toNat (by omega)⟩
    · have hne : ¬ ((j : Int) = (di : Int)) := by omega
      simp only [hne, decide_false, Bool.false_eq_true, if_false] at hq
      rw [if_neg hji] at ho'
      subst ho' hq
      simp only [facGrad, hne, if_false]
      exact vget_ok.mpr ⟨h0, s1' rfl t.toNat (by omega)⟩
  have hsum := calcSum_of e2 (factors_dims (m := gradient fs.length di) (by simp [gradient]) hx) hr hc1
  have hv : ∀ y : K, vset s1.gradVal (di : Int) y = .ok (s1.gradVal.set di y) := fun y => vset_nat _ _ _ (by rw [e2.glen]; omega)
  refine ⟨{ s1 with gradVal := s1.gradVal.set di (z + series fs (gradient fs.length di) c x) }, ?_⟩
  rw [gradAt, gradAtLoop_eq, h.order, e1]
  simp only [ok_bind, calcGrad, hv, hsum]; rfl

/-- `hess(var,di,dj)` when the values are already stored at `var`. -/
theorem hessAt_of {x : List K} {c : List Int → K} (h : WF z e fs s) (hx : fs.length ≤ x.length) (hc : HasCoeff s fs c)
    (hs : Evald fs x true false false s) {di dj : Nat} (hdi : di < fs.length) (hdj : dj < fs.length)
    (hT : ∀ (j : Nat) F y, j ≠ di → j ≠ dj → fs[j]? = some F → x[j]? = some y → TermIndex F y) :
    ∃ s', s.hessAt x di dj = .ok (z + series fs (hessian fs.length di dj) c x, s') := by
  have e : ∀ a b : Nat, ((a : Int) = (b : Int)) ↔ a = b := by intro a b; omega
  obtain ⟨s1, e1, e2, e3, _, e5⟩ := ptLoop_of (sel := fun j => decide ((j : Int) = (di : Int) ∨ (j : Int) = (dj : Int)))
    (f := if (di : Int) = (dj : Int) then BasisSet.evalHess else BasisSet.evalGrad)
    (Q := fun F y b b' => (if di = dj then (∀ t, t < F.size → b'.hess[t]? = some (F.ddphi t y))
      else (∀ t, t < F.size → b'.grad[t]? = some (F.dphi t y))) ∧ b'.val = b.val)
    (fun F b hb y => by
      by_cases hij : di = dj
      · obtain ⟨l, h1, h2, h3⟩ := BasisSet.evalHess_of hb y
        rw [if_pos (by omega)]
        exact ⟨_, h1, ⟨hb.phi, hb.dphi, hb.ddphi, hb.vlen, hb.glen, h2⟩, by rw [if_pos hij]; exact h3, rfl⟩
      · obtain ⟨l, h1, h2, h3⟩ := BasisSet.evalGrad_of hb y
        rw [if_neg (by omega)]
        exact ⟨_, h1, ⟨hb.phi, hb.dphi, hb.ddphi, hb.vlen, h2, hb.hlen⟩, by rw [if_neg hij]; exact h3, rfl⟩) x hx
    (fun j F y hj => by
      simp only [e, decide_eq_false_iff_not, not_or] at hj
      exact hT j F y hj.1 hj.2) fs.length 0 s h (by omega)
  have hc1 : HasCoeff s1 fs c := by rw [e3]; exact hc
  have hr : Reads (facHess di dj) s1 (factors fs (hessian fs.length di dj) x) := by
    intro j b' p hb' hp t h0 h1
    obtain ⟨F, o, y, hF, ho, hy, rfl⟩ := factors_get hp
    obtain ⟨b, hb, _⟩ := h.at hF
    obtain ⟨b'', hb'', hq⟩ := e5 j F y b (by omega) hF hy hb
    rw [hb'] at hb''; cases hb''
    obtain ⟨s1', _, _⟩ := hs j F y b hF hy hb
    have ho' := get_range_map ho
    simp only at h1
    simp only [facHess, e]
    simp only [e, decide_eq_true_eq] at hq
    by_cases hji : j = di <;> by_cases hjk : j = dj
    · rw [if_pos (Or.inl hji), if_pos (by omega)] at hq
      rw [if_pos hji, if_pos hjk] at ho'
      subst ho'
      rw [if_pos (Or.inl hji), if_pos (by omega)]
      exact vget_ok.mpr ⟨h0, hq.1 t.toNat (by omega)⟩
    · rw [if_pos (Or.inl hji), if_neg (by omega)] at hq
      rw [if_pos hji, if_neg hjk] at ho'
      subst ho'
      rw [if_pos (Or.inl hji), if_neg (by omega)]
      exact vget_ok.mpr ⟨h0, hq.1 t.toNat (by omega)⟩
    · rw [if_pos (Or.inr hjk), if_neg (by omega)] at hq
      rw [if_neg hji, if_pos hjk] at ho'
      subst ho'
      rw [if_pos (Or.inr hjk), if_neg (by omega)]
      exact vget_ok.mpr ⟨h0, hq.1 t.toNat (by omega)⟩
    · rw [if_neg (by simp [hji, hjk])] at hq
      rw [if_neg hji, if_neg hjk] at ho'
      subst ho' hq
      rw [if_neg (by simp [hji, hjk])]
      exact vget_ok.mpr ⟨h0, s1' rfl t.toNat (by omega)⟩
  have hsum := calcSum_of e2 (factors_dims (m := hessian fs.length di dj) (by simp [hessian]) hx) hr hc1
  have hl : di < s1.hessVal.length := by rw [e2.hlen]; exact hdi
  have hrl : (s1.hessVal[di]).length = fs.length := e2.hrow _ (List.getElem_mem hl)
  have hg : vget s1.hessVal (di : Int) = .ok s1.hessVal[di] := vget_nat _ _ hl
  have hv : ∀ y : K, vset s1.hessVal[di] (dj : Int) y = .ok (s1.hessVal[di].set dj y) := fun y => vset_nat _ _ _ (by omega)
  have hv2 : ∀ r, vset s1.hessVal (di : Int) r = .ok (s1.hessVal.set di r) := fun r => vset_nat _ _ _ hl
  refine ⟨{ s1 with hessVal := s1.hessVal.set di (s1.hessVal[di].set dj (z + series fs (hessian fs.length di dj) c x)) }, ?_⟩
  rw [hessAt, hessAtLoop_eq, h.order, e1]
  simp only [ok_bind, calcHess, hg, hv, hv2, hsum]; rfl

/-! ### Text -/

theorem showInt_nonneg {t : Int} (h : 0 ≤ t) : showInt t = dec t.toNat := by
  rw [showInt, if_neg (by omega), dec, show t.natAbs = t.toNat by omega]

theorem denotes_int {t : Int} (h : 0 ≤ t) : Denotes scanInt (showInt t) t := by
  rw [showInt_nonneg h]
  have hd := denotes_dec t.toNat
  refine ⟨hd.start, fun w hw => ?_⟩
  have hc := hd.conv w hw
  obtain ⟨c, r, hcr, _⟩ := hd.start
  have hdig : c.isDigit = true := Nat.isDigit_of_mem_toDigits (b := 10) (n := t.toNat) (by decide) (by decide) (by
    show c ∈ dec t.toNat
    rw [hcr]; simp)
  rw [hcr, List.cons_append] at hc ⊢
  have h1 : c ≠ '-' := by rintro rfl; exact absurd hdig (by decide)
  have h2 : c ≠ '+' := by rintro rfl; exact absurd hdig (by decide)
  unfold scanInt
  split
  · rename_i heq; cases heq; exact absurd rfl h1
  · rename_i heq; cases heq; exact absurd rfl h2
  · rw [hc]; simp; omega

theorem blank_space : Blank ' ' := by simp [Blank]

theorem readTerms : ∀ (old terms : List Int) (w more : List Char), (∀ c ∈ w, Blank c) → old.length = terms.length →
    (∀ t ∈ terms, 0 ≤ t) → ∃ w', (∀ c ∈ w', Blank c) ∧
      readNums scanInt 0 old (ofText (w ++ ((terms.flatMap fun t => showInt t ++ [' ']) ++ more))) = (ofText (w' ++ more), terms) := by
  intro old
  induction old with
  | nil =>
    intro terms w more hw hl _
    have : terms = [] := List.length_eq_zero_iff.mp hl.symm
    subst this
    exact ⟨w, hw, rfl⟩
  | cons o old ih =>
    intro terms w more hw hl hp
    cases terms with
    | nil => simp at hl
    | cons t terms =>
      have e1 := extract_token scanInt 0 (some o) w (showInt t) ([' '] ++ ((terms.flatMap fun t => showInt t ++ [' ']) ++ more)) t hw
        (startsBlank_space _) (denotes_int (hp t (by simp)))
      obtain ⟨w', hw', e2⟩ := ih terms [' '] more (by simp [blank_space]) (by simpa using hl) fun u hu => hp u (by simp [hu])
      refine ⟨w', hw', ?_⟩
      simp only [readNums, List.flatMap_cons]
      rw [show w ++ ((showInt t ++ [' '] ++ terms.flatMap fun t => showInt t ++ [' ']) ++ more) =
        w ++ showInt t ++ ([' '] ++ ((terms.flatMap fun t => showInt t ++ [' ']) ++ more)) by simp, e1]
      simp only [e2, Option.getD_some]

/-- What `print_coeff` writes. -/
theorem printLoop_of (fmt : K → List Char) (h : WF z e fs s) (n : Nat) : ∀ (i : Nat) (term : List Int),
    (i : Int) + n = prod (sizesOf fs) → term.length = fs.length →
    printLoop fmt s n i term = .ok ((List.range n).flatMap fun l =>
      printLine fmt (digits (sizesOf fs) ((i + l : Nat) : Int)) (s.coeff.val.getD (i + l) 0)) := by
  induction n with
  | zero => intro i term _ _; rfl
  | succ n ih =>
    intro i term hi ht
    have hl := h.shaped.len_eq
    have hi' : i < s.coeff.val.length := by omega
    have hg : s.coeff.getLin i = .ok (s.coeff.val.getD i 0) := by
      rw [getLin, vget_nat _ _ hi']; simp [hi']
    have htI := tensorIndices_of h.shaped h.good (term := term) (by simpa [sizesOf] using ht) (l := (i : Int)) (by omega) (by omega)
    simp only [printLoop, hg, htI, ok_bind]
    rw [ih (i + 1) _ (by push_cast; omega) (by simp [sizesOf])]
    rw [List.range_succ_eq_map, List.flatMap_cons, List.flatMap_map, Nat.add_zero]
    simp only [ok_bind]
    congr 3
    funext l
    rw [show i + 1 + l = i + l.succ by omega]

theorem blank_newline : Blank '\n' := by simp [Blank]

/-- Reading printed coefficients. -/
theorem readLoop_of {fmt : K → List Char} {scan : List Char → Option K × List Char} (src dst : Nat → K)
    (hfmt : ∀ l : Nat, (l : Int) < prod (sizesOf fs) → Denotes scan (fmt (src l)) (dst l)) (rest : List Char) (n : Nat) : ∀ (i : Nat) (term : List Int) (w : List Char) (s : Series K), WF z e fs s →
    (i : Int) + n = prod (sizesOf fs) → term.length = fs.length → (∀ c ∈ w, Blank c) →
    ∃ sin' s', readLoop scan n i term (ofText (w ++ (((List.range n).flatMap fun l =>
        printLine fmt (digits (sizesOf fs) ((i + l : Nat) : Int)) (src (i + l))) ++ rest))) s = .ok (sin', s') ∧
      WF z e fs s' ∧ s' = { s with coeff := s'.coeff } ∧ (∃ w', (∀ c ∈ w', Blank c) ∧ sin' = ofText (w' ++ rest)) ∧
      (∀ l : Nat, l < i → s'.coeff.val[l]? = s.coeff.val[l]?) ∧ ∀ l : Nat, i ≤ l → l < i + n → s'.coeff.val[l]? = some (dst l) := by
  induction n with
  | zero =>
    intro i term w s h _ _ hw
    exact ⟨_, s, rfl, h, rfl, ⟨w, hw, rfl⟩, fun _ _ => rfl, fun l h1 h2 => by omega⟩
  | succ n ih =>
    intro i term w s h hi ht hw
    have hl := h.shaped.len_eq
    have hi' : i < s.coeff.val.length := by omega
    have hg : s.coeff.getLin i = .ok (s.coeff.val.getD i 0) := by
      rw [getLin, vget_nat _ _ hi']; simp [hi']
    have hbox := digits_inBox h.good.2.1 (l := (i : Int)) (by omega) (by omega)
    have hnn : ∀ t ∈ digits (sizesOf fs) (i : Int), 0 ≤ t := by
      intro t htm
      obtain ⟨j, hj, rfl⟩ := List.getElem_of_mem htm
      have hj' : j < (sizesOf fs).length := by simpa using hj
      obtain ⟨t', h1, h2, _⟩ := inBox_get hbox (j := j) (d := (sizesOf fs)[j]) (by simp [hj'])
      rw [List.getElem?_eq_getElem hj] at h1; cases h1; exact h2
    let more : List Char := (List.range n).flatMap (fun l =>
        printLine fmt (digits (sizesOf fs) ((i + 1 + l : Nat) : Int)) (src (i + 1 + l))) ++ rest
    have hsplit : ((List.range (n + 1)).flatMap fun l =>
        printLine fmt (digits (sizesOf fs) ((i + l : Nat) : Int)) (src (i + l))) ++ rest =
        ((digits (sizesOf fs) (i : Int)).flatMap fun t => showInt t ++ [' ']) ++ (fmt (src i) ++ (['\n'] ++ more)) := by
      rw [List.range_succ_eq_map, List.flatMap_cons, List.flatMap_map]
      have : (fun l : Nat => printLine fmt (digits (sizesOf fs) ((i + l.succ : Nat) : Int)) (src (i + l.succ))) =
          fun l => printLine fmt (digits (sizesOf fs) ((i + 1 + l : Nat) : Int)) (src (i + 1 + l)) := by
        funext l; rw [show i + 1 + l = i + l.succ by omega]
      rw [this]
      simp only [printLine, Nat.add_zero, List.append_assoc, more]
    obtain ⟨w', hw', e1⟩ := readTerms term (digits (sizesOf fs) (i : Int)) w (fmt (src i) ++ (['\n'] ++ more)) hw
      (by rw [ht]; simp [sizesOf]) hnn
    have e2 := extract_token scan 0 (some (s.coeff.val.getD i 0)) w' (fmt (src i)) (['\n'] ++ more) (dst i) hw'
      (startsBlank_newline _) (hfmt i (by omega))
    rw [List.append_assoc] at e2
    have hset : s.coeff.setLin i (dst i) = .ok { s.coeff with val := s.coeff.val.set i (dst i) } := by
      rw [setLin, vset_nat _ _ _ hi']; rfl
    have w1 := h.withCoeff (setLin_shaped h.shaped hset)
    obtain ⟨sin', s', f1, f2, f3, f4, f5, f6⟩ := ih (i + 1) (digits (sizesOf fs) (i : Int)) ['\n'] _ w1 (by push_cast; omega)
      (by simp [sizesOf]) (by simp [blank_newline])
    refine ⟨sin', s', ?_, f2, by rw [f3], f4, fun l hl => ?_, fun l h1 h2 => ?_⟩
    · rw [hsplit]
      simp only [readLoop, e1, hg, ok_bind, e2, Option.getD_some, hset]
      exact f1
    · rw [f5 l (by omega)]; simp only; rw [List.getElem?_set_ne (by omega)]
    · rcases Nat.eq_or_lt_of_le h1 with rfl | hlt
      · rw [f5 i (by omega)]; simp only; rw [List.getElem?_set_self hi']
      · exact f6 l hlt (by omega)

end Series
end
end Verif
