import Verif.Lemmas.SeriesMore
import Verif.Model.RoundedSeries
import Verif.Spec.RoundedSeries
import Verif.Lemmas.Rounding

/-! Helper lemmas about series in floating-point arithmetic. -/

namespace Verif
open Spec NDArray Series
namespace Fl.Ser

section
variable {K : Type} [Field K] [LinearOrder K] [FloorRing K] {rnd : K → K}
variable {z e : K} {fs : List (Family K)} {s s' : Series K}

theorem calcVal_keeps {y : K} (h : WF z e fs s) (he : calcVal rnd s = .ok (y, s')) : WF z e fs s' ∧ s'.coeff = s.coeff := by
  simp only [calcVal, bind_eq_ok] at he
  obtain ⟨v, _, he⟩ := he
  cases he
  exact ⟨⟨h.good, h.shaped, h.basis, h.glen, h.hlen, h.hrow, h.zero, h.ident⟩, rfl⟩

theorem calcGrad_keeps {y : K} {di : Int} (h : WF z e fs s) (he : calcGrad rnd s di = .ok (y, s')) :
    WF z e fs s' ∧ s'.coeff = s.coeff := by
  simp only [calcGrad, bind_eq_ok] at he
  obtain ⟨_, _, v, _, g, hg, he⟩ := he
  cases he
  obtain ⟨_, _, rfl⟩ := vset_ok.mp hg
  exact ⟨⟨h.good, h.shaped, h.basis, by simp [h.glen], h.hlen, h.hrow, h.zero, h.ident⟩, rfl⟩

theorem calcHess_keeps {y : K} {di dj : Int} (h : WF z e fs s) (he : calcHess rnd s di dj = .ok (y, s')) :
    WF z e fs s' ∧ s'.coeff = s.coeff := by
  simp only [calcHess, bind_eq_ok] at he
  obtain ⟨row, hrow, _, _, v, _, row', hr', H, hH, he⟩ := he
  cases he
  obtain ⟨_, _, rfl⟩ := vset_ok.mp hr'
  obtain ⟨_, _, rfl⟩ := vset_ok.mp hH
  refine ⟨⟨h.good, h.shaped, h.basis, h.glen, by simp [h.hlen], ?_, h.zero, h.ident⟩, rfl⟩
  intro r hr
  rcases List.mem_or_eq_of_mem_set hr with hr | rfl
  · exact h.hrow r hr
  · rw [List.length_set]
    exact h.hrow row (List.mem_of_getElem? (vget_ok.mp hrow).2)

theorem calcGrads_keeps (n : Nat) : ∀ (i : Nat) (s : Series K), WF z e fs s → calcGrads rnd n i s = .ok s' →
    WF z e fs s' ∧ s'.coeff = s.coeff := by
  induction n with
  | zero => intro i s h he; cases he; exact ⟨h, rfl⟩
  | succ n ih =>
    intro i s h he
    simp only [calcGrads, bind_eq_ok] at he
    obtain ⟨⟨y, s1⟩, h1, he⟩ := he
    obtain ⟨w1, w2⟩ := calcGrad_keeps h h1
    obtain ⟨v1, v2⟩ := ih (i + 1) _ w1 he
    exact ⟨v1, v2.trans w2⟩

theorem calcHessRow_keeps (i n : Nat) : ∀ (j : Nat) (s : Series K), WF z e fs s → calcHessRow rnd i n j s = .ok s' →
    WF z e fs s' ∧ s'.coeff = s.coeff := by
  induction n with
  | zero => intro j s h he; cases he; exact ⟨h, rfl⟩
  | succ n ih =>
    intro j s h he
    simp only [calcHessRow, bind_eq_ok] at he
    obtain ⟨⟨y, s1⟩, h1, he⟩ := he
    obtain ⟨w1, w2⟩ := calcHess_keeps h h1
    obtain ⟨v1, v2⟩ := ih (j + 1) _ w1 he
    exact ⟨v1, v2.trans w2⟩

theorem calcHesss_keeps (n : Nat) : ∀ (i : Nat) (s : Series K), WF z e fs s → calcHesss rnd n i s = .ok s' →
    WF z e fs s' ∧ s'.coeff = s.coeff := by
  induction n with
  | zero => intro i s h he; cases he; exact ⟨h, rfl⟩
  | succ n ih =>
    intro i s h he
    simp only [calcHesss, bind_eq_ok] at he
    obtain ⟨s1, h1, he⟩ := he
    obtain ⟨w1, w2⟩ := calcHessRow_keeps _ _ _ _ h h1
    obtain ⟨v1, v2⟩ := ih (i + 1) _ w1 he
    exact ⟨v1, v2.trans w2⟩

theorem basisProdLoop_keeps {ev : Int → BasisSet K → Int → K → Res (K × BasisSet K)}
    (hf : ∀ j F b t x r, Impl F b → ev j b t x = .ok r → Impl F r.2) (term : List Int) (var : List K) (n : Nat) :
    ∀ (i : Nat) (tmp : K) (s : Series K) (y : K), WF z e fs s → basisProdLoop rnd ev term var n i tmp s = .ok (y, s') →
      WF z e fs s' ∧ s'.coeff = s.coeff := by
  induction n with
  | zero => intro i tmp s y h he; cases he; exact ⟨h, rfl⟩
  | succ n ih =>
    intro i tmp s y h he
    simp only [basisProdLoop, bind_eq_ok] at he
    obtain ⟨b, hb, t, ht, x, hx, r, hr, he⟩ := he
    exact ih (i + 1) _ (s.putBasis i r.2) y (h.put' hb fun F hI => hf _ F b t x r hI hr) he

theorem step_keeps {op : SerOp K} (hop : op.KeepsBasis) (h : WF z e fs s) (he : step rnd s op = .ok s') :
    WF z e fs s' ∧ (op.KeepsCoeff → s'.coeff = s.coeff) := by
  cases op with
  | set bs => exact hop.elim
  | clear => exact hop.elim
  | evalAt x =>
    simp only [step, bind_eq_ok, evalAt] at he
    obtain ⟨⟨y, s2⟩, ⟨s1, h1, h2⟩, he⟩ := he
    cases he
    obtain ⟨w1, w2⟩ := basisLoop_keeps (fun _ _ _ _ => BasisSet.eval_keeps) _ _ _ _ h h1
    obtain ⟨v1, v2⟩ := calcVal_keeps w1 h2
    exact ⟨v1, fun _ => v2.trans w2⟩
  | gradAt x di =>
    simp only [step, bind_eq_ok, gradAt] at he
    obtain ⟨⟨y, s2⟩, ⟨s1, h1, h2⟩, he⟩ := he
    cases he
    obtain ⟨w1, w2⟩ := gradAtLoop_keeps _ _ _ _ _ h h1
    obtain ⟨v1, v2⟩ := calcGrad_keeps w1 h2
    exact ⟨v1, fun _ => v2.trans w2⟩
  | hessAt x di dj =>
    simp only [step, bind_eq_ok, hessAt] at he
    obtain ⟨⟨y, s2⟩, ⟨s1, h1, h2⟩, he⟩ := he
    cases he
    obtain ⟨w1, w2⟩ := hessAtLoop_keeps _ _ _ _ _ _ h h1
    obtain ⟨v1, v2⟩ := calcHess_keeps w1 h2
    exact ⟨v1, fun _ => v2.trans w2⟩
  | evalGrad x =>
    simp only [step, bind_eq_ok, evalGrad] at he
    obtain ⟨s1, h1, s2, h2, he⟩ := he
    obtain ⟨w1, w2⟩ := basisLoop_keeps (fun _ _ _ _ => BasisSet.eval_keeps) _ _ _ _ h h1
    obtain ⟨v1, v2⟩ := basisLoop_keeps (fun _ _ _ _ => BasisSet.evalGrad_keeps) _ _ _ _ w1 h2
    obtain ⟨u1, u2⟩ := calcGrads_keeps _ _ _ v1 he
    exact ⟨u1, fun _ => u2.trans (v2.trans w2)⟩
  | evalHess x =>
    simp only [step, bind_eq_ok, evalHess] at he
    obtain ⟨s1, h1, s2, h2, s3, h3, he⟩ := he
    obtain ⟨w1, w2⟩ := basisLoop_keeps (fun _ _ _ _ => BasisSet.eval_keeps) _ _ _ _ h h1
    obtain ⟨v1, v2⟩ := basisLoop_keeps (fun _ _ _ _ => BasisSet.evalGrad_keeps) _ _ _ _ w1 h2
    obtain ⟨t1, t2⟩ := basisLoop_keeps (fun _ _ _ _ => BasisSet.evalHess_keeps) _ _ _ _ v1 h3
    obtain ⟨u1, u2⟩ := calcHesss_keeps _ _ _ t1 he
    exact ⟨u1, fun _ => u2.trans (t2.trans (v2.trans w2))⟩
  | basisAll k x => exact Series.step_keeps hop h he
  | basisOne k x i => exact Series.step_keeps hop h he
  | basis1 k bi t x => exact Series.step_keeps hop h he
  | prod t x =>
    simp only [step, basisProd, bind_eq_ok] at he
    obtain ⟨⟨y, s2⟩, h1, he⟩ := he
    cases he
    obtain ⟨w1, w2⟩ := basisProdLoop_keeps (fun _ _ _ _ _ _ hI hr => termMember_keeps .v hI hr) _ _ _ _ _ _ _ h h1
    exact ⟨w1, fun _ => w2⟩
  | prodGrad t x di =>
    simp only [step, basisProd, bind_eq_ok] at he
    obtain ⟨⟨y, s2⟩, h1, he⟩ := he
    cases he
    obtain ⟨w1, w2⟩ := basisProdLoop_keeps (fun _ _ _ _ _ _ hI hr => termMember_keeps _ hI (by rw [← evGrad_kind]; exact hr))
      _ _ _ _ _ _ _ h h1
    exact ⟨w1, fun _ => w2⟩
  | prodHess t x di dj =>
    simp only [step, basisProd, bind_eq_ok] at he
    obtain ⟨⟨y, s2⟩, h1, he⟩ := he
    cases he
    obtain ⟨w1, w2⟩ := basisProdLoop_keeps (fun _ _ _ _ _ _ hI hr => termMember_keeps _ hI (by rw [← evHess_kind]; exact hr))
      _ _ _ _ _ _ _ h h1
    exact ⟨w1, fun _ => w2⟩
  | setCoeff t y => exact Series.step_keeps hop h he
  | setCoeffLin i y => exact Series.step_keeps hop h he
  | readCoeff scan sin => exact Series.step_keeps hop h he

theorem run_keeps (ops : List (SerOp K)) : ∀ {s : Series K}, (∀ op ∈ ops, op.KeepsBasis) → WF z e fs s → run rnd ops s = .ok s' →
    WF z e fs s' ∧ ((∀ op ∈ ops, op.KeepsCoeff) → s'.coeff = s.coeff) := by
  induction ops with
  | nil => intro s _ h he; cases he; exact ⟨h, fun _ => rfl⟩
  | cons op ops ih =>
    intro s hk h he
    simp only [run, bind_eq_ok] at he
    obtain ⟨s1, h1, he⟩ := he
    obtain ⟨w1, w2⟩ := step_keeps (hk op (by simp)) h h1
    obtain ⟨v1, v2⟩ := ih (fun o ho => hk o (by simp [ho])) w1 he
    exact ⟨v1, fun hc => (v2 fun o ho => hc o (by simp [ho])).trans (w2 (hc op (by simp)))⟩

end

section
variable {K : Type} [Field K] [LinearOrder K] [FloorRing K] [IsStrictOrderedRing K] {rnd : K → K} {u : K}
variable {z e : K} {fs : List (Family K)} {s s' : Series K}

omit [FloorRing K] in
theorem u_nonneg (R : Rounding rnd u) : 0 ≤ u := by
  have h := R.err 1
  rw [R.one, sub_self, abs_zero, abs_one, mul_one] at h
  exact h

omit [FloorRing K] in
theorem one_le_pow (R : Rounding rnd u) (n : Nat) : 1 ≤ (1 + u) ^ n := one_le_pow₀ (by linarith [u_nonneg R])

omit [FloorRing K] in
theorem rnd_abs (R : Rounding rnd u) (x : K) : |rnd x| ≤ (1 + u) * |x| := by
  have h1 := R.err x
  have h2 : |rnd x| ≤ |rnd x - x| + |x| := by simpa using abs_add_le (rnd x - x) x
  linarith

omit [FloorRing K] in
theorem mul_err (R : Rounding rnd u) {n : Nat} {q a P : K} (e2 : |q - rnd a * P| ≤ ((1 + u) ^ n - 1) * |rnd a * P|) :
    |q - a * P| ≤ ((1 + u) ^ (n + 1) - 1) * |a * P| := by
  have u0 := u_nonneg R
  have a1 := R.err a
  have a2 : |rnd a * P - a * P| ≤ u * |a * P| := by
    rw [← sub_mul, abs_mul, abs_mul a P, ← mul_assoc]
    exact mul_le_mul_of_nonneg_right a1 (abs_nonneg P)
  have a3 : |rnd a * P| ≤ |rnd a * P - a * P| + |a * P| := by simpa using abs_add_le (rnd a * P - a * P) (a * P)
  have a4 : |q - a * P| ≤ |q - rnd a * P| + |rnd a * P - a * P| := abs_sub_le _ _ _
  have h1 := one_le_pow R n
  have a5 : ((1 + u) ^ n - 1) * |rnd a * P| ≤ ((1 + u) ^ n - 1) * ((1 + u) * |a * P|) :=
    mul_le_mul_of_nonneg_left (by linarith) (by linarith)
  have : ((1 + u) ^ (n + 1) - 1) * |a * P| = ((1 + u) ^ n - 1) * ((1 + u) * |a * P|) + u * |a * P| := by ring
  linarith

/-- The loop over the factors: the product, with `n` relative errors. -/
theorem prodLoop_of (R : Rounding rnd u) {fac : Int → BasisSet K → Int → Res K} {fl : List (Nat × (Nat → K))} (h : WF z e fs s)
    (hlen : fl.length = fs.length) (hr : Reads fac s fl) {t : List Int} (ht : InBox (dimsOf fl) t) (n : Nat) :
    ∀ (j : Nat) (tmp : K), j + n = fl.length → ∃ p, prodLoop rnd fac s t n j tmp = .ok p ∧
      |p - tmp * facProd (fl.drop j) (t.drop j)| ≤ ((1 + u) ^ n - 1) * |tmp * facProd (fl.drop j) (t.drop j)| := by
  have u0 := u_nonneg R
  induction n with
  | zero =>
    intro j tmp hj
    rw [List.drop_eq_nil_of_le (by omega)]
    exact ⟨tmp, rfl, by simp [facProd]⟩
  | succ n ih =>
    intro j tmp hj
    obtain ⟨F, hF⟩ : ∃ F, fs[j]? = some F := ⟨fs[j]'(by omega), by simp⟩
    obtain ⟨p, hp⟩ : ∃ p, fl[j]? = some p := ⟨fl[j]'(by omega), by simp⟩
    obtain ⟨b, h1, h2, _⟩ := h.at hF
    obtain ⟨i, hu, hu0, hu1⟩ := inBox_get ht (j := j) (d := (p.1 : Int)) (by simp [dimsOf, hp])
    have hv : vget t (j : Int) = .ok i := vget_ok.mpr ⟨by omega, by simpa using hu⟩
    simp only [prodLoop, h2, hv, hr j b p h1 hp i hu0 hu1, ok_bind]
    obtain ⟨q, e1, e2⟩ := ih (j + 1) (rnd (tmp * p.2 i.toNat)) (by omega)
    refine ⟨q, e1, ?_⟩
    obtain ⟨hj1, hj2⟩ := List.getElem?_eq_some_iff.mp hp
    obtain ⟨hj3, hj4⟩ := List.getElem?_eq_some_iff.mp hu
    rw [List.drop_eq_getElem_cons hj1, List.drop_eq_getElem_cons hj3, hj2, hj4]
    obtain ⟨m, f⟩ := p
    simp only [facProd, List.headD_cons, List.tail_cons] at e2 ⊢
    generalize facProd (fl.drop (j + 1)) (t.drop (j + 1)) = P at *
    rw [← mul_assoc]
    generalize tmp * f i.toNat = a at *
    exact mul_err R e2

/-- The loop over the coefficients. -/
theorem calcLoop_of (R : Rounding rnd u) {fac : Int → BasisSet K → Int → Res K} {fl : List (Nat × (Nat → K))} (h : WF z e fs s)
    (hd : dimsOf fl = sizesOf fs) (hr : Reads fac s fl) (n : Nat) :
    ∀ (i : Nat) (tindex : List Int) (acc : K), (i : Int) + n = prod (sizesOf fs) → tindex.length = fs.length →
      ∃ y, calcLoop rnd fac s n i tindex acc = .ok y ∧
        |y - (acc + ∑ l ∈ Finset.range n, s.coeff.val.getD (i + l) 0 * facProd fl (digits (sizesOf fs) ((i + l : Nat) : Int)))| ≤
          ((1 + u) ^ n - 1) * |acc| + ((1 + u) ^ (n + fs.length) - 1) *
            ∑ l ∈ Finset.range n, |s.coeff.val.getD (i + l) 0 * facProd fl (digits (sizesOf fs) ((i + l : Nat) : Int))| := by
  have u0 := u_nonneg R
  have hlen : fl.length = fs.length := by
    have := congrArg List.length hd; simpa [dimsOf, sizesOf] using this
  induction n with
  | zero => intro i tindex acc _ _; exact ⟨acc, rfl, by simp⟩
  | succ n ih =>
    intro i tindex acc hi ht
    have hl := h.shaped.len_eq
    have hi' : i < s.coeff.val.length := by omega
    have hg : s.coeff.getLin i = .ok (s.coeff.val.getD i 0) := by
      rw [getLin, vget_nat _ _ hi']; simp [hi']
    have htI := tensorIndices_of h.shaped h.good (term := tindex) (by simpa [sizesOf] using ht) (l := (i : Int)) (by omega) (by omega)
    have hbox := digits_inBox h.good.2.1 (l := (i : Int)) (by omega) (by omega)
    obtain ⟨p, hp, hpe⟩ := prodLoop_of R h hlen hr (t := digits (sizesOf fs) i) (by rw [hd]; exact hbox) fs.length 0
      (s.coeff.val.getD i 0) (by omega)
    simp only [List.drop_zero] at hpe
    simp only [calcLoop, hg, htI, ok_bind, h.order, hp]
    obtain ⟨y, hy, hye⟩ := ih (i + 1) (digits (sizesOf fs) i) (rnd (acc + p)) (by push_cast; omega) (by simp [sizesOf])
    refine ⟨y, hy, ?_⟩
    have hs : ∀ g : Nat → K, ∑ l ∈ Finset.range (n + 1), g (i + l) = g i + ∑ l ∈ Finset.range n, g (i + 1 + l) := by
      intro g
      rw [Finset.sum_range_succ', add_comm]
      congr 1
      exact Finset.sum_congr rfl fun l _ => by rw [show i + 1 + l = i + (l + 1) by omega]
    have q1 := hs fun k => s.coeff.val.getD k 0 * facProd fl (digits (sizesOf fs) (k : Int))
    have q2 := hs fun k => |s.coeff.val.getD k 0 * facProd fl (digits (sizesOf fs) (k : Int))|
    rw [q1, q2]
    have hT0 : 0 ≤ ∑ l ∈ Finset.range n, |s.coeff.val.getD (i + 1 + l) 0 * facProd fl (digits (sizesOf fs) ((i + 1 + l : Nat) : Int))| :=
      Finset.sum_nonneg fun _ _ => abs_nonneg _
    generalize ∑ l ∈ Finset.range n, s.coeff.val.getD (i + 1 + l) 0 * facProd fl (digits (sizesOf fs) ((i + 1 + l : Nat) : Int)) = S at *
    generalize ∑ l ∈ Finset.range n, |s.coeff.val.getD (i + 1 + l) 0 * facProd fl (digits (sizesOf fs) ((i + 1 + l : Nat) : Int))| = T at *
    generalize s.coeff.val.getD i 0 * facProd fl (digits (sizesOf fs) (i : Int)) = a at *
    generalize fs.length = d at *
    have p1 : |p| ≤ (1 + u) ^ d * |a| := by
      have : |p| ≤ |p - a| + |a| := by simpa using abs_add_le (p - a) a
      linarith
    have r1 := R.err (acc + p)
    have r2 := rnd_abs R (acc + p)
    have r3 := abs_add_le acc p
    have n1 := one_le_pow R n
    have s1 : |y - (acc + (a + S))| ≤ |y - (rnd (acc + p) + S)| + |rnd (acc + p) - (acc + p)| + |p - a| := by
      have e1 : y - (acc + (a + S)) = (y - (rnd (acc + p) + S)) + (rnd (acc + p) - (acc + p)) + (p - a) := by ring
      rw [e1]
      exact (abs_add_le _ _).trans (add_le_add_left (abs_add_le _ _) _)
    have s2 : ((1 + u) ^ n - 1) * |rnd (acc + p)| ≤ ((1 + u) ^ n - 1) * ((1 + u) * (|acc| + (1 + u) ^ d * |a|)) := by
      refine mul_le_mul_of_nonneg_left (r2.trans ?_) (by linarith)
      exact mul_le_mul_of_nonneg_left (by linarith) (by linarith)
    have s3 : u * |acc + p| ≤ u * (|acc| + (1 + u) ^ d * |a|) := mul_le_mul_of_nonneg_left (by linarith) u0
    have s4 : (1 + u) ^ (n + d) ≤ (1 + u) ^ (n + 1 + d) := pow_le_pow_right₀ (by linarith) (by omega)
    have hT : ((1 + u) ^ (n + d) - 1) * T ≤ ((1 + u) ^ (n + 1 + d) - 1) * T := mul_le_mul_of_nonneg_right (by linarith) hT0
    have key : ((1 + u) ^ (n + 1) - 1) * |acc| + ((1 + u) ^ (n + 1 + d) - 1) * |a| =
        ((1 + u) ^ n - 1) * ((1 + u) * (|acc| + (1 + u) ^ d * |a|)) + u * (|acc| + (1 + u) ^ d * |a|) + ((1 + u) ^ d - 1) * |a| := by
      ring
    rw [mul_add]
    linarith

/-- Absolute values of the factors (lemma-side). -/
def absl (fl : List (Nat × (Nat → K))) : List (Nat × (Nat → K)) := fl.map fun p => (p.1, fun k => |p.2 k|)

/-- Four lists of factors: computed, exact, widened, absolute (lemma-side). -/
inductive Close : List (Nat × (Nat → K)) → List (Nat × (Nat → K)) → List (Nat × (Nat → K)) → List (Nat × (Nat → K)) → Prop
  | nil : Close [] [] [] []
  | cons {n : Nat} {f g w a : Nat → K} {fl gl wl al : List (Nat × (Nat → K))} :
      (∀ k, k < n → |f k - g k| ≤ w k - |g k| ∧ a k = |g k|) → Close fl gl wl al →
      Close ((n, f) :: fl) ((n, g) :: gl) ((n, w) :: wl) ((n, a) :: al)

omit [FloorRing K] in
theorem Close.bounds {fl gl wl al : List (Nat × (Nat → K))} (h : Close fl gl wl al) : ∀ c : List Int → K,
    |tensorSum fl c - tensorSum gl c| ≤ tensorSum wl (fun t => |c t|) - tensorSum al (fun t => |c t|) ∧
    |tensorSum gl c| ≤ tensorSum al (fun t => |c t|) ∧
    |tensorSum fl c| ≤ tensorSum (absl fl) (fun t => |c t|) ∧
    tensorSum (absl fl) (fun t => |c t|) ≤ tensorSum wl (fun t => |c t|) ∧ 0 ≤ tensorSum (absl fl) (fun t => |c t|) := by
  induction h with
  | nil => intro c; simp [tensorSum, absl]
  | @cons n f g w a fl gl wl al hk _ ih =>
    intro c
    have hb := fun k : Nat => ih fun t => c ((k : Int) :: t)
    simp only [tensorSum, absl, List.map_cons]
    refine ⟨?_, ?_, ?_, ?_, ?_⟩
    · rw [← Finset.sum_sub_distrib, ← Finset.sum_sub_distrib]
      refine (Finset.abs_sum_le_sum_abs _ _).trans (Finset.sum_le_sum fun k hkr => ?_)
      obtain ⟨k1, k2⟩ := hk k (Finset.mem_range.mp hkr)
      obtain ⟨b1, b2, _, _, _⟩ := hb k
      generalize tensorSum fl (fun t => c ((k : Int) :: t)) = Tf at *
      generalize tensorSum gl (fun t => c ((k : Int) :: t)) = Tg at *
      generalize tensorSum wl (fun t => |c ((k : Int) :: t)|) = Tw at *
      generalize tensorSum al (fun t => |c ((k : Int) :: t)|) = Ta at *
      have e1 : f k * Tf - g k * Tg = f k * (Tf - Tg) + (f k - g k) * Tg := by ring
      rw [e1, k2]
      have f1 : |f k| ≤ w k := by
        have : |f k| ≤ |f k - g k| + |g k| := by simpa using abs_add_le (f k - g k) (g k)
        linarith
      have c1 : |f k| * |Tf - Tg| ≤ w k * (Tw - Ta) := mul_le_mul f1 b1 (abs_nonneg _) ((abs_nonneg _).trans f1)
      have c2 : |f k - g k| * |Tg| ≤ (w k - |g k|) * Ta := mul_le_mul k1 b2 (abs_nonneg _) ((abs_nonneg _).trans k1)
      calc |f k * (Tf - Tg) + (f k - g k) * Tg| ≤ |f k * (Tf - Tg)| + |(f k - g k) * Tg| := abs_add_le _ _
        _ = |f k| * |Tf - Tg| + |f k - g k| * |Tg| := by rw [abs_mul, abs_mul]
        _ ≤ w k * (Tw - Ta) + (w k - |g k|) * Ta := add_le_add c1 c2
        _ = w k * Tw - |g k| * Ta := by ring
    · refine (Finset.abs_sum_le_sum_abs _ _).trans (Finset.sum_le_sum fun k hkr => ?_)
      rw [abs_mul, (hk k (Finset.mem_range.mp hkr)).2]
      exact mul_le_mul_of_nonneg_left (hb k).2.1 (abs_nonneg _)
    · refine (Finset.abs_sum_le_sum_abs _ _).trans (Finset.sum_le_sum fun k hkr => ?_)
      rw [abs_mul]
      exact mul_le_mul_of_nonneg_left (hb k).2.2.1 (abs_nonneg _)
    · refine Finset.sum_le_sum fun k hkr => ?_
      obtain ⟨k1, k2⟩ := hk k (Finset.mem_range.mp hkr)
      have f1 : |f k| ≤ w k := by
        have : |f k| ≤ |f k - g k| + |g k| := by simpa using abs_add_le (f k - g k) (g k)
        linarith
      exact mul_le_mul f1 (hb k).2.2.2.1 (hb k).2.2.2.2 ((abs_nonneg _).trans f1)
    · exact Finset.sum_nonneg fun k hkr => mul_nonneg (abs_nonneg _) (hb k).2.2.2.2

omit [FloorRing K] in
theorem dimsOf_absl (fl : List (Nat × (Nat → K))) : dimsOf (absl fl) = dimsOf fl := by simp [dimsOf, absl]

omit [FloorRing K] in
theorem facProd_absl (fl : List (Nat × (Nat → K))) : ∀ t, |facProd fl t| = facProd (absl fl) t := by
  induction fl with
  | nil => intro t; simp [facProd, absl]
  | cons p fl ih => intro t; obtain ⟨n, f⟩ := p; simp only [facProd, abs_mul, absl, List.map_cons]; rw [ih]; rfl

theorem calcSum_of (R : Rounding rnd u) {fac : Int → BasisSet K → Int → Res K} {fl : List (Nat × (Nat → K))} (h : WF 0 e fs s)
    (hd : dimsOf fl = sizesOf fs) (hr : Reads fac s fl) {c : List Int → K} (hc : HasCoeff s fs c) :
    ∃ y, calcSum rnd fac s = .ok y ∧
      |y - tensorSum fl c| ≤ ((1 + u) ^ ((prod (sizesOf fs)).toNat + fs.length) - 1) * tensorSum (absl fl) (fun t => |c t|) := by
  have hpos := prod_pos h.good.2.1
  obtain ⟨y, h1, h2⟩ := calcLoop_of R h hd hr (prod (sizesOf fs)).toNat 0 (List.replicate fs.length 0) 0 (by omega) (by simp)
  refine ⟨y, by rw [calcSum, h.zero, h.shaped.vol_eq, h.order]; exact h1, ?_⟩
  have e1 := tensorSum_eq fl (by rw [hd]; exact h.good.2.1) (fun l => s.coeff.val.getD l 0)
  have e2 := tensorSum_eq (absl fl) (by rw [dimsOf_absl, hd]; exact h.good.2.1) (fun l => |s.coeff.val.getD l 0|)
  rw [dimsOf_absl, hd] at e2
  rw [hd] at e1
  have hcc : ∀ t, InBox (sizesOf fs) t → s.coeff.val.getD (dot (sizesOf fs) t).toNat 0 = c t := by
    intro t ht
    obtain ⟨x, hx, hx'⟩ := NDArray.get_of h.shaped h.good ht
    rw [hc t ht] at hx
    cases hx
    simp [List.getD_eq_getElem?_getD, hx']
  have t1 : tensorSum fl (fun t => s.coeff.val.getD (dot (sizesOf fs) t).toNat 0) = tensorSum fl c :=
    tensorSum_congr fun t ht => hcc t (by rw [← hd]; exact ht)
  have t2 : tensorSum (absl fl) (fun t => |s.coeff.val.getD (dot (sizesOf fs) t).toNat 0|) = tensorSum (absl fl) (fun t => |c t|) :=
    tensorSum_congr fun t ht => by rw [hcc t (by rw [dimsOf_absl, hd] at ht; exact ht)]
  simp only [Nat.zero_add, abs_mul, facProd_absl] at h2
  rw [e1, e2, t1, t2, abs_zero, mul_zero, zero_add, zero_add] at h2
  exact h2

omit [FloorRing K] in
theorem approx_deriv {F G E : Family K} {y : K} (h : F.Approx G E y) (o k : Nat) (hk : k < G.size) :
    |F.deriv o k y - G.deriv o k y| ≤ (G.widen E).deriv o k y - |G.deriv o k y| ∧ G.abs.deriv o k y = |G.deriv o k y| := by
  unfold Family.deriv Family.widen Family.abs
  split
  · exact ⟨by have := h.phi k hk; simpa using this, rfl⟩
  · split
    · exact ⟨by have := h.dphi k hk; simpa using this, rfl⟩
    · exact ⟨by have := h.ddphi k hk; simpa using this, rfl⟩

omit [FloorRing K] in
theorem approxAt_cons {F G E : Family K} {fs gs es : List (Family K)} {y : K} {x : List K}
    (h : ApproxAt (F :: fs) (G :: gs) (E :: es) (y :: x)) : F.Approx G E y ∧ ApproxAt fs gs es x := by
  obtain ⟨h1, h2, h3, h4⟩ := h
  refine ⟨h4 0 F G E y rfl rfl rfl rfl, by simpa using h1, by simpa using h2, by simpa using h3, fun j F' G' E' y' a b c d => ?_⟩
  exact h4 (j + 1) F' G' E' y' (by simpa using a) (by simpa using b) (by simpa using c) (by simpa using d)

omit [FloorRing K] in
theorem close_of {fs : List (Family K)} : ∀ {gs es : List (Family K)} {x : List K} {m : List Nat}, ApproxAt fs gs es x → m.length = fs.length →
    Close (factors fs m x) (factors gs m x) (factors (List.zipWith Family.widen gs es) m x) (factors (gs.map Family.abs) m x) := by
  induction fs with
  | nil =>
    intro gs es x m h _
    obtain ⟨h1, h2, h3, _⟩ := h
    simp only [List.length_nil, List.length_eq_zero_iff] at h1 h2 h3
    subst h1; subst h2; subst h3
    exact .nil
  | cons F fs ih =>
    intro gs es x m h hm
    obtain ⟨h1, h2, h3, _⟩ := id h
    match gs, es, x, m, h1, h2, h3, hm with
    | G :: gs, E :: es, y :: x, o :: m, _, _, _, hm =>
      obtain ⟨ha, hr⟩ := approxAt_cons h
      have hc := ih hr (m := m) (by simpa using hm)
      simp only [factors, List.zip_cons_cons, List.map_cons, List.zipWith_cons_cons] at hc ⊢
      have hs1 : (G.widen E).size = F.size := ha.size.symm
      have hs2 : G.abs.size = F.size := ha.size.symm
      rw [hs1, hs2, ← ha.size]
      exact .cons (fun k hk => approx_deriv ha o k (by rw [← ha.size]; exact hk)) hc

omit [LinearOrder K] [FloorRing K] [IsStrictOrderedRing K] in
theorem prod_sizes (fs : List (Family K)) : (prod (sizesOf fs)).toNat = (fs.map Family.size).prod := by
  have : prod (sizesOf fs) = (((fs.map Family.size).prod : Nat) : Int) := by
    induction fs with
    | nil => rfl
    | cons F fs ih => simp only [sizesOf, List.map_cons, prod, List.prod_cons] at ih ⊢; rw [ih]; push_cast; rfl
  rw [this, Int.toNat_natCast]

omit [FloorRing K] in
theorem approx_sizes {fs : List (Family K)} : ∀ {gs es : List (Family K)} {x : List K}, ApproxAt fs gs es x →
    gs.map Family.size = fs.map Family.size := by
  intro gs es x h
  obtain ⟨h1, h2, h3, h4⟩ := h
  apply List.ext_getElem (by simp [h1])
  intro j a b
  simp only [List.length_map] at a b
  simp only [List.getElem_map]
  exact (h4 j fs[j] gs[j] es[j] x[j] (by simp) (by simp) (by simp) (by simp)).size.symm

/-- What a rounded sum is near to. -/
theorem sum_near (R : Rounding rnd u) {fac : Int → BasisSet K → Int → Res K} (h : WF 0 e fs s) {gs es : List (Family K)} {x : List K}
    (ha : ApproxAt fs gs es x) {m : List Nat} (hm : m.length = fs.length) (hr : Reads fac s (factors fs m x)) {c : List Int → K}
    (hc : HasCoeff s fs c) : ∃ y, calcSum rnd fac s = .ok y ∧ |y - series gs m c x| ≤ seriesError u gs es m c x := by
  obtain ⟨y, h1, h2⟩ := calcSum_of R h (factors_dims hm (by rw [ha.2.2.1])) hr hc
  refine ⟨y, h1, ?_⟩
  obtain ⟨b1, b2, b3, b4, b5⟩ := (close_of ha hm).bounds c
  have hn : (prod (sizesOf fs)).toNat + fs.length = roundings gs := by rw [prod_sizes, roundings, approx_sizes ha, ha.1]
  rw [hn] at h2
  have e1 := one_le_pow R (roundings gs)
  have e2 : ((1 + u) ^ roundings gs - 1) * tensorSum (absl (factors fs m x)) (fun t => |c t|) ≤
      ((1 + u) ^ roundings gs - 1) * tensorSum (factors (List.zipWith Family.widen gs es) m x) (fun t => |c t|) :=
    mul_le_mul_of_nonneg_left b4 (by linarith)
  have e3 := abs_sub_le y (tensorSum (factors fs m x) c) (tensorSum (factors gs m x) c)
  rw [sub_mul, one_mul] at e2
  show |y - tensorSum (factors gs m x) c| ≤ (1 + u) ^ roundings gs * tensorSum (factors (List.zipWith Family.widen gs es) m x) (fun t => |c t|) -
    tensorSum (factors (gs.map Family.abs) m x) (fun t => |c t|)
  linarith

variable {gs es : List (Family K)} {x : List K}

theorem evalAt_near (R : Rounding rnd u) {c : List Int → K} (h : WF 0 e fs s) (ha : ApproxAt fs gs es x) (hc : HasCoeff s fs c) :
    ∃ y s', evalAt rnd s x = .ok (y, s') ∧ s'.get = .ok y ∧ |y - series gs (value fs.length) c x| ≤ seriesError u gs es (value fs.length) c x ∧
      WF 0 e fs s' ∧ HasCoeff s' fs c ∧ Evald fs x true false false s' := by
  obtain ⟨s1, h1, h2, h3, h4⟩ := evalBasis_of h (by rw [ha.2.2.1]) (evald_none fs x s)
  have hc1 : HasCoeff s1 fs c := by rw [h3]; exact hc
  obtain ⟨y, k1, k2⟩ := sum_near R h2 ha (m := value fs.length) (by simp [value]) (reads_val h4) hc1
  refine ⟨y, { s1 with val := some y }, ?_, rfl, k2,
    ⟨h2.good, h2.shaped, h2.basis, h2.glen, h2.hlen, h2.hrow, h2.zero, h2.ident⟩, hc1, h4⟩
  simp only [evalAt, h1, ok_bind, calcVal, k1]

/-- What `eval_grad` stores. -/
theorem calcGrads_near (R : Rounding rnd u) {hh : Bool} {c : List Int → K} (ha : ApproxAt fs gs es x) (n : Nat) :
    ∀ (i : Nat) (s : Series K), WF 0 e fs s → Evald fs x true true hh s → HasCoeff s fs c → i + n = fs.length →
      ∃ g, calcGrads rnd n i s = .ok { s with gradVal := g } ∧ g.length = fs.length ∧ (∀ j : Nat, j < i → g[j]? = s.gradVal[j]?) ∧
        ∀ j : Nat, i ≤ j → j < fs.length → ∃ y, g[j]? = some y ∧
          |y - series gs (gradient fs.length j) c x| ≤ seriesError u gs es (gradient fs.length j) c x := by
  induction n with
  | zero => intro i s h _ _ hi; exact ⟨s.gradVal, rfl, h.glen, fun _ _ => rfl, fun j h1 h2 => by omega⟩
  | succ n ih =>
    intro i s h hs hc hi
    obtain ⟨y, hsum, hy⟩ := sum_near R h ha (m := gradient fs.length i) (by simp [gradient]) (reads_grad i hs) hc
    have hv : ∀ y : K, vset s.gradVal (i : Int) y = .ok (s.gradVal.set i y) := fun y => vset_nat _ _ _ (by rw [h.glen]; omega)
    have e1 : calcGrad rnd s i = .ok (y, { s with gradVal := s.gradVal.set i y }) := by
      simp only [calcGrad, hv, ok_bind, hsum]
    have w := (calcGrad_keeps h e1).1
    obtain ⟨g, e2, e3, e4, e5⟩ := ih (i + 1) _ w hs hc (by omega)
    refine ⟨g, ?_, e3, fun j hj => ?_, fun j h1 h2 => ?_⟩
    · simp only [calcGrads, e1, ok_bind]; exact e2
    · rw [e4 j (by omega)]; simp only; rw [List.getElem?_set_ne (by omega)]
    · rcases Nat.eq_or_lt_of_le h1 with rfl | hlt
      · exact ⟨y, by rw [e4 i (by omega)]; simp only; rw [List.getElem?_set_self (by rw [h.glen]; omega)], hy⟩
      · exact e5 j hlt h2

theorem calcHessRow_near (R : Rounding rnd u) {c : List Int → K} (ha : ApproxAt fs gs es x) (i : Nat) (hi : i < fs.length) (n : Nat) :
    ∀ (j : Nat) (s : Series K), WF 0 e fs s → Evald fs x true true true s → HasCoeff s fs c → j + n = fs.length →
      ∃ H row row0, calcHessRow rnd i n j s = .ok { s with hessVal := H } ∧ WF 0 e fs { s with hessVal := H } ∧
        H[i]? = some row ∧ s.hessVal[i]? = some row0 ∧
        (∀ k : Nat, k ≠ i → H[k]? = s.hessVal[k]?) ∧ (∀ k : Nat, k < j → row[k]? = row0[k]?) ∧
        ∀ k : Nat, j ≤ k → k < fs.length → ∃ y, row[k]? = some y ∧
          |y - series gs (hessian fs.length i k) c x| ≤ seriesError u gs es (hessian fs.length i k) c x := by
  induction n with
  | zero =>
    intro j s h _ _ hj
    have hl : i < s.hessVal.length := by rw [h.hlen]; exact hi
    exact ⟨s.hessVal, s.hessVal[i], s.hessVal[i], rfl, h, by simp, by simp, fun _ _ => rfl, fun _ _ => rfl, fun k h1 h2 => by omega⟩
  | succ n ih =>
    intro j s h hs hc hj
    have hl : i < s.hessVal.length := by rw [h.hlen]; exact hi
    have hrl : (s.hessVal[i]).length = fs.length := h.hrow _ (List.getElem_mem hl)
    obtain ⟨y, hsum, hy⟩ := sum_near R h ha (m := hessian fs.length i j) (by simp [hessian]) (reads_hess i j hs) hc
    have hg : vget s.hessVal (i : Int) = .ok s.hessVal[i] := vget_nat _ _ hl
    have hv : ∀ y : K, vset s.hessVal[i] (j : Int) y = .ok (s.hessVal[i].set j y) := fun y => vset_nat _ _ _ (by omega)
    have hv2 : ∀ r, vset s.hessVal (i : Int) r = .ok (s.hessVal.set i r) := fun r => vset_nat _ _ _ hl
    have e1 : calcHess rnd s i j = .ok (y, { s with hessVal := s.hessVal.set i (s.hessVal[i].set j y) }) := by
      simp only [calcHess, hg, hv, hv2, ok_bind, hsum]
    have w := (calcHess_keeps h e1).1
    obtain ⟨H, row, row0, e2, e3, e4, e5, e6, e7, e8⟩ := ih (j + 1) _ w hs hc (by omega)
    simp only [List.getElem?_set_self hl, Option.some.injEq] at e5
    subst e5
    refine ⟨H, row, s.hessVal[i], ?_, e3, e4, by simp, fun k hk => ?_, fun k hk => ?_, fun k h1 h2 => ?_⟩
    · simp only [calcHessRow, e1, ok_bind]; exact e2
    · rw [e6 k hk]; simp only; rw [List.getElem?_set_ne (by omega)]
    · rw [e7 k (by omega), List.getElem?_set_ne (by omega)]
    · rcases Nat.eq_or_lt_of_le h1 with rfl | hlt
      · exact ⟨y, by rw [e7 j (by omega), List.getElem?_set_self (by omega)], hy⟩
      · exact e8 k hlt h2

/-- What `eval_hess` stores. -/
theorem calcHesss_near (R : Rounding rnd u) {c : List Int → K} (ha : ApproxAt fs gs es x) (n : Nat) :
    ∀ (i : Nat) (s : Series K), WF 0 e fs s → Evald fs x true true true s → HasCoeff s fs c → i + n = fs.length →
      ∃ H, calcHesss rnd n i s = .ok { s with hessVal := H } ∧ WF 0 e fs { s with hessVal := H } ∧
        (∀ j : Nat, j < i → H[j]? = s.hessVal[j]?) ∧
        ∀ j : Nat, i ≤ j → j < fs.length → ∃ row, H[j]? = some row ∧
          ∀ k : Nat, k < fs.length → ∃ y, row[k]? = some y ∧
            |y - series gs (hessian fs.length j k) c x| ≤ seriesError u gs es (hessian fs.length j k) c x := by
  induction n with
  | zero => intro i s h _ _ hi; exact ⟨s.hessVal, rfl, h, fun _ _ => rfl, fun j h1 h2 => by omega⟩
  | succ n ih =>
    intro i s h hs hc hi
    obtain ⟨H1, row, row0, e1, e2, e3, e4, e5, e6, e7⟩ := calcHessRow_near R ha i (by omega) fs.length 0 s h hs hc (by omega)
    obtain ⟨H, f1, f2, f3, f4⟩ := ih (i + 1) _ e2 hs hc (by omega)
    refine ⟨H, ?_, f2, fun j hj => ?_, fun j h1 h2 => ?_⟩
    · simp only [calcHesss, h.order, e1, ok_bind]; exact f1
    · rw [f3 j (by omega)]; exact e5 j (by omega)
    · rcases Nat.eq_or_lt_of_le h1 with rfl | hlt
      · exact ⟨row, by rw [f3 i (by omega)]; exact e3, fun k hk => e7 k (by omega) hk⟩
      · exact f4 j hlt h2

theorem evalGrad_near (R : Rounding rnd u) {c : List Int → K} (h : WF 0 e fs s) (ha : ApproxAt fs gs es x) (hc : HasCoeff s fs c) :
    ∃ s', evalGrad rnd s x = .ok s' ∧ ∀ di : Nat, di < fs.length → ∃ y, s'.getGrad di = .ok y ∧
      |y - series gs (gradient fs.length di) c x| ≤ seriesError u gs es (gradient fs.length di) c x := by
  have hx : fs.length ≤ x.length := by rw [ha.2.2.1]
  obtain ⟨s1, h1, h2, h3, h4⟩ := evalBasis_of h hx (evald_none fs x s)
  obtain ⟨s2, k1, k2, k3, k4⟩ := evalBasisGrad_of h2 hx h4
  have hc2 : HasCoeff s2 fs c := by rw [k3, h3]; exact hc
  obtain ⟨g, e1, e2, _, e4⟩ := calcGrads_near R ha fs.length 0 s2 k2 k4 hc2 (by omega)
  refine ⟨_, by simp only [evalGrad, h1, k1, ok_bind, k2.order]; exact e1, fun di hd => ?_⟩
  obtain ⟨y, y1, y2⟩ := e4 di (by omega) hd
  exact ⟨y, vget_ok.mpr ⟨by omega, by simpa using y1⟩, y2⟩

theorem evalHess_near (R : Rounding rnd u) {c : List Int → K} (h : WF 0 e fs s) (ha : ApproxAt fs gs es x) (hc : HasCoeff s fs c) :
    ∃ s', evalHess rnd s x = .ok s' ∧ ∀ di dj : Nat, di < fs.length → dj < fs.length → ∃ y, s'.getHess di dj = .ok y ∧
      |y - series gs (hessian fs.length di dj) c x| ≤ seriesError u gs es (hessian fs.length di dj) c x := by
  have hx : fs.length ≤ x.length := by rw [ha.2.2.1]
  obtain ⟨s1, h1, h2, h3, h4⟩ := evalBasis_of h hx (evald_none fs x s)
  obtain ⟨s2, k1, k2, k3, k4⟩ := evalBasisGrad_of h2 hx h4
  obtain ⟨s3, l1, l2, l3, l4⟩ := evalBasisHess_of k2 hx k4
  have hc3 : HasCoeff s3 fs c := by rw [l3, k3, h3]; exact hc
  obtain ⟨H, e1, _, _, e4⟩ := calcHesss_near R ha fs.length 0 s3 l2 l4 hc3 (by omega)
  refine ⟨_, by simp only [evalHess, h1, k1, l1, ok_bind, l2.order]; exact e1, fun di dj hd hd' => ?_⟩
  obtain ⟨row, r1, r2⟩ := e4 di (by omega) hd
  obtain ⟨y, y1, y2⟩ := r2 dj hd'
  have g1 : vget H (di : Int) = .ok row := vget_ok.mpr ⟨by omega, by simpa using r1⟩
  refine ⟨y, ?_, y2⟩
  simp only [getHess, g1, ok_bind]
  exact vget_ok.mpr ⟨by omega, by simpa using y1⟩

theorem basisProdLoop_of (R : Rounding rnd u) {ev : Int → BasisSet K → Int → K → Res (K × BasisSet K)} {fl : List (Nat × (Nat → K))}
    (hx : fs.length ≤ x.length) (hd : dimsOf fl = sizesOf fs)
    (hev : ∀ (j : Nat) F b p y, fs[j]? = some F → Impl F b → fl[j]? = some p → x[j]? = some y → ∀ u : Int, 0 ≤ u → u < p.1 →
      ∃ b', ev j b u y = .ok (p.2 u.toNat, b') ∧ Impl F b')
    {t : List Int} (ht : InBox (dimsOf fl) t) (n : Nat) : ∀ (j : Nat) (tmp : K) (s : Series K), WF z e fs s → j + n = fl.length →
      ∃ y s', basisProdLoop rnd ev t x n j tmp s = .ok (y, s') ∧
        |y - tmp * facProd (fl.drop j) (t.drop j)| ≤ ((1 + u) ^ n - 1) * |tmp * facProd (fl.drop j) (t.drop j)| := by
  have hlen : fl.length = fs.length := by
    have := congrArg List.length hd; simpa [dimsOf, sizesOf] using this
  induction n with
  | zero =>
    intro j tmp s h hj
    rw [List.drop_eq_nil_of_le (by omega)]
    exact ⟨tmp, s, rfl, by simp [facProd]⟩
  | succ n ih =>
    intro j tmp s h hj
    obtain ⟨F, hF⟩ : ∃ F, fs[j]? = some F := ⟨fs[j]'(by omega), by simp⟩
    obtain ⟨p, hp⟩ : ∃ p, fl[j]? = some p := ⟨fl[j]'(by omega), by simp⟩
    obtain ⟨y, hy⟩ : ∃ y, x[j]? = some y := ⟨x[j]'(by omega), by simp⟩
    obtain ⟨b, h1, h2, hI⟩ := h.at hF
    obtain ⟨i, hu, hu0, hu1⟩ := inBox_get ht (j := j) (d := (p.1 : Int)) (by simp [dimsOf, hp])
    have hv : vget t (j : Int) = .ok i := vget_ok.mpr ⟨by omega, by simpa using hu⟩
    have hvx : vget x (j : Int) = .ok y := vget_ok.mpr ⟨by omega, by simpa using hy⟩
    obtain ⟨b', e1, e2⟩ := hev j F b p y hF hI hp hy i hu0 hu1
    obtain ⟨q, s', e3, e4⟩ := ih (j + 1) (rnd (tmp * p.2 i.toNat)) _ (h.put hF e2) (by omega)
    refine ⟨q, s', ?_, ?_⟩
    · simp only [basisProdLoop, h2, hv, hvx, e1, ok_bind]
      exact e3
    obtain ⟨hj1, hj2⟩ := List.getElem?_eq_some_iff.mp hp
    obtain ⟨hj3, hj4⟩ := List.getElem?_eq_some_iff.mp hu
    rw [List.drop_eq_getElem_cons hj1, List.drop_eq_getElem_cons hj3, hj2, hj4]
    obtain ⟨m, f⟩ := p
    simp only [facProd, List.headD_cons, List.tail_cons] at e4 ⊢
    rw [← mul_assoc]
    exact mul_err R e4

omit [FloorRing K] in
theorem Close.products {fl gl wl al : List (Nat × (Nat → K))} (h : Close fl gl wl al) : ∀ t, InBox (dimsOf fl) t →
    |facProd fl t - facProd gl t| ≤ facProd wl t - facProd al t ∧ |facProd gl t| ≤ facProd al t ∧ |facProd fl t| ≤ facProd wl t := by
  induction h with
  | nil => intro t _; simp [facProd]
  | @cons n f g w a fl gl wl al hk _ ih =>
    intro t ht
    match t, ht with
    | i :: t, ht =>
      simp only [dimsOf, List.map_cons, InBox] at ht
      obtain ⟨b1, b2, b3⟩ := ih t ht.2
      obtain ⟨k1, k2⟩ := hk i.toNat (by omega)
      simp only [facProd, List.headD_cons, List.tail_cons]
      generalize i.toNat = k at *
      generalize facProd fl t = Tf at *
      generalize facProd gl t = Tg at *
      generalize facProd wl t = Tw at *
      generalize facProd al t = Ta at *
      have f1 : |f k| ≤ w k := by
        have : |f k| ≤ |f k - g k| + |g k| := by simpa using abs_add_le (f k - g k) (g k)
        linarith
      refine ⟨?_, ?_, ?_⟩
      · have e1 : f k * Tf - g k * Tg = f k * (Tf - Tg) + (f k - g k) * Tg := by ring
        rw [e1, k2]
        have c1 : |f k| * |Tf - Tg| ≤ w k * (Tw - Ta) := mul_le_mul f1 b1 (abs_nonneg _) ((abs_nonneg _).trans f1)
        have c2 : |f k - g k| * |Tg| ≤ (w k - |g k|) * Ta := mul_le_mul k1 b2 (abs_nonneg _) ((abs_nonneg _).trans k1)
        calc |f k * (Tf - Tg) + (f k - g k) * Tg| ≤ |f k * (Tf - Tg)| + |(f k - g k) * Tg| := abs_add_le _ _
          _ = |f k| * |Tf - Tg| + |f k - g k| * |Tg| := by rw [abs_mul, abs_mul]
          _ ≤ w k * (Tw - Ta) + (w k - |g k|) * Ta := add_le_add c1 c2
          _ = w k * Tw - |g k| * Ta := by ring
      · rw [abs_mul, k2]; exact mul_le_mul_of_nonneg_left b2 (abs_nonneg _)
      · rw [abs_mul]; exact mul_le_mul f1 b3 (abs_nonneg _) ((abs_nonneg _).trans f1)

omit [LinearOrder K] [FloorRing K] [IsStrictOrderedRing K] in
theorem sizesOf_eq {fs gs : List (Family K)} (h : gs.map Family.size = fs.map Family.size) : sizesOf gs = sizesOf fs := by
  have := congrArg (List.map fun n : Nat => (n : Int)) h
  simpa [sizesOf, List.map_map, Function.comp_def] using this

theorem product_bound (R : Rounding rnd u) (ha : ApproxAt fs gs es x) {m : List Nat} (hm : m.length = fs.length) {t : List Int}
    (ht : InBox (sizesOf fs) t) {y : K}
    (hy : |y - facProd (factors fs m x) t| ≤ ((1 + u) ^ fs.length - 1) * |facProd (factors fs m x) t|) :
    |y - tensorBasis gs m t x| ≤ productError u gs es m t x := by
  obtain ⟨h1, h2, h3, _⟩ := id ha
  have hl := inBox_length ht
  simp only [sizesOf, List.length_map] at hl
  have hd := factors_dims hm (by rw [h3])
  obtain ⟨b1, b2, b3⟩ := (close_of ha hm).products t (by rw [hd]; exact ht)
  rw [productError, tensorBasis_eq gs m t x (by omega) (by omega) (by omega),
    tensorBasis_eq _ m t x (by simp; omega) (by simp; omega) (by simp; omega),
    tensorBasis_eq _ m t x (by simp; omega) (by simp; omega) (by simp; omega), h1]
  have e1 := one_le_pow R fs.length
  have e2 : ((1 + u) ^ fs.length - 1) * |facProd (factors fs m x) t| ≤
      ((1 + u) ^ fs.length - 1) * facProd (factors (List.zipWith Family.widen gs es) m x) t := mul_le_mul_of_nonneg_left b3 (by linarith)
  have e3 := abs_sub_le y (facProd (factors fs m x) t) (facProd (factors gs m x) t)
  rw [sub_mul, one_mul] at e2
  linarith

theorem basisProd_near (R : Rounding rnd u) (h : WF z 1 fs s) (ha : ApproxAt fs gs es x) {m : List Nat} (hm : m.length = fs.length)
    {ev : Int → BasisSet K → Int → K → Res (K × BasisSet K)}
    (hk : ∀ (j : Nat) o, m[j]? = some o → ∃ k, ev j = termMember k ∧ ordOf k = o) {t : List Int} (ht : InBox (sizesOf fs) t) :
    ∃ y s', basisProd rnd ev s t x = .ok (y, s') ∧ |y - tensorBasis gs m t x| ≤ productError u gs es m t x := by
  have hx : fs.length ≤ x.length := by rw [ha.2.2.1]
  have hd := factors_dims (fs := fs) hm hx
  have hlen : (factors fs m x).length = fs.length := by
    have := congrArg List.length hd; simpa [dimsOf, sizesOf] using this
  obtain ⟨y, s', e1, e2⟩ := basisProdLoop_of R (ev := ev) (fl := factors fs m x) hx hd (by
    intro j F b p y hF hI hp hy u h0 h1
    obtain ⟨F', o, y', hF', ho, hy', rfl⟩ := factors_get hp
    rw [hF] at hF'; cases hF'
    rw [hy] at hy'; cases hy'
    obtain ⟨k, k1, rfl⟩ := hk j o ho
    rw [k1]
    exact termMember_of k hI h0 h1 y) (t := t) (by rw [hd]; exact ht) fs.length 0 s.identityVal s h (by omega)
  refine ⟨y, s', by rw [basisProd, h.order]; exact e1, product_bound R ha hm ht ?_⟩
  rw [h.ident, one_mul, List.drop_zero, List.drop_zero] at e2
  exact e2

theorem basisGet_near (R : Rounding rnd u) (h : WF z 1 fs s) (ha : ApproxAt fs gs es x) {m : List Nat} (hm : m.length = fs.length)
    {fac : Int → BasisSet K → Int → Res K} (hr : Reads fac s (factors fs m x)) {t : List Int} (ht : InBox (sizesOf fs) t) :
    ∃ y, basisGet rnd fac s t = .ok y ∧ |y - tensorBasis gs m t x| ≤ productError u gs es m t x := by
  have hd := factors_dims (fs := fs) hm (by rw [ha.2.2.1])
  have hlen : (factors fs m x).length = fs.length := by
    have := congrArg List.length hd; simpa [dimsOf, sizesOf] using this
  obtain ⟨y, e1, e2⟩ := prodLoop_of R h hlen hr (t := t) (by rw [hd]; exact ht) fs.length 0 s.identityVal (by omega)
  refine ⟨y, by rw [basisGet, h.order]; exact e1, product_bound R ha hm ht ?_⟩
  rw [h.ident, one_mul, List.drop_zero, List.drop_zero] at e2
  exact e2
end
end Fl.Ser
end Verif
