import Verif.Lemmas.Binary64Mesh
import Verif.Lemmas.RoundedSeries
import Verif.Lemmas.RoundedTestlib

/-! # Binary64: evaluating a series, and the shipped functions, stays in the range of normal doubles -/

namespace Verif
open Spec NDArray Series
namespace B64
variable {K : Type} [Field K] [LinearOrder K] [IsStrictOrderedRing K] [FloorRing K] {f : K → K} {V B : Nat}
variable {z e : K} {fs : List (Family K)} {s : Series K}

/-- Double of a magnitude between `2^-V` and `2^V`, or 0 (lemma-side). -/
def Mod (V : Nat) (y : K) : Prop := IsFloat (r : K → K) y ∧ Sized V V y

theorem float_zero : IsFloat (r : K → K) 0 := R.zero

/-- The loop over the factors. -/
theorem prodLoop_same (hB : IsBinary64 f) {fac : Int → BasisSet K → Int → Res K} {fl : List (Nat × (Nat → K))} (h : WF z e fs s)
    (hlen : fl.length = fs.length) (hr : Reads fac s fl) (hs : ∀ p ∈ fl, ∀ k, k < p.1 → Sized B B (p.2 k)) {t : List Int}
    (ht : InBox (dimsOf fl) t) (n : Nat) :
    ∀ (j : Nat) (tmp : K) (V : Nat), j + n = fl.length → Mod V tmp → V + n * B ≤ 1022 →
      ∃ p, Fl.Ser.prodLoop f fac s t n j tmp = .ok p ∧ Fl.Ser.prodLoop r fac s t n j tmp = .ok p ∧ Mod (V + n * B) p := by
  induction n with
  | zero => intro j tmp V _ h1 _; exact ⟨tmp, rfl, rfl, by simpa using h1⟩
  | succ n ih =>
    intro j tmp V hj hm hV
    obtain ⟨F, hF⟩ : ∃ F, fs[j]? = some F := ⟨fs[j]'(by omega), by simp⟩
    obtain ⟨p, hp⟩ : ∃ p, fl[j]? = some p := ⟨fl[j]'(by omega), by simp⟩
    obtain ⟨b, h1, h2, _⟩ := h.at hF
    obtain ⟨i, hu, hu0, hu1⟩ := inBox_get ht (j := j) (d := (p.1 : Int)) (by simp [dimsOf, hp])
    have hv : vget t (j : Int) = .ok i := vget_ok.mpr ⟨by omega, by simpa using hu⟩
    have hsz := sized_mul hm.2 (hs p (List.mem_of_getElem? hp) i.toNat (by omega))
    have e1 : f (tmp * p.2 i.toNat) = r (tmp * p.2 i.toNat) := by
      refine agree hB hsz ?_ ?_ <;> rw [Nat.succ_mul] at hV <;> omega
    obtain ⟨q, k1, k2, k3⟩ := ih (j + 1) (r (tmp * p.2 i.toNat)) (V + B) (by omega) ⟨R.idem _, sized_round hsz⟩
      (by rw [Nat.succ_mul] at hV; omega)
    refine ⟨q, ?_, ?_, ?_⟩
    · simp only [Fl.Ser.prodLoop, h2, hv, hr j b p h1 hp i hu0 hu1, ok_bind, e1]; exact k1
    · simp only [Fl.Ser.prodLoop, h2, hv, hr j b p h1 hp i hu0 hu1, ok_bind]; exact k2
    · rw [Nat.succ_mul, show V + (n * B + B) = V + B + n * B by omega]; exact k3

/-- The loop over the coefficients. -/
theorem calcLoop_same (hB : IsBinary64 f) {fac : Int → BasisSet K → Int → Res K} {fl : List (Nat × (Nat → K))} (h : WF z e fs s)
    (hd : dimsOf fl = sizesOf fs) (hr : Reads fac s fl) (hs : ∀ p ∈ fl, ∀ k, k < p.1 → Sized B B (p.2 k))
    (hc : ∀ y ∈ s.coeff.val, Mod V y) (hV : V + fs.length * B ≤ 970) (hN : prod (sizesOf fs) ≤ 2 ^ 31) (n : Nat) :
    ∀ (i : Nat) (tindex : List Int) (acc : K), (i : Int) + n = prod (sizesOf fs) → tindex.length = fs.length →
      OnGrid (V + fs.length * B + 52) acc → |acc| ≤ i * 2 ^ (V + fs.length * B) →
      Fl.Ser.calcLoop f fac s n i tindex acc = Fl.Ser.calcLoop r fac s n i tindex acc := by
  have hlen : fl.length = fs.length := by
    have := congrArg List.length hd; simpa [dimsOf, sizesOf] using this
  induction n with
  | zero => intro i tindex acc _ _ _ _; rfl
  | succ n ih =>
    intro i tindex acc hi ht hg hacc
    have hl := h.shaped.len_eq
    have hi' : i < s.coeff.val.length := by omega
    have hgl : s.coeff.getLin i = .ok s.coeff.val[i] := by rw [getLin, vget_nat _ _ hi']
    have htI := tensorIndices_of h.shaped h.good (term := tindex) (by simpa [sizesOf] using ht) (l := (i : Int)) (by omega) (by omega)
    have hbox := digits_inBox h.good.2.1 (l := (i : Int)) (by omega) (by omega)
    obtain ⟨p, p1, p2, p3⟩ := prodLoop_same hB h hlen hr hs (t := digits (sizesOf fs) i) (by rw [hd]; exact hbox) fs.length 0
      s.coeff.val[i] V (by omega) (hc _ (List.getElem_mem hi')) (by omega)
    simp only [Fl.Ser.calcLoop, hgl, htI, ok_bind, h.order, p1, p2]
    have gp : OnGrid (V + fs.length * B + 52) p := float_grid p3.1 p3.2
    have g1 : OnGrid (V + fs.length * B + 52) (acc + p) := grid_add hg gp
    have b1 : |acc + p| ≤ ((i + 1 : Nat) : K) * 2 ^ (V + fs.length * B) := by
      have := abs_add_le acc p
      have := sized_le p3.2
      push_cast; rw [add_mul, one_mul]; linarith
    have hi31 : i + 1 ≤ 2 ^ 31 := by omega
    have b2 : |acc + p| ≤ 2 ^ (31 + (V + fs.length * B)) := by
      refine b1.trans ?_
      rw [pow_add _ 31]
      refine mul_le_mul_of_nonneg_right ?_ (p0 (K := K) _).le
      exact_mod_cast hi31
    have e1 : f (acc + p) = r (acc + p) := agree hB (grid_sized g1 b2) (by omega) (by omega)
    rw [e1]
    refine ih (i + 1) _ _ (by push_cast; omega) (by simp [sizesOf]) (grid_round g1) ?_
    have h53 : i + 1 ≤ 2 ^ 53 := hi31.trans (by norm_num)
    exact abs_round_le (float_nat_pow h53 (V + fs.length * B)) b1

theorem calcSum_same (hB : IsBinary64 f) {fac : Int → BasisSet K → Int → Res K} {fl : List (Nat × (Nat → K))} (h : WF 0 e fs s)
    (hd : dimsOf fl = sizesOf fs) (hr : Reads fac s fl) (hs : ∀ p ∈ fl, ∀ k, k < p.1 → Sized B B (p.2 k))
    (hc : ∀ y ∈ s.coeff.val, Mod V y) (hV : V + fs.length * B ≤ 970) : Fl.Ser.calcSum f fac s = Fl.Ser.calcSum r fac s := by
  have hpos := prod_pos h.good.2.1
  have hg := h.good.2.2
  rw [Fl.Ser.calcSum, Fl.Ser.calcSum, h.zero, h.shaped.vol_eq, h.order]
  exact calcLoop_same hB h hd hr hs hc hV (by omega) _ 0 _ 0 (by omega) (by simp) (grid_zero _) (by simp)

omit [IsStrictOrderedRing K] in
theorem coeff_mod {c : List Int → K} (h : WF z e fs s) (hc : HasCoeff s fs c) (hm : ∀ t, InBox (sizesOf fs) t → Mod V (c t)) :
    ∀ y ∈ s.coeff.val, Mod V y := by
  intro y hy
  obtain ⟨i, hi, rfl⟩ := List.getElem_of_mem hy
  have hl := h.shaped.len_eq
  have hb := digits_inBox h.good.2.1 (l := (i : Int)) (by omega) (by omega)
  have hdd := dot_digits h.good.2.1 (l := (i : Int)) (by omega) (by omega)
  obtain ⟨x, hx, hx'⟩ := NDArray.get_of h.shaped h.good hb
  rw [hc _ hb] at hx
  cases hx
  rw [hdd] at hx'
  have : s.coeff.val[i] = c (digits (sizesOf fs) i) := by
    have h2 := List.getElem?_eq_getElem hi
    simp only [Int.toNat_natCast] at hx'
    rw [h2] at hx'
    exact Option.some.inj hx'
  rw [this]; exact hm _ hb

/-- Values and derivatives of the basis functions at the point are 0 or between `2^-B` and `2^B` in magnitude (lemma-side). -/
def FacSized (B : Nat) (fs : List (Family K)) (x : List K) : Prop :=
  ∀ (j : Nat) F y, fs[j]? = some F → x[j]? = some y → ∀ o k, k < F.size → Sized B B (F.deriv o k y)

omit [IsStrictOrderedRing K] in
theorem factors_sized {x : List K} (h : FacSized B fs x) (m : List Nat) : ∀ p ∈ factors fs m x, ∀ k, k < p.1 → Sized B B (p.2 k) := by
  intro p hp k hk
  obtain ⟨j, hj⟩ := List.mem_iff_getElem?.mp hp
  obtain ⟨F, o, y, hF, ho, hy, rfl⟩ := factors_get hj
  exact h j F y hF hy o k hk

theorem sum_same (hB : IsBinary64 f) {fac : Int → BasisSet K → Int → Res K} (h : WF 0 e fs s) {x : List K} (hx : fs.length ≤ x.length)
    (hF : FacSized B fs x) {m : List Nat} (hm : m.length = fs.length) (hr : Reads fac s (factors fs m x))
    (hc : ∀ y ∈ s.coeff.val, Mod V y) (hV : V + fs.length * B ≤ 970) : Fl.Ser.calcSum f fac s = Fl.Ser.calcSum r fac s :=
  calcSum_same hB h (factors_dims hm hx) hr (factors_sized hF m) hc hV

theorem evalAt_same (hB : IsBinary64 f) (h : WF 0 e fs s) {x : List K} (hx : fs.length ≤ x.length) (hF : FacSized B fs x)
    (hc : ∀ y ∈ s.coeff.val, Mod V y) (hV : V + fs.length * B ≤ 970) : Fl.Ser.evalAt f s x = Fl.Ser.evalAt r s x := by
  obtain ⟨s1, h1, h2, h3, h4⟩ := evalBasis_of h hx (evald_none fs x s)
  have hc1 : ∀ y ∈ s1.coeff.val, Mod V y := by rw [h3]; exact hc
  simp only [Fl.Ser.evalAt, h1, ok_bind, Fl.Ser.calcVal,
    sum_same hB h2 hx hF (m := value fs.length) (by simp [value]) (reads_val h4) hc1 hV]

theorem calcGrads_same (hB : IsBinary64 f) {hh : Bool} {x : List K} (hx : fs.length ≤ x.length) (hF : FacSized B fs x)
    (hV : V + fs.length * B ≤ 970) (n : Nat) : ∀ (i : Nat) (s : Series K), WF 0 e fs s → Evald fs x true true hh s →
      (∀ y ∈ s.coeff.val, Mod V y) → i + n = fs.length → Fl.Ser.calcGrads f n i s = Fl.Ser.calcGrads r n i s := by
  induction n with
  | zero => intro i s _ _ _ _; rfl
  | succ n ih =>
    intro i s h hs hc hi
    have e0 := sum_same hB h hx hF (m := gradient fs.length i) (by simp [gradient]) (reads_grad i hs) hc hV
    have e1 : Fl.Ser.calcGrad f s i = Fl.Ser.calcGrad r s i := by simp only [Fl.Ser.calcGrad, e0]
    simp only [Fl.Ser.calcGrads, e1]
    cases hq : Fl.Ser.calcGrad r s i with
    | error => rfl
    | ok q =>
      obtain ⟨y, s'⟩ := q
      have w := Fl.Ser.calcGrad_keeps h hq
      have hb : s'.basis = s.basis := by
        simp only [Fl.Ser.calcGrad, bind_eq_ok] at hq
        obtain ⟨_, _, v, _, g, hg, he⟩ := hq
        cases he; rfl
      simp only [ok_bind]
      exact ih (i + 1) s' w.1 (fun j F y b k1 k2 k3 => hs j F y b k1 k2 (hb ▸ k3)) (by rw [w.2]; exact hc) (by omega)

theorem calcHessRow_same (hB : IsBinary64 f) {x : List K} (hx : fs.length ≤ x.length) (hF : FacSized B fs x)
    (hV : V + fs.length * B ≤ 970) (i n : Nat) : ∀ (j : Nat) (s : Series K), WF 0 e fs s → Evald fs x true true true s →
      (∀ y ∈ s.coeff.val, Mod V y) →
      Fl.Ser.calcHessRow f i n j s = Fl.Ser.calcHessRow r i n j s ∧
      ∀ s', Fl.Ser.calcHessRow r i n j s = .ok s' → WF 0 e fs s' ∧ Evald fs x true true true s' ∧ s'.coeff = s.coeff := by
  induction n with
  | zero => intro j s h hs _; exact ⟨rfl, fun s' he => by cases he; exact ⟨h, hs, rfl⟩⟩
  | succ n ih =>
    intro j s h hs hc
    have e0 := sum_same hB h hx hF (m := hessian fs.length i j) (by simp [hessian]) (reads_hess i j hs) hc hV
    have e1 : Fl.Ser.calcHess f s i j = Fl.Ser.calcHess r s i j := by simp only [Fl.Ser.calcHess, e0]
    simp only [Fl.Ser.calcHessRow, e1]
    cases hq : Fl.Ser.calcHess r s i j with
    | error => exact ⟨rfl, fun s' he => by cases he⟩
    | ok q =>
      obtain ⟨y, s1⟩ := q
      have w := Fl.Ser.calcHess_keeps h hq
      have hb : s1.basis = s.basis := by
        simp only [Fl.Ser.calcHess, bind_eq_ok] at hq
        obtain ⟨row, _, _, _, v, _, row', _, H, _, he⟩ := hq
        cases he; rfl
      simp only [ok_bind]
      obtain ⟨k1, k2⟩ := ih (j + 1) s1 w.1 (fun j F y b k1 k2 k3 => hs j F y b k1 k2 (hb ▸ k3)) (by rw [w.2]; exact hc)
      refine ⟨k1, fun s' he => ?_⟩
      obtain ⟨l1, l2, l3⟩ := k2 s' he
      exact ⟨l1, l2, l3.trans w.2⟩

theorem calcHesss_same (hB : IsBinary64 f) {x : List K} (hx : fs.length ≤ x.length) (hF : FacSized B fs x)
    (hV : V + fs.length * B ≤ 970) (n : Nat) : ∀ (i : Nat) (s : Series K), WF 0 e fs s → Evald fs x true true true s →
      (∀ y ∈ s.coeff.val, Mod V y) → Fl.Ser.calcHesss f n i s = Fl.Ser.calcHesss r n i s := by
  induction n with
  | zero => intro i s _ _ _; rfl
  | succ n ih =>
    intro i s h hs hc
    obtain ⟨e1, e2⟩ := calcHessRow_same hB hx hF hV i s.coeff.order.toNat 0 s h hs hc
    simp only [Fl.Ser.calcHesss, e1]
    cases hq : Fl.Ser.calcHessRow r i s.coeff.order.toNat 0 s with
    | error => rfl
    | ok s1 =>
      obtain ⟨l1, l2, l3⟩ := e2 s1 hq
      exact ih (i + 1) s1 l1 l2 (by rw [l3]; exact hc)

theorem evalGrad_same (hB : IsBinary64 f) (h : WF 0 e fs s) {x : List K} (hx : fs.length ≤ x.length) (hF : FacSized B fs x)
    (hc : ∀ y ∈ s.coeff.val, Mod V y) (hV : V + fs.length * B ≤ 970) : Fl.Ser.evalGrad f s x = Fl.Ser.evalGrad r s x := by
  obtain ⟨s1, h1, h2, h3, h4⟩ := evalBasis_of h hx (evald_none fs x s)
  obtain ⟨s2, k1, k2, k3, k4⟩ := evalBasisGrad_of h2 hx h4
  have hc2 : ∀ y ∈ s2.coeff.val, Mod V y := by rw [k3, h3]; exact hc
  simp only [Fl.Ser.evalGrad, h1, k1, ok_bind, k2.order]
  exact calcGrads_same hB hx hF hV fs.length 0 s2 k2 k4 hc2 (by omega)

theorem evalHess_same (hB : IsBinary64 f) (h : WF 0 e fs s) {x : List K} (hx : fs.length ≤ x.length) (hF : FacSized B fs x)
    (hc : ∀ y ∈ s.coeff.val, Mod V y) (hV : V + fs.length * B ≤ 970) : Fl.Ser.evalHess f s x = Fl.Ser.evalHess r s x := by
  obtain ⟨s1, h1, h2, h3, h4⟩ := evalBasis_of h hx (evald_none fs x s)
  obtain ⟨s2, k1, k2, k3, k4⟩ := evalBasisGrad_of h2 hx h4
  obtain ⟨s3, l1, l2, l3, l4⟩ := evalBasisHess_of k2 hx k4
  have hc3 : ∀ y ∈ s3.coeff.val, Mod V y := by rw [l3, k3, h3]; exact hc
  simp only [Fl.Ser.evalHess, h1, k1, l1, ok_bind, l2.order]
  exact calcHesss_same hB hx hF hV fs.length 0 s3 l2 l4 hc3

/-! ## Expressions -/

/-- Exponents `(n, p, q)`: the value is 0 or between `2^-(n a + p)` and `2^(n a + q)` when the variables are between `2^-a` and `2^a`. Powers do
not occur. -/
def sz : Ast → Option (Nat × Nat × Nat)
  | .num q => if q.den = 1 then some (0, 0, q.num.natAbs.log2 + 1) else none
  | .var _ => some (1, 0, 0)
  | .add a b => do let x ← sz a; let y ← sz b; some (max x.1 y.1, max x.2.1 y.2.1 + 52, max x.2.2 y.2.2 + 1)
  | .sub a b => do let x ← sz a; let y ← sz b; some (max x.1 y.1, max x.2.1 y.2.1 + 52, max x.2.2 y.2.2 + 1)
  | .mul a b => do let x ← sz a; let y ← sz b; some (x.1 + y.1, x.2.1 + y.2.1, x.2.2 + y.2.2)
  | .neg a => sz a
  | .pow _ _ => none

theorem add_sized {a b a' b' : Nat} {x y : K} (hx : IsFloat (r : K → K) x) (hy : IsFloat (r : K → K) y) (h : Sized a b x) (k : Sized a' b' y) :
    Sized (max a a' + 52) (max b b' + 1) (x + y) := by
  refine grid_sized (grid_add (grid_up (by omega) (float_grid hx h)) (grid_up (by omega) (float_grid hy k))) ?_
  exact abs_add_le_pow ((sized_le h).trans (p_mono (by omega))) ((sized_le k).trans (p_mono (by omega)))

theorem float_neg {x : K} (h : IsFloat (r : K → K) x) : IsFloat (r : K → K) (-x) := by unfold IsFloat; rw [R.neg, h]

theorem flEval_same (hB : IsBinary64 f) {A : Nat} {v : Nat → K} (hv : ∀ i, Mod A (v i)) : ∀ (a : Ast) (n p q : Nat), sz a = some (n, p, q) →
    n * A + p ≤ 1022 → n * A + q ≤ 1023 →
    flEval f v a = flEval r v a ∧ IsFloat (r : K → K) (flEval r v a) ∧ Sized (n * A + p) (n * A + q) (flEval r v a)
  | .num x, n, p, q, h, h1, h2 => by
    simp only [sz] at h
    split at h
    · next hd =>
      simp only [Option.some.injEq, Prod.mk.injEq] at h
      obtain ⟨rfl, rfl, rfl⟩ := h
      have hx : (x : K) = (x.num : K) := by
        conv_lhs => rw [← Rat.num_div_den x, hd]
        simp
      have hs : Sized 0 (x.num.natAbs.log2 + 1) (x : K) := by
        have := sized_nat (K := K) (Nat.lt_log2_self (n := x.num.natAbs)).le
        rw [hx]
        rcases Int.natAbs_eq x.num with e | e
        · have e' : (x.num : K) = (x.num.natAbs : K) := (congrArg (Int.cast (R := K)) e).trans (Int.cast_natCast _)
          rw [e']; exact this
        · have e' : (x.num : K) = -(x.num.natAbs : K) := (congrArg (Int.cast (R := K)) e).trans (by rw [Int.cast_neg, Int.cast_natCast])
          rw [e']; exact sized_neg this
      have h2' : (x.num.natAbs.log2 + 1) ≤ 1023 := by omega
      have e1 : f (x : K) = r (x : K) := agree hB hs (by omega) h2'
      refine ⟨e1, R.idem _, ?_⟩
      rw [Nat.zero_mul, Nat.zero_add, Nat.zero_add]; exact sized_round hs
    · cases h
  | .var i, n, p, q, h, h1, h2 => by
    simp only [sz, Option.some.injEq, Prod.mk.injEq] at h
    obtain ⟨rfl, rfl, rfl⟩ := h
    have := hv i
    refine ⟨rfl, this.1, ?_⟩
    rw [Nat.one_mul, Nat.add_zero]; exact this.2
  | .add a b, n, p, q, h, h1, h2 => by
    simp only [sz, Option.bind_eq_bind, Option.bind_eq_some_iff, Option.some.injEq, Prod.mk.injEq] at h
    obtain ⟨⟨n1, p1, q1⟩, hx, ⟨n2, p2, q2⟩, hy, rfl, rfl, rfl⟩ := h
    simp only at h1 h2 ⊢
    have m1 : n1 * A ≤ max n1 n2 * A := Nat.mul_le_mul_right _ (le_max_left _ _)
    have m2 : n2 * A ≤ max n1 n2 * A := Nat.mul_le_mul_right _ (le_max_right _ _)
    obtain ⟨a1, a2, a3⟩ := flEval_same hB hv a n1 p1 q1 hx (by omega) (by omega)
    obtain ⟨b1, b2, b3⟩ := flEval_same hB hv b n2 p2 q2 hy (by omega) (by omega)
    have hs := sized_mono (a' := max n1 n2 * A + (max p1 p2 + 52)) (b' := max n1 n2 * A + (max q1 q2 + 1)) (by omega) (by omega)
      (add_sized a2 b2 a3 b3)
    have e1 := agree hB hs h1 h2
    refine ⟨?_, R.idem _, sized_round hs⟩
    show f (flEval f v a + flEval f v b) = r (flEval r v a + flEval r v b)
    rw [a1, b1, e1]
  | .sub a b, n, p, q, h, h1, h2 => by
    simp only [sz, Option.bind_eq_bind, Option.bind_eq_some_iff, Option.some.injEq, Prod.mk.injEq] at h
    obtain ⟨⟨n1, p1, q1⟩, hx, ⟨n2, p2, q2⟩, hy, rfl, rfl, rfl⟩ := h
    simp only at h1 h2 ⊢
    have m1 : n1 * A ≤ max n1 n2 * A := Nat.mul_le_mul_right _ (le_max_left _ _)
    have m2 : n2 * A ≤ max n1 n2 * A := Nat.mul_le_mul_right _ (le_max_right _ _)
    obtain ⟨a1, a2, a3⟩ := flEval_same hB hv a n1 p1 q1 hx (by omega) (by omega)
    obtain ⟨b1, b2, b3⟩ := flEval_same hB hv b n2 p2 q2 hy (by omega) (by omega)
    have hs := sized_mono (a' := max n1 n2 * A + (max p1 p2 + 52)) (b' := max n1 n2 * A + (max q1 q2 + 1)) (by omega) (by omega)
      (add_sized a2 (float_neg b2) a3 (sized_neg b3))
    rw [← sub_eq_add_neg] at hs
    have e1 := agree hB hs h1 h2
    refine ⟨?_, R.idem _, sized_round hs⟩
    show f (flEval f v a - flEval f v b) = r (flEval r v a - flEval r v b)
    rw [a1, b1, e1]
  | .mul a b, n, p, q, h, h1, h2 => by
    simp only [sz, Option.bind_eq_bind, Option.bind_eq_some_iff, Option.some.injEq, Prod.mk.injEq] at h
    obtain ⟨⟨n1, p1, q1⟩, hx, ⟨n2, p2, q2⟩, hy, rfl, rfl, rfl⟩ := h
    simp only at h1 h2 ⊢
    rw [Nat.add_mul] at h1 h2 ⊢
    obtain ⟨a1, a2, a3⟩ := flEval_same hB hv a n1 p1 q1 hx (by omega) (by omega)
    obtain ⟨b1, b2, b3⟩ := flEval_same hB hv b n2 p2 q2 hy (by omega) (by omega)
    have hs := sized_mono (a' := n1 * A + n2 * A + (p1 + p2)) (b' := n1 * A + n2 * A + (q1 + q2)) (by omega) (by omega) (sized_mul a3 b3)
    have e1 := agree hB hs h1 h2
    refine ⟨?_, R.idem _, sized_round hs⟩
    show f (flEval f v a * flEval f v b) = r (flEval r v a * flEval r v b)
    rw [a1, b1, e1]
  | .neg a, n, p, q, h, h1, h2 => by
    simp only [sz] at h
    obtain ⟨a1, a2, a3⟩ := flEval_same hB hv a n p q h h1 h2
    refine ⟨?_, float_neg a2, sized_neg a3⟩
    show -flEval f v a = -flEval r v a
    rw [a1]
  | .pow a k, n, p, q, h, _, _ => by simp [sz] at h

end B64
end Verif
