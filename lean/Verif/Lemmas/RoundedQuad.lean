import Verif.Lemmas.Rounding
import Verif.Model.Rounded
import Mathlib.Tactic.Linarith
import Mathlib.Tactic.Ring
import Mathlib.Tactic.FieldSimp
import Mathlib.Tactic.Positivity
import Mathlib.Tactic.ByContra

/-! Helper lemmas: the error of the computed interpolation weights. -/

namespace Verif
open Spec
namespace Fl
variable {K : Type} [Field K] [LinearOrder K] [FloorRing K] [IsStrictOrderedRing K] {rnd : K → K} {u : K} (R : Rounding rnd u)

/-- The computed `δ/h` for a rounded extent (lemma-side). -/
def frac (rnd : K → K) (δ h : K) : K := rnd (rnd δ / rnd h)

include R

theorem local1_plus (r n h : K) : local1 rnd r n (rnd h) 1 = frac rnd (r - n) h := by
  simp only [local1, frac, one_mul, R.idem]

theorem local1_minus (r n h : K) : local1 rnd r n (rnd h) (-1) = frac rnd (n - r) h := by
  have : rnd (-1 * rnd (r - n)) = rnd (n - r) := by
    rw [neg_one_mul, R.neg, R.idem, ← R.neg, neg_sub]
  simp only [local1, frac, this]

theorem frac_nonneg (hu : u ≤ 1 / 8) {δ h : K} (hh : 0 < h) (h0 : 0 ≤ δ) : 0 ≤ frac rnd δ h :=
  R.nonneg (div_nonneg (R.nonneg h0) (R.nonneg hh.le))

theorem frac_le_one (hu : u ≤ 1 / 8) {δ h : K} (hh : 0 < h) (h1 : δ ≤ h) : frac rnd δ h ≤ 1 := by
  have hH : 0 < rnd h := R.pos (by linarith) hh
  apply R.le_of R.one
  rw [div_le_one hH]
  exact R.mono _ _ h1

theorem frac_upper (hu : u ≤ 1 / 8) {δ h : K} (hh : 0 < h) (h0 : 0 ≤ δ) : frac rnd δ h ≤ (1 + 4 * u) * (δ / h) := by
  have u0 := R.u_nonneg
  have hH : 0 < rnd h := R.pos (by linarith) hh
  have hx : 0 ≤ δ / h := div_nonneg h0 hh.le
  have hδ : δ = δ / h * h := by field_simp
  have l1 := R.upper h0
  have l2 := R.lower hh.le
  have l3 : rnd δ / rnd h ≤ (1 + 5 / 2 * u) * (δ / h) := by
    rw [div_le_iff₀ hH]
    have : (1 + 5 / 2 * u) * (δ / h) * ((1 - u) * h) ≤ (1 + 5 / 2 * u) * (δ / h) * rnd h :=
      mul_le_mul_of_nonneg_left l2 (mul_nonneg (by linarith) hx)
    refine l1.trans (le_trans ?_ this)
    have e : (1 + 5 / 2 * u) * (δ / h) * ((1 - u) * h) = (1 + 5 / 2 * u) * (1 - u) * δ := by
      field_simp
    rw [e]
    apply mul_le_mul_of_nonneg_right _ h0
    nlinarith
  have l4 := R.upper (div_nonneg (R.nonneg h0) hH.le)
  calc frac rnd δ h ≤ (1 + u) * (rnd δ / rnd h) := l4
    _ ≤ (1 + u) * ((1 + 5 / 2 * u) * (δ / h)) := mul_le_mul_of_nonneg_left l3 (by linarith)
    _ = (1 + u) * (1 + 5 / 2 * u) * (δ / h) := by ring
    _ ≤ (1 + 4 * u) * (δ / h) := mul_le_mul_of_nonneg_right (by nlinarith) hx

theorem frac_lower (hu : u ≤ 1 / 8) {δ h : K} (hh : 0 < h) (h0 : 0 ≤ δ) : (1 - 3 * u) * (δ / h) ≤ frac rnd δ h := by
  have u0 := R.u_nonneg
  have hH : 0 < rnd h := R.pos (by linarith) hh
  have hx : 0 ≤ δ / h := div_nonneg h0 hh.le
  have l1 := R.lower h0
  have l2 := R.upper hh.le
  have l3 : (1 - 2 * u) * (δ / h) ≤ rnd δ / rnd h := by
    rw [le_div_iff₀ hH]
    have : (1 - 2 * u) * (δ / h) * rnd h ≤ (1 - 2 * u) * (δ / h) * ((1 + u) * h) :=
      mul_le_mul_of_nonneg_left l2 (mul_nonneg (by linarith) hx)
    refine this.trans (le_trans ?_ l1)
    have e : (1 - 2 * u) * (δ / h) * ((1 + u) * h) = (1 - 2 * u) * (1 + u) * δ := by
      field_simp
    rw [e]
    apply mul_le_mul_of_nonneg_right _ h0
    nlinarith
  have l4 := R.lower (div_nonneg (R.nonneg h0) hH.le)
  calc (1 - 3 * u) * (δ / h) ≤ (1 - u) * (1 - 2 * u) * (δ / h) := mul_le_mul_of_nonneg_right (by nlinarith) hx
    _ = (1 - u) * ((1 - 2 * u) * (δ / h)) := by ring
    _ ≤ (1 - u) * (rnd δ / rnd h) := mul_le_mul_of_nonneg_left l3 (by linarith)
    _ ≤ frac rnd δ h := l4

/-- A corner whose range test accepts the point is a corner of a cell containing it. -/
theorem frac_accept (hu : u ≤ 1 / 8) {δ h : K} (hh : 0 < h) (h0 : 0 ≤ frac rnd δ h) (h1 : frac rnd δ h < 1) : 0 ≤ δ ∧ δ < h := by
  have u0 := R.u_nonneg
  have hH : 0 < rnd h := R.pos (by linarith) hh
  constructor
  · by_contra hn
    have hn' : 0 < -δ := by linarith
    have l1 := R.pos (by linarith) hn'
    have l2 : 0 < rnd (-δ) / rnd h := div_pos l1 hH
    have l3 := R.pos (by linarith) l2
    rw [R.neg, neg_div, R.neg] at l3
    have : frac rnd δ h = rnd (rnd δ / rnd h) := rfl
    linarith
  · by_contra hn
    have l1 := R.mono _ _ (not_lt.mp hn)
    have l2 : 1 ≤ rnd δ / rnd h := by rwa [le_div_iff₀ hH, one_mul]
    have l3 := R.ge_of R.one l2
    exact absurd h1 (not_lt.mpr l3)

/-- Of a point in the nearer half, the range test accepts. -/
theorem frac_half (hu : u ≤ 1 / 8) {δ h : K} (hh : 0 < h) (h0 : 0 ≤ δ) (h1 : 2 * δ ≤ h) : frac rnd δ h < 1 := by
  have l := frac_upper R hu hh h0
  have : δ / h ≤ 1 / 2 := by rw [div_le_div_iff₀ hh (by norm_num)]; linarith
  have u0 := R.u_nonneg
  nlinarith

theorem wt_bounds (hu : u ≤ 1 / 8) {δ h : K} (hh : 0 < h) (h0 : 0 ≤ δ) (h1 : δ ≤ h) :
    (0 ≤ rnd (1 - frac rnd δ h) ∧ rnd (1 - frac rnd δ h) ≤ 1) ∧ |rnd (1 - frac rnd δ h) - (1 - δ / h)| ≤ 5 * u := by
  have f0 := frac_nonneg R hu hh h0
  have f1 := frac_le_one R hu hh h1
  have fu := frac_upper R hu hh h0
  have fl := frac_lower R hu hh h0
  have u0 := R.u_nonneg
  have hx0 : 0 ≤ δ / h := div_nonneg h0 hh.le
  have hx1 : δ / h ≤ 1 := (div_le_one hh).mpr h1
  have e := R.err (1 - frac rnd δ h)
  rw [abs_of_nonneg (by linarith : (0 : K) ≤ 1 - frac rnd δ h), abs_le] at e
  refine ⟨⟨R.nonneg (by linarith), R.le_of R.one (by linarith)⟩, ?_⟩
  rw [abs_le]
  constructor <;> nlinarith [e.1, e.2]

/-- The computed weight of a corner, for the distances `δ` from it. -/
theorem prod_bounds {w0 w1 X0 X1 : K} (h0 : 0 ≤ w0 ∧ w0 ≤ 1) (h1 : 0 ≤ w1 ∧ w1 ≤ 1) (x0 : 0 ≤ X0 ∧ X0 ≤ 1)
    (e0 : |w0 - X0| ≤ 5 * u) (e1 : |w1 - X1| ≤ 5 * u) :
    (0 ≤ rnd (w0 * w1) ∧ rnd (w0 * w1) ≤ 1) ∧ |rnd (w0 * w1) - X0 * X1| ≤ 11 * u := by
  have u0 := R.u_nonneg
  have p0 : 0 ≤ w0 * w1 := mul_nonneg h0.1 h1.1
  have p1 : w0 * w1 ≤ 1 := mul_le_one₀ h0.2 h1.1 h1.2
  refine ⟨⟨R.nonneg p0, R.le_of R.one p1⟩, ?_⟩
  have e := R.err (w0 * w1)
  rw [abs_of_nonneg p0] at e
  have d : w0 * w1 - X0 * X1 = (w0 - X0) * w1 + X0 * (w1 - X1) := by ring
  have b1 : |(w0 - X0) * w1| ≤ 5 * u := by
    rw [abs_mul, abs_of_nonneg h1.1]
    calc |w0 - X0| * w1 ≤ (5 * u) * 1 := mul_le_mul e0 h1.2 h1.1 (by linarith)
      _ = 5 * u := mul_one _
  have b2 : |X0 * (w1 - X1)| ≤ 5 * u := by
    rw [abs_mul, abs_of_nonneg x0.1]
    calc X0 * |w1 - X1| ≤ 1 * (5 * u) := mul_le_mul x0.2 e1 (abs_nonneg _) (by norm_num)
      _ = 5 * u := one_mul _
  have t1 : |rnd (w0 * w1) - X0 * X1| ≤ |rnd (w0 * w1) - w0 * w1| + |w0 * w1 - X0 * X1| := by
    have := abs_add_le (rnd (w0 * w1) - w0 * w1) (w0 * w1 - X0 * X1)
    rwa [show rnd (w0 * w1) - w0 * w1 + (w0 * w1 - X0 * X1) = rnd (w0 * w1) - X0 * X1 by ring] at this
  have t2 := abs_add_le ((w0 - X0) * w1) (X0 * (w1 - X1))
  rw [← d] at t2
  nlinarith

theorem abs_rnd_le {x y : K} (hy : IsFloat rnd y) (h : |x| ≤ |y|) : |rnd x| ≤ |y| := by
  have hy' : IsFloat rnd |y| := by
    rcases abs_choice y with e | e <;> rw [e]
    · exact hy
    · show rnd (-y) = -y
      rw [R.neg, show rnd y = y from hy]
  rw [abs_le] at h ⊢
  refine ⟨?_, R.le_of hy' h.2⟩
  have : IsFloat rnd (-|y|) := by
    show rnd (-|y|) = -|y|
    rw [R.neg, show rnd |y| = |y| from hy']
  exact R.ge_of this h.1

/-- One term of the sum. -/
theorem term_bounds {W X v M : K} (hW : 0 ≤ W ∧ W ≤ 1) (e : |W - X| ≤ 11 * u) (hv : IsFloat rnd v) (hM : |v| ≤ M) :
    |rnd (W * v)| ≤ M ∧ |rnd (W * v) - X * v| ≤ 12 * u * M := by
  have u0 := R.u_nonneg
  have hWv : |W * v| ≤ |v| := by
    rw [abs_mul, abs_of_nonneg hW.1]
    calc W * |v| ≤ 1 * |v| := mul_le_mul_of_nonneg_right hW.2 (abs_nonneg _)
      _ = |v| := one_mul _
  refine ⟨(abs_rnd_le R hv hWv).trans hM, ?_⟩
  have e1 := R.err (W * v)
  have e2 : |(W - X) * v| ≤ 11 * u * M := by
    rw [abs_mul]
    exact mul_le_mul e hM (abs_nonneg _) (by linarith)
  have t := abs_add_le (rnd (W * v) - W * v) ((W - X) * v)
  rw [show rnd (W * v) - W * v + (W - X) * v = rnd (W * v) - X * v by ring] at t
  have e3 : u * |W * v| ≤ u * M := mul_le_mul_of_nonneg_left (hWv.trans hM) u0
  linarith

/-- The rounded sum of a list (lemma-side): what the summation loop computes. -/
def rsum (rnd : K → K) (acc : K) (l : List K) : K := l.foldl (fun a t => rnd (a + t)) acc

theorem rsum_err (l : List K) {M : K} (hM : ∀ t ∈ l, |t| ≤ M) (hM0 : 0 ≤ M) (hl : u * (l.length : K) ≤ 1) :
    |rsum rnd 0 l - l.sum| ≤ (l.length : K) ^ 2 * u * M := by
  have u0 := R.u_nonneg
  induction l using List.reverseRecOn with
  | nil => simp [rsum]
  | append_singleton l t ih =>
    have hlen : ((l ++ [t]).length : K) = (l.length : K) + 1 := by simp
    rw [hlen] at hl ⊢
    have hl0 : (0 : K) ≤ (l.length : K) := Nat.cast_nonneg _
    have ih' := ih (fun x hx => hM x (by simp [hx])) (by nlinarith)
    have hs : |l.sum| ≤ (l.length : K) * M := by
      clear ih ih' hl hlen
      induction l with
      | nil => simp
      | cons x xs ihx =>
        rw [List.sum_cons]
        have h1 := hM x (by simp)
        have h2 := ihx (fun y hy => hM y (by simp only [List.cons_append, List.mem_cons]; exact Or.inr hy)) (Nat.cast_nonneg _)
        have := abs_add_le x xs.sum
        simp only [List.length_cons]; push_cast; linarith
    have ht := hM t (by simp)
    have e : rsum rnd 0 (l ++ [t]) = rnd (rsum rnd 0 l + t) := by simp [rsum]
    rw [e, List.sum_append, List.sum_singleton]
    have er := R.err (rsum rnd 0 l + t)
    have b1 : |rsum rnd 0 l + t| ≤ (l.length : K) ^ 2 * u * M + (l.length : K) * M + M := by
      have := abs_add_le (rsum rnd 0 l - l.sum) (l.sum + t)
      rw [show rsum rnd 0 l - l.sum + (l.sum + t) = rsum rnd 0 l + t by ring] at this
      have := abs_add_le l.sum t
      linarith
    have t1 := abs_add_le (rnd (rsum rnd 0 l + t) - (rsum rnd 0 l + t)) (rsum rnd 0 l - l.sum)
    rw [show rnd (rsum rnd 0 l + t) - (rsum rnd 0 l + t) + (rsum rnd 0 l - l.sum) = rnd (rsum rnd 0 l + t) - (l.sum + t) by ring] at t1
    have b2 := mul_le_mul_of_nonneg_left b1 u0
    have key : u * ((l.length : K) ^ 2 * u * M + (l.length : K) * M + M) + (l.length : K) ^ 2 * u * M ≤
        ((l.length : K) + 1) ^ 2 * u * M := by
      have : (l.length : K) * (u * (l.length : K)) ≤ (l.length : K) * 1 := mul_le_mul_of_nonneg_left (by linarith) hl0
      have hum : 0 ≤ u * M := mul_nonneg u0 hM0
      nlinarith
    linarith

end Fl
end Verif
