import Verif.Spec.Smooth
import Verif.Spec.Mesh
import Mathlib.Analysis.Convex.Deriv
import Mathlib.Analysis.Calculus.Deriv.MeanValue
import Mathlib.Analysis.Calculus.Deriv.Mul
import Mathlib.Analysis.Calculus.Deriv.Pow
import Mathlib.Tactic.FieldSimp
import Mathlib.Tactic.Linarith

/-! Linear interpolation of functions with bounded second derivatives. -/

namespace Verif.Smooth
open Spec Set

/-- A function with second derivative at least `-M` lies at most `M (x - a) (b - x) / 2` above its chord. -/
theorem chord_le {g g' g'' : ℝ → ℝ} {a b x M : ℝ} (hab : a < b) (hax : a ≤ x) (hxb : x ≤ b)
    (h1 : ∀ t ∈ Icc a b, HasDerivAt g (g' t) t) (h2 : ∀ t ∈ Icc a b, HasDerivAt g' (g'' t) t) (hM : ∀ t ∈ Icc a b, -M ≤ g'' t) :
    g x - ((1 - (x - a) / (b - a)) * g a + (x - a) / (b - a) * g b) ≤ M / 2 * ((x - a) * (b - x)) := by
  have hc : ConvexOn ℝ (Icc a b) (fun t => g t + M / 2 * t ^ 2) := by
    refine convexOn_of_hasDerivWithinAt2_nonneg (convex_Icc a b) (f' := fun t => g' t + M * t) (f'' := fun t => g'' t + M) ?_ ?_ ?_ ?_
    · intro t ht
      exact ((h1 t ht).continuousAt.add (by fun_prop)).continuousWithinAt
    · intro t ht
      have ht' := interior_subset ht
      have := (h1 t ht').add (((hasDerivAt_id t).pow 2).const_mul (M / 2))
      refine HasDerivAt.hasDerivWithinAt (this.congr_deriv ?_)
      simp; ring
    · intro t ht
      have ht' := interior_subset ht
      have := (h2 t ht').add ((hasDerivAt_id t).const_mul M)
      exact HasDerivAt.hasDerivWithinAt (this.congr_deriv (by simp))
    · intro t ht
      have := hM t (interior_subset ht)
      linarith
  have hba : 0 < b - a := by linarith
  have w0 : 0 ≤ 1 - (x - a) / (b - a) := by rw [sub_nonneg, div_le_one hba]; linarith
  have w1 : 0 ≤ (x - a) / (b - a) := div_nonneg (by linarith) hba.le
  have h := hc.2 (left_mem_Icc.mpr hab.le) (right_mem_Icc.mpr hab.le) w0 w1 (by ring)
  have hx : (1 - (x - a) / (b - a)) * a + (x - a) / (b - a) * b = x := by field_simp; ring
  simp only [smul_eq_mul] at h
  rw [hx] at h
  have e : M / 2 * ((x - a) * (b - x)) = (1 - (x - a) / (b - a)) * (M / 2 * a ^ 2) + (x - a) / (b - a) * (M / 2 * b ^ 2) - M / 2 * x ^ 2 := by
    field_simp; ring
  rw [e]
  linarith

/-- The distance from the chord, in between. -/
theorem chord_in {g g' g'' : ℝ → ℝ} {a b x M : ℝ} (hab : a < b) (hax : a ≤ x) (hxb : x ≤ b)
    (h1 : ∀ t ∈ Icc a b, HasDerivAt g (g' t) t) (h2 : ∀ t ∈ Icc a b, HasDerivAt g' (g'' t) t) (hM : ∀ t ∈ Icc a b, |g'' t| ≤ M) :
    |g x - ((1 - (x - a) / (b - a)) * g a + (x - a) / (b - a) * g b)| ≤ M / 2 * ((x - a) * (b - x)) := by
  rw [abs_le]
  constructor
  · have := chord_le (g := fun t => -g t) hab hax hxb (fun t ht => (h1 t ht).neg) (fun t ht => (h2 t ht).neg)
      (fun t ht => (neg_le_neg ((le_abs_self _).trans (hM t ht))))
    linarith
  · exact chord_le hab hax hxb h1 h2 fun t ht => (abs_le.mp (hM t ht)).1

/-- The distance from the line through two points of the graph, anywhere. -/
theorem chord {g g' g'' : ℝ → ℝ} {l r a b x M : ℝ} (hab : a < b) (hla : l ≤ a) (hbr : b ≤ r) (hlx : l ≤ x) (hxr : x ≤ r)
    (h1 : ∀ t ∈ Icc l r, HasDerivAt g (g' t) t) (h2 : ∀ t ∈ Icc l r, HasDerivAt g' (g'' t) t) (hM : ∀ t ∈ Icc l r, |g'' t| ≤ M) :
    |g x - ((1 - (x - a) / (b - a)) * g a + (x - a) / (b - a) * g b)| ≤ M / 2 * |(x - a) * (b - x)| := by
  have sub : ∀ {s e : ℝ}, l ≤ s → e ≤ r → Icc s e ⊆ Icc l r := fun h h' => Icc_subset_Icc h h'
  have hba : 0 < b - a := by linarith
  rcases lt_or_ge x a with hx | hx
  · -- a lies between x and b
    have k := chord_in (a := x) (b := b) (x := a) (M := M) (by linarith) hx.le hab.le (fun t ht => h1 t (sub hlx hbr ht))
      (fun t ht => h2 t (sub hlx hbr ht)) (fun t ht => hM t (sub hlx hbr ht))
    have hbx : 0 < b - x := by linarith
    have e : g a - ((1 - (a - x) / (b - x)) * g x + (a - x) / (b - x) * g b) =
        -((b - a) / (b - x)) * (g x - ((1 - (x - a) / (b - a)) * g a + (x - a) / (b - a) * g b)) := by
      field_simp; ring
    rw [e, abs_mul, abs_neg, abs_of_pos (div_pos hba hbx), div_mul_eq_mul_div, div_le_iff₀ hbx] at k
    rw [abs_of_nonpos (a := (x - a) * (b - x)) (mul_nonpos_of_nonpos_of_nonneg (by linarith) hbx.le)]
    have : (b - a) * |g x - ((1 - (x - a) / (b - a)) * g a + (x - a) / (b - a) * g b)| ≤ (b - a) * (M / 2 * -((x - a) * (b - x))) := by
      refine k.trans (le_of_eq ?_); ring
    exact le_of_mul_le_mul_left this hba
  · rcases le_or_gt x b with hx' | hx'
    · rw [abs_of_nonneg (a := (x - a) * (b - x)) (mul_nonneg (by linarith) (by linarith))]
      exact chord_in hab hx hx' (fun t ht => h1 t (sub hla hbr ht)) (fun t ht => h2 t (sub hla hbr ht)) (fun t ht => hM t (sub hla hbr ht))
    · have k := chord_in (a := a) (b := x) (x := b) (M := M) (by linarith) hab.le hx'.le (fun t ht => h1 t (sub hla hxr ht))
        (fun t ht => h2 t (sub hla hxr ht)) (fun t ht => hM t (sub hla hxr ht))
      have hxa : 0 < x - a := by linarith
      have e : g b - ((1 - (b - a) / (x - a)) * g a + (b - a) / (x - a) * g x) =
          -((b - a) / (x - a)) * (g x - ((1 - (x - a) / (b - a)) * g a + (x - a) / (b - a) * g b)) := by
        field_simp; ring
      rw [e, abs_mul, abs_neg, abs_of_pos (div_pos hba hxa), div_mul_eq_mul_div, div_le_iff₀ hxa] at k
      rw [abs_of_nonpos (a := (x - a) * (b - x)) (mul_nonpos_of_nonneg_of_nonpos hxa.le (by linarith))]
      have : (b - a) * |g x - ((1 - (x - a) / (b - a)) * g a + (x - a) / (b - a) * g b)| ≤ (b - a) * (M / 2 * -((x - a) * (b - x))) := by
        refine k.trans (le_of_eq ?_); ring
      exact le_of_mul_le_mul_left this hba

variable {d : Nat}

theorem line_deriv {S : (Fin d → ℝ) → Prop} {f f' : (Fin d → ℝ) → ℝ} {i : Fin d} (h : HasSlope S f f' i) (q : Fin d → ℝ) (t : ℝ)
    (hS : S (Function.update q i t)) : HasDerivAt (fun s => f (Function.update q i s)) (f' (Function.update q i t)) t := by
  have := h _ hS
  simpa using this

/-- Along one direction: the distance of the function from the line through its values at `a` and `a + h`. -/
theorem line {S : (Fin d → ℝ) → Prop} {f : (Fin d → ℝ) → ℝ} {i : Fin d} {M : ℝ} (hf : CurvatureLe S f i M) (q : Fin d → ℝ) {l r a h : ℝ}
    (hh : 0 < h) (hla : l ≤ a) (hbr : a + h ≤ r) (hlx : l ≤ q i) (hxr : q i ≤ r) (hS : ∀ t, l ≤ t → t ≤ r → S (Function.update q i t)) :
    |f q - ((1 - (q i - a) / h) * f (Function.update q i a) + (q i - a) / h * f (Function.update q i (a + h)))| ≤
      M / 2 * |(q i - a) * (a + h - q i)| := by
  obtain ⟨f', f'', h1, h2, h3⟩ := hf
  have k := chord (g := fun t => f (Function.update q i t)) (g' := fun t => f' (Function.update q i t)) (g'' := fun t => f'' (Function.update q i t))
    (a := a) (b := a + h) (x := q i) (M := M) (by linarith) hla hbr hlx hxr
    (fun t ht => line_deriv h1 q t (hS t ht.1 ht.2)) (fun t ht => line_deriv h2 q t (hS t ht.1 ht.2)) (fun t ht => h3 _ (hS t ht.1 ht.2))
  simpa using k

theorem quarter {a h x : ℝ} (h1 : a ≤ x) (h2 : x ≤ a + h) : |(x - a) * (a + h - x)| ≤ h ^ 2 / 4 := by
  rw [abs_of_nonneg (mul_nonneg (by linarith) (by linarith))]
  nlinarith [sq_nonneg (2 * x - 2 * a - h)]

/-- In a cell: the error is at most an eighth of curvature times width squared. -/
theorem line_in {S : (Fin d → ℝ) → Prop} {f : (Fin d → ℝ) → ℝ} {i : Fin d} {M : ℝ} (hf : CurvatureLe S f i M) (q : Fin d → ℝ) {a h : ℝ}
    (hh : 0 < h) (h1 : a ≤ q i) (h2 : q i ≤ a + h) (hS : ∀ t, a ≤ t → t ≤ a + h → S (Function.update q i t)) :
    |f q - ((1 - (q i - a) / h) * f (Function.update q i a) + (q i - a) / h * f (Function.update q i (a + h)))| ≤ M * h ^ 2 / 8 := by
  have hM : 0 ≤ M := by
    obtain ⟨f', f'', _, _, h3⟩ := hf
    exact (abs_nonneg _).trans (h3 _ (hS a (le_refl _) (by linarith)))
  refine (line hf q hh (le_refl _) (le_refl _) h1 h2 hS).trans ?_
  have := mul_le_mul_of_nonneg_left (quarter h1 h2) (half_pos_le hM)
  linarith
where half_pos_le {M : ℝ} (h : 0 ≤ M) : 0 ≤ M / 2 := by linarith

theorem CurvatureLe.nonneg {S : (Fin d → ℝ) → Prop} {f : (Fin d → ℝ) → ℝ} {i : Fin d} {M : ℝ} (hf : CurvatureLe S f i M) {p : Fin d → ℝ} (hp : S p) :
    0 ≤ M := by
  obtain ⟨f', f'', _, _, h3⟩ := hf
  exact (abs_nonneg _).trans (h3 p hp)

/-- Averages of errors. -/
theorem mix {x e1 e2 E : ℝ} (h0 : 0 ≤ x) (h1 : x ≤ 1) (k1 : |e1| ≤ E) (k2 : |e2| ≤ E) : |(1 - x) * e1 + x * e2| ≤ E := by
  rw [abs_le] at *
  constructor <;> nlinarith [mul_nonneg h0 (by linarith : 0 ≤ E - e2), mul_nonneg h0 (by linarith : 0 ≤ E + e2),
    mul_nonneg (by linarith : 0 ≤ 1 - x) (by linarith : 0 ≤ E - e1), mul_nonneg (by linarith : 0 ≤ 1 - x) (by linarith : 0 ≤ E + e1)]

end Verif.Smooth
