import Verif.Lemmas.RoundedSeries

/-! With exact arithmetic the rounded model of series is the exact one. -/

namespace Verif
open Spec Series
namespace Fl.Ser
section
variable {K : Type} [Field K] [LinearOrder K] [FloorRing K]

theorem prodLoop_id (fac : Int → BasisSet K → Int → Res K) (s : Series K) (t : List Int) (n : Nat) :
    ∀ j tmp, prodLoop id fac s t n j tmp = Series.prodLoop fac s t n j tmp := by
  induction n with
  | zero => intro j tmp; rfl
  | succ n ih => intro j tmp; simp only [prodLoop, Series.prodLoop, ih]; rfl

theorem calcLoop_id (fac : Int → BasisSet K → Int → Res K) (s : Series K) (n : Nat) :
    ∀ i t acc, calcLoop id fac s n i t acc = Series.calcLoop fac s n i t acc := by
  induction n with
  | zero => intro i t acc; rfl
  | succ n ih => intro i t acc; simp only [calcLoop, Series.calcLoop, ih, prodLoop_id]; rfl

theorem calcSum_id (fac : Int → BasisSet K → Int → Res K) (s : Series K) : calcSum id fac s = s.calcSum fac := calcLoop_id _ _ _ _ _ _

theorem calcGrads_id (n : Nat) : ∀ i s, calcGrads (id : K → K) n i s = Series.calcGrads n i s := by
  induction n with
  | zero => intro i s; rfl
  | succ n ih => intro i s; simp only [calcGrads, Series.calcGrads, ih, calcGrad, Series.calcGrad, calcSum_id]

theorem calcHessRow_id (i n : Nat) : ∀ j s, calcHessRow (id : K → K) i n j s = Series.calcHessRow i n j s := by
  induction n with
  | zero => intro j s; rfl
  | succ n ih => intro j s; simp only [calcHessRow, Series.calcHessRow, ih, calcHess, Series.calcHess, calcSum_id]

theorem calcHesss_id (n : Nat) : ∀ i s, calcHesss (id : K → K) n i s = Series.calcHesss n i s := by
  induction n with
  | zero => intro i s; rfl
  | succ n ih => intro i s; simp only [calcHesss, Series.calcHesss, ih, calcHessRow_id]

theorem basisProdLoop_id (ev : Int → BasisSet K → Int → K → Res (K × BasisSet K)) (t : List Int) (x : List K) (n : Nat) :
    ∀ i tmp s, basisProdLoop id ev t x n i tmp s = Series.basisProdLoop ev t x n i tmp s := by
  induction n with
  | zero => intro i tmp s; rfl
  | succ n ih => intro i tmp s; simp only [basisProdLoop, Series.basisProdLoop, ih]; rfl

/-- With exact arithmetic, every call does what it does in `Model/Series`. -/
theorem rounded_id (s : Series K) (op : SerOp K) : step id s op = s.step op := by
  cases op <;>
    simp only [step, Series.step, evalAt, Series.evalAt, calcVal, Series.calcVal, calcSum_id, gradAt, Series.gradAt, calcGrad,
      Series.calcGrad, hessAt, Series.hessAt, calcHess, Series.calcHess, evalGrad, Series.evalGrad, calcGrads_id, evalHess, Series.evalHess,
      calcHesss_id, basisProd, Series.basisProd, basisProdLoop_id]

/-- So does every history. -/
theorem run_id (ops : List (SerOp K)) : ∀ s, run id ops s = Series.run ops s := by
  induction ops with
  | nil => intro s; rfl
  | cons op ops ih => intro s; simp only [run, Series.run, rounded_id, ih]

end

section
variable {K : Type} [Field K] [LinearOrder K] [IsStrictOrderedRing K] {u : K}

theorem pow_mul_le (hu : 0 ≤ u) (n : Nat) : (1 - n * u) * (1 + u) ^ n ≤ 1 := by
  induction n with
  | zero => simp
  | succ n ih =>
    have h1 : (1 - ((n + 1 : Nat) : K) * u) * (1 + u) ^ (n + 1) = ((1 - n * u) - (n + 1) * u ^ 2) * (1 + u) ^ n := by
      push_cast; ring
    rw [h1]
    have h2 : 0 ≤ ((n : K) + 1) * u ^ 2 * (1 + u) ^ n := by positivity
    nlinarith

theorem pow_sub_one_le (hu : 0 ≤ u) {n : Nat} (h : n * u ≤ 1 / 2) : (1 + u) ^ n - 1 ≤ 2 * n * u := by
  have h1 := pow_mul_le hu n
  have h2 : 0 ≤ (n : K) * u := by positivity
  have h3 : 1 ≤ (1 + 2 * (n * u)) * (1 - n * u) := by nlinarith
  have h4 : 0 < 1 - (n : K) * u := by linarith
  have h5 : (1 - n * u) * (1 + u) ^ n ≤ (1 - n * u) * (1 + 2 * (n * u)) := by linarith [mul_comm (1 + 2 * ((n : K) * u)) (1 - n * u)]
  have := le_of_mul_le_mul_left h5 h4
  linarith

theorem tensorSum_nonneg {fl : List (Nat × (Nat → K))} (hf : ∀ p ∈ fl, ∀ k, 0 ≤ p.2 k) :
    ∀ {c : List Int → K}, (∀ t, 0 ≤ c t) → 0 ≤ tensorSum fl c := by
  induction fl with
  | nil => intro c hc; exact hc _
  | cons p fl ih =>
    intro c hc
    obtain ⟨n, f⟩ := p
    exact Finset.sum_nonneg fun k _ => mul_nonneg (hf (n, f) (by simp) k) (ih (fun p hp => hf p (by simp [hp])) fun t => hc _)

theorem series_abs_nonneg (gs : List (Family K)) (m : List Nat) (c : List Int → K) (x : List K) :
    0 ≤ series (gs.map Family.abs) m (fun t => |c t|) x := by
  refine tensorSum_nonneg ?_ fun t => abs_nonneg _
  intro p hp k
  simp only [List.mem_map] at hp
  obtain ⟨⟨F, o, y⟩, hq, rfl⟩ := hp
  have := (List.of_mem_zip hq).1
  simp only [List.mem_map] at this
  obtain ⟨G, _, rfl⟩ := this
  simp only [Family.deriv, Family.abs]
  split
  · exact abs_nonneg _
  · split <;> exact abs_nonneg _
end
end Fl.Ser
end Verif
