import Verif.Lemmas.SeriesMore
import Mathlib.Analysis.Calculus.Deriv.Add
import Mathlib.Analysis.Calculus.Deriv.Mul
import Mathlib.Data.Real.Archimedean

/-! Helper lemmas: partial derivatives of tensor-product series. -/

namespace Verif
open Spec

namespace Spec

/-- `dphi` and `ddphi` are the first and second derivatives of `phi`. -/
def Family.Smooth (F : Family ℝ) : Prop :=
  ∀ k x, HasDerivAt (F.phi k) (F.dphi k x) x ∧ HasDerivAt (F.dphi k) (F.ddphi k x) x

end Spec

theorem series_cons {K : Type} [CommRing K] (F : Family K) (fs : List (Family K)) (o : Nat) (m : List Nat) (c : List Int → K) (y : K)
    (x : List K) :
    series (F :: fs) (o :: m) c (y :: x) = ∑ k ∈ Finset.range F.size, F.deriv o k y * series fs m (fun t => c ((k : Int) :: t)) x := rfl

theorem Spec.Family.Smooth.deriv {F : Family ℝ} (h : F.Smooth) {o : Nat} (ho : o ≤ 1) (k : Nat) (x : ℝ) :
    HasDerivAt (F.deriv o k) (F.deriv (o + 1) k x) x := by
  rcases Nat.le_one_iff_eq_zero_or_eq_one.mp ho with rfl | rfl
  · have : F.deriv 0 k = F.phi k := by funext y; simp [Family.deriv]
    rw [this]; simpa [Family.deriv] using (h k x).1
  · have : F.deriv 1 k = F.dphi k := by funext y; simp [Family.deriv]
    rw [this]; simpa [Family.deriv] using (h k x).2

theorem series_hasDerivAt : ∀ (fs : List (Family ℝ)) (i : Nat) (m : List Nat) (x : List ℝ) (c : List Int → ℝ) (y : ℝ) (o : Nat),
    (∀ F ∈ fs, F.Smooth) → i < fs.length → m.length = fs.length → x.length = fs.length → x[i]? = some y → m[i]? = some o → o ≤ 1 →
    HasDerivAt (fun t => series fs m c (x.set i t)) (series fs (m.set i (o + 1)) c x) y := by
  intro fs
  induction fs with
  | nil => intro i m x c y o _ hi; simp at hi
  | cons F fs ih =>
    intro i m x c y o hs hi hm hx hy ho ho1
    match m, x, hm, hx with
    | o' :: m, y' :: x, hm, hx =>
      cases i with
      | zero =>
        simp only [List.getElem?_cons_zero, Option.some.injEq] at hy ho
        subst hy ho
        simp only [List.set_cons_zero, series_cons]
        exact HasDerivAt.fun_sum fun k _ => ((hs F (by simp)).deriv ho1 k y').mul_const _
      | succ i =>
        simp only [List.set_cons_succ, series_cons]
        exact HasDerivAt.fun_sum fun k _ => HasDerivAt.const_mul _
          (ih i m x _ y o (fun G hG => hs G (by simp [hG])) (by simpa using hi) (by simpa using hm) (by simpa using hx)
            (by simpa using hy) (by simpa using ho) ho1)

theorem gradient_eq (n i : Nat) : gradient n i = (value n).set i 1 := by
  apply List.ext_getElem (by simp [gradient, value])
  intro j h1 h2
  simp only [gradient, value, List.getElem_map, List.getElem_range, List.getElem_set, List.getElem_replicate]
  by_cases h : j = i
  · simp [h]
  · simp [h, Ne.symm h]

theorem hessian_eq (n i j : Nat) : hessian n i j = (gradient n i).set j ((if j = i then 1 else 0) + 1) := by
  apply List.ext_getElem (by simp [gradient, hessian])
  intro k h1 h2
  simp only [gradient, hessian, List.getElem_map, List.getElem_range, List.getElem_set]
  by_cases h : k = j
  · subst h; simp
  · simp [h, Ne.symm h]

theorem hessian_symm (n i j : Nat) : hessian n i j = hessian n j i := by
  simp only [hessian, add_comm]

end Verif
