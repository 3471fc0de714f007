import Verif.Lemmas.Smooth
import Mathlib.Tactic.FinCases
import Mathlib.Tactic.Ring

/-! The interpolation error of bilinear and trilinear interpolation. -/

namespace Verif.Smooth
open Spec Set

theorem loc01 {a h x : ℝ} (hh : 0 < h) (h1 : a ≤ x) (h2 : x ≤ a + h) : 0 ≤ (x - a) / h ∧ (x - a) / h ≤ 1 :=
  ⟨div_nonneg (by linarith) hh.le, by rw [div_le_one hh]; linarith⟩

theorem upd_in {d : Nat} {a h q : Fin d → ℝ} (hq : InCell a h q) (i : Fin d) {t : ℝ} (h1 : a i ≤ t) (h2 : t ≤ a i + h i) :
    InCell a h (Function.update q i t) := by
  intro j
  by_cases e : j = i
  · subst e; simpa using ⟨h1, h2⟩
  · simpa [e] using hq j

/-- Bilinear interpolation of a function with bounded second derivatives. -/
theorem bilinear_error {S : (Fin 2 → ℝ) → Prop} {f : (Fin 2 → ℝ) → ℝ} {M : Fin 2 → ℝ} (hf : ∀ i, CurvatureLe S f i (M i)) {a h c : Fin 2 → ℝ}
    (hh : ∀ i, 0 < h i) (hc : InCell a h c) (hS : ∀ p, InCell a h p → S p) (v : Fin 4 → ℝ) (hv : ∀ j, v j = f (cornerPos a h (quadUnit j))) :
    |f c - bilinear a h v c| ≤ (M 0 * h 0 ^ 2 + M 1 * h 1 ^ 2) / 8 := by
  have ha : ∀ i, a i ≤ a i + h i := fun i => by linarith [hh i]
  have q0 : InCell a h (Function.update c 1 (a 1)) := upd_in hc 1 (le_refl _) (ha 1)
  have q1 : InCell a h (Function.update c 1 (a 1 + h 1)) := upd_in hc 1 (ha 1) (le_refl _)
  have k := line_in (hf 1) c (hh 1) (hc 1).1 (hc 1).2 fun t h1 h2 => hS _ (upd_in hc 1 h1 h2)
  have k0 := line_in (hf 0) (Function.update c 1 (a 1)) (hh 0) (q0 0).1 (q0 0).2 fun t h1 h2 => hS _ (upd_in q0 0 h1 h2)
  have k1 := line_in (hf 0) (Function.update c 1 (a 1 + h 1)) (hh 0) (q1 0).1 (q1 0).2 fun t h1 h2 => hS _ (upd_in q1 0 h1 h2)
  have e0 : v 0 = f (Function.update (Function.update c 1 (a 1)) 0 (a 0)) := by
    rw [hv]; congr 1; ext j; fin_cases j <;> simp [cornerPos, quadUnit]
  have e1 : v 1 = f (Function.update (Function.update c 1 (a 1)) 0 (a 0 + h 0)) := by
    rw [hv]; congr 1; ext j; fin_cases j <;> simp [cornerPos, quadUnit]
  have e3 : v 3 = f (Function.update (Function.update c 1 (a 1 + h 1)) 0 (a 0)) := by
    rw [hv]; congr 1; ext j; fin_cases j <;> simp [cornerPos, quadUnit]
  have e2 : v 2 = f (Function.update (Function.update c 1 (a 1 + h 1)) 0 (a 0 + h 0)) := by
    rw [hv]; congr 1; ext j; fin_cases j <;> simp [cornerPos, quadUnit]
  rw [← e0, ← e1] at k0
  rw [← e3, ← e2] at k1
  have c0 : (Function.update c 1 (a 1)) 0 = c 0 := by simp
  have c1 : (Function.update c 1 (a 1 + h 1)) 0 = c 0 := by simp
  rw [c0] at k0
  rw [c1] at k1
  obtain ⟨y0, y1⟩ := loc01 (hh 1) (hc 1).1 (hc 1).2
  have m := mix y0 y1 k0 k1
  have e : f c - bilinear a h v c = (f c - ((1 - (c 1 - a 1) / h 1) * f (Function.update c 1 (a 1)) +
      (c 1 - a 1) / h 1 * f (Function.update c 1 (a 1 + h 1)))) +
      ((1 - (c 1 - a 1) / h 1) * (f (Function.update c 1 (a 1)) - ((1 - (c 0 - a 0) / h 0) * v 0 + (c 0 - a 0) / h 0 * v 1)) +
      (c 1 - a 1) / h 1 * (f (Function.update c 1 (a 1 + h 1)) - ((1 - (c 0 - a 0) / h 0) * v 3 + (c 0 - a 0) / h 0 * v 2))) := by
    unfold bilinear; ring
  rw [e]
  refine (abs_add_le _ _).trans ?_
  linarith

/-- A plane of space. -/
theorem plane_slope {S : (Fin 3 → ℝ) → Prop} {f : (Fin 3 → ℝ) → ℝ} {M : ℝ} {i : Fin 2} {z : ℝ} (hf : CurvatureLe S f i.castSucc M) :
    CurvatureLe (fun p : Fin 2 → ℝ => S ![p 0, p 1, z]) (fun p => f ![p 0, p 1, z]) i M := by
  obtain ⟨f', f'', h1, h2, h3⟩ := hf
  have key : ∀ (p : Fin 2 → ℝ) (t : ℝ), ![Function.update p i t 0, Function.update p i t 1, z] = Function.update ![p 0, p 1, z] i.castSucc t := by
    intro p t; ext j; fin_cases i <;> fin_cases j <;> simp
  have val : ∀ p : Fin 2 → ℝ, (![p 0, p 1, z] : Fin 3 → ℝ) i.castSucc = p i := by
    intro p; fin_cases i <;> rfl
  refine ⟨fun p => f' ![p 0, p 1, z], fun p => f'' ![p 0, p 1, z], fun p hp => ?_, fun p hp => ?_, fun p hp => h3 _ hp⟩
  · have := h1 _ hp
    rw [val] at this
    simpa only [key] using this
  · have := h2 _ hp
    rw [val] at this
    simpa only [key] using this

/-- Trilinear interpolation: the point may be under or over the cell. `B` is a box that contains the cell and the point. -/
theorem trilinear_error {S : (Fin 3 → ℝ) → Prop} {f : (Fin 3 → ℝ) → ℝ} {M : Fin 3 → ℝ} (hf : ∀ i, CurvatureLe S f i (M i)) {a h c : Fin 3 → ℝ}
    (hh : ∀ i, 0 < h i) (hc : ∀ i : Fin 3, i ≠ 2 → a i ≤ c i ∧ c i ≤ a i + h i) {l r : ℝ} (hl : l ≤ a 2) (hr : a 2 + h 2 ≤ r) (hlc : l ≤ c 2)
    (hcr : c 2 ≤ r) (hS : ∀ p : Fin 3 → ℝ, (∀ i : Fin 3, i ≠ 2 → a i ≤ p i ∧ p i ≤ a i + h i) → l ≤ p 2 → p 2 ≤ r → S p) (v : Fin 8 → ℝ)
    (hv : ∀ j, v j = f (cornerPos a h (hexUnit j))) :
    |f c - trilinear a h v c| ≤ (M 0 * h 0 ^ 2 + M 1 * h 1 ^ 2) / 8 + M 2 / 2 * |(c 2 - a 2) * (a 2 + h 2 - c 2)| := by
  have ha : ∀ i, a i ≤ a i + h i := fun i => by linarith [hh i]
  -- in the plane of the point
  let w : Fin 4 → ℝ := fun j => f ![cornerPos ![a 0, a 1] ![h 0, h 1] (quadUnit j) 0, cornerPos ![a 0, a 1] ![h 0, h 1] (quadUnit j) 1, c 2]
  have hp := bilinear_error (S := fun p : Fin 2 → ℝ => S ![p 0, p 1, c 2]) (f := fun p => f ![p 0, p 1, c 2]) (M := fun i => M i.castSucc)
    (fun i => plane_slope (hf i.castSucc)) (a := ![a 0, a 1]) (h := ![h 0, h 1]) (c := ![c 0, c 1])
    (by intro i; fin_cases i <;> simp [hh]) (by intro i; fin_cases i; exacts [hc 0 (by decide), hc 1 (by decide)])
    (fun p hp => hS _ (by
      intro i hi
      fin_cases i
      · exact hp 0
      · exact hp 1
      · exact absurd rfl hi) hlc hcr) w (fun j => rfl)
  have hc' : (![(![c 0, c 1] : Fin 2 → ℝ) 0, (![c 0, c 1] : Fin 2 → ℝ) 1, c 2] : Fin 3 → ℝ) = c := by
    ext j; fin_cases j <;> rfl
  simp only [hc'] at hp
  -- over the corners
  have col : ∀ x y : ℝ, a 0 ≤ x → x ≤ a 0 + h 0 → a 1 ≤ y → y ≤ a 1 + h 1 →
      |f ![x, y, c 2] - ((1 - (c 2 - a 2) / h 2) * f ![x, y, a 2] + (c 2 - a 2) / h 2 * f ![x, y, a 2 + h 2])| ≤
        M 2 / 2 * |(c 2 - a 2) * (a 2 + h 2 - c 2)| := by
    intro x y x0 x1 y0 y1
    have k := line (hf 2) ![x, y, c 2] (hh 2) hl hr hlc hcr (fun t h1 h2 => hS _ (by
      intro i hi
      fin_cases i
      · exact ⟨x0, x1⟩
      · exact ⟨y0, y1⟩
      · exact absurd rfl hi) (by simpa using h1) (by simpa using h2))
    have u : ∀ t : ℝ, Function.update (![x, y, c 2] : Fin 3 → ℝ) 2 t = ![x, y, t] := by
      intro t; ext j; fin_cases j <;> rfl
    rw [u, u] at k
    exact k
  have k0 := col (a 0) (a 1) (le_refl _) (ha 0) (le_refl _) (ha 1)
  have k1 := col (a 0 + h 0) (a 1) (ha 0) (le_refl _) (le_refl _) (ha 1)
  have k2 := col (a 0 + h 0) (a 1 + h 1) (ha 0) (le_refl _) (ha 1) (le_refl _)
  have k3 := col (a 0) (a 1 + h 1) (le_refl _) (ha 0) (ha 1) (le_refl _)
  have w0 : w 0 = f ![a 0, a 1, c 2] := by simp [w, cornerPos, quadUnit]
  have w1 : w 1 = f ![a 0 + h 0, a 1, c 2] := by simp [w, cornerPos, quadUnit]
  have w2 : w 2 = f ![a 0 + h 0, a 1 + h 1, c 2] := by simp [w, cornerPos, quadUnit]
  have w3 : w 3 = f ![a 0, a 1 + h 1, c 2] := by simp [w, cornerPos, quadUnit]
  have cor : ∀ (j : Fin 8) (x y z : ℝ), cornerPos a h (hexUnit j) 0 = x → cornerPos a h (hexUnit j) 1 = y → cornerPos a h (hexUnit j) 2 = z →
      f ![x, y, z] = v j := by
    intro j x y z h1 h2 h3
    rw [hv]; congr 1; ext i; fin_cases i <;> simp [h1, h2, h3]
  rw [← w0, cor 0 _ _ _ (by simp [cornerPos, hexUnit]) (by simp [cornerPos, hexUnit]) (by simp [cornerPos, hexUnit]),
    cor 4 _ _ _ (by simp [cornerPos, hexUnit]) (by simp [cornerPos, hexUnit]) (by simp [cornerPos, hexUnit])] at k0
  rw [← w1, cor 1 _ _ _ (by simp [cornerPos, hexUnit]) (by simp [cornerPos, hexUnit]) (by simp [cornerPos, hexUnit]),
    cor 5 _ _ _ (by simp [cornerPos, hexUnit]) (by simp [cornerPos, hexUnit]) (by simp [cornerPos, hexUnit])] at k1
  rw [← w2, cor 2 _ _ _ (by simp [cornerPos, hexUnit]) (by simp [cornerPos, hexUnit]) (by simp [cornerPos, hexUnit]),
    cor 6 _ _ _ (by simp [cornerPos, hexUnit]) (by simp [cornerPos, hexUnit]) (by simp [cornerPos, hexUnit])] at k2
  rw [← w3, cor 3 _ _ _ (by simp [cornerPos, hexUnit]) (by simp [cornerPos, hexUnit]) (by simp [cornerPos, hexUnit]),
    cor 7 _ _ _ (by simp [cornerPos, hexUnit]) (by simp [cornerPos, hexUnit]) (by simp [cornerPos, hexUnit])] at k3
  obtain ⟨x0, x1⟩ := loc01 (hh 0) (hc 0 (by decide)).1 (hc 0 (by decide)).2
  obtain ⟨y0, y1⟩ := loc01 (hh 1) (hc 1 (by decide)).1 (hc 1 (by decide)).2
  have m := mix y0 y1 (mix x0 x1 k0 k1) (mix x0 x1 k3 k2)
  have e : f c - trilinear a h v c = (f c - bilinear ![a 0, a 1] ![h 0, h 1] w ![c 0, c 1]) +
      ((1 - (c 1 - a 1) / h 1) * ((1 - (c 0 - a 0) / h 0) * (w 0 - ((1 - (c 2 - a 2) / h 2) * v 0 + (c 2 - a 2) / h 2 * v 4)) +
        (c 0 - a 0) / h 0 * (w 1 - ((1 - (c 2 - a 2) / h 2) * v 1 + (c 2 - a 2) / h 2 * v 5))) +
      (c 1 - a 1) / h 1 * ((1 - (c 0 - a 0) / h 0) * (w 3 - ((1 - (c 2 - a 2) / h 2) * v 3 + (c 2 - a 2) / h 2 * v 7)) +
        (c 0 - a 0) / h 0 * (w 2 - ((1 - (c 2 - a 2) / h 2) * v 2 + (c 2 - a 2) / h 2 * v 6)))) := by
    simp only [bilinear, trilinear, Matrix.cons_val_zero, Matrix.cons_val_one]; ring
  rw [e]
  refine (abs_add_le _ _).trans (add_le_add ?_ m)
  simpa using hp

end Verif.Smooth

namespace Verif.Smooth
open Spec Set
variable {d : Nat}

/-- The difference quotient along an edge is the slope somewhere on it. -/
theorem quotient {S : (Fin d → ℝ) → Prop} {f f' : (Fin d → ℝ) → ℝ} {i : Fin d} (hf : HasSlope S f f' i) {a h q : Fin d → ℝ} (hh : 0 < h i)
    (hq : ∀ t, a i ≤ t → t ≤ a i + h i → InCell a h (Function.update q i t)) (hS : ∀ p, InCell a h p → S p) :
    ∃ p, InCell a h p ∧ (f (Function.update q i (a i + h i)) - f (Function.update q i (a i))) / h i = f' p := by
  have hd : ∀ t, a i ≤ t → t ≤ a i + h i → HasDerivAt (fun s => f (Function.update q i s)) (f' (Function.update q i t)) t :=
    fun t h1 h2 => line_deriv hf q t (hS _ (hq t h1 h2))
  obtain ⟨t, ht, e⟩ := exists_hasDerivAt_eq_slope (fun s => f (Function.update q i s)) (fun s => f' (Function.update q i s))
    (by linarith : a i < a i + h i) (fun t ht => (hd t ht.1 ht.2).continuousAt.continuousWithinAt) (fun t ht => hd t ht.1.le ht.2.le)
  refine ⟨_, hq t ht.1.le ht.2.le, ?_⟩
  rw [e]; congr 1; ring

end Verif.Smooth
