import Verif.Lemmas.Interp
import Mathlib.Algebra.BigOperators.Fin
import Mathlib.Analysis.Calculus.Deriv.Basic
import Mathlib.Analysis.Calculus.Deriv.Add
import Mathlib.Analysis.Calculus.Deriv.Mul
import Mathlib.Algebra.Order.Ring.Rat

/-!
# Properties C14-C21: the interpolating functions of Quad and Hexahedron cells

`quadAt`/`hexAt` is the interpolator the mesh builds for corner `j` of the rectangular cell with lower corner `a` and extents `h`
(`Spec/Cell.lean` numbers the corners as VTK does). Values are the outcomes of the public members.
-/

namespace Verif
open Spec
variable {K : Type} [Field K] [LinearOrder K]

/-- The interpolator of corner `j` of a rectangular quad cell. -/
def quadAt (node el : Nat) (a h : Fin 2 → K) (j : Fin 4) : Interp K 2 :=
  (quadOps K).make node el (cornerPos a h (quadUnit j)) h j

/-- The interpolator of corner `j` of a rectangular hexahedron cell. -/
def hexAt (node el : Nat) (a h : Fin 3 → K) (j : Fin 8) : Interp K 3 :=
  (hexOps K).make node el (cornerPos a h (hexUnit j)) h j

section
variable [IsStrictOrderedRing K]

/-- **C14** Shape functions are nodal. -/
theorem C14_nodal_quad (node el : Nat) (a h : Fin 2 → K) (hh : ∀ i, 0 < h i) (j k : Fin 4) :
    (quadOps K).value (quadAt node el a h j) (cornerPos a h (quadUnit k)) = .ok (if j = k then 1 else 0) := by
  have h0 := (hh 0).ne'
  have h1 := (hh 1).ne'
  simp only [quadOps, quadAt, mkQuad, quadF_corner h0 h1]
  fin_cases j <;> fin_cases k <;> simp [loc, cornerPos, quadUnit, h0, h1]

/-- **C14** Shape functions are nodal. -/
theorem C14_nodal_hex (node el : Nat) (a h : Fin 3 → K) (hh : ∀ i, 0 < h i) (j k : Fin 8) :
    (hexOps K).value (hexAt node el a h j) (cornerPos a h (hexUnit k)) = .ok (if j = k then 1 else 0) := by
  have h0 := (hh 0).ne'
  have h1 := (hh 1).ne'
  have h2 := (hh 2).ne'
  simp only [hexOps, hexAt, mkHex, hexF_corner h0 h1 h2]
  fin_cases j <;> fin_cases k <;> simp [loc, cornerPos, hexUnit, h0, h1, h2]

/-- **C15** Partition of unity, everywhere (not only in the cell), with vanishing sums of gradients and Hessians. -/
theorem C15_partition_of_unity_quad (node : Fin 4 → Nat) (el : Nat) (a h c : Fin 2 → K) (hh : ∀ i, 0 < h i) :
    (∃ v : Fin 4 → K, (∀ j, (quadOps K).value (quadAt (node j) el a h j) c = .ok (v j)) ∧ ∑ j, v j = 1) ∧
    (∀ di : Fin 2, ∃ g : Fin 4 → K, (∀ j, (quadOps K).grad (quadAt (node j) el a h j) c di = .ok (g j)) ∧
      ∑ j, g j = 0) ∧
    (∀ di dj : Fin 2, ∃ g : Fin 4 → K, (∀ j, (quadOps K).hess (quadAt (node j) el a h j) c di dj = .ok (g j)) ∧
      ∑ j, g j = 0) := by
  have h0 := (hh 0).ne'
  have h1 := (hh 1).ne'
  refine ⟨⟨_, fun j => rfl, ?_⟩, ?_, ?_⟩
  · simp only [quadAt, quadOps, mkQuad, quadF_corner h0 h1, Fin.sum_univ_four]
    ring
  · intro di
    fin_cases di
    · refine ⟨fun j => -(quadSign j : Fin 2 → K) 0 * (1 - (quadSign j : Fin 2 → K) 1 * (c 1 - cornerPos a h (quadUnit j) 1) / h 1) / h 0,
        fun j => rfl, ?_⟩
      simp [Fin.sum_univ_four, quadSign, cornerPos, quadUnit]; field_simp; ring
    · refine ⟨fun j => -(quadSign j : Fin 2 → K) 1 * (1 - (quadSign j : Fin 2 → K) 0 * (c 0 - cornerPos a h (quadUnit j) 0) / h 0) / h 1,
        fun j => rfl, ?_⟩
      simp [Fin.sum_univ_four, quadSign, cornerPos, quadUnit]; field_simp; ring
  · intro di dj
    fin_cases di <;> fin_cases dj
    · exact ⟨fun _ => 0, fun j => rfl, by simp⟩
    · refine ⟨fun j => (quadSign j : Fin 2 → K) 0 * (quadSign j : Fin 2 → K) 1 / h 0 / h 1, fun j => rfl, ?_⟩
      simp [Fin.sum_univ_four, quadSign]; ring
    · refine ⟨fun j => (quadSign j : Fin 2 → K) 0 * (quadSign j : Fin 2 → K) 1 / h 0 / h 1, fun j => rfl, ?_⟩
      simp [Fin.sum_univ_four, quadSign]; ring
    · exact ⟨fun _ => 0, fun j => rfl, by simp⟩

/-- **C15** Partition of unity for hexahedra. -/
theorem C15_partition_of_unity_hex (node : Fin 8 → Nat) (el : Nat) (a h c : Fin 3 → K) (hh : ∀ i, 0 < h i) :
    (∃ v : Fin 8 → K, (∀ j, (hexOps K).value (hexAt (node j) el a h j) c = .ok (v j)) ∧ ∑ j, v j = 1) ∧
    (∀ di : Fin 3, ∃ g : Fin 8 → K, (∀ j, (hexOps K).grad (hexAt (node j) el a h j) c di = .ok (g j)) ∧
      ∑ j, g j = 0) ∧
    (∀ di dj : Fin 3, ∃ g : Fin 8 → K, (∀ j, (hexOps K).hess (hexAt (node j) el a h j) c di dj = .ok (g j)) ∧
      ∑ j, g j = 0) := by
  have h0 := (hh 0).ne'
  have h1 := (hh 1).ne'
  have h2 := (hh 2).ne'
  refine ⟨⟨_, fun j => rfl, ?_⟩, ?_, ?_⟩
  · simp only [hexAt, hexOps, mkHex, hexF_corner h0 h1 h2, Fin.sum_univ_eight]
    ring
  · intro di
    fin_cases di
    · refine ⟨fun j => -(hexSign j : Fin 3 → K) 0 * (1 - (hexSign j : Fin 3 → K) 1 * (c 1 - cornerPos a h (hexUnit j) 1) / h 1) *
        (1 - (hexSign j : Fin 3 → K) 2 * (c 2 - cornerPos a h (hexUnit j) 2) / h 2) / h 0, fun j => rfl, ?_⟩
      simp [Fin.sum_univ_eight, hexSign, cornerPos, hexUnit]; field_simp; ring
    · refine ⟨fun j => -(hexSign j : Fin 3 → K) 1 * (1 - (hexSign j : Fin 3 → K) 0 * (c 0 - cornerPos a h (hexUnit j) 0) / h 0) *
        (1 - (hexSign j : Fin 3 → K) 2 * (c 2 - cornerPos a h (hexUnit j) 2) / h 2) / h 1, fun j => rfl, ?_⟩
      simp [Fin.sum_univ_eight, hexSign, cornerPos, hexUnit]; field_simp; ring
    · refine ⟨fun j => -(hexSign j : Fin 3 → K) 2 * (1 - (hexSign j : Fin 3 → K) 0 * (c 0 - cornerPos a h (hexUnit j) 0) / h 0) *
        (1 - (hexSign j : Fin 3 → K) 1 * (c 1 - cornerPos a h (hexUnit j) 1) / h 1) / h 2, fun j => rfl, ?_⟩
      simp [Fin.sum_univ_eight, hexSign, cornerPos, hexUnit]; field_simp; ring
  · intro di dj
    fin_cases di <;> fin_cases dj
    · exact ⟨fun _ => 0, fun j => rfl, by simp⟩
    · refine ⟨fun j => (hexSign j : Fin 3 → K) 0 * (hexSign j : Fin 3 → K) 1 / h 0 / h 1, fun j => rfl, ?_⟩
      simp [Fin.sum_univ_eight, hexSign]; ring
    · refine ⟨fun j => (hexSign j : Fin 3 → K) 0 * (hexSign j : Fin 3 → K) 2 / h 0 / h 2, fun j => rfl, ?_⟩
      simp [Fin.sum_univ_eight, hexSign]; ring
    · refine ⟨fun j => (hexSign j : Fin 3 → K) 1 * (hexSign j : Fin 3 → K) 0 / h 1 / h 0, fun j => rfl, ?_⟩
      simp [Fin.sum_univ_eight, hexSign]; ring
    · exact ⟨fun _ => 0, fun j => rfl, by simp⟩
    · refine ⟨fun j => (hexSign j : Fin 3 → K) 1 * (hexSign j : Fin 3 → K) 2 / h 1 / h 2, fun j => rfl, ?_⟩
      simp [Fin.sum_univ_eight, hexSign]; ring
    · refine ⟨fun j => (hexSign j : Fin 3 → K) 2 * (hexSign j : Fin 3 → K) 0 / h 2 / h 0, fun j => rfl, ?_⟩
      simp [Fin.sum_univ_eight, hexSign]; ring
    · refine ⟨fun j => (hexSign j : Fin 3 → K) 2 * (hexSign j : Fin 3 → K) 1 / h 2 / h 1, fun j => rfl, ?_⟩
      simp [Fin.sum_univ_eight, hexSign]; ring
    · exact ⟨fun _ => 0, fun j => rfl, by simp⟩

/-- **C17** Inside the closed cell every shape function is in `[0,1]`. -/
theorem C17_bounds_quad (node el : Nat) (a h c : Fin 2 → K) (hh : ∀ i, 0 < h i) (hc : InCell a h c) (j : Fin 4) :
    ∃ v, (quadOps K).value (quadAt node el a h j) c = .ok v ∧ 0 ≤ v ∧ v ≤ 1 := by
  refine ⟨_, rfl, ?_⟩
  have x0 := (loc_nonneg_iff (a := a 0) (hh 0)).mpr (hc 0).1
  have x1 := (loc_le_one_iff (a := a 0) (hh 0)).mpr (hc 0).2
  have y0 := (loc_nonneg_iff (a := a 1) (hh 1)).mpr (hc 1).1
  have y1 := (loc_le_one_iff (a := a 1) (hh 1)).mpr (hc 1).2
  simp only [quadAt, quadOps, mkQuad, quadF_corner (hh 0).ne' (hh 1).ne']
  have key : ∀ p q : K, 0 ≤ p → p ≤ 1 → 0 ≤ q → q ≤ 1 → 0 ≤ p * q ∧ p * q ≤ 1 := fun p q hp hp1 hq hq1 =>
    ⟨mul_nonneg hp hq, mul_le_one₀ hp1 hq hq1⟩
  fin_cases j <;> exact key _ _ (by linarith) (by linarith) (by linarith) (by linarith)

/-- **C17** for hexahedra. -/
theorem C17_bounds_hex (node el : Nat) (a h c : Fin 3 → K) (hh : ∀ i, 0 < h i) (hc : InCell a h c) (j : Fin 8) :
    ∃ v, (hexOps K).value (hexAt node el a h j) c = .ok v ∧ 0 ≤ v ∧ v ≤ 1 := by
  refine ⟨_, rfl, ?_⟩
  have x0 := (loc_nonneg_iff (a := a 0) (hh 0)).mpr (hc 0).1
  have x1 := (loc_le_one_iff (a := a 0) (hh 0)).mpr (hc 0).2
  have y0 := (loc_nonneg_iff (a := a 1) (hh 1)).mpr (hc 1).1
  have y1 := (loc_le_one_iff (a := a 1) (hh 1)).mpr (hc 1).2
  have z0 := (loc_nonneg_iff (a := a 2) (hh 2)).mpr (hc 2).1
  have z1 := (loc_le_one_iff (a := a 2) (hh 2)).mpr (hc 2).2
  simp only [hexAt, hexOps, mkHex, hexF_corner (hh 0).ne' (hh 1).ne' (hh 2).ne']
  have key : ∀ p q r : K, 0 ≤ p → p ≤ 1 → 0 ≤ q → q ≤ 1 → 0 ≤ r → r ≤ 1 → 0 ≤ p * q * r ∧ p * q * r ≤ 1 :=
    fun p q r hp hp1 hq hq1 hr hr1 =>
    ⟨mul_nonneg (mul_nonneg hp hq) hr, mul_le_one₀ (mul_le_one₀ hp1 hq hq1) hr hr1⟩
  fin_cases j <;>
    exact key _ _ _ (by linarith) (by linarith) (by linarith) (by linarith) (by linarith) (by linarith)

theorem quad_inRange_iff (node el : Nat) (a h c : Fin 2 → K) (hh : ∀ i, 0 < h i) (j : Fin 4) :
    (quadOps K).inRange (quadAt node el a h j) c = true ↔
      (match j with
        | 0 => (a 0 ≤ c 0 ∧ c 0 < a 0 + h 0) ∧ (a 1 ≤ c 1 ∧ c 1 < a 1 + h 1)
        | 1 => (a 0 < c 0 ∧ c 0 ≤ a 0 + h 0) ∧ (a 1 ≤ c 1 ∧ c 1 < a 1 + h 1)
        | 2 => (a 0 < c 0 ∧ c 0 ≤ a 0 + h 0) ∧ (a 1 < c 1 ∧ c 1 ≤ a 1 + h 1)
        | 3 => (a 0 ≤ c 0 ∧ c 0 < a 0 + h 0) ∧ (a 1 < c 1 ∧ c 1 ≤ a 1 + h 1)) := by
  simp only [quadOps, Interp.quadInRange, Bool.and_eq_true]
  fin_cases j
  · rw [passOk_lo (a := a 0) (hh 0) rfl (by simp [quadAt, quadOps, mkQuad, cornerPos, quadUnit]),
      passOk_lo (a := a 1) (hh 1) rfl (by simp [quadAt, quadOps, mkQuad, cornerPos, quadUnit])]; rfl
  · rw [passOk_hi (a := a 0) (hh 0) rfl (by simp [quadAt, quadOps, mkQuad, cornerPos, quadUnit]),
      passOk_lo (a := a 1) (hh 1) rfl (by simp [quadAt, quadOps, mkQuad, cornerPos, quadUnit])]; rfl
  · rw [passOk_hi (a := a 0) (hh 0) rfl (by simp [quadAt, quadOps, mkQuad, cornerPos, quadUnit]),
      passOk_hi (a := a 1) (hh 1) rfl (by simp [quadAt, quadOps, mkQuad, cornerPos, quadUnit])]; rfl
  · rw [passOk_lo (a := a 0) (hh 0) rfl (by simp [quadAt, quadOps, mkQuad, cornerPos, quadUnit]),
      passOk_hi (a := a 1) (hh 1) rfl (by simp [quadAt, quadOps, mkQuad, cornerPos, quadUnit])]; rfl

/-- **C18** The four range tests of a quad cover exactly the closed cell (and each accepts only points of the cell). -/
theorem C18_quad_range (node : Fin 4 → Nat) (el : Nat) (a h c : Fin 2 → K) (hh : ∀ i, 0 < h i) :
    (∃ j, (quadOps K).inRange (quadAt (node j) el a h j) c = true) ↔ InCell a h c := by
  simp only [quad_inRange_iff _ _ _ _ _ hh, InCell]
  constructor
  · rintro ⟨j, hj⟩ i
    fin_cases j <;> fin_cases i <;> simp at hj ⊢ <;> constructor <;> linarith [hj.1.1, hj.1.2, hj.2.1, hj.2.2]
  · intro hc
    obtain ⟨x0, x1⟩ := hc 0
    obtain ⟨y0, y1⟩ := hc 1
    have hx := hh 0
    have hy := hh 1
    by_cases hx' : c 0 < a 0 + h 0
    · by_cases hy' : c 1 < a 1 + h 1
      · exact ⟨0, ⟨x0, hx'⟩, ⟨y0, hy'⟩⟩
      · exact ⟨3, ⟨x0, hx'⟩, ⟨by linarith [not_lt.mp hy'], y1⟩⟩
    · by_cases hy' : c 1 < a 1 + h 1
      · exact ⟨1, ⟨by linarith [not_lt.mp hx'], x1⟩, ⟨y0, hy'⟩⟩
      · exact ⟨2, ⟨by linarith [not_lt.mp hx'], x1⟩, ⟨by linarith [not_lt.mp hy'], y1⟩⟩

theorem hex_inRange_iff (node el : Nat) (a h c : Fin 3 → K) (hh : ∀ i, 0 < h i) (j : Fin 8) :
    (hexOps K).inRange (hexAt node el a h j) c = true ↔
      (match j with
        | 0 | 4 => (a 0 ≤ c 0 ∧ c 0 < a 0 + h 0) ∧ (a 1 ≤ c 1 ∧ c 1 < a 1 + h 1)
        | 1 | 5 => (a 0 < c 0 ∧ c 0 ≤ a 0 + h 0) ∧ (a 1 ≤ c 1 ∧ c 1 < a 1 + h 1)
        | 2 | 6 => (a 0 < c 0 ∧ c 0 ≤ a 0 + h 0) ∧ (a 1 < c 1 ∧ c 1 ≤ a 1 + h 1)
        | 3 | 7 => (a 0 ≤ c 0 ∧ c 0 < a 0 + h 0) ∧ (a 1 < c 1 ∧ c 1 ≤ a 1 + h 1)) := by
  simp only [hexOps, Interp.hexInRange, Bool.and_eq_true]
  fin_cases j
  all_goals first
    | (rw [passOk_lo (a := a 0) (hh 0) rfl (by simp [hexAt, hexOps, mkHex, cornerPos, hexUnit]),
        passOk_lo (a := a 1) (hh 1) rfl (by simp [hexAt, hexOps, mkHex, cornerPos, hexUnit])]; rfl)
    | (rw [passOk_hi (a := a 0) (hh 0) rfl (by simp [hexAt, hexOps, mkHex, cornerPos, hexUnit]),
        passOk_lo (a := a 1) (hh 1) rfl (by simp [hexAt, hexOps, mkHex, cornerPos, hexUnit])]; rfl)
    | (rw [passOk_hi (a := a 0) (hh 0) rfl (by simp [hexAt, hexOps, mkHex, cornerPos, hexUnit]),
        passOk_hi (a := a 1) (hh 1) rfl (by simp [hexAt, hexOps, mkHex, cornerPos, hexUnit])]; rfl)
    | (rw [passOk_lo (a := a 0) (hh 0) rfl (by simp [hexAt, hexOps, mkHex, cornerPos, hexUnit]),
        passOk_hi (a := a 1) (hh 1) rfl (by simp [hexAt, hexOps, mkHex, cornerPos, hexUnit])]; rfl)

/-- **C19** (true part) What the eight range tests of a hexahedron really cover: the vertical column over the cell's base, with
no condition on the third coordinate. In particular every point of the closed cell is accepted. -/
theorem C19_hex_range_partial (node : Fin 8 → Nat) (el : Nat) (a h c : Fin 3 → K) (hh : ∀ i, 0 < h i) :
    ((∃ j, (hexOps K).inRange (hexAt (node j) el a h j) c = true) ↔
      (a 0 ≤ c 0 ∧ c 0 ≤ a 0 + h 0) ∧ (a 1 ≤ c 1 ∧ c 1 ≤ a 1 + h 1)) ∧
    (InCell a h c → ∃ j, (hexOps K).inRange (hexAt (node j) el a h j) c = true) := by
  have main : (∃ j, (hexOps K).inRange (hexAt (node j) el a h j) c = true) ↔
      (a 0 ≤ c 0 ∧ c 0 ≤ a 0 + h 0) ∧ (a 1 ≤ c 1 ∧ c 1 ≤ a 1 + h 1) := by
    simp only [hex_inRange_iff _ _ _ _ _ hh]
    constructor
    · rintro ⟨j, hj⟩
      fin_cases j <;> simp at hj ⊢ <;> refine ⟨⟨?_, ?_⟩, ?_, ?_⟩ <;> linarith [hj.1.1, hj.1.2, hj.2.1, hj.2.2]
    · rintro ⟨⟨x0, x1⟩, y0, y1⟩
      have hx := hh 0
      have hy := hh 1
      by_cases hx' : c 0 < a 0 + h 0
      · by_cases hy' : c 1 < a 1 + h 1
        · exact ⟨0, ⟨x0, hx'⟩, ⟨y0, hy'⟩⟩
        · exact ⟨3, ⟨x0, hx'⟩, ⟨by linarith [not_lt.mp hy'], y1⟩⟩
      · by_cases hy' : c 1 < a 1 + h 1
        · exact ⟨1, ⟨by linarith [not_lt.mp hx'], x1⟩, ⟨y0, hy'⟩⟩
        · exact ⟨2, ⟨by linarith [not_lt.mp hx'], x1⟩, ⟨by linarith [not_lt.mp hy'], y1⟩⟩
  exact ⟨main, fun hc => main.mpr ⟨hc 0, hc 1⟩⟩

/-- **C19, violation** The unit cell accepts the point `(0.5, 0.5, 1000)`. -/
theorem C19_hex_range_violated :
    (hexOps ℚ).inRange (hexAt 0 0 ![0, 0, 0] ![1, 1, 1] 0) ![1 / 2, 1 / 2, 1000] = true ∧
      ¬ InCell (K := ℚ) ![0, 0, 0] ![1, 1, 1] ![1 / 2, 1 / 2, 1000] := by
  constructor
  · decide +kernel
  · intro h
    have := (h 2).2
    revert this
    decide +kernel

/-- **C20** `min()` and `max()` of each corner's interpolator are the lowest and highest corner of the cell. -/
theorem C20_bounding_box (node el : Nat) :
    (∀ (a h : Fin 2 → K) (j : Fin 4), (quadAt node el a h j).min = a ∧
      (quadAt node el a h j).max = fun i => a i + h i) ∧
    (∀ (a h : Fin 3 → K) (j : Fin 8), (hexAt node el a h j).min = a ∧
      (hexAt node el a h j).max = fun i => a i + h i) := by
  have hne : (1 : K) ≠ -1 := by
    intro h
    have : (0 : K) < 1 := one_pos
    linarith
  constructor
  · intro a h j
    constructor <;> funext i <;> fin_cases j <;> fin_cases i <;>
      simp [Interp.min, Interp.max, quadAt, quadOps, mkQuad, cornerPos, quadUnit, quadSign, hne, hne.symm]
  · intro a h j
    constructor <;> funext i <;> fin_cases j <;> fin_cases i <;>
      simp [Interp.min, Interp.max, hexAt, hexOps, mkHex, cornerPos, hexUnit, hexSign, hne, hne.symm]

end

/-- A non-trivial cell meeting the hypotheses of C14-C20: extents `(2, 1/2)`, point inside. -/
example : (∀ i, (0 : ℚ) < (![2, 1 / 2] : Fin 2 → ℚ) i) ∧ InCell (K := ℚ) ![1, -1] ![2, 1 / 2] ![2, -3 / 4] := by
  constructor
  · decide +kernel
  · intro i; fin_cases i <;> decide +kernel

example : (∀ i, (0 : ℚ) < (![2, 1 / 2, 3] : Fin 3 → ℚ) i) ∧
    InCell (K := ℚ) ![1, -1, 0] ![2, 1 / 2, 3] ![2, -3 / 4, 3] := by
  constructor
  · decide +kernel
  · intro i; fin_cases i <;> decide +kernel

/-! ### C16: derivatives -/

/-- A function of one coordinate that is affine in it has its slope as derivative. -/
theorem hasDerivAt_affine (p q x : ℝ) (f : ℝ → ℝ) (hf : ∀ t, f t = p + q * t) : HasDerivAt f q x := by
  have : f = fun t => p + q * t := funext hf
  rw [this]
  simpa using ((hasDerivAt_id x).const_mul q).const_add p

open Function in
/-- **C16** For quads, `grad(c, di)` is the partial derivative of the value and `hess(c, di, dj)` the partial derivative of the
gradient component, at every point and for any node position, extents and corner; the Hessian is symmetric. -/
theorem C16_quad_derivatives (q : Interp ℝ 2) (c : Fin 2 → ℝ) (di dj : Fin 2) :
    (∃ f : (Fin 2 → ℝ) → ℝ, ∃ g : Fin 2 → (Fin 2 → ℝ) → ℝ, ∃ H : Fin 2 → Fin 2 → (Fin 2 → ℝ) → ℝ,
      (∀ r, (quadOps ℝ).value q r = .ok (f r)) ∧ (∀ r (i : Fin 2), (quadOps ℝ).grad q r i = .ok (g i r)) ∧
      (∀ r (i j : Fin 2), (quadOps ℝ).hess q r i j = .ok (H i j r)) ∧
      HasDerivAt (fun t => f (update c di t)) (g di c) (c di) ∧
      HasDerivAt (fun t => g di (update c dj t)) (H di dj c) (c dj) ∧ H di dj c = H dj di c) := by
  refine ⟨fun r => quadF r q.n q.h q.s,
    fun i r => if i = 0 then -q.s 0 * (1 - q.s 1 * (r 1 - q.n 1) / q.h 1) / q.h 0
      else -q.s 1 * (1 - q.s 0 * (r 0 - q.n 0) / q.h 0) / q.h 1,
    fun i j _ => if i = j then 0 else q.s 0 * q.s 1 / q.h 0 / q.h 1, fun r => rfl, ?_, ?_, ?_, ?_, ?_⟩
  · intro r i; fin_cases i <;> rfl
  · intro r i j; fin_cases i <;> fin_cases j <;> rfl
  · fin_cases di
    · apply hasDerivAt_affine ((1 + q.s 0 * q.n 0 / q.h 0) * (1 - q.s 1 * (c 1 - q.n 1) / q.h 1))
      intro t; simp [quadF, update]; ring
    · apply hasDerivAt_affine ((1 + q.s 1 * q.n 1 / q.h 1) * (1 - q.s 0 * (c 0 - q.n 0) / q.h 0))
      intro t; simp [quadF, update]; ring
  · fin_cases di <;> fin_cases dj
    · apply hasDerivAt_affine (-q.s 0 * (1 - q.s 1 * (c 1 - q.n 1) / q.h 1) / q.h 0)
      intro t; simp [update]
    · apply hasDerivAt_affine (-q.s 0 * (1 + q.s 1 * q.n 1 / q.h 1) / q.h 0)
      intro t; simp [update]; ring
    · apply hasDerivAt_affine (-q.s 1 * (1 + q.s 0 * q.n 0 / q.h 0) / q.h 1)
      intro t; simp [update]; ring
    · apply hasDerivAt_affine (-q.s 1 * (1 - q.s 0 * (c 0 - q.n 0) / q.h 0) / q.h 1)
      intro t; simp [update]
  · fin_cases di <;> fin_cases dj <;> simp

open Function in
/-- **C16** (true part for hexahedra) The gradient components are the partial derivatives of the value, the diagonal of the
Hessian is the second derivative, and the Hessian is symmetric. Missing: the off-diagonal Hessian, which is wrong. -/
theorem C16_hex_derivatives_partial (q : Interp ℝ 3) (c : Fin 3 → ℝ) (di : Fin 3) :
    (∃ f : (Fin 3 → ℝ) → ℝ, ∃ g : Fin 3 → (Fin 3 → ℝ) → ℝ, ∃ H : Fin 3 → Fin 3 → (Fin 3 → ℝ) → ℝ,
      (∀ r, (hexOps ℝ).value q r = .ok (f r)) ∧ (∀ r (i : Fin 3), (hexOps ℝ).grad q r i = .ok (g i r)) ∧
      (∀ r (i j : Fin 3), (hexOps ℝ).hess q r i j = .ok (H i j r)) ∧
      HasDerivAt (fun t => f (update c di t)) (g di c) (c di) ∧
      HasDerivAt (fun t => g di (update c di t)) (H di di c) (c di) ∧ ∀ dj, H di dj c = H dj di c) := by
  refine ⟨fun r => hexF r q.n q.h q.s,
    fun i r => ![-q.s 0 * (1 - q.s 1 * (r 1 - q.n 1) / q.h 1) * (1 - q.s 2 * (r 2 - q.n 2) / q.h 2) / q.h 0,
      -q.s 1 * (1 - q.s 0 * (r 0 - q.n 0) / q.h 0) * (1 - q.s 2 * (r 2 - q.n 2) / q.h 2) / q.h 1,
      -q.s 2 * (1 - q.s 0 * (r 0 - q.n 0) / q.h 0) * (1 - q.s 1 * (r 1 - q.n 1) / q.h 1) / q.h 2] i,
    fun i j _ => if i = j then 0 else q.s i * q.s j / q.h i / q.h j, fun r => rfl, ?_, ?_, ?_, ?_, ?_⟩
  · intro r i; fin_cases i <;> rfl
  · intro r i j; fin_cases i <;> fin_cases j <;> rfl
  · fin_cases di
    · apply hasDerivAt_affine ((1 + q.s 0 * q.n 0 / q.h 0) * (1 - q.s 1 * (c 1 - q.n 1) / q.h 1) *
        (1 - q.s 2 * (c 2 - q.n 2) / q.h 2))
      intro t; simp [hexF, update]; ring
    · apply hasDerivAt_affine ((1 + q.s 1 * q.n 1 / q.h 1) * (1 - q.s 0 * (c 0 - q.n 0) / q.h 0) *
        (1 - q.s 2 * (c 2 - q.n 2) / q.h 2))
      intro t; simp [hexF, update]; ring
    · apply hasDerivAt_affine ((1 + q.s 2 * q.n 2 / q.h 2) * (1 - q.s 0 * (c 0 - q.n 0) / q.h 0) *
        (1 - q.s 1 * (c 1 - q.n 1) / q.h 1))
      intro t; simp [hexF, update]; ring
  · fin_cases di
    · apply hasDerivAt_affine (-q.s 0 * (1 - q.s 1 * (c 1 - q.n 1) / q.h 1) * (1 - q.s 2 * (c 2 - q.n 2) / q.h 2) / q.h 0)
      intro t; simp [update]
    · apply hasDerivAt_affine (-q.s 1 * (1 - q.s 0 * (c 0 - q.n 0) / q.h 0) * (1 - q.s 2 * (c 2 - q.n 2) / q.h 2) / q.h 1)
      intro t; simp [update]
    · apply hasDerivAt_affine (-q.s 2 * (1 - q.s 0 * (c 0 - q.n 0) / q.h 0) * (1 - q.s 1 * (c 1 - q.n 1) / q.h 1) / q.h 2)
      intro t; simp [update]
  · intro dj
    fin_cases di <;> fin_cases dj <;> simp <;> ring

open Function in
/-- **C16, violation** For a hexahedron the off-diagonal `hess(c,0,1)` is not the derivative of `grad(·,0)` along coordinate 1:
on the unit cell, corner 0, at `z = 1/2`, the member returns 1 while the derivative is 1/2. -/
theorem C16_hex_hess_violated :
    ∃ (q : Interp ℝ 3) (c : Fin 3 → ℝ) (g : (Fin 3 → ℝ) → ℝ), q = hexAt 0 0 ![0, 0, 0] ![1, 1, 1] 0 ∧
      (∀ r, (hexOps ℝ).grad q r 0 = .ok (g r)) ∧ (hexOps ℝ).hess q c 0 1 = .ok 1 ∧
      HasDerivAt (fun t => g (update c 1 t)) (1 / 2) (c 1) ∧
      ¬ HasDerivAt (fun t => g (update c 1 t)) 1 (c 1) := by
  refine ⟨hexAt 0 0 ![0, 0, 0] ![1, 1, 1] 0, ![0, 0, 1 / 2], fun r => -1 * (1 - r 1) * (1 - r 2), rfl, ?_, ?_, ?_, ?_⟩
  · intro r
    simp [hexOps, hexAt, mkHex, hexGrad, cornerPos, hexUnit, hexSign]; ring
  · simp [hexOps, hexAt, mkHex, hexHess, hexSign]
  · apply hasDerivAt_affine (-(1 / 2))
    intro t; simp [update]; ring
  · intro h
    have h2 : HasDerivAt (fun t : ℝ => (fun r : Fin 3 → ℝ => -1 * (1 - r 1) * (1 - r 2))
        (update ![0, 0, 1 / 2] 1 t)) (1 / 2) ((![0, 0, 1 / 2] : Fin 3 → ℝ) 1) := by
      apply hasDerivAt_affine (-(1 / 2))
      intro t; simp [update]; ring
    have := h.unique h2
    norm_num at this

/-! ### C21 -/

/-- **C21** (Quad: full) After `eval_grad`/`eval_hess` at `(r,n,h,s)` every getter of a `Quad` returns that component there,
whatever the object held before. -/
theorem C21_quad_refresh (f : ElemFn K 2) (r n h s : Fin 2 → K) :
    (∀ di : Fin 2, (f.quadEvalGrad r n h s).getGrad di = quadGrad r n h s di) ∧
    (∀ di dj : Fin 2, (f.quadEvalHess r n h s).getHess di dj = quadHess r n h s di dj) := by
  constructor
  · intro di; fin_cases di <;> rfl
  · intro di dj; fin_cases di <;> fin_cases dj <;> rfl

/-- **C21** (true part for Hexahedron) Components 0 and 1 are refreshed; component 2 keeps exactly what it held. -/
theorem C21_hex_refresh_partial (f : ElemFn K 3) (r n h s : Fin 3 → K) :
    (∀ di : Fin 3, di ≠ 2 → (f.hexEvalGrad r n h s).getGrad di = hexGrad r n h s di) ∧
    (f.hexEvalGrad r n h s).getGrad 2 = f.getGrad 2 ∧
    (∀ di dj : Fin 3, di ≠ 2 → dj ≠ 2 → (f.hexEvalHess r n h s).getHess di dj = hexHess r n h s di dj) ∧
    (∀ di dj : Fin 3, di = 2 ∨ dj = 2 → (f.hexEvalHess r n h s).getHess di dj = f.getHess di dj) := by
  refine ⟨?_, rfl, ?_, ?_⟩
  · intro di hd; fin_cases di <;> first | rfl | simp at hd
  · intro di dj hd hj; fin_cases di <;> fin_cases dj <;> first | rfl | exact absurd rfl hd | exact absurd rfl hj
  · intro di dj hd; fin_cases di <;> fin_cases dj <;> first | rfl | simp at hd

/-- **C21, violation** After `eval_grad` on a new Hexahedron object, `grad(2)` reads an uninitialised value (and likewise
`hess(0,2)` after `eval_hess`). -/
theorem C21_hex_violated (r n h s : Fin 3 → K) :
    ((ElemFn.fresh K 3).hexEvalGrad r n h s).getGrad 2 = .error (.ub .uninit) ∧
    ((ElemFn.fresh K 3).hexEvalHess r n h s).getHess 0 2 = .error (.ub .uninit) := ⟨rfl, rfl⟩

end Verif
