import Verif.Spec.Scale
import Verif.Lemmas.Rounding

/-! # Rounding to binary digits respects powers of two -/

namespace Verif
open Spec
variable {K : Type} [Field K] [LinearOrder K] [FloorRing K] [IsStrictOrderedRing K]

theorem log_scale {x : K} (hx : 0 < x) (k : Int) : Int.log 2 ((2 : K) ^ k * x) = k + Int.log 2 x := by
  have hp : (0 : K) < 2 ^ k := zpow_pos (by norm_num) k
  have hpos : 0 < (2 : K) ^ k * x := mul_pos hp hx
  obtain ⟨h1, h2⟩ := log_bounds hx
  have two : (2 : K) ≠ 0 := by norm_num
  refine le_antisymm ?_ ?_
  · have : (2 : K) ^ k * x < ((2 : Nat) : K) ^ (k + Int.log 2 x + 1) := by
      push_cast
      rw [add_assoc, zpow_add₀ two]
      exact mul_lt_mul_of_pos_left h2 hp
    have := (Int.lt_zpow_iff_log_lt (by norm_num) hpos).mp this
    omega
  · have : ((2 : Nat) : K) ^ (k + Int.log 2 x) ≤ (2 : K) ^ k * x := by
      push_cast
      rw [zpow_add₀ two]
      exact mul_le_mul_of_nonneg_left h1 hp.le
    exact (Int.zpow_le_iff_le_log (by norm_num) hpos).mp this

theorem nearestPos_scale (p : Nat) {x : K} (hx : 0 < x) (k : Int) : nearestPos p ((2 : K) ^ k * x) = 2 ^ k * nearestPos p x := by
  have two : (2 : K) ≠ 0 := by norm_num
  have hp : (2 : K) ^ k ≠ 0 := zpow_ne_zero k two
  unfold nearestPos
  rw [log_scale hx, show k + Int.log 2 x + 1 - (p : Int) = k + (Int.log 2 x + 1 - p) by ring, zpow_add₀ two, mul_div_mul_left _ _ hp]
  ring

/-- Powers of two pass through rounding. -/
theorem nearestEven_pow (p : Nat) (k : Int) : Respects (nearestEven p : K → K) (2 ^ k) := by
  intro x
  have hp : (0 : K) < 2 ^ k := zpow_pos (by norm_num) k
  unfold nearestEven
  rcases lt_trichotomy 0 x with h | h | h
  · rw [if_pos (mul_pos hp h), if_pos h, nearestPos_scale p h]
  · subst h; simp
  · have h1 : (2 : K) ^ k * x < 0 := mul_neg_of_pos_of_neg hp h
    rw [if_neg (not_lt.mpr h1.le), if_pos h1, if_neg (not_lt.mpr h.le), if_pos h, ← mul_neg, nearestPos_scale p (neg_pos.mpr h), mul_neg]

/-- So do signs. -/
theorem nearestEven_neg (p : Nat) : Respects (nearestEven p : K → K) (-1) := by
  intro x
  unfold nearestEven
  rcases lt_trichotomy 0 x with h | h | h
  · rw [if_neg (by linarith), if_pos (by linarith), if_pos h]; simp
  · subst h; simp
  · rw [if_pos (by linarith), if_neg (not_lt.mpr h.le), if_pos h]; simp

end Verif
