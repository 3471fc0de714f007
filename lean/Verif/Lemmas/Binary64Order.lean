import Verif.Lemmas.Binary64
import Verif.Spec.RoundedTerm

/-!
# Doubles with gradual underflow, the biggest one in place of infinities: a rounding that keeps the order
-/

namespace Verif.B64
open Spec
variable {K : Type} [Field K] [LinearOrder K] [FloorRing K] [IsStrictOrderedRing K]

/-- Numbers beyond `M` are replaced by `M` (lemma-side). -/
def clip (L M z : K) : K := if z ≤ -L then -M else if L ≤ z then M else z

omit [FloorRing K] in
theorem clip_mono {L M : K} (h0 : 0 ≤ M) {x y : K} (hx : x < L → x ≤ M) (hy : -L < y → -M ≤ y) (h : x ≤ y) : clip L M x ≤ clip L M y := by
  unfold clip
  by_cases a1 : x ≤ -L
  · rw [if_pos a1]
    by_cases b1 : y ≤ -L
    · rw [if_pos b1]
    · rw [if_neg b1]
      by_cases b2 : L ≤ y
      · rw [if_pos b2]; linarith
      · rw [if_neg b2]; exact hy (not_le.mp b1)
  · rw [if_neg a1]
    have b1 : ¬ y ≤ -L := fun hb => a1 (h.trans hb)
    rw [if_neg b1]
    by_cases a2 : L ≤ x
    · rw [if_pos a2, if_pos (a2.trans h)]
    · rw [if_neg a2]
      by_cases b2 : L ≤ y
      · rw [if_pos b2]; exact hx (not_le.mp a2)
      · rw [if_neg b2]; exact h

/-- A double below `2^1024` is at most the biggest double. -/
theorem below_max {z : K} (hf : IsFloat (r : K → K) z) (h : z < 2 ^ 1024) : z ≤ 2 ^ 1024 - 2 ^ 971 := by
  have e : (2 : K) ^ 1024 = 2 ^ 53 * 2 ^ 971 := by rw [← pow_add]
  have e' : (2 : K) ^ 1023 = 2 ^ 52 * 2 ^ 971 := by rw [← pow_add]
  have p := p0 (K := K) 971
  rcases lt_or_ge z (2 ^ 1023) with h1 | h1
  · have h2 : (2 : K) ^ 1024 = 2 * 2 ^ 1023 := by rw [pow_succ, mul_comm]
    have h3 : (2 : K) ^ 971 ≤ 2 ^ 1023 := p_mono (by norm_num)
    rw [h2]
    clear e e' h2 h
    generalize (2 : K) ^ 1023 = a at *
    generalize (2 : K) ^ 971 = b at *
    linarith
  · have hz : 0 < z := lt_of_lt_of_le (p0 1023) h1
    obtain ⟨k, hk⟩ := round_ulp hz
    rw [hf] at hk
    have hb := log_bounds hz
    have l1 : Int.log 2 z < 1024 := (zpow_lt_zpow_iff_right₀ (by norm_num : (1 : K) < 2)).mp (lt_of_le_of_lt hb.1 (by exact_mod_cast h))
    have l2 : (1023 : Int) < Int.log 2 z + 1 := (zpow_lt_zpow_iff_right₀ (by norm_num : (1 : K) < 2)).mp (lt_of_le_of_lt (by exact_mod_cast h1) hb.2)
    have l3 : Int.log 2 z = 1023 := by omega
    rw [l3, show (1023 + 1 - 53 : Int) = ((971 : Nat) : Int) by norm_num, zpow_natCast] at hk
    have hlt : (k : K) < 2 ^ 53 := by
      rw [hk, e] at h
      exact lt_of_mul_lt_mul_right h p.le
    have hle : k ≤ 2 ^ 53 - 1 := by
      have : k < 2 ^ 53 := by exact_mod_cast hlt
      omega
    have hle' : (k : K) ≤ 2 ^ 53 - 1 := by exact_mod_cast hle
    have := mul_le_mul_of_nonneg_right hle' p.le
    rw [sub_mul, one_mul] at this
    rw [hk, e]
    exact this

theorem max_float : IsFloat (r : K → K) (2 ^ 1024 - 2 ^ 971) := by
  have e : (2 : K) ^ 1024 = 2 ^ 53 * 2 ^ 971 := by rw [← pow_add]
  have := float_nat_pow (K := K) (k := 2 ^ 53 - 1) (by norm_num) 971
  rw [Nat.cast_sub (by norm_num)] at this
  rw [e]
  convert this using 1
  push_cast; ring

theorem gradual_big {x : K} (h : 1 ≤ |x| * 2 ^ 1022) : gradual x = clip (2 ^ 1024) (2 ^ 1024 - 2 ^ 971) (r x) := by
  unfold gradual clip
  rw [if_neg (not_lt.mpr h)]

theorem gradual_small {x : K} (h : |x| * 2 ^ 1022 < 1) : gradual x = (roundEven (x * 2 ^ 1074) : K) / 2 ^ 1074 := by
  unfold gradual
  rw [if_pos h]

theorem roundEven_pow : roundEven ((2 : K) ^ 52) = 2 ^ 52 := by
  have := roundEven_int (K := K) (2 ^ 52)
  rwa [Int.cast_pow, Int.cast_ofNat] at this

theorem roundEven_pow_neg : roundEven (-(2 : K) ^ 52) = -2 ^ 52 := by
  have := roundEven_int (K := K) (-2 ^ 52)
  rwa [Int.cast_neg, Int.cast_pow, Int.cast_ofNat] at this

/-- A small number is rounded to a multiple of `2^-1074` not above `2^-1022`. -/
theorem small_bounds {x : K} (h : |x| * 2 ^ 1022 < 1) : |(roundEven (x * 2 ^ 1074))| ≤ 2 ^ 52 := by
  have e : (2 : K) ^ 1074 = 2 ^ 1022 * 2 ^ 52 := by rw [← pow_add]
  have p := p0 (K := K) 52
  obtain ⟨h1, h2⟩ := abs_lt.mp (show |x * 2 ^ 1022| < 1 by rwa [abs_mul, abs_of_pos (p0 (K := K) 1022)])
  refine abs_le.mpr ⟨?_, ?_⟩
  · rw [← roundEven_pow_neg (K := K)]
    refine roundEven_mono ?_
    rw [e]; nlinarith
  · rw [← roundEven_pow (K := K)]
    refine roundEven_mono ?_
    rw [e]; nlinarith

theorem small_abs {x : K} (h : |x| * 2 ^ 1022 < 1) : |gradual x| * 2 ^ 1022 ≤ 1 := by
  have e : (2 : K) ^ 1074 = 2 ^ 1022 * 2 ^ 52 := by rw [← pow_add]
  have hb : ((|roundEven (x * 2 ^ 1074)| : Int) : K) ≤ 2 ^ 52 := by exact_mod_cast small_bounds h
  rw [gradual_small h, abs_div, abs_of_pos (p0 (K := K) 1074), ← Int.cast_abs]
  generalize ((|roundEven (x * 2 ^ 1074)| : Int) : K) = k at hb
  rw [e, div_mul_eq_mul_div, div_le_one (mul_pos (p0 _) (p0 _)),
    mul_comm]
  exact mul_le_mul_of_nonneg_left hb (p0 _).le

/-- A number that is not small is not rounded to a small one. -/
theorem big_abs {x : K} (h : 1 ≤ |x| * 2 ^ 1022) : 1 ≤ |r x| * 2 ^ 1022 := by
  have h1 : ((2 : K) ^ 1022)⁻¹ ≤ |x| := by rwa [inv_le_iff_one_le_mul₀ (p0 _)]
  have := abs_round_ge (float_inv_pow (K := K) 1022) h1
  rwa [inv_le_iff_one_le_mul₀ (p0 _)] at this

theorem gradual_neg (x : K) : gradual (-x) = -gradual x := by
  have hodd : ∀ y : K, roundEven (-y) = -roundEven y := by
    intro y
    have hR : ∀ z : K, nearestEven 53 (-z) = -nearestEven 53 z := R.neg
    unfold roundEven
    by_cases hint : (⌊y⌋ : K) = y
    · have hc : ⌈y⌉ = ⌊y⌋ := by rw [← hint]; simp
      rw [Int.floor_neg, hc]
      push_cast
      rw [hint, if_pos (by simp), if_pos (by simp)]
    · have hc : ⌈y⌉ = ⌊y⌋ + 1 := by
        have h1 := Int.ceil_le_floor_add_one y
        have h2 : ⌊y⌋ < ⌈y⌉ := by
          have h3 : (⌊y⌋ : K) < y := lt_of_le_of_ne (Int.floor_le y) hint
          exact_mod_cast h3.trans_le (Int.le_ceil y)
        omega
      rw [Int.floor_neg, hc]
      push_cast
      have hev : ∀ k : Int, -(k + 1) % 2 = 0 ↔ ¬ k % 2 = 0 := by intro k; omega
      rcases lt_trichotomy (y - (⌊y⌋ : K)) (1 / 2) with h | h | h
      · rw [if_pos h, if_neg (by linarith), if_pos (by linarith)]; ring
      · rw [if_neg (show ¬ -y - (-((⌊y⌋ : K) + 1)) < 1 / 2 by linarith), if_neg (show ¬ 1 / 2 < -y - (-((⌊y⌋ : K) + 1)) by linarith),
          if_neg (show ¬ y - (⌊y⌋ : K) < 1 / 2 by linarith), if_neg (show ¬ 1 / 2 < y - (⌊y⌋ : K) by linarith)]
        by_cases he : ⌊y⌋ % 2 = 0
        · rw [if_pos he, if_neg (by rw [hev]; exact not_not.mpr he)]; ring
        · rw [if_neg he, if_pos ((hev _).mpr he)]
      · rw [if_pos (show -y - (-((⌊y⌋ : K) + 1)) < 1 / 2 by linarith), if_neg (show ¬ y - (⌊y⌋ : K) < 1 / 2 by linarith), if_pos h]
  by_cases h : |x| * 2 ^ 1022 < 1
  · rw [gradual_small h, gradual_small (by rwa [abs_neg]), neg_mul, hodd]
    push_cast; ring
  · have h := not_lt.mp h
    rw [gradual_big h, gradual_big (by rwa [abs_neg]), R.neg]
    have hL : (0 : K) < 2 ^ 1024 := p0 _
    unfold clip
    generalize (2 : K) ^ 1024 - 2 ^ 971 = M
    generalize (2 : K) ^ 1024 = L at *
    by_cases a : r x ≤ -L
    · rw [if_pos a, if_neg (by linarith), if_pos (by linarith), neg_neg]
    · by_cases b : L ≤ r x
      · rw [if_neg a, if_pos b, if_pos (by linarith)]
      · rw [if_neg a, if_neg b, if_neg (by linarith), if_neg (by linarith)]

/-- The argument with the constants hidden: `T` for `2^1022`, `L` for `2^1024`, `M` for the biggest double. -/
theorem order_of {g r : K → K} {u T L M : K} (R : Rounding r u) (t1 : 1 ≤ T) (hM : M < L) (hM0 : 1 ≤ M) (hMf : r M = M)
    (big : ∀ x, 1 ≤ |x| * T → g x = clip L M (r x)) (bigAbs : ∀ x, 1 ≤ |x| * T → 1 ≤ |r x| * T) (neg : ∀ x, g (-x) = -g x)
    (below : ∀ z, r z = z → z < L → z ≤ M) (smallAbs : ∀ x, |x| * T < 1 → |g x| * T ≤ 1)
    (smallMono : ∀ x y, |x| * T < 1 → |y| * T < 1 → x ≤ y → g x ≤ g y) (smallFloat : ∀ x, |x| * T < 1 → r (g x) = g x)
    (smallIdem : ∀ x, |x| * T < 1 → |g x| * T < 1 → g (g x) = g x) : (∀ x y, x ≤ y → g x ≤ g y) ∧ ∀ x, g (g x) = g x := by
  have t0 : 0 < T := by linarith
  have lo : ∀ z : K, r z = z → -L < z → -M ≤ z := by
    intro z hz h
    have := below (-z) (by rw [R.neg, hz]) (by linarith)
    linarith
  have up : ∀ y : K, 1 ≤ y * T → 1 ≤ g y * T := by
    intro y hy
    have hy0 : 0 < y := by
      by_contra hn
      have := mul_nonpos_of_nonpos_of_nonneg (not_lt.mp hn) t0.le
      linarith
    have hyb : 1 ≤ |y| * T := by rwa [abs_of_pos hy0]
    have hb := bigAbs y hyb
    have h1 : 0 ≤ r y := R.nonneg hy0.le
    rw [abs_of_nonneg h1] at hb
    rw [big y hyb]
    unfold clip
    rw [if_neg (by intro h; linarith)]
    split
    · nlinarith
    · exact hb
  refine ⟨fun x y h => ?_, fun x => ?_⟩
  · by_cases hx : |x| * T < 1
    · by_cases hy : |y| * T < 1
      · exact smallMono x y hx hy h
      · have hy := not_lt.mp hy
        have hy0 : 0 ≤ y := by
          by_contra hn
          have hn := not_le.mp hn
          rw [abs_of_neg hn] at hy
          rw [abs_of_neg (lt_of_le_of_lt h hn)] at hx
          nlinarith
        rw [abs_of_nonneg hy0] at hy
        have h1 := smallAbs x hx
        have h2 := up y hy
        have h3 : g x * T ≤ |g x| * T := mul_le_mul_of_nonneg_right (le_abs_self _) t0.le
        exact le_of_mul_le_mul_right (h3.trans (h1.trans h2)) t0
    · have hx := not_lt.mp hx
      by_cases hy : |y| * T < 1
      · have hx0 : x ≤ 0 := by
          by_contra hn
          have hn := not_le.mp hn
          rw [abs_of_pos hn] at hx
          rw [abs_of_pos (lt_of_lt_of_le hn h)] at hy
          nlinarith
        rw [abs_of_nonpos hx0] at hx
        have h1 := smallAbs y hy
        have h2 := up (-x) hx
        rw [neg] at h2
        have h3 : -g y * T ≤ |g y| * T := mul_le_mul_of_nonneg_right (neg_le_abs _) t0.le
        have := le_of_mul_le_mul_right (h3.trans (h1.trans h2)) t0
        linarith
      · rw [big x hx, big y (not_lt.mp hy)]
        exact clip_mono (by linarith) (below _ (R.idem x)) (lo _ (R.idem y)) (R.mono _ _ h)
  · by_cases hx : |x| * T < 1
    · have hs := smallAbs x hx
      rcases lt_or_eq_of_le hs with hs | hs
      · exact smallIdem x hx hs
      · have hle : |g x| ≤ 1 := by
          have := abs_nonneg (g x)
          nlinarith
        rw [big _ hs.ge, smallFloat x hx]
        obtain ⟨h1, h2⟩ := abs_le.mp hle
        unfold clip
        rw [if_neg (by linarith), if_neg (by linarith)]
    · have hx := not_lt.mp hx
      have hb := bigAbs x hx
      have key : ∀ z : K, r z = z → 1 ≤ |z| * T → -L < z → z < L → g z = z := by
        intro z hz h1 h2 h3
        rw [big z h1, hz]
        unfold clip
        rw [if_neg (not_le.mpr h2), if_neg (not_le.mpr h3)]
      have hmax : g M = M := by
        refine key _ hMf ?_ (by linarith) hM
        rw [abs_of_nonneg (by linarith)]
        nlinarith
      rw [big x hx]
      unfold clip
      split
      · rw [neg, hmax]
      · next h1 =>
        split
        · exact hmax
        · next h2 => exact key _ (R.idem x) hb (not_le.mp h1) (not_le.mp h2)

theorem max_pos : (2 : K) ^ 1024 - 2 ^ 971 < 2 ^ 1024 ∧ (1 : K) ≤ 2 ^ 1024 - 2 ^ 971 := by
  have h1 := p_one (K := K) 971
  have h2 : (2 : K) ^ 1024 = 2 ^ 53 * 2 ^ 971 := by rw [← pow_add]
  have h3 : (2 : K) ≤ 2 ^ 53 := by norm_num
  have h4 := mul_le_mul_of_nonneg_right h3 (p0 (K := K) 971).le
  rw [← h2] at h4
  clear h2 h3
  generalize (2 : K) ^ 1024 = a at *
  generalize (2 : K) ^ 971 = b at *
  constructor <;> linarith

theorem gradual_order : OrderRounding (gradual : K → K) := by
  obtain ⟨h1, h2⟩ := order_of (g := (gradual : K → K)) R (p_one (K := K) 1022) (max_pos (K := K)).1 max_pos.2 max_float
    (fun x h => gradual_big h) (fun x h => big_abs h) gradual_neg (fun z h h' => below_max h h') (fun x h => small_abs h)
    (fun x y hx hy h => by
      rw [gradual_small hx, gradual_small hy]
      refine div_le_div_of_nonneg_right ?_ (p0 _).le
      exact_mod_cast roundEven_mono (mul_le_mul_of_nonneg_right h (p0 (K := K) 1074).le))
    (fun x hx => by
      rw [gradual_small hx]
      have := float_int (K := K) (roundEven (x * 2 ^ 1074)) (-((1074 : Nat) : Int)) ((small_bounds hx).trans (show (2 : Int) ^ 52 ≤ 2 ^ 53 by norm_num))
      rwa [zpow_neg, zpow_natCast, ← div_eq_mul_inv] at this)
    (fun x hx hs => by
      rw [gradual_small hs]
      conv_rhs => rw [gradual_small hx]
      congr 1
      rw [gradual_small hx, div_mul_cancel₀ _ (p0 (K := K) 1074).ne', roundEven_int])
  refine ⟨h1, ?_, h2⟩
  rw [gradual_small (by simp)]
  have := roundEven_int (K := K) 0
  rw [Int.cast_zero] at this
  simp [this]

end Verif.B64
