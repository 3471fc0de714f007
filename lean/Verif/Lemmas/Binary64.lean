import Verif.Spec.Binary64
import Verif.Lemmas.Rounding

/-! # Binary64: magnitudes of results -/

namespace Verif
open Spec
variable {K : Type} [Field K] [LinearOrder K] [IsStrictOrderedRing K]

namespace B64

theorem p0 (n : Nat) : (0 : K) < 2 ^ n := pow_pos (by norm_num) n

theorem p_mono {m n : Nat} (h : m ≤ n) : (2 : K) ^ m ≤ 2 ^ n := pow_le_pow_right₀ (by norm_num) h

theorem p_one (n : Nat) : (1 : K) ≤ 2 ^ n := one_le_pow₀ (by norm_num)

theorem grid_zero (g : Nat) : OnGrid g (0 : K) := ⟨0, by simp⟩

theorem grid_one (g : Nat) : OnGrid g (1 : K) := ⟨2 ^ g, by simp⟩

theorem grid_up {g g' : Nat} (h : g ≤ g') {x : K} (hx : OnGrid g x) : OnGrid g' x := by
  obtain ⟨z, hz⟩ := hx
  obtain ⟨k, rfl⟩ := Nat.exists_eq_add_of_le h
  exact ⟨z * 2 ^ k, by rw [pow_add, ← mul_assoc, hz]; push_cast; rfl⟩

theorem grid_add {g : Nat} {x y : K} (hx : OnGrid g x) (hy : OnGrid g y) : OnGrid g (x + y) := by
  obtain ⟨z, hz⟩ := hx
  obtain ⟨w, hw⟩ := hy
  exact ⟨z + w, by rw [add_mul, hz, hw]; push_cast; rfl⟩

theorem grid_neg {g : Nat} {x : K} (hx : OnGrid g x) : OnGrid g (-x) := by
  obtain ⟨z, hz⟩ := hx
  exact ⟨-z, by rw [neg_mul, hz]; push_cast; rfl⟩

theorem grid_sub {g : Nat} {x y : K} (hx : OnGrid g x) (hy : OnGrid g y) : OnGrid g (x - y) := by
  rw [sub_eq_add_neg]; exact grid_add hx (grid_neg hy)

theorem sized_zero (a b : Nat) : Sized a b (0 : K) := Or.inl rfl

theorem grid_sized {g b : Nat} {x : K} (hx : OnGrid g x) (hb : |x| ≤ 2 ^ b) : Sized g b x := by
  by_cases h0 : x = 0
  · exact Or.inl h0
  · refine Or.inr ⟨?_, hb⟩
    obtain ⟨z, hz⟩ := hx
    have e : |x| * 2 ^ g = |(z : K)| := by rw [← hz, abs_mul, abs_of_pos (p0 (K := K) g)]
    rw [e, ← Int.cast_abs]
    have hz0 : z ≠ 0 := by
      rintro rfl
      simp only [Int.cast_zero, mul_eq_zero, h0, false_or] at hz
      exact (p0 (K := K) g).ne' hz
    have : (1 : Int) ≤ |z| := Int.one_le_abs hz0
    exact_mod_cast this

theorem sized_le {a b : Nat} {x : K} (h : Sized a b x) : |x| ≤ 2 ^ b := by
  rcases h with rfl | h
  · rw [abs_zero]; exact (p0 b).le
  · exact h.2

theorem sized_mono {a b a' b' : Nat} (ha : a ≤ a') (hb : b ≤ b') {x : K} (h : Sized a b x) : Sized a' b' x := by
  rcases h with h | ⟨h1, h2⟩
  · exact Or.inl h
  · exact Or.inr ⟨h1.trans (mul_le_mul_of_nonneg_left (p_mono ha) (abs_nonneg _)), h2.trans (p_mono hb)⟩

theorem sized_neg {a b : Nat} {x : K} (h : Sized a b x) : Sized a b (-x) := by
  rcases h with rfl | h
  · exact Or.inl (by simp)
  · exact Or.inr (by rwa [abs_neg])

theorem sized_mul {a b a' b' : Nat} {x y : K} (hx : Sized a b x) (hy : Sized a' b' y) : Sized (a + a') (b + b') (x * y) := by
  rcases hx with rfl | ⟨h1, h2⟩
  · exact Or.inl (by simp)
  rcases hy with rfl | ⟨k1, k2⟩
  · exact Or.inl (by simp)
  refine Or.inr ⟨?_, ?_⟩
  · have : |x * y| * 2 ^ (a + a') = (|x| * 2 ^ a) * (|y| * 2 ^ a') := by rw [abs_mul, pow_add]; ring
    rw [this]; exact one_le_mul_of_one_le_of_one_le h1 k1
  · rw [abs_mul, pow_add]; exact mul_le_mul h2 k2 (abs_nonneg _) (p0 b).le

theorem sized_inv {a b : Nat} {x : K} (h : Sized a b x) : Sized b a x⁻¹ := by
  rcases h with rfl | ⟨h1, h2⟩
  · exact Or.inl (by simp)
  have hx : 0 < |x| := by
    by_contra hc
    have : |x| = 0 := le_antisymm (not_lt.mp hc) (abs_nonneg _)
    rw [this] at h1; norm_num at h1
  refine Or.inr ⟨?_, ?_⟩
  · rw [abs_inv, inv_mul_eq_div, le_div_iff₀ hx, one_mul]; exact h2
  · rw [abs_inv, inv_le_iff_one_le_mul₀ hx, mul_comm]; exact h1

theorem sized_div {a b a' b' : Nat} {x y : K} (hx : Sized a b x) (hy : Sized a' b' y) : Sized (a + b') (b + a') (x / y) := by
  rw [div_eq_mul_inv]; exact sized_mul hx (sized_inv hy)

theorem sized_nat {k : Nat} {n : Nat} (h : n ≤ 2 ^ k) : Sized 0 k (n : K) := by
  by_cases h0 : n = 0
  · exact Or.inl (by simp [h0])
  · refine Or.inr ⟨?_, ?_⟩
    · rw [Nat.abs_cast, pow_zero, mul_one]; exact_mod_cast Nat.one_le_iff_ne_zero.mpr h0
    · rw [Nat.abs_cast]; exact_mod_cast h

variable [FloorRing K]

/-- Rounding to 53 digits. -/
abbrev r : K → K := nearestEven 53

theorem R : Rounding (r : K → K) ((2 : K) ^ (-(53 : Int))) := nearestEven_rounding (p := 53) (by norm_num)

/-- `k 2^q` with `|k| ≤ 2^53`. -/
theorem float_int (k q : Int) (hk : |k| ≤ 2 ^ 53) : IsFloat (r : K → K) ((k : K) * 2 ^ q) := by
  have hq := two_pow_pos (K := K) q
  have pos : ∀ k : Int, 0 < k → k ≤ 2 ^ 53 → nearestPos 53 ((k : K) * 2 ^ q) = (k : K) * 2 ^ q := by
    intro k k0 kle
    have hx : (0 : K) < (k : K) * 2 ^ q := mul_pos (by exact_mod_cast k0) hq
    rcases lt_or_eq_of_le kle with kl | ke
    · refine nearestPos_of_int hx (by norm_num) rfl ?_
      by_contra hc
      have h1 : q + 53 ≤ Int.log 2 ((k : K) * 2 ^ q) := by push_cast at hc; omega
      have h2 : (2 : K) ^ (q + 53) ≤ 2 ^ Int.log 2 ((k : K) * 2 ^ q) := zpow_le_zpow_right₀ (by norm_num) h1
      have h3 := h2.trans (log_bounds hx).1
      rw [zpow_add₀ (by norm_num : (2 : K) ≠ 0), mul_comm] at h3
      have h4 := le_of_mul_le_mul_right h3 hq
      have h5 : ((2 ^ 53 : Int) : K) ≤ (k : K) := by rw [show (53 : Int) = ((53 : Nat) : Int) from rfl, zpow_natCast] at h4; rw [Int.cast_pow, Int.cast_ofNat]; exact h4
      have : (2 ^ 53 : Int) ≤ k := by exact_mod_cast h5
      omega
    · have e : (k : K) * 2 ^ q = ((1 : Int) : K) * 2 ^ (q + 53) := by
        rw [zpow_add₀ (by norm_num : (2 : K) ≠ 0), ke]; push_cast; rw [one_mul, mul_comm]; norm_cast
      rw [e] at hx ⊢
      refine nearestPos_of_int hx (by norm_num) rfl ?_
      have : Int.log 2 (((1 : Int) : K) * 2 ^ (q + 53)) = q + 53 := by
        rw [Int.cast_one, one_mul]
        have := Int.log_zpow (R := K) (b := 2) (by norm_num) (q + 53)
        exact_mod_cast this
      rw [this]; push_cast; omega
  have hk' := abs_le.mp hk
  unfold IsFloat r nearestEven
  rcases lt_trichotomy k 0 with h | h | h
  · have hn : (k : K) * 2 ^ q < 0 := mul_neg_of_neg_of_pos (by exact_mod_cast h) hq
    rw [if_neg (not_lt.mpr hn.le), if_pos hn]
    have := pos (-k) (by omega) (by omega)
    push_cast at this
    rw [neg_mul] at this
    rw [this, neg_neg]
  · subst h; simp
  · rw [if_pos (mul_pos (by exact_mod_cast h) hq)]
    exact pos k h (by omega)

theorem float_pow (n : Nat) : IsFloat (r : K → K) (2 ^ n) := by
  have := float_int (K := K) 1 n (by norm_num)
  simpa using this

theorem float_nat_pow {k : Nat} (hk : k ≤ 2 ^ 53) (n : Nat) : IsFloat (r : K → K) ((k : K) * 2 ^ n) := by
  have := float_int (K := K) k n (by rw [Nat.abs_cast]; exact_mod_cast hk)
  simpa using this

theorem float_inv_pow (n : Nat) : IsFloat (r : K → K) ((2 ^ n)⁻¹) := by
  have := float_int (K := K) 1 (-n) (by norm_num)
  simpa using this

theorem abs_round_le {x y : K} (hy : IsFloat (r : K → K) y) (h : |x| ≤ y) : |r x| ≤ y := by
  have h' := abs_le.mp h
  refine abs_le.mpr ⟨?_, R.le_of hy h'.2⟩
  refine R.ge_of (y := -y) ?_ h'.1
  unfold IsFloat; rw [R.neg, hy]

theorem abs_round_ge {x y : K} (hy : IsFloat (r : K → K) y) (h : y ≤ |x|) : y ≤ |r x| := by
  rcases le_total 0 x with h0 | h0
  · rw [abs_of_nonneg h0] at h
    exact (R.ge_of hy h).trans (le_abs_self _)
  · rw [abs_of_nonpos h0] at h
    have := R.ge_of hy h
    rw [R.neg] at this
    exact this.trans (neg_le_abs _)

theorem sized_round {a b : Nat} {x : K} (h : Sized a b x) : Sized a b (r x) := by
  rcases h with rfl | ⟨h1, h2⟩
  · exact Or.inl R.zero
  · refine Or.inr ⟨?_, abs_round_le (float_pow b) h2⟩
    have := abs_round_ge (float_inv_pow a) (x := x) (by rwa [inv_le_iff_one_le_mul₀ (p0 a)])
    rwa [inv_le_iff_one_le_mul₀ (p0 a)] at this

/-- A rounded positive number is an integer number of units of its last place. -/
theorem round_ulp {x : K} (hx : 0 < x) : ∃ z : Int, r x = (z : K) * 2 ^ (Int.log 2 x + 1 - 53) := by
  refine ⟨roundEven (x / 2 ^ (Int.log 2 x + 1 - (53 : Nat))), ?_⟩
  unfold r nearestEven nearestPos
  rw [if_pos hx]
  norm_num

theorem zpow_grid {g : Nat} {e z : Int} (h : -(g : Int) ≤ e) : OnGrid g ((z : K) * 2 ^ e) := by
  obtain ⟨k, hk⟩ := Int.eq_ofNat_of_zero_le (by omega : 0 ≤ e + g)
  refine ⟨z * 2 ^ k, ?_⟩
  rw [mul_assoc, ← zpow_natCast (2 : K) g, ← zpow_add₀ (by norm_num : (2 : K) ≠ 0), hk]
  push_cast
  rw [zpow_natCast]

theorem grid_round {g : Nat} {x : K} (h : OnGrid g x) : OnGrid g (r x) := by
  have pos : ∀ x : K, 0 < x → OnGrid g x → OnGrid g (r x) := by
    intro x hx h
    by_cases hc : -(g : Int) ≤ Int.log 2 x + 1 - 53
    · obtain ⟨z, hz⟩ := round_ulp hx
      rw [hz]; exact zpow_grid hc
    · obtain ⟨z, hz⟩ := h
      have e : x = (z : K) * 2 ^ (-(g : Int)) := by
        rw [zpow_neg, zpow_natCast, ← hz, mul_inv_cancel_right₀ (p0 g).ne']
      have : r x = x := by
        unfold r nearestEven
        rw [if_pos hx]
        exact nearestPos_of_int hx (by norm_num) e (by push_cast; omega)
      rw [this]; exact ⟨z, hz⟩
  rcases lt_trichotomy x 0 with h0 | h0 | h0
  · have := grid_neg (pos (-x) (by linarith) (grid_neg h))
    rwa [R.neg, neg_neg] at this
  · subst h0; rw [R.zero]; exact grid_zero g
  · exact pos x h0 h

theorem float_grid {a b : Nat} {x : K} (hf : IsFloat (r : K → K) x) (h : Sized a b x) : OnGrid (a + 52) x := by
  have pos : ∀ x : K, 0 < x → IsFloat (r : K → K) x → 1 ≤ x * 2 ^ a → OnGrid (a + 52) x := by
    intro x hx hf h
    obtain ⟨z, hz⟩ := round_ulp hx
    rw [hf] at hz
    rw [hz]
    refine zpow_grid ?_
    have h1 : (2 : K) ^ (-(a : Int)) ≤ x := by
      rwa [zpow_neg, zpow_natCast, inv_le_iff_one_le_mul₀ (p0 a)]
    have h2 : (2 : K) ^ (-(a : Int)) < 2 ^ (Int.log 2 x + 1) := lt_of_le_of_lt h1 (log_bounds hx).2
    have h3 := (zpow_lt_zpow_iff_right₀ (by norm_num : (1 : K) < 2)).mp h2
    push_cast; omega
  rcases h with rfl | ⟨h1, -⟩
  · exact grid_zero _
  rcases lt_trichotomy x 0 with h0 | h0 | h0
  · rw [abs_of_neg h0] at h1
    have := grid_neg (pos (-x) (by linarith) (by unfold IsFloat; rw [R.neg, hf]) h1)
    rwa [neg_neg] at this
  · subst h0; exact grid_zero _
  · rw [abs_of_pos h0] at h1; exact pos x h0 hf h1

theorem one_sub {a b : Nat} {l : K} (hf : IsFloat (r : K → K) l) (h : Sized a b l) : Sized 53 (b + 1) (1 - l) := by
  have hb : |1 - l| ≤ 2 ^ (b + 1) := by
    have h1 := sized_le h
    have h2 := abs_sub (1 : K) l
    rw [abs_one] at h2
    have h3 := p_one (K := K) b
    rw [pow_succ]; linarith
  rcases lt_or_ge l (1 / 2) with h0 | h0
  · refine Or.inr ⟨?_, hb⟩
    have h1 : (1 / 2 : K) ≤ |1 - l| := le_trans (by linarith) (le_abs_self _)
    have h2 : (2 : K) ≤ 2 ^ 53 := by norm_num
    have h3 : (1 / 2 : K) * 2 ≤ |1 - l| * 2 ^ 53 := mul_le_mul h1 h2 (by norm_num) (abs_nonneg _)
    linarith
  · refine grid_sized (grid_sub (grid_one 53) ?_) hb
    have : Sized 1 b l := Or.inr ⟨by rw [abs_of_nonneg (by linarith)]; linarith, sized_le h⟩
    exact float_grid hf this

theorem gradual_isBinary64 : IsBinary64 (gradual : K → K) := by
  intro x hx
  unfold gradual
  have b1 : (2 : K) ^ 1023 < 2 ^ 1024 := pow_lt_pow_right₀ (by norm_num) (by norm_num)
  have hr := sized_le (sized_round hx)
  have hr' := abs_le.mp hr
  rcases hx with rfl | ⟨h1, h2⟩
  · have e : (nearestEven 53 (0 : K)) = 0 := R.zero
    rw [if_pos (by simp), e]
    have := roundEven_int (K := K) 0
    rw [Int.cast_zero] at this
    simp [this]
  · rw [if_neg (not_lt.mpr h1), if_neg, if_neg]
    · exact not_le.mpr (lt_of_le_of_lt hr'.2 b1)
    · exact not_le.mpr (lt_of_lt_of_le (neg_lt_neg b1) hr'.1)

end B64
end Verif
