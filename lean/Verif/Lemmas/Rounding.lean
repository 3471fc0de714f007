import Verif.Spec.Rounding
import Mathlib.Tactic.Linarith
import Mathlib.Tactic.Ring
import Mathlib.Tactic.FieldSimp
import Mathlib.Tactic.Positivity
import Mathlib.Tactic.NormNum
import Mathlib.Algebra.Order.Floor.Semifield

/-! IEEE rounding to nearest is a `Rounding`. -/

namespace Verif.Spec
variable {K : Type} [Field K] [LinearOrder K] [FloorRing K] [IsStrictOrderedRing K]

theorem roundEven_err (x : K) : |(roundEven x : K) - x| ≤ 1 / 2 := by
  have h1 := Int.floor_le x
  have h2 := Int.lt_floor_add_one x
  unfold roundEven
  rw [abs_le]
  split
  · constructor <;> linarith
  · split
    · push_cast; constructor <;> linarith
    · split
      · constructor <;> linarith
      · push_cast; constructor <;> linarith

theorem roundEven_int (k : Int) : roundEven (k : K) = k := by
  simp [roundEven]

theorem roundEven_mono {x y : K} (h : x ≤ y) : roundEven x ≤ roundEven y := by
  have h1 := Int.floor_le x
  have h2 := Int.lt_floor_add_one x
  have h3 := Int.floor_le y
  have h4 := Int.lt_floor_add_one y
  have hf := Int.floor_le_floor h
  rcases lt_or_eq_of_le hf with hlt | heq
  · -- different floors
    have a : roundEven x ≤ ⌊x⌋ + 1 := by
      unfold roundEven; split
      · omega
      · split
        · omega
        · split <;> omega
    have b : ⌊y⌋ ≤ roundEven y := by
      unfold roundEven; split
      · omega
      · split
        · omega
        · split <;> omega
    omega
  · unfold roundEven
    rw [← heq] at *
    split_ifs <;> first | omega | (exfalso; linarith)

theorem two_pow_pos (e : Int) : (0 : K) < 2 ^ e := zpow_pos (by norm_num) e

theorem log_bounds {x : K} (hx : 0 < x) : (2 : K) ^ Int.log 2 x ≤ x ∧ x < (2 : K) ^ (Int.log 2 x + 1) := by
  constructor
  · have := Int.zpow_log_le_self (b := 2) (by norm_num) hx
    exact_mod_cast this
  · have := Int.lt_zpow_succ_log_self (b := 2) (by norm_num) x
    exact_mod_cast this

/-- The scaled number is between `2^(p-1)` and `2^p`. -/
theorem scaled_bounds {p : Nat} {x : K} (hx : 0 < x) (hp : 0 < p) :
    (((2 : Int) ^ (p - 1) : Int) : K) ≤ x / 2 ^ (Int.log 2 x + 1 - p) ∧ x / 2 ^ (Int.log 2 x + 1 - p) < (((2 : Int) ^ p : Int) : K) := by
  obtain ⟨h1, h2⟩ := log_bounds hx
  have hq := two_pow_pos (K := K) (Int.log 2 x + 1 - p)
  rw [le_div_iff₀ hq, div_lt_iff₀ hq]
  push_cast
  have e1 : (2 : K) ^ (p - 1) = 2 ^ ((p : Int) - 1) := by
    rw [← zpow_natCast]; congr 1; omega
  have e2 : (2 : K) ^ p = 2 ^ (p : Int) := (zpow_natCast _ _).symm
  rw [e1, e2, ← zpow_add₀ (by norm_num), ← zpow_add₀ (by norm_num)]
  have a1 : (p : Int) - 1 + (Int.log 2 x + 1 - p) = Int.log 2 x := by ring
  have a2 : (p : Int) + (Int.log 2 x + 1 - p) = Int.log 2 x + 1 := by ring
  rw [a1, a2]
  exact ⟨h1, h2⟩

theorem nearestPos_bounds {p : Nat} {x : K} (hx : 0 < x) (hp : 0 < p) :
    (2 : K) ^ Int.log 2 x ≤ nearestPos p x ∧ nearestPos p x ≤ (2 : K) ^ (Int.log 2 x + 1) := by
  obtain ⟨h1, h2⟩ := scaled_bounds (p := p) hx hp
  have hq := two_pow_pos (K := K) (Int.log 2 x + 1 - p)
  have r1 := roundEven_mono h1
  have r2 := roundEven_mono h2.le
  rw [roundEven_int] at r1 r2
  have r1' : (((2 : Int) ^ (p - 1) : Int) : K) ≤ (roundEven (x / 2 ^ (Int.log 2 x + 1 - p)) : K) := by exact_mod_cast r1
  have r2' : (roundEven (x / 2 ^ (Int.log 2 x + 1 - p)) : K) ≤ (((2 : Int) ^ p : Int) : K) := by exact_mod_cast r2
  unfold nearestPos
  have e1 : (((2 : Int) ^ (p - 1) : Int) : K) * 2 ^ (Int.log 2 x + 1 - p) = 2 ^ Int.log 2 x := by
    push_cast
    have e1 : (2 : K) ^ (p - 1) = 2 ^ ((p : Int) - 1) := by
      rw [← zpow_natCast]; congr 1; omega
    rw [e1, ← zpow_add₀ (by norm_num)]; congr 1; ring
  have e2 : (((2 : Int) ^ p : Int) : K) * 2 ^ (Int.log 2 x + 1 - p) = 2 ^ (Int.log 2 x + 1) := by
    push_cast
    rw [← zpow_natCast, ← zpow_add₀ (by norm_num)]; congr 1; ring
  rw [← e1, ← e2]
  exact ⟨mul_le_mul_of_nonneg_right r1' hq.le, mul_le_mul_of_nonneg_right r2' hq.le⟩

theorem nearestPos_pos {p : Nat} {x : K} (hx : 0 < x) (hp : 0 < p) : 0 < nearestPos p x :=
  lt_of_lt_of_le (two_pow_pos _) (nearestPos_bounds hx hp).1

theorem log_mono {x y : K} (hx : 0 < x) (h : x ≤ y) : Int.log 2 x ≤ Int.log 2 y := Int.log_mono_right hx h

theorem nearestPos_mono {p : Nat} {x y : K} (hx : 0 < x) (hp : 0 < p) (h : x ≤ y) : nearestPos p x ≤ nearestPos p y := by
  have hy := lt_of_lt_of_le hx h
  rcases lt_or_eq_of_le (log_mono hx h) with hl | hl
  · refine (nearestPos_bounds hx hp).2.trans (le_trans ?_ (nearestPos_bounds hy hp).1)
    exact zpow_le_zpow_right₀ (by norm_num) (by omega)
  · unfold nearestPos
    rw [hl]
    have hq := two_pow_pos (K := K) (Int.log 2 y + 1 - p)
    apply mul_le_mul_of_nonneg_right _ hq.le
    exact_mod_cast roundEven_mono (div_le_div_of_nonneg_right h hq.le)

theorem nearestPos_err {p : Nat} {x : K} (hx : 0 < x) : |nearestPos p x - x| ≤ (2 : K) ^ (-(p : Int)) * x := by
  have hq := two_pow_pos (K := K) (Int.log 2 x + 1 - p)
  have e : nearestPos p x - x = ((roundEven (x / 2 ^ (Int.log 2 x + 1 - p)) : K) - x / 2 ^ (Int.log 2 x + 1 - p)) *
      2 ^ (Int.log 2 x + 1 - p) := by
    unfold nearestPos
    rw [sub_mul, div_mul_cancel₀ _ hq.ne']
  rw [e, abs_mul, abs_of_pos hq]
  have h1 := mul_le_mul_of_nonneg_right (roundEven_err (x / 2 ^ (Int.log 2 x + 1 - p))) hq.le
  refine h1.trans ?_
  have e2 : (1 / 2 : K) * 2 ^ (Int.log 2 x + 1 - p) = 2 ^ (-(p : Int)) * 2 ^ Int.log 2 x := by
    rw [← zpow_add₀ (by norm_num : (2 : K) ≠ 0)]
    have : Int.log 2 x + 1 - (p : Int) = 1 + (-(p : Int) + Int.log 2 x) := by ring
    rw [this, zpow_add₀ (by norm_num : (2 : K) ≠ 0) 1]
    simp
  rw [e2]
  exact mul_le_mul_of_nonneg_left (log_bounds hx).1 (two_pow_pos _).le

/-- A number `k · 2^q` with at most `p` digits is a floating-point number. -/
theorem nearestPos_of_int {p : Nat} {x : K} (hx : 0 < x) (hp : 0 < p) {k q : Int} (hk : x = (k : K) * 2 ^ q)
    (hle : Int.log 2 x + 1 - p ≤ q) : nearestPos p x = x := by
  obtain ⟨m, hm⟩ : ∃ m : Nat, q = Int.log 2 x + 1 - p + m := ⟨(q - (Int.log 2 x + 1 - p)).toNat, by omega⟩
  have hq' := two_pow_pos (K := K) (Int.log 2 x + 1 - p)
  have e : x / 2 ^ (Int.log 2 x + 1 - p) = ((k * 2 ^ m : Int) : K) := by
    rw [div_eq_iff hq'.ne']
    conv_lhs => rw [hk, hm, zpow_add₀ (by norm_num : (2 : K) ≠ 0)]
    push_cast
    rw [zpow_natCast]; ring
  unfold nearestPos
  rw [e, roundEven_int, ← e, div_mul_cancel₀ _ hq'.ne']

theorem nearestPos_idem {p : Nat} {x : K} (hx : 0 < x) (hp : 0 < p) : nearestPos p (nearestPos p x) = nearestPos p x := by
  have h0 := nearestPos_pos hx hp
  obtain ⟨b1, b2⟩ := nearestPos_bounds hx hp
  rcases lt_or_eq_of_le b2 with hlt | heq
  · -- the same exponent
    have hl : Int.log 2 (nearestPos p x) = Int.log 2 x := by
      apply le_antisymm
      · by_contra hc
        have hc' : Int.log 2 x + 1 ≤ Int.log 2 (nearestPos p x) := by omega
        have := (log_bounds h0).1
        have h2 : (2 : K) ^ (Int.log 2 x + 1) ≤ 2 ^ Int.log 2 (nearestPos p x) := zpow_le_zpow_right₀ (by norm_num) hc'
        linarith
      · by_contra hc
        have hc' : Int.log 2 (nearestPos p x) + 1 ≤ Int.log 2 x := by omega
        have := (log_bounds h0).2
        have h2 : (2 : K) ^ (Int.log 2 (nearestPos p x) + 1) ≤ 2 ^ Int.log 2 x := zpow_le_zpow_right₀ (by norm_num) hc'
        linarith
    exact nearestPos_of_int h0 hp (k := roundEven (x / 2 ^ (Int.log 2 x + 1 - p))) (q := Int.log 2 x + 1 - p) rfl (by rw [hl])
  · have hl : Int.log 2 (nearestPos p x) = Int.log 2 x + 1 := by
      rw [heq]
      have := Int.log_zpow (R := K) (b := 2) (by norm_num) (Int.log 2 x + 1)
      exact_mod_cast this
    exact nearestPos_of_int h0 hp (k := 1) (q := Int.log 2 x + 1) (by rw [heq]; simp) (by rw [hl]; omega)

theorem nearestPos_one {p : Nat} (hp : 0 < p) : nearestPos p (1 : K) = 1 := by
  have hl : Int.log 2 (1 : K) = 0 := Int.log_one_right 2
  exact nearestPos_of_int one_pos hp (k := 1) (q := 0) (by simp) (by rw [hl]; omega)

/-- IEEE rounding to nearest with `p ≥ 1` binary digits: unit roundoff `2^-p`. -/
theorem nearestEven_rounding {p : Nat} (hp : 0 < p) : Rounding (nearestEven p : K → K) ((2 : K) ^ (-(p : Int))) where
  mono x y h := by
    unfold nearestEven
    by_cases hx : 0 < x
    · have hy := lt_of_lt_of_le hx h
      simp only [hx, hy, if_true]
      exact nearestPos_mono hx hp h
    · by_cases hy : 0 < y
      · have py := nearestPos_pos (p := p) hy hp
        by_cases hx' : x < 0
        · have px := nearestPos_pos (p := p) (neg_pos.mpr hx') hp
          simp only [hx, hy, hx', if_true, if_false]; linarith
        · simp only [hx, hy, hx', if_true, if_false]; exact py.le
      · by_cases hx' : x < 0
        · have px := nearestPos_pos (p := p) (neg_pos.mpr hx') hp
          by_cases hy' : y < 0
          · simp only [hx, hy, hx', hy', if_true, if_false]
            exact neg_le_neg (nearestPos_mono (neg_pos.mpr hy') hp (neg_le_neg h))
          · simp only [hx, hy, hx', hy', if_true, if_false]; linarith
        · have : ¬ y < 0 := by
            intro hy'; exact hx' (lt_of_le_of_lt h hy')
          simp [hx, hy, hx', this]
  idem x := by
    unfold nearestEven
    by_cases hx : 0 < x
    · have px := nearestPos_pos (p := p) hx hp
      simp only [hx, px, if_true]
      exact nearestPos_idem hx hp
    · by_cases hx' : x < 0
      · have px := nearestPos_pos (p := p) (neg_pos.mpr hx') hp
        have h1 : ¬ (0 : K) < -nearestPos p (-x) := by linarith
        have h2 : -nearestPos p (-x) < 0 := by linarith
        simp only [hx, hx', if_true, if_false, h1, h2, neg_neg]
        rw [nearestPos_idem (neg_pos.mpr hx') hp]
      · simp [hx, hx']
  neg x := by
    unfold nearestEven
    by_cases hx : 0 < x
    · have : ¬ x < 0 := not_lt.mpr hx.le
      simp [hx, this]
    · by_cases hx' : x < 0
      · simp [hx, hx']
      · simp [hx, hx']
  one := by
    simp [nearestEven, nearestPos_one hp]
  err x := by
    unfold nearestEven
    by_cases hx : 0 < x
    · simp only [hx, if_true]
      rw [abs_of_pos hx]; exact nearestPos_err hx
    · by_cases hx' : x < 0
      · simp only [hx, hx', if_true, if_false]
        have := nearestPos_err (p := p) (neg_pos.mpr hx')
        rw [abs_of_neg hx']
        have e : -nearestPos p (-x) - x = -(nearestPos p (-x) - -x) := by ring
        rw [e, abs_neg]; exact this
      · have : x = 0 := le_antisymm (not_lt.mp hx) (not_lt.mp hx')
        simp [this]

/-- Exact arithmetic is a rounding. -/
theorem id_rounding : Rounding (id : K → K) 0 := ⟨fun _ _ h => h, fun _ => rfl, fun _ => rfl, rfl, fun x => by simp⟩

namespace Rounding
variable {rnd : K → K} {u : K} (R : Rounding rnd u)
include R

theorem zero : rnd 0 = 0 := by
  have := R.neg 0
  rw [neg_zero] at this
  linarith

theorem nonneg {x : K} (h : 0 ≤ x) : 0 ≤ rnd x := by
  have := R.mono 0 x h
  rwa [R.zero] at this

theorem u_nonneg : 0 ≤ u := by
  have := R.err 1
  rw [R.one] at this
  simpa using this

theorem le_of {x y : K} (hy : IsFloat rnd y) (h : x ≤ y) : rnd x ≤ y := by
  have := R.mono x y h
  rwa [show rnd y = y from hy] at this

theorem ge_of {x y : K} (hy : IsFloat rnd y) (h : y ≤ x) : y ≤ rnd x := by
  have := R.mono y x h
  rwa [show rnd y = y from hy] at this

theorem isFloat (x : K) : IsFloat rnd (rnd x) := R.idem x

theorem lower {x : K} (h : 0 ≤ x) : (1 - u) * x ≤ rnd x := by
  have := (abs_le.mp (R.err x)).1
  rw [abs_of_nonneg h] at this
  linarith

theorem upper {x : K} (h : 0 ≤ x) : rnd x ≤ (1 + u) * x := by
  have := (abs_le.mp (R.err x)).2
  rw [abs_of_nonneg h] at this
  linarith

theorem pos (hu : u < 1) {x : K} (h : 0 < x) : 0 < rnd x :=
  lt_of_lt_of_le (mul_pos (by linarith) h) (R.lower h.le)

end Rounding
end Verif.Spec
