import Verif.Lemmas.RoundedBin

/-! Helper lemmas: the grid computed from the limits of a body contains the body, with rounding errors and all. -/

namespace Verif
open Spec
namespace Fl
variable {K : Type} [Field K] [LinearOrder K] [FloorRing K] [IsStrictOrderedRing K] {rnd : K → K} {u : K} (R : Rounding rnd u)

omit [FloorRing K] in
theorem top_ineq {u n : K} (u0 : 0 ≤ u) (hu : u ≤ 1 / 64) (hn1 : 1 ≤ n) (hun : u * n ≤ 1 / 16) :
    (1 + u) * ((1 + u) * ((1 + 3 * u) * (n + 5 / 16) + 1)) < n + 2 := by
  have s1 : (1 + u) * (1 + u) ≤ 1 + 3 * u := by nlinarith
  have t1 : (1 + 3 * u) * (1 + 3 * u) ≤ 1 + 9 * u := by nlinarith
  have t2 := mul_le_mul_of_nonneg_right t1 (by linarith : (0 : K) ≤ n + 5 / 16)
  have s3 : 0 ≤ (1 + 3 * u) * (n + 5 / 16) + 1 := by positivity
  have s4 := mul_le_mul_of_nonneg_right s1 s3
  calc (1 + u) * ((1 + u) * ((1 + 3 * u) * (n + 5 / 16) + 1)) = (1 + u) * (1 + u) * ((1 + 3 * u) * (n + 5 / 16) + 1) := by ring
    _ ≤ (1 + 3 * u) * ((1 + 3 * u) * (n + 5 / 16) + 1) := s4
    _ = (1 + 3 * u) * (1 + 3 * u) * (n + 5 / 16) + (1 + 3 * u) := by ring
    _ ≤ (1 + 9 * u) * (n + 5 / 16) + (1 + 3 * u) := by linarith
    _ = n + 5 / 16 + 9 * (u * n) + 45 / 16 * u + 1 + 3 * u := by ring
    _ < n + 2 := by linarith

include R

/-- Bounds of the computed bin width and lower limit. -/
theorem axis_bounds (hu : u ≤ 1 / 64) {lo hi ι : K} {n : Nat} (hlt : lo < hi) (hn : 0 < n) (hι : ι = (hi - lo) / (n : K))
    (hr : 16 * u * (|lo| + (hi - lo)) ≤ ι) :
    0 < ι ∧ u * (n : K) ≤ 1 / 16 ∧ (n : K) * ι = hi - lo ∧
    (1 - 2 * u) * ι ≤ rnd (rnd (hi - lo) / (n : K)) ∧ rnd (rnd (hi - lo) / (n : K)) ≤ (1 + 3 * u) * ι ∧
    |rnd (lo - rnd (rnd (hi - lo) / (n : K))) - (lo - rnd (rnd (hi - lo) / (n : K)))| ≤ ι / 8 := by
  have u0 := R.u_nonneg
  have hn' : (0 : K) < (n : K) := by exact_mod_cast hn
  have hw : 0 < hi - lo := by linarith
  have hι0 : 0 < ι := by rw [hι]; exact div_pos hw hn'
  have hnι : (n : K) * ι = hi - lo := by rw [hι]; field_simp
  have hlo := abs_nonneg lo
  have hun : u * (n : K) ≤ 1 / 16 := by
    have h1 : 16 * u * ((n : K) * ι) ≤ ι := by
      rw [hnι]
      have : 0 ≤ 16 * u * |lo| := by positivity
      nlinarith
    have h2 : (16 * (u * (n : K))) * ι ≤ 1 * ι := by linarith
    have := le_of_mul_le_mul_right h2 hι0
    linarith
  have a1 := R.lower hw.le
  have a2 := R.upper hw.le
  have b1 : (1 - u) * ι ≤ rnd (hi - lo) / (n : K) := by
    rw [le_div_iff₀ hn']; linarith [mul_assoc (1 - u) ι (n : K), mul_comm ι (n : K), congrArg ((1 - u) * ·) hnι]
  have b2 : rnd (hi - lo) / (n : K) ≤ (1 + u) * ι := by
    rw [div_le_iff₀ hn']; linarith [mul_assoc (1 + u) ι (n : K), mul_comm ι (n : K), congrArg ((1 + u) * ·) hnι]
  have b0 : 0 ≤ rnd (hi - lo) / (n : K) := div_nonneg (R.nonneg hw.le) hn'.le
  have c1 := R.lower b0
  have c2 := R.upper b0
  have d1 : (1 - 2 * u) * ι ≤ rnd (rnd (hi - lo) / (n : K)) := by
    have := mul_le_mul_of_nonneg_left b1 (by linarith : (0 : K) ≤ 1 - u)
    nlinarith [mul_nonneg (mul_nonneg u0 u0) hι0.le]
  have d2 : rnd (rnd (hi - lo) / (n : K)) ≤ (1 + 3 * u) * ι := by
    have := mul_le_mul_of_nonneg_left b2 (by linarith : (0 : K) ≤ 1 + u)
    nlinarith [mul_nonneg u0 hι0.le, mul_nonneg (mul_nonneg u0 (by linarith : (0:K) ≤ 1 - u)) hι0.le]
  refine ⟨hι0, hun, hnι, d1, d2, ?_⟩
  set d := rnd (rnd (hi - lo) / (n : K)) with hd
  have d0 : 0 ≤ d := R.nonneg b0
  have e := R.err (lo - d)
  have hιw : ι ≤ hi - lo := by
    rw [← hnι]
    have : (1 : K) ≤ (n : K) := by exact_mod_cast hn
    nlinarith
  have ab : |lo - d| ≤ 2 * (|lo| + (hi - lo)) := by
    have := abs_sub lo d
    rw [abs_of_nonneg d0] at this
    nlinarith
  calc |rnd (lo - d) - (lo - d)| ≤ u * |lo - d| := e
    _ ≤ u * (2 * (|lo| + (hi - lo))) := mul_le_mul_of_nonneg_left ab u0
    _ ≤ ι / 8 := by linarith

/-- Everything in a slightly enlarged body has a bin. -/
theorem axis_in (hu : u ≤ 1 / 64) {lo hi ι : K} {n : Nat} (hlt : lo < hi) (hn : 0 < n) (hι : ι = (hi - lo) / (n : K))
    (hr : 16 * u * (|lo| + (hi - lo)) ≤ ι) {x : K} (hx : IsFloat rnd x) (h1 : lo - 3 / 16 * ι ≤ x) (h2 : x ≤ hi + 3 / 16 * ι) :
    0 < rnd (rnd (hi - lo) / (n : K)) ∧
    FlIn rnd (rnd (lo - rnd (rnd (hi - lo) / (n : K)))) (rnd (rnd (hi - lo) / (n : K))) ((n : Int) + 2) x := by
  have u0 := R.u_nonneg
  obtain ⟨hι0, hun, hnι, d1, d2, hm⟩ := axis_bounds R hu hlt hn hι hr
  set d := rnd (rnd (hi - lo) / (n : K)) with hd
  set m := rnd (lo - d) with hmd
  rw [abs_le] at hm
  have hn1 : (1 : K) ≤ (n : K) := by exact_mod_cast hn
  have d0 : 0 < d := lt_of_lt_of_le (mul_pos (by linarith) hι0) d1
  have huι : u * ι ≤ 1 / 64 * ι := mul_le_mul_of_nonneg_right hu hι0.le
  have huι0 : 0 ≤ u * ι := mul_nonneg u0 hι0.le
  have mx : m ≤ x := by nlinarith
  refine ⟨d0, ⟨mx, ?_⟩, ?_⟩
  · apply R.ge_of hx
    have hc : (((n : Int) + 2 : Int) : K) = (n : K) + 2 := by push_cast; rfl
    rw [hc]
    have l := R.lower (mul_nonneg d0.le (by linarith : (0 : K) ≤ (n : K) + 2))
    -- d (n+1) from below and u d (n+2) from above
    have p1 : (1 - 2 * u) * ι * ((n : K) + 1) ≤ d * ((n : K) + 1) := mul_le_mul_of_nonneg_right d1 (by linarith)
    have p2 : d * ((n : K) + 2) ≤ (1 + 3 * u) * ι * ((n : K) + 2) := mul_le_mul_of_nonneg_right d2 (by linarith)
    have p3 : u * (d * ((n : K) + 2)) ≤ (1 + 3 * u) * (u * ((n : K) + 2)) * ι := by
      calc u * (d * ((n : K) + 2)) ≤ u * ((1 + 3 * u) * ι * ((n : K) + 2)) := mul_le_mul_of_nonneg_left p2 u0
        _ = _ := by ring
    have p4 : (1 + 3 * u) * (u * ((n : K) + 2)) ≤ 1 / 8 := by nlinarith
    have p5 : (1 + 3 * u) * (u * ((n : K) + 2)) * ι ≤ 1 / 8 * ι := mul_le_mul_of_nonneg_right p4 hι0.le
    have p6 : u * (n : K) * ι ≤ 1 / 16 * ι := mul_le_mul_of_nonneg_right hun hι0.le
    nlinarith
  · have hc : (((n : Int) + 2 : Int) : K) = (n : K) + 2 := by push_cast; rfl
    rw [flBin, Int.floor_lt, hc]
    have y0 : 0 ≤ x - m := by linarith
    have y1 : x - m ≤ ((n : K) + 5 / 16) * ι + d := by linarith
    have l1 := R.upper y0
    have l2 : rnd (x - m) / d ≤ (1 + u) * ((1 + 3 * u) * ((n : K) + 5 / 16) + 1) := by
      rw [div_le_iff₀ d0]
      have q1 : ι ≤ (1 + 3 * u) * d := by
        have := mul_le_mul_of_nonneg_left d1 (by linarith : (0 : K) ≤ 1 + 3 * u)
        have : 0 ≤ (u - 6 * u * u) * ι := mul_nonneg (by nlinarith) hι0.le
        nlinarith
      have q2 : ((n : K) + 5 / 16) * ι ≤ ((n : K) + 5 / 16) * ((1 + 3 * u) * d) := mul_le_mul_of_nonneg_left q1 (by linarith)
      calc rnd (x - m) ≤ (1 + u) * (x - m) := l1
        _ ≤ (1 + u) * (((n : K) + 5 / 16) * ((1 + 3 * u) * d) + d) := mul_le_mul_of_nonneg_left (by linarith) (by linarith)
        _ = _ := by ring
    have l3 := R.upper (div_nonneg (R.nonneg y0) d0.le)
    calc rnd (rnd (x - m) / d) ≤ (1 + u) * (rnd (x - m) / d) := l3
      _ ≤ (1 + u) * ((1 + u) * ((1 + 3 * u) * ((n : K) + 5 / 16) + 1)) := mul_le_mul_of_nonneg_left l2 (by linarith)
      _ < (n : K) + 2 := top_ineq u0 hu hn1 hun

/-- The computed limits are within two margins of the body. -/
theorem axis_far (hu : u ≤ 1 / 64) {lo hi ι : K} {n : Nat} (hlt : lo < hi) (hn : 0 < n) (hι : ι = (hi - lo) / (n : K))
    (hr : 16 * u * (|lo| + (hi - lo)) ≤ ι) :
    lo - 2 * ι ≤ rnd (lo - rnd (rnd (hi - lo) / (n : K))) ∧
    flMax rnd (rnd (lo - rnd (rnd (hi - lo) / (n : K)))) (rnd (rnd (hi - lo) / (n : K))) ((n : Int) + 2) ≤ hi + 2 * ι := by
  have u0 := R.u_nonneg
  obtain ⟨hι0, hun, hnι, d1, d2, hm⟩ := axis_bounds R hu hlt hn hι hr
  set d := rnd (rnd (hi - lo) / (n : K)) with hd
  set m := rnd (lo - d) with hmd
  rw [abs_le] at hm
  have hn1 : (1 : K) ≤ (n : K) := by exact_mod_cast hn
  have d0 : 0 < d := lt_of_lt_of_le (mul_pos (by linarith) hι0) d1
  have huι : u * ι ≤ 1 / 64 * ι := mul_le_mul_of_nonneg_right hu hι0.le
  refine ⟨by nlinarith, ?_⟩
  have hc : (((n : Int) + 2 : Int) : K) = (n : K) + 2 := by push_cast; rfl
  rw [flMax, hc]
  have l := R.upper (mul_nonneg d0.le (by linarith : (0 : K) ≤ (n : K) + 2))
  have p1 : d * ((n : K) + 1) ≤ (1 + 3 * u) * ι * ((n : K) + 1) := mul_le_mul_of_nonneg_right d2 (by linarith)
  have p2 : d * ((n : K) + 2) ≤ (1 + 3 * u) * ι * ((n : K) + 2) := mul_le_mul_of_nonneg_right d2 (by linarith)
  have p3 : u * (d * ((n : K) + 2)) ≤ (1 + 3 * u) * (u * ((n : K) + 2)) * ι := by
    calc u * (d * ((n : K) + 2)) ≤ u * ((1 + 3 * u) * ι * ((n : K) + 2)) := mul_le_mul_of_nonneg_left p2 u0
      _ = _ := by ring
  have p4 : (1 + 3 * u) * (u * ((n : K) + 2)) ≤ 1 / 8 := by nlinarith
  have p5 : (1 + 3 * u) * (u * ((n : K) + 2)) * ι ≤ 1 / 8 * ι := mul_le_mul_of_nonneg_right p4 hι0.le
  have p6 : u * (n : K) * ι ≤ 1 / 16 * ι := mul_le_mul_of_nonneg_right hun hι0.le
  have p7 : (1 + 3 * u) * ι * ((n : K) + 1) = (n : K) * ι + ι + 3 * (u * (n : K) * ι) + 3 * (u * ι) := by ring
  have hS : m + rnd (d * ((n : K) + 2)) ≤ hi + 3 / 2 * ι := by
    have e1 : (1 + u) * (d * ((n : K) + 2)) = d * ((n : K) + 1) + d + u * (d * ((n : K) + 2)) := by ring
    rw [e1] at l
    linarith [hm.2]
  have e := R.err (hi + 3 / 2 * ι)
  have ab : |hi + 3 / 2 * ι| ≤ |lo| + (hi - lo) + 3 / 2 * ι := by
    rw [abs_le]
    have l4 := le_abs_self lo
    have l5 := neg_abs_le lo
    constructor <;> linarith
  have e2 := mul_le_mul_of_nonneg_left ab u0
  rw [abs_le] at e
  have := R.mono _ _ hS
  nlinarith [e.2]

end Fl
end Verif
