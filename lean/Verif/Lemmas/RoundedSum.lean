import Verif.Lemmas.RoundedElem

/-! Helper lemmas: the error of a field's value and derivatives in floating-point arithmetic. -/

namespace Verif
open Spec
namespace Fl
variable {K : Type} [Field K] [LinearOrder K] [FloorRing K] [IsStrictOrderedRing K] {rnd : K → K} {u : K}

omit [FloorRing K] in
theorem filter_sum_err {n : Nat} (p : Fin n → Bool) (t e : Fin n → K) {A : K} (h1 : ∀ j, p j = true → |t j - e j| ≤ A)
    (h2 : ∀ j, p j = false → |e j| ≤ A) (l : List (Fin n)) :
    |((l.filter p).map t).sum - (l.map e).sum| ≤ (l.length : K) * A := by
  induction l with
  | nil => simp
  | cons j l ih =>
    rw [List.filter_cons]
    have hlen : (((j :: l).length : Nat) : K) = (l.length : K) + 1 := by simp
    rw [hlen, abs_le]
    rw [abs_le] at ih
    cases hp : p j with
    | true =>
      have := h1 j hp
      rw [abs_le] at this
      simp only [if_true, List.map_cons, List.sum_cons]
      constructor <;> linarith [ih.1, ih.2, this.1, this.2]
    | false =>
      have := h2 j hp
      rw [abs_le] at this
      simp only [Bool.false_eq_true, if_false, List.map_cons, List.sum_cons]
      constructor <;> linarith [ih.1, ih.2, this.1, this.2]

/-- The rounded sum over the corners in the bin is close to the exact sum over all corners. -/
theorem sum_close (R : Rounding rnd u) {n : Nat} (hu : u * (n : K) ≤ 1) (p : Fin n → Bool) (t e : Fin n → K) {A B : K} (B0 : 0 ≤ B)
    (hB : ∀ j, |t j| ≤ B) (h1 : ∀ j, p j = true → |t j - e j| ≤ A) (h2 : ∀ j, p j = false → |e j| ≤ A) :
    |rsum rnd 0 (((List.finRange n).filter p).map t) - ∑ j, e j| ≤ (n : K) ^ 2 * (u * B) + (n : K) * A := by
  have u0 := R.u_nonneg
  have hlen : (((List.finRange n).filter p).map t).length ≤ n := by
    rw [List.length_map]
    exact (List.length_filter_le _ _).trans (by simp)
  have hlen' : (((((List.finRange n).filter p).map t).length : Nat) : K) ≤ n := by exact_mod_cast hlen
  have hlen0 : (0 : K) ≤ (((((List.finRange n).filter p).map t).length : Nat) : K) := Nat.cast_nonneg _
  have s1 := rsum_err R (((List.finRange n).filter p).map t) (M := B)
    (by intro x hx; obtain ⟨j, _, rfl⟩ := List.mem_map.mp hx; exact hB j) B0 ((mul_le_mul_of_nonneg_left hlen' u0).trans hu)
  have s2 := filter_sum_err p t e h1 h2 (List.finRange n)
  have e1 : ((List.finRange n).map e).sum = ∑ j, e j := by rw [← List.ofFn_eq_map, List.sum_ofFn]
  rw [e1, List.length_finRange] at s2
  have s3 : (((((List.finRange n).filter p).map t).length : Nat) : K) ^ 2 ≤ (n : K) ^ 2 := pow_le_pow_left₀ hlen0 hlen' 2
  have s4 := mul_le_mul_of_nonneg_right s3 (mul_nonneg u0 B0)
  rw [abs_le] at *
  constructor <;> linarith [s1.1, s1.2, s2.1, s2.2]

/-- The exact weight of corner `j`. -/
def wgt (a h c : Fin 2 → K) (j : Fin 4) : K := (1 - dist quadUnit a h c j 0 / h 0) * (1 - dist quadUnit a h c j 1 / h 1)

omit [FloorRing K] in
theorem bilinear_wgt {a h : Fin 2 → K} (hh : ∀ i, 0 < h i) (v : Fin 4 → K) (c : Fin 2 → K) :
    bilinear a h v c = ∑ j, wgt a h c j * v j := by
  have h0 := (hh 0).ne'
  have h1 := (hh 1).ne'
  simp only [bilinear, wgt, dist, Fin.sum_univ_four, quadUnit]
  simp
  field_simp
  ring

/-- The exact one-dimensional factor is in [0, 1]. -/
theorem fac_bounds {a h c : Fin 2 → K} (hh : ∀ i, 0 < h i) (hc : InCell a h c) (j : Fin 4) (i : Fin 2) :
    0 ≤ 1 - dist quadUnit a h c j i / h i ∧ 1 - dist quadUnit a h c j i / h i ≤ 1 := by
  obtain ⟨d0, d1⟩ := inCell_dist (unit := quadUnit) hc j i
  have e1 : dist quadUnit a h c j i / h i ≤ 1 := (div_le_one (hh i)).mpr d1
  have e0 : 0 ≤ dist quadUnit a h c j i / h i := div_nonneg d0 (hh i).le
  constructor <;> linarith

/-- In a direction in which the corner is lost its factor is at most one roundoff. -/
theorem lost_fac (R : Rounding rnd u) {a h c : Fin 2 → K} (hh : ∀ i, 0 < h i) {j : Fin 4} {i : Fin 2} (hf : ∀ i, IsFloat rnd (c i))
    (hl : LostAt quadUnit rnd a h c j i) : 1 - dist quadUnit a h c j i / h i ≤ u := by
  have h1 := lost_dist R hf hl
  have h2 := R.lower (hh i).le
  have : 1 - u ≤ dist quadUnit a h c j i / h i := by rw [le_div_iff₀ (hh i)]; linarith
  linarith

theorem value_weight (R : Rounding rnd u) (hu : u ≤ 1 / 64) {a h c : Fin 2 → K} (hh : ∀ i, 0 < h i) (hc : InCell a h c) (nd el : Nat) (j : Fin 4) :
    let W := quadF rnd c (corner rnd (quadOps rnd) quadUnit nd el a h j).n (corner rnd (quadOps rnd) quadUnit nd el a h j).h (corner rnd (quadOps rnd) quadUnit nd el a h j).s
    (0 ≤ W ∧ W ≤ 1) ∧ |W - wgt a h c j| ≤ 11 * u := by
  intro W
  have w := fun i => wt_bounds R (by linarith) (hh i) (inCell_dist (unit := quadUnit) hc j i).1 (inCell_dist (unit := quadUnit) hc j i).2
  have hW : W = rnd (rnd (1 - frac rnd (dist quadUnit a h c j 0) (h 0)) * rnd (1 - frac rnd (dist quadUnit a h c j 1) (h 1))) := by
    simp only [W, quadF, local1_corner flQuad R]
  rw [hW]
  exact prod_bounds R (w 0).1 (w 1).1 (fac_bounds hh hc j 0) (w 0).2 (w 1).2

omit [FloorRing K] in
theorem abs_wv {w v M B : K} (h0 : |w| ≤ B) (hM : |v| ≤ M) : |w * v| ≤ B * M := by
  rw [abs_mul]
  exact mul_le_mul h0 hM (abs_nonneg _) ((abs_nonneg _).trans h0)

/-- The error of the value. -/
theorem value_close (R : Rounding rnd u) (hu : u ≤ 1 / 64) {a h c : Fin 2 → K} (hh : ∀ i, 0 < h i) (hc : InCell a h c)
    (hf : ∀ i, IsFloat rnd (c i)) (p : Fin 4 → Bool) (hp : ∀ j, ¬ Lost quadUnit rnd a h c j → p j = true) (v : Fin 4 → K)
    (hv : ∀ j, IsFloat rnd (v j)) {M : K} (hM : ∀ j, |v j| ≤ M) (nd : Fin 4 → Nat) (el : Nat) :
    |rsum rnd 0 (((List.finRange 4).filter p).map fun j => rnd (quadF rnd c (corner rnd (quadOps rnd) quadUnit (nd j) el a h j).n (corner rnd (quadOps rnd) quadUnit (nd j) el a h j).h
      (corner rnd (quadOps rnd) quadUnit (nd j) el a h j).s * v j)) - bilinear a h v c| ≤ 64 * u * M := by
  have u0 := R.u_nonneg
  have M0 : 0 ≤ M := (abs_nonneg _).trans (hM 0)
  rw [bilinear_wgt hh]
  have tb := fun j => term_bounds R (value_weight R hu hh hc (nd j) el j).1 (value_weight R hu hh hc (nd j) el j).2 (hv j) (hM j)
  have := sum_close R (by push_cast; linarith) p (fun j => rnd (quadF rnd c (corner rnd (quadOps rnd) quadUnit (nd j) el a h j).n (corner rnd (quadOps rnd) quadUnit (nd j) el a h j).h
      (corner rnd (quadOps rnd) quadUnit (nd j) el a h j).s * v j)) (fun j => wgt a h c j * v j) (A := 12 * u * M) M0 (fun j => (tb j).1) (fun j _ => (tb j).2) ?_
  · push_cast at this; linarith
  · intro j hj
    obtain ⟨i, hl⟩ : Lost quadUnit rnd a h c j := by
      by_contra hn
      rw [hp j hn] at hj
      cases hj
    have l := lost_fac R hh hf hl
    have b0 := fac_bounds hh hc j 0
    have b1 := fac_bounds hh hc j 1
    have hw : |wgt a h c j| ≤ u := by
      unfold wgt
      rw [abs_of_nonneg (mul_nonneg b0.1 b1.1)]
      fin_cases i
      · calc _ ≤ u * 1 := mul_le_mul l b1.2 b1.1 u0
          _ = u := mul_one u
      · calc _ ≤ 1 * u := mul_le_mul b0.2 l b1.1 zero_le_one
          _ = u := one_mul u
    have := abs_wv hw (hM j)
    have : 0 ≤ u * M := mul_nonneg u0 M0
    linarith

/-! ### Derivatives -/

theorem quot_bounds (R : Rounding rnd u) (hu : u ≤ 1 / 64) {x h : K} (hh : 0 < h) (hx : 0 ≤ x) :
    (1 - 2 * u) * (x / h) ≤ rnd (x / rnd h) ∧ rnd (x / rnd h) ≤ (1 + 4 * u) * (x / h) := by
  have u0 := R.u_nonneg
  have hH : 0 < rnd h := R.pos (by linarith) hh
  have q0 : 0 ≤ x / h := div_nonneg hx hh.le
  have ex : x = x / h * h := by field_simp
  have l := R.lower hh.le
  have g := R.upper hh.le
  have c1 : x / rnd h ≤ (1 + 2 * u) * (x / h) := by
    rw [div_le_iff₀ hH]
    have : (1 : K) ≤ (1 + 2 * u) * (1 - u) := by nlinarith
    calc x = x / h * h * 1 := by rw [mul_one]; exact ex
      _ ≤ x / h * h * ((1 + 2 * u) * (1 - u)) := mul_le_mul_of_nonneg_left this (by rw [← ex]; exact hx)
      _ = (1 + 2 * u) * (x / h) * ((1 - u) * h) := by ring
      _ ≤ (1 + 2 * u) * (x / h) * rnd h := mul_le_mul_of_nonneg_left l (by positivity)
  have c2 : (1 - u) * (x / h) ≤ x / rnd h := by
    rw [le_div_iff₀ hH]
    calc (1 - u) * (x / h) * rnd h ≤ (1 - u) * (x / h) * ((1 + u) * h) :=
          mul_le_mul_of_nonneg_left g (mul_nonneg (by linarith) q0)
      _ = x / h * h * ((1 - u) * (1 + u)) := by ring
      _ ≤ x / h * h * 1 := mul_le_mul_of_nonneg_left (by nlinarith) (by rw [← ex]; exact hx)
      _ = x := by rw [mul_one]; exact ex.symm
  have p0 : 0 ≤ x / rnd h := div_nonneg hx hH.le
  constructor
  · calc (1 - 2 * u) * (x / h) ≤ (1 - u) * ((1 - u) * (x / h)) := by nlinarith [mul_nonneg (mul_nonneg u0 u0) q0]
      _ ≤ (1 - u) * (x / rnd h) := mul_le_mul_of_nonneg_left c2 (by linarith)
      _ ≤ _ := R.lower p0
  · calc rnd (x / rnd h) ≤ (1 + u) * (x / rnd h) := R.upper p0
      _ ≤ (1 + u) * ((1 + 2 * u) * (x / h)) := mul_le_mul_of_nonneg_left c1 (by linarith)
      _ ≤ (1 + 4 * u) * (x / h) := by nlinarith [mul_nonneg (mul_nonneg u0 (by linarith : (0:K) ≤ 1 - 2 * u)) q0]

/-- A term of a derivative: weight `W` near `X`, both at most `2 g`. -/
theorem dterm_bounds (R : Rounding rnd u) (hu : u ≤ 1 / 64) {W X v M g : K} (hg : 0 ≤ g) (hW : |W| ≤ 2 * g) (e : |W - X| ≤ 9 * u * g)
    (hM : |v| ≤ M) : |rnd (W * v)| ≤ 3 * (M * g) ∧ |rnd (W * v) - X * v| ≤ 11 * (u * (M * g)) := by
  have u0 := R.u_nonneg
  have M0 : 0 ≤ M := (abs_nonneg _).trans hM
  have mg : 0 ≤ M * g := mul_nonneg M0 hg
  have h1 := abs_wv hW hM
  have h2 := abs_wv e hM
  have h3 := R.err (W * v)
  have h4 := mul_le_mul_of_nonneg_left h1 u0
  rw [abs_le] at h1 h3
  have h5 : |W * v - X * v| ≤ 9 * u * g * M := by rw [← sub_mul]; exact h2
  rw [abs_le] at h5
  have h6 : u * (2 * g * M) ≤ 1 / 64 * (2 * g * M) := mul_le_mul_of_nonneg_right hu (by positivity)
  constructor <;> rw [abs_le] <;> constructor <;> nlinarith [h1.1, h1.2, h3.1, h3.2, h5.1, h5.2]

theorem sign_abs (j : Fin 4) (i : Fin 2) : (quadSign (j : Nat) i : K) = 1 ∨ (quadSign (j : Nat) i : K) = -1 := by
  rcases (flQuad (rnd := (id : K → K))).sign j i with h | h
  · exact Or.inl h.2
  · exact Or.inr h.2

/-- `rnd` of `±x`. -/
theorem rnd_sign (R : Rounding rnd u) {s : K} (hs : s = 1 ∨ s = -1) (x : K) : rnd (s * x) = s * rnd x := by
  rcases hs with rfl | rfl
  · simp
  · rw [neg_one_mul, neg_one_mul, R.neg]

theorem abs_sign {s : K} (hs : s = 1 ∨ s = -1) : |s| = 1 := by rcases hs with rfl | rfl <;> simp

/-- The other direction. -/
def other (i : Fin 2) : Fin 2 := if i = 0 then 1 else 0

theorem grad_weight (R : Rounding rnd u) (hu : u ≤ 1 / 64) {a h c : Fin 2 → K} (hh : ∀ i, 0 < h i) (hc : InCell a h c) (nd el : Nat) (j : Fin 4)
    (di : Fin 2) :
    ∃ W, quadGrad rnd c (corner rnd (quadOps rnd) quadUnit nd el a h j).n (corner rnd (quadOps rnd) quadUnit nd el a h j).h (corner rnd (quadOps rnd) quadUnit nd el a h j).s di = .ok W ∧
      |W| ≤ 2 * (1 / h di) ∧ |W - -quadSign (j : Nat) di * (1 - dist quadUnit a h c j (other di) / h (other di)) / h di| ≤ 9 * u * (1 / h di) := by
  have u0 := R.u_nonneg
  have key : ∀ di dj : Fin 2, let W := rnd (rnd (-quadSign (j : Nat) di * rnd (1 - frac rnd (dist quadUnit a h c j dj) (h dj))) / rnd (h di))
      |W| ≤ 2 * (1 / h di) ∧ |W - -quadSign (j : Nat) di * (1 - dist quadUnit a h c j dj / h dj) / h di| ≤ 9 * u * (1 / h di) := by
    intro di dj W
    obtain ⟨⟨w0, w1⟩, w2⟩ := wt_bounds R (by linarith) (hh dj) (inCell_dist (unit := quadUnit) hc j dj).1 (inCell_dist (unit := quadUnit) hc j dj).2
    set w := rnd (1 - frac rnd (dist quadUnit a h c j dj) (h dj)) with hw
    have fw : rnd w = w := R.idem _
    have hs : -quadSign (j : Nat) di = (1 : K) ∨ -quadSign (j : Nat) di = (-1 : K) := by
      rcases sign_abs (K := K) j di with e | e <;> rw [e] <;> simp
    have hW : W = -quadSign (j : Nat) di * rnd (w / rnd (h di)) := by
      simp only [W]
      rw [rnd_sign R hs, fw, mul_div_assoc, rnd_sign R hs]
    obtain ⟨q1, q2⟩ := quot_bounds R hu (hh di) w0
    have hd := hh di
    have hg : 0 < 1 / h di := by positivity
    have wg : w / h di = w * (1 / h di) := by ring
    have wg1 : w * (1 / h di) ≤ 1 / h di := by nlinarith
    have wg0 : 0 ≤ w * (1 / h di) := mul_nonneg w0 hg.le
    rw [wg] at q1 q2
    have uwg : u * (w * (1 / h di)) ≤ u * (1 / h di) := mul_le_mul_of_nonneg_left wg1 u0
    have uwg0 : 0 ≤ u * (w * (1 / h di)) := mul_nonneg u0 wg0
    have ug : u * (1 / h di) ≤ 1 / 64 * (1 / h di) := mul_le_mul_of_nonneg_right hu hg.le
    constructor
    · rw [hW, abs_mul, abs_sign hs, one_mul, abs_le]
      constructor <;> nlinarith
    · rw [hW, mul_div_assoc, ← mul_sub, abs_mul, abs_sign hs, one_mul]
      have e : (1 - dist quadUnit a h c j dj / h dj) / h di = (1 - dist quadUnit a h c j dj / h dj) * (1 / h di) := by ring
      rw [e]
      have w3 : |w * (1 / h di) - (1 - dist quadUnit a h c j dj / h dj) * (1 / h di)| ≤ 5 * u * (1 / h di) := by
        rw [← sub_mul, abs_mul, abs_of_pos hg]
        exact mul_le_mul_of_nonneg_right w2 hg.le
      rw [abs_le] at w3 ⊢
      constructor <;> nlinarith [w3.1, w3.2]
  have es : ∀ i, (corner rnd (quadOps rnd) quadUnit nd el a h j).s i = quadSign (j : Nat) i := fun i => rfl
  have eh : ∀ i, (corner rnd (quadOps rnd) quadUnit nd el a h j).h i = rnd (h i) := fun i => rfl
  have two : di = 0 ∨ di = 1 := by fin_cases di <;> simp
  rcases two with rfl | rfl
  · refine ⟨_, ?_, key 0 1⟩
    rw [← local1_corner flQuad R nd el a h c j 1, ← es 0, ← eh 0]; rfl
  · refine ⟨_, ?_, key 1 0⟩
    rw [← local1_corner flQuad R nd el a h c j 0, ← es 1, ← eh 1]; rfl

omit [FloorRing K] in
theorem two_steps {g Y P : K} (u0 : 0 ≤ u) (hu : u ≤ 1 / 64) (g0 : 0 ≤ g) (r1 : (1 - 2 * u) * g ≤ Y) (r2 : Y ≤ (1 + 4 * u) * g)
    (p1 : (1 - 2 * u) * Y ≤ P) (p2 : P ≤ (1 + 4 * u) * Y) : |P| ≤ 2 * g ∧ |P - g| ≤ 9 * u * g := by
  have t1 := mul_le_mul_of_nonneg_left r1 (by linarith : (0 : K) ≤ 1 - 2 * u)
  have t2 := mul_le_mul_of_nonneg_left r2 (by linarith : (0 : K) ≤ 1 + 4 * u)
  have k1 : 0 ≤ u * g := mul_nonneg u0 g0
  have k2 : u * g ≤ 1 / 64 * g := mul_le_mul_of_nonneg_right hu g0
  have k3 : u * (u * g) ≤ 1 / 64 * (u * g) := mul_le_mul_of_nonneg_right hu k1
  have k4 : 0 ≤ u * (u * g) := mul_nonneg u0 k1
  have b1 : g - 4 * (u * g) + 4 * (u * (u * g)) ≤ P := by
    have : (1 - 2 * u) * ((1 - 2 * u) * g) = g - 4 * (u * g) + 4 * (u * (u * g)) := by ring
    linarith
  have b2 : P ≤ g + 8 * (u * g) + 16 * (u * (u * g)) := by
    have : (1 + 4 * u) * ((1 + 4 * u) * g) = g + 8 * (u * g) + 16 * (u * (u * g)) := by ring
    linarith
  rw [mul_assoc]
  constructor <;> rw [abs_le] <;> constructor <;> linarith

theorem hess_weight (R : Rounding rnd u) (hu : u ≤ 1 / 64) {a h : Fin 2 → K} (hh : ∀ i, 0 < h i) (nd el : Nat) (j : Fin 4)
    (di dj : Fin 2) (hd : di ≠ dj) :
    ∃ W, quadHess rnd (corner rnd (quadOps rnd) quadUnit nd el a h j).h (corner rnd (quadOps rnd) quadUnit nd el a h j).s di dj = .ok W ∧
      |W| ≤ 2 * (1 / (h 0 * h 1)) ∧ |W - quadSign (j : Nat) 0 * quadSign (j : Nat) 1 / (h 0 * h 1)| ≤ 9 * u * (1 / (h 0 * h 1)) := by
  have u0 := R.u_nonneg
  have hs : (quadSign (j : Nat) 0 * quadSign (j : Nat) 1 : K) = 1 ∨ (quadSign (j : Nat) 0 * quadSign (j : Nat) 1 : K) = -1 := by
    rcases sign_abs (K := K) j 0 with e | e <;> rcases sign_abs (K := K) j 1 with e' | e' <;> rw [e, e'] <;> simp
  have key : let W := rnd (rnd (rnd (quadSign (j : Nat) 0 * quadSign (j : Nat) 1) / rnd (h 0)) / rnd (h 1))
      |W| ≤ 2 * (1 / (h 0 * h 1)) ∧ |W - quadSign (j : Nat) 0 * quadSign (j : Nat) 1 / (h 0 * h 1)| ≤ 9 * u * (1 / (h 0 * h 1)) := by
    intro W
    set s : K := quadSign (j : Nat) 0 * quadSign (j : Nat) 1 with hse
    have hW : W = s * rnd (rnd (1 / rnd (h 0)) / rnd (h 1)) := by
      simp only [W]
      have e1 : rnd s = s * 1 := by
        have := rnd_sign R hs 1
        rw [mul_one] at this
        rw [this, R.one]
      rw [e1, mul_div_assoc, rnd_sign R hs, mul_div_assoc, rnd_sign R hs]
    have h0 := hh 0
    have h1 := hh 1
    have g0 : 0 < 1 / h 0 := by positivity
    have g1 : 0 < 1 / h 1 := by positivity
    obtain ⟨q1, q2⟩ := quot_bounds R hu h0 (zero_le_one (α := K))
    set G := rnd (1 / rnd (h 0)) with hG
    have G0 : 0 ≤ G := le_trans (mul_nonneg (by linarith) g0.le) q1
    obtain ⟨p1, p2⟩ := quot_bounds R hu h1 G0
    have hg : 1 / (h 0 * h 1) = 1 / h 0 * (1 / h 1) := by field_simp
    have gp : 0 < 1 / h 0 * (1 / h 1) := mul_pos g0 g1
    have eg : G / h 1 = G * (1 / h 1) := by ring
    rw [eg] at p1 p2
    have r1 := mul_le_mul_of_nonneg_right q1 g1.le
    have r2 := mul_le_mul_of_nonneg_right q2 g1.le
    rw [mul_assoc] at r1 r2
    obtain ⟨t1, t2⟩ := two_steps u0 hu gp.le r1 r2 p1 p2
    rw [hg]
    constructor
    · rw [hW, abs_mul, abs_sign hs, one_mul]; exact t1
    · have e : s / (h 0 * h 1) = s * (1 / h 0 * (1 / h 1)) := by rw [← hg]; ring
      rw [hW, e, ← mul_sub, abs_mul, abs_sign hs, one_mul]; exact t2
  have e : quadHess rnd (corner rnd (quadOps rnd) quadUnit nd el a h j).h (corner rnd (quadOps rnd) quadUnit nd el a h j).s di dj =
      .ok (rnd (rnd (rnd (quadSign (j : Nat) 0 * quadSign (j : Nat) 1) / rnd (h 0)) / rnd (h 1))) := by
    have t1 : di = 0 ∨ di = 1 := by fin_cases di <;> simp
    have t2 : dj = 0 ∨ dj = 1 := by fin_cases dj <;> simp
    rcases t1 with rfl | rfl <;> rcases t2 with rfl | rfl
    · exact absurd rfl hd
    · rfl
    · rfl
    · exact absurd rfl hd
  exact ⟨_, e, key⟩

end Fl
end Verif
