import Verif.Lemmas.RoundedSum
import Verif.Lemmas.RoundedHist

/-! Helper lemmas: 3D fields in floating-point arithmetic. -/

namespace Verif
open Spec
namespace Fl
variable {K : Type} [Field K] [LinearOrder K] [FloorRing K] [IsStrictOrderedRing K] {rnd : K → K} {u : K}

/-! ### The bin of a point and the bins of a cell -/

/-- What an order of bins says about the coordinates. -/
theorem bin_order (R : Rounding rnd u) (hu : u ≤ 1 / 64) {m d x y : K} (d0 : 0 < d) (mx : m ≤ x) (my : m ≤ y)
    (hb : flBin rnd m d x ≤ flBin rnd m d y) : (1 - 2 * u) * (x - m) < (1 + 3 * u) * (y - m) + d := by
  have u0 := R.u_nonneg
  unfold flBin at hb
  have h1 := Int.lt_floor_add_one (rnd (rnd (x - m) / d))
  have h2 := Int.floor_le (rnd (rnd (y - m) / d))
  have h3 : ((⌊rnd (rnd (x - m) / d)⌋ : Int) : K) ≤ (⌊rnd (rnd (y - m) / d)⌋ : Int) := by exact_mod_cast hb
  have h4 : rnd (rnd (x - m) / d) < rnd (rnd (y - m) / d) + 1 := by linarith
  have X0 : 0 ≤ x - m := by linarith
  have Y0 : 0 ≤ y - m := by linarith
  have s1 : (1 - 2 * u) ≤ (1 - u) * (1 - u) := by nlinarith
  have s2 : (1 + u) * (1 + u) ≤ 1 + 3 * u := by nlinarith
  have lx : (1 - 2 * u) * ((x - m) / d) ≤ rnd (rnd (x - m) / d) := by
    have a1 := R.lower X0
    have a2 : (1 - u) * ((x - m) / d) ≤ rnd (x - m) / d := by
      rw [← mul_div_assoc]; exact div_le_div_of_nonneg_right a1 d0.le
    have a3 := R.lower (div_nonneg (R.nonneg X0) d0.le)
    have a4 := mul_le_mul_of_nonneg_left a2 (by linarith : (0 : K) ≤ 1 - u)
    have a5 := mul_le_mul_of_nonneg_right s1 (div_nonneg X0 d0.le)
    rw [mul_assoc] at a5
    exact a5.trans (a4.trans a3)
  have ly : rnd (rnd (y - m) / d) ≤ (1 + 3 * u) * ((y - m) / d) := by
    have a1 := R.upper Y0
    have a2 : rnd (y - m) / d ≤ (1 + u) * ((y - m) / d) := by
      rw [← mul_div_assoc]; exact div_le_div_of_nonneg_right a1 d0.le
    have a3 := R.upper (div_nonneg (R.nonneg Y0) d0.le)
    have a4 := mul_le_mul_of_nonneg_left a2 (by linarith : (0 : K) ≤ 1 + u)
    have a5 := mul_le_mul_of_nonneg_right s2 (div_nonneg Y0 d0.le)
    rw [mul_assoc] at a5
    exact a3.trans (a4.trans a5)
  have h5 : (1 - 2 * u) * ((x - m) / d) < (1 + 3 * u) * ((y - m) / d) + 1 := by linarith
  have h6 := mul_lt_mul_of_pos_right h5 d0
  rwa [add_mul, mul_assoc, div_mul_cancel₀ _ d0.ne', mul_assoc, div_mul_cancel₀ _ d0.ne', one_mul] at h6

/-- Coordinates of a slightly enlarged body in the wrong order are less than two margins apart if their bins are in the right order. -/
theorem axis_near (R : Rounding rnd u) (hu : u ≤ 1 / 64) {lo hi ι : K} {n : Nat} (hlt : lo < hi) (hn : 0 < n) (hι : ι = (hi - lo) / (n : K))
    (hr : 16 * u * (|lo| + (hi - lo)) ≤ ι) {x y : K} (hx : lo - 3 / 16 * ι ≤ x) (hy : lo - 3 / 16 * ι ≤ y) (hy2 : y ≤ hi + 3 / 16 * ι)
    (hb : flBin rnd (rnd (lo - rnd (rnd (hi - lo) / (n : K)))) (rnd (rnd (hi - lo) / (n : K))) x ≤
      flBin rnd (rnd (lo - rnd (rnd (hi - lo) / (n : K)))) (rnd (rnd (hi - lo) / (n : K))) y) : x < y + 13 / 8 * ι := by
  have u0 := R.u_nonneg
  obtain ⟨hι0, hun, hnι, d1, d2, hm⟩ := axis_bounds R hu hlt hn hι hr
  revert hb hm
  generalize rnd (rnd (hi - lo) / (n : K)) = d at *
  generalize rnd (lo - d) = m at *
  intro hb hm
  rw [abs_le] at hm
  obtain ⟨m1, m2⟩ := hm
  have d0 : 0 < d := lt_of_lt_of_le (mul_pos (by linarith) hι0) d1
  have huι : u * ι ≤ 1 / 64 * ι := mul_le_mul_of_nonneg_right hu hι0.le
  have huι0 : 0 ≤ u * ι := mul_nonneg u0 hι0.le
  have e1 : (1 - 2 * u) * ι = ι - 2 * (u * ι) := by ring
  have e2 : (1 + 3 * u) * ι = ι + 3 * (u * ι) := by ring
  rw [e1] at d1
  rw [e2] at d2
  have mx : m ≤ x := by linarith
  have my : m ≤ y := by linarith
  have h6 := bin_order R hu d0 mx my hb
  by_contra hn'
  have hge : y + 13 / 8 * ι ≤ x := not_lt.mp hn'
  have h7 : (1 - 2 * u) * (y - m + 13 / 8 * ι) ≤ (1 - 2 * u) * (x - m) := mul_le_mul_of_nonneg_left (by linarith) (by linarith)
  have h8 : u * (y - m) ≤ u * ((n : K) * ι + 3 / 2 * ι) := by
    apply mul_le_mul_of_nonneg_left _ u0
    linarith
  have h9 : u * (n : K) * ι ≤ 1 / 16 * ι := mul_le_mul_of_nonneg_right hun hι0.le
  have e3 : u * ((n : K) * ι + 3 / 2 * ι) = u * (n : K) * ι + 3 / 2 * (u * ι) := by ring
  have e4 : (1 - 2 * u) * (y - m + 13 / 8 * ι) = (y - m) - 2 * (u * (y - m)) + 13 / 8 * ι - 13 / 4 * (u * ι) := by ring
  have e5 : (1 + 3 * u) * (y - m) + d = (y - m) + 3 * (u * (y - m)) + d := by ring
  rw [e3] at h8
  rw [e4] at h7
  rw [e5] at h6
  generalize u * (y - m) = A at *
  generalize (1 - 2 * u) * (x - m) = B at *
  linarith

/-- A cell with an interpolator in the bin of a point comes within two margins of the point in every direction. -/
theorem touches_near {d n : Nat} {E : ElemOps K d} {unit sgn : Fin n → Fin d → K} {tested : Fin d → Prop} (F : FlElem rnd E unit sgn tested)
    (R : Rounding rnd u) (hu : u ≤ 1 / 64) {pts : List (Fin d → K)} {cells : List (List Nat)} (hm : FloatMesh unit rnd u pts cells)
    {lo hi : Fin d → K} (hg : Mesh.GridOf pts lo hi) {cell : List Nat} {a h c : Fin d → K} (hah : CellAt unit pts cell a h)
    (hc : ∀ i, lo i ≤ c i ∧ c i ≤ hi i) {nd el : Nat} {j : Fin n}
    (ht : touches rnd (List.ofFn (gMin rnd pts lo hi)) (List.ofFn (gIncr rnd pts lo hi)) (binAt rnd pts lo hi c)
      (corner rnd E unit nd el a h j) = true) (i : Fin d) :
    a i - 2 * margin pts i (lo i) (hi i) < c i ∧ c i < a i + h i + 2 * margin pts i (lo i) (hi i) := by
  have u0 := R.u_nonneg
  obtain ⟨m1, m2⟩ := F.cell_mem hah
  have l1 : lo i ≤ a i := (hg.low i).2 _ m1
  have l2 : a i + h i ≤ hi i := (hg.high i).2 _ m2
  have l3 := hah.2.1 i
  have w : lo i < hi i := by linarith
  have hn := Mesh.nDistinct_pos (List.ne_nil_of_mem m1) i
  have hr : 16 * u * (|lo i| + (hi i - lo i)) ≤ (hi i - lo i) / (nDistinct pts i : K) := hm.resolved i _ _ (hg.low i) (hg.high i)
  have hι := (axis_bounds R hu w hn rfl hr).1
  have em : margin pts i (lo i) (hi i) = (hi i - lo i) / (nDistinct pts i : K) := rfl
  rw [em]
  have l4 := le_abs_self (lo i)
  have l5 := neg_abs_le (lo i)
  obtain ⟨_, b1, b2⟩ := edge_bounds R hu (a := a i) (B := |lo i| + (hi i - lo i)) l3 (by rw [abs_le]; constructor <;> linarith)
    (by rw [abs_le]; constructor <;> linarith) (by linarith [abs_nonneg (lo i)])
  unfold touches at ht
  rw [decide_eq_true_iff, binAt, flBinOf_ofFn, flBinOf_ofFn, flBinOf_ofFn, between_ofFn] at ht
  obtain ⟨t1, t2⟩ := ht i
  obtain ⟨c1, c2⟩ := hc i
  have near := fun (x y : K) => axis_near R hu w hn rfl hr (x := x) (y := y)
  have mn : a i - 3 / 16 * ((hi i - lo i) / (nDistinct pts i : K)) ≤ minOf rnd (corner rnd E unit nd el a h j) i := by
    rw [minOf_corner F]; split <;> linarith
  have mx : maxOf rnd (corner rnd E unit nd el a h j) i ≤ a i + h i + 3 / 16 * ((hi i - lo i) / (nDistinct pts i : K)) := by
    rw [maxOf_corner F]; split <;> linarith
  have mx0 : a i ≤ maxOf rnd (corner rnd E unit nd el a h j) i := by
    rw [maxOf_corner F]
    split
    · exact R.ge_of (hm.float _ m1 i) (by linarith [R.nonneg l3.le])
    · linarith
  have n1 := near _ _ (by linarith) (by linarith) (by linarith) t1
  have n2 := near _ _ (by linarith) (by linarith) (by linarith) t2
  constructor <;> linarith

/-! ### Weights -/

theorem prod_err (R : Rounding rnd u) {w0 w1 X0 X1 α β : K} (h0 : 0 ≤ w0 ∧ w0 ≤ 1) (h1 : 0 ≤ w1 ∧ w1 ≤ 1) (x0 : 0 ≤ X0 ∧ X0 ≤ 1)
    (e0 : |w0 - X0| ≤ α) (e1 : |w1 - X1| ≤ β) :
    (0 ≤ rnd (w0 * w1) ∧ rnd (w0 * w1) ≤ 1) ∧ |rnd (w0 * w1) - X0 * X1| ≤ α + β + u := by
  have u0 := R.u_nonneg
  have p0 : 0 ≤ w0 * w1 := mul_nonneg h0.1 h1.1
  have p1 : w0 * w1 ≤ 1 := mul_le_one₀ h0.2 h1.1 h1.2
  refine ⟨⟨R.nonneg p0, R.le_of R.one p1⟩, ?_⟩
  have e := R.err (w0 * w1)
  rw [abs_of_nonneg p0] at e
  have a0 := (abs_nonneg _).trans e0
  have a1 := (abs_nonneg _).trans e1
  have d1 : |(w0 - X0) * w1| ≤ α := by
    rw [abs_mul, abs_of_nonneg h1.1]
    calc _ ≤ α * 1 := mul_le_mul e0 h1.2 h1.1 a0
      _ = α := mul_one _
  have d2 : |X0 * (w1 - X1)| ≤ β := by
    rw [abs_mul, abs_of_nonneg x0.1]
    calc _ ≤ 1 * β := mul_le_mul x0.2 e1 (abs_nonneg _) zero_le_one
      _ = β := one_mul _
  have hup : u * (w0 * w1) ≤ u := by nlinarith
  rw [abs_le] at *
  have eq : w0 * w1 - X0 * X1 = (w0 - X0) * w1 + X0 * (w1 - X1) := by ring
  constructor <;> linarith [e.1, e.2, d1.1, d1.2, d2.1, d2.2]

theorem term_err (R : Rounding rnd u) {W X v M α : K} (hW : 0 ≤ W ∧ W ≤ 1) (e : |W - X| ≤ α) (hv : IsFloat rnd v) (hM : |v| ≤ M) :
    |rnd (W * v)| ≤ M ∧ |rnd (W * v) - X * v| ≤ (α + u) * M := by
  have u0 := R.u_nonneg
  have hWv : |W * v| ≤ |v| := by
    rw [abs_mul, abs_of_nonneg hW.1]
    calc W * |v| ≤ 1 * |v| := mul_le_mul_of_nonneg_right hW.2 (abs_nonneg _)
      _ = |v| := one_mul _
  refine ⟨(abs_rnd_le R hv hWv).trans hM, ?_⟩
  have e1 := R.err (W * v)
  have e2 : u * |W * v| ≤ u * M := mul_le_mul_of_nonneg_left (hWv.trans hM) u0
  have e3 : |W * v - X * v| ≤ α * M := by
    rw [← sub_mul, abs_mul]
    exact mul_le_mul e hM (abs_nonneg _) ((abs_nonneg _).trans e)
  rw [abs_le] at *
  constructor <;> linarith [e1.1, e1.2, e3.1, e3.2]

/-- One exact factor of a corner's weight. -/
def fac (a h c : Fin 3 → K) (j : Fin 8) (i : Fin 3) : K := 1 - dist hexUnit a h c j i / h i

omit [FloorRing K] in
theorem trilinear_wgt {a h : Fin 3 → K} (hh : ∀ i, 0 < h i) (v : Fin 8 → K) (c : Fin 3 → K) :
    trilinear a h v c = ∑ j, fac a h c j 0 * fac a h c j 1 * fac a h c j 2 * v j := by
  have h0 := (hh 0).ne'
  have h1 := (hh 1).ne'
  have h2 := (hh 2).ne'
  simp only [trilinear, fac, dist, Fin.sum_univ_eight, hexUnit]
  simp
  field_simp
  ring

theorem fac_bounds3 {a h c : Fin 3 → K} (hh : ∀ i, 0 < h i) (hc : InCell a h c) (j : Fin 8) (i : Fin 3) :
    0 ≤ fac a h c j i ∧ fac a h c j i ≤ 1 := by
  obtain ⟨d0, d1⟩ := inCell_dist (unit := hexUnit) hc j i
  have e1 : dist hexUnit a h c j i / h i ≤ 1 := (div_le_one (hh i)).mpr d1
  have e0 : 0 ≤ dist hexUnit a h c j i / h i := div_nonneg d0 (hh i).le
  unfold fac
  constructor <;> linarith

theorem lost_fac3 (R : Rounding rnd u) {a h c : Fin 3 → K} (hh : ∀ i, 0 < h i) {j : Fin 8} {i : Fin 3} (hf : ∀ i, IsFloat rnd (c i))
    (hl : LostAt hexUnit rnd a h c j i) : fac a h c j i ≤ u := by
  have h1 := lost_dist R hf hl
  have h2 := R.lower (hh i).le
  have : 1 - u ≤ dist hexUnit a h c j i / h i := by rw [le_div_iff₀ (hh i)]; linarith
  unfold fac
  linarith

/-- The computed factor. -/
abbrev cfac (rnd : K → K) (a h c : Fin 3 → K) (j : Fin 8) (i : Fin 3) : K := rnd (1 - frac rnd (dist hexUnit a h c j i) (h i))

theorem cfac_bounds (R : Rounding rnd u) (hu : u ≤ 1 / 64) {a h c : Fin 3 → K} (hh : ∀ i, 0 < h i) (hc : InCell a h c) (j : Fin 8) (i : Fin 3) :
    (0 ≤ cfac rnd a h c j i ∧ cfac rnd a h c j i ≤ 1) ∧ |cfac rnd a h c j i - fac a h c j i| ≤ 5 * u :=
  wt_bounds R (by linarith) (hh i) (inCell_dist (unit := hexUnit) hc j i).1 (inCell_dist (unit := hexUnit) hc j i).2

theorem hexF_eq (R : Rounding rnd u) (nd el : Nat) (a h c : Fin 3 → K) (j : Fin 8) :
    hexF rnd c (corner rnd (hexOps rnd) hexUnit nd el a h j).n (corner rnd (hexOps rnd) hexUnit nd el a h j).h
      (corner rnd (hexOps rnd) hexUnit nd el a h j).s = rnd (rnd (cfac rnd a h c j 0 * cfac rnd a h c j 1) * cfac rnd a h c j 2) := by
  simp only [hexF, local1_corner flHex R]

/-- The error of the value. -/
theorem value_close3 (R : Rounding rnd u) (hu : u ≤ 1 / 64) {a h c : Fin 3 → K} (hh : ∀ i, 0 < h i) (hc : InCell a h c)
    (hf : ∀ i, IsFloat rnd (c i)) (p : Fin 8 → Bool) (hp : ∀ j, ¬ Lost hexUnit rnd a h c j → p j = true) (v : Fin 8 → K)
    (hv : ∀ j, IsFloat rnd (v j)) {M : K} (hM : ∀ j, |v j| ≤ M) :
    |rsum rnd 0 (((List.finRange 8).filter p).map fun j => rnd (rnd (rnd (cfac rnd a h c j 0 * cfac rnd a h c j 1) * cfac rnd a h c j 2) * v j)) -
      trilinear a h v c| ≤ 256 * u * M := by
  have u0 := R.u_nonneg
  have M0 : 0 ≤ M := (abs_nonneg _).trans (hM 0)
  have uM : 0 ≤ u * M := mul_nonneg u0 M0
  rw [trilinear_wgt hh]
  have cf := fun j i => cfac_bounds R hu hh hc j i
  have fb := fun j i => fac_bounds3 hh hc j i
  have w2 := fun j => prod_err R (cf j 0).1 (cf j 1).1 (fb j 0) (cf j 0).2 (cf j 1).2
  have fb2 : ∀ j, 0 ≤ fac a h c j 0 * fac a h c j 1 ∧ fac a h c j 0 * fac a h c j 1 ≤ 1 := fun j =>
    ⟨mul_nonneg (fb j 0).1 (fb j 1).1, mul_le_one₀ (fb j 0).2 (fb j 1).1 (fb j 1).2⟩
  have w3 := fun j => prod_err R (w2 j).1 (cf j 2).1 (fb2 j) (w2 j).2 (cf j 2).2
  have tb := fun j => term_err R (w3 j).1 (w3 j).2 (hv j) (hM j)
  have key := sum_close R (n := 8) (by push_cast; linarith) p
    (fun j => rnd (rnd (rnd (cfac rnd a h c j 0 * cfac rnd a h c j 1) * cfac rnd a h c j 2) * v j))
    (fun j => fac a h c j 0 * fac a h c j 1 * fac a h c j 2 * v j) (A := (5 * u + 5 * u + u + 5 * u + u + u) * M) M0
    (fun j => (tb j).1) (fun j _ => (tb j).2) ?_
  · push_cast at key
    nlinarith
  · intro j hj
    obtain ⟨i, hl⟩ : Lost hexUnit rnd a h c j := by
      by_contra hn
      rw [hp j hn] at hj
      cases hj
    have l := lost_fac3 R hh hf hl
    have b0 := fb j 0
    have b1 := fb j 1
    have b2 := fb j 2
    have p01 := fb2 j
    have hw : |fac a h c j 0 * fac a h c j 1 * fac a h c j 2| ≤ u := by
      rw [abs_of_nonneg (mul_nonneg p01.1 b2.1)]
      have three : i = 0 ∨ i = 1 ∨ i = 2 := by fin_cases i <;> simp
      rcases three with rfl | rfl | rfl
      · calc _ ≤ u * 1 * 1 := mul_le_mul (mul_le_mul l b1.2 b1.1 u0) b2.2 b2.1 (by linarith)
          _ = u := by ring
      · calc _ ≤ 1 * u * 1 := mul_le_mul (mul_le_mul b0.2 l b1.1 zero_le_one) b2.2 b2.1 (by linarith)
          _ = u := by ring
      · calc _ ≤ 1 * u := mul_le_mul p01.2 l b2.1 zero_le_one
          _ = u := one_mul u
    have := abs_wv hw (hM j)
    linarith

/-! ### Slopes -/

/-- The two directions other than `i`, in order. -/
def oth : Fin 3 → Fin 3 × Fin 3
  | 0 => (1, 2)
  | 1 => (0, 2)
  | 2 => (0, 1)

theorem grad_weight3 (R : Rounding rnd u) (hu : u ≤ 1 / 64) {a h c : Fin 3 → K} (hh : ∀ i, 0 < h i) (hc : InCell a h c) (nd el : Nat) (j : Fin 8)
    (di : Fin 3) :
    ∃ W, hexGrad rnd c (corner rnd (hexOps rnd) hexUnit nd el a h j).n (corner rnd (hexOps rnd) hexUnit nd el a h j).h
        (corner rnd (hexOps rnd) hexUnit nd el a h j).s di = .ok W ∧
      |W| ≤ 2 * (1 / h di) ∧
      |W - -hexSign (j : Nat) di * (fac a h c j (oth di).1 * fac a h c j (oth di).2) / h di| ≤ 15 * u * (1 / h di) := by
  have u0 := R.u_nonneg
  have key : ∀ di dj dk : Fin 3, let W := rnd (rnd (rnd (-hexSign (j : Nat) di * cfac rnd a h c j dj) * cfac rnd a h c j dk) / rnd (h di))
      |W| ≤ 2 * (1 / h di) ∧ |W - -hexSign (j : Nat) di * (fac a h c j dj * fac a h c j dk) / h di| ≤ 15 * u * (1 / h di) := by
    intro di dj dk W
    have w2 := prod_err R (cfac_bounds R hu hh hc j dj).1 (cfac_bounds R hu hh hc j dk).1 (fac_bounds3 hh hc j dj)
      (cfac_bounds R hu hh hc j dj).2 (cfac_bounds R hu hh hc j dk).2
    obtain ⟨⟨w0, w1⟩, w2⟩ := w2
    have hs : -hexSign (j : Nat) di = (1 : K) ∨ -hexSign (j : Nat) di = (-1 : K) := by
      rcases (flHex (rnd := rnd)).sign j di with e | e <;> rw [e.2] <;> simp
    set w := rnd (cfac rnd a h c j dj * cfac rnd a h c j dk) with hw
    have hW : W = -hexSign (j : Nat) di * rnd (w / rnd (h di)) := by
      simp only [W]
      rw [rnd_sign R hs, show rnd (cfac rnd a h c j dj) = cfac rnd a h c j dj from R.idem _, mul_assoc, rnd_sign R hs, ← hw, mul_div_assoc,
        rnd_sign R hs]
    obtain ⟨q1, q2⟩ := quot_bounds R hu (hh di) w0
    have hd := hh di
    have hg : 0 < 1 / h di := by positivity
    have wg : w / h di = w * (1 / h di) := by ring
    have wg1 : w * (1 / h di) ≤ 1 / h di := by nlinarith
    have wg0 : 0 ≤ w * (1 / h di) := mul_nonneg w0 hg.le
    rw [wg] at q1 q2
    have uwg : u * (w * (1 / h di)) ≤ u * (1 / h di) := mul_le_mul_of_nonneg_left wg1 u0
    have uwg0 : 0 ≤ u * (w * (1 / h di)) := mul_nonneg u0 wg0
    have ug : u * (1 / h di) ≤ 1 / 64 * (1 / h di) := mul_le_mul_of_nonneg_right hu hg.le
    constructor
    · rw [hW, abs_mul, abs_sign hs, one_mul, abs_le]
      constructor <;> nlinarith
    · rw [hW, mul_div_assoc, ← mul_sub, abs_mul, abs_sign hs, one_mul]
      have e : fac a h c j dj * fac a h c j dk / h di = fac a h c j dj * fac a h c j dk * (1 / h di) := by ring
      rw [e]
      have w3 : |w * (1 / h di) - fac a h c j dj * fac a h c j dk * (1 / h di)| ≤ (5 * u + 5 * u + u) * (1 / h di) := by
        rw [← sub_mul, abs_mul, abs_of_pos hg]
        exact mul_le_mul_of_nonneg_right w2 hg.le
      rw [abs_le] at w3 ⊢
      constructor <;> nlinarith [w3.1, w3.2]
  have es : ∀ i, (corner rnd (hexOps rnd) hexUnit nd el a h j).s i = hexSign (j : Nat) i := fun i => rfl
  have eh : ∀ i, (corner rnd (hexOps rnd) hexUnit nd el a h j).h i = rnd (h i) := fun i => rfl
  have loc := local1_corner (flHex (rnd := rnd)) R nd el a h c j
  have three : di = 0 ∨ di = 1 ∨ di = 2 := by fin_cases di <;> simp
  rcases three with rfl | rfl | rfl
  · refine ⟨_, ?_, key 0 1 2⟩
    unfold cfac
    rw [← loc 1, ← loc 2, ← es 0, ← eh 0]; rfl
  · refine ⟨_, ?_, key 1 0 2⟩
    unfold cfac
    rw [← loc 0, ← loc 2, ← es 1, ← eh 1]; rfl
  · refine ⟨_, ?_, key 2 0 1⟩
    unfold cfac
    rw [← loc 0, ← loc 1, ← es 2, ← eh 2]; rfl

/-- A term of a derivative: weight `W` near `X`, at most `2 g`. -/
theorem dterm_err (R : Rounding rnd u) (hu : u ≤ 1 / 64) {W X v M g : K} (hg : 0 ≤ g) (hW : |W| ≤ 2 * g) (e : |W - X| ≤ 15 * u * g)
    (hM : |v| ≤ M) : |rnd (W * v)| ≤ 3 * (M * g) ∧ |rnd (W * v) - X * v| ≤ 17 * (u * (M * g)) := by
  have u0 := R.u_nonneg
  have M0 : 0 ≤ M := (abs_nonneg _).trans hM
  have mg : 0 ≤ M * g := mul_nonneg M0 hg
  have h1 := abs_wv hW hM
  have h2 := abs_wv e hM
  have h3 := R.err (W * v)
  have h4 := mul_le_mul_of_nonneg_left h1 u0
  rw [abs_le] at h1 h3
  have h5 : |W * v - X * v| ≤ 15 * u * g * M := by rw [← sub_mul]; exact h2
  rw [abs_le] at h5
  have h6 : u * (2 * g * M) ≤ 1 / 64 * (2 * g * M) := mul_le_mul_of_nonneg_right hu (by positivity)
  constructor <;> rw [abs_le] <;> constructor <;> nlinarith [h1.1, h1.2, h3.1, h3.2, h5.1, h5.2]

end Fl
end Verif
