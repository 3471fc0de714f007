import Verif.Model.NumText
import Verif.Spec.Decimal
import Verif.Lemmas.Rounding
import Verif.Lemmas.Stream

/-! Decimal texts of doubles: what is printed reads back as the decimal number; enough digits determine the double. -/

namespace Verif
variable {K : Type} [Field K] [LinearOrder K] [IsStrictOrderedRing K] [FloorRing K]
open Spec

namespace NumText

theorem ten_pow_pos (e : Int) : (0 : K) < 10 ^ e := zpow_pos (by norm_num) e

theorem log10_bounds {x : K} (hx : 0 < x) : (10 : K) ^ Int.log 10 x ≤ x ∧ x < (10 : K) ^ (Int.log 10 x + 1) := by
  constructor
  · have := Int.zpow_log_le_self (b := 10) (by norm_num) hx
    exact_mod_cast this
  · have := Int.lt_zpow_succ_log_self (b := 10) (by norm_num) x
    exact_mod_cast this

/-- The scaled number is between `10^(P-1)` and `10^P`. -/
theorem scaled10 {P : Nat} {x : K} (hx : 0 < x) (hP : 0 < P) :
    (((10 : Int) ^ (P - 1) : Int) : K) ≤ x / 10 ^ (Int.log 10 x + 1 - P) ∧ x / 10 ^ (Int.log 10 x + 1 - P) < (((10 : Int) ^ P : Int) : K) := by
  obtain ⟨h1, h2⟩ := log10_bounds hx
  have hq := ten_pow_pos (K := K) (Int.log 10 x + 1 - P)
  rw [le_div_iff₀ hq, div_lt_iff₀ hq]
  push_cast
  have e1 : (10 : K) ^ (P - 1) = 10 ^ ((P : Int) - 1) := by
    rw [← zpow_natCast]; congr 1; omega
  have e2 : (10 : K) ^ P = 10 ^ (P : Int) := (zpow_natCast _ _).symm
  rw [e1, e2, ← zpow_add₀ (by norm_num), ← zpow_add₀ (by norm_num)]
  have a1 : (P : Int) - 1 + (Int.log 10 x + 1 - P) = Int.log 10 x := by ring
  have a2 : (P : Int) + (Int.log 10 x + 1 - P) = Int.log 10 x + 1 := by ring
  rw [a1, a2]
  exact ⟨h1, h2⟩

theorem mant_bounds {P : Nat} {x : K} (hx : 0 < x) (hP : 0 < P) :
    (10 : Int) ^ (P - 1) ≤ roundEven (x / 10 ^ (Int.log 10 x + 1 - P)) ∧ roundEven (x / 10 ^ (Int.log 10 x + 1 - P)) ≤ 10 ^ P := by
  obtain ⟨h1, h2⟩ := scaled10 (P := P) hx hP
  have r1 := roundEven_mono h1
  have r2 := roundEven_mono h2.le
  rw [roundEven_int] at r1 r2
  exact ⟨r1, r2⟩

theorem decimalPos_pos {P : Nat} {x : K} (hx : 0 < x) (hP : 0 < P) : 0 < nearestDecimalPos P x := by
  have h := (mant_bounds hx hP).1
  have h0 : (0 : Int) < 10 ^ (P - 1) := by positivity
  have h1 : (0 : K) < (roundEven (x / 10 ^ (Int.log 10 x + 1 - P)) : K) := by exact_mod_cast (by omega)
  exact mul_pos h1 (ten_pow_pos _)

theorem decimalPos_err {P : Nat} {x : K} (hx : 0 < x) : |nearestDecimalPos P x - x| ≤ 1 / 2 * 10 ^ (1 - (P : Int)) * x := by
  have hq := ten_pow_pos (K := K) (Int.log 10 x + 1 - P)
  have e : nearestDecimalPos P x - x = ((roundEven (x / 10 ^ (Int.log 10 x + 1 - P)) : K) - x / 10 ^ (Int.log 10 x + 1 - P)) *
      10 ^ (Int.log 10 x + 1 - P) := by
    unfold nearestDecimalPos
    rw [sub_mul, div_mul_cancel₀ _ hq.ne']
  rw [e, abs_mul, abs_of_pos hq]
  have h1 := mul_le_mul_of_nonneg_right (roundEven_err (x / 10 ^ (Int.log 10 x + 1 - P))) hq.le
  refine h1.trans ?_
  have e2 : (10 : K) ^ (Int.log 10 x + 1 - P) = 10 ^ (1 - (P : Int)) * 10 ^ Int.log 10 x := by
    rw [← zpow_add₀ (by norm_num : (10 : K) ≠ 0)]; congr 1; ring
  rw [e2, mul_assoc]
  apply mul_le_mul_of_nonneg_left _ (by norm_num)
  exact mul_le_mul_of_nonneg_left (log10_bounds hx).1 (ten_pow_pos _).le

theorem roundEven_unique {y : K} {k : Int} (h : |y - k| < 1 / 2) : roundEven y = k := by
  have h1 := roundEven_err y
  rw [abs_le] at h1
  rw [abs_lt] at h
  have a : ((roundEven y : Int) : K) - k < 1 := by linarith [h1.1, h1.2, h.1, h.2]
  have b : (-1 : K) < ((roundEven y : Int) : K) - k := by linarith [h1.1, h1.2, h.1, h.2]
  have a' : roundEven y - k < 1 := by exact_mod_cast a
  have b' : -1 < roundEven y - k := by exact_mod_cast b
  omega

theorem log2_eq {d : K} {e : Int} (h1 : (2 : K) ^ e ≤ d) (h2 : d < 2 ^ (e + 1)) : Int.log 2 d = e := by
  have hd : 0 < d := lt_of_lt_of_le (two_pow_pos e) h1
  obtain ⟨b1, b2⟩ := log_bounds hd
  have c1 : (2 : K) ^ e < 2 ^ (Int.log 2 d + 1) := lt_of_le_of_lt h1 b2
  have c2 : (2 : K) ^ Int.log 2 d < 2 ^ (e + 1) := lt_of_le_of_lt b1 h2
  rw [zpow_lt_zpow_iff_right₀ (by norm_num)] at c1 c2
  omega

/-- A number close enough to a floating-point number rounds to it. -/
theorem nearestPos_close {p : Nat} (hp : 0 < p) {x d ε : K} (hx : 0 < x) (hf : nearestPos p x = x)
    (hε : ε * 2 ^ ((p : Int) + 1) < 1) (hd : |d - x| ≤ ε * x) : nearestPos p d = x := by
  obtain ⟨l1, l2⟩ := log_bounds hx
  obtain ⟨e, he⟩ : ∃ e, e = Int.log 2 x := ⟨_, rfl⟩
  obtain ⟨k, hk⟩ : ∃ k, k = roundEven (x / 2 ^ (e + 1 - (p : Int))) := ⟨_, rfl⟩
  rw [← he] at l1 l2
  have hs := two_pow_pos (K := K) (e + 1 - (p : Int))
  obtain ⟨s, hs'⟩ : ∃ s : K, s = 2 ^ (e + 1 - (p : Int)) := ⟨_, rfl⟩
  have hxk : x = (k : K) * s := by
    rw [hs', hk, he]; exact hf.symm
  rw [← hs'] at hs
  have hpow : (2 : K) ^ (e + 1) = 2 ^ p * s := by
    rw [hs', ← zpow_natCast, ← zpow_add₀ (by norm_num : (2 : K) ≠ 0)]; congr 1; ring
  have hpow0 : (2 : K) ^ e = 2 ^ (p - 1) * s := by
    rw [hs', ← zpow_natCast, ← zpow_add₀ (by norm_num : (2 : K) ≠ 0)]; congr 1; omega
  have hε2 : ε * 2 ^ (p : Nat) * 2 < 1 := by
    rw [zpow_add₀ (by norm_num : (2 : K) ≠ 0), zpow_natCast, zpow_one] at hε; linarith
  have hp2 : (2 : K) ^ p = 2 * 2 ^ (p - 1) := by
    obtain ⟨q, rfl⟩ : ∃ q, p = q + 1 := ⟨p - 1, by omega⟩
    rw [pow_succ]; simp; ring
  have h2p : (0 : K) < 2 ^ p := by positivity
  have hε0 : 0 ≤ ε := by
    by_contra hneg
    have : ε * x < 0 := mul_neg_of_neg_of_pos (by linarith) hx
    linarith [abs_nonneg (d - x)]
  -- the distance in units of the last place
  have hdist : |d - x| < s / 2 := by
    have a : ε * x ≤ ε * (2 ^ p * s) := mul_le_mul_of_nonneg_left (by rw [← hpow]; exact l2.le) hε0
    have b : ε * (2 ^ p * s) < s / 2 := by
      have := mul_lt_mul_of_pos_right hε2 hs
      linarith
    linarith
  have hkb : (2 : Int) ^ (p - 1) ≤ k ∧ k < 2 ^ p := by
    constructor
    · have : (2 : K) ^ (p - 1) * s ≤ k * s := by rw [← hpow0, ← hxk]; exact l1
      have := le_of_mul_le_mul_right this hs
      exact_mod_cast this
    · have : (k : K) * s < 2 ^ p * s := by rw [← hpow, ← hxk]; exact l2
      have := lt_of_mul_lt_mul_right this hs.le
      exact_mod_cast this
  rw [abs_lt] at hdist
  have hup : d < 2 ^ (e + 1) := by
    have : ((k + 1 : Int) : K) ≤ 2 ^ p := by exact_mod_cast (by omega : k + 1 ≤ (2 : Int) ^ p)
    have h := mul_le_mul_of_nonneg_right this hs.le
    push_cast at h
    rw [hpow]; nlinarith
  by_cases hlow : (2 : K) ^ e ≤ d
  · have hl := log2_eq hlow hup
    unfold nearestPos
    rw [hl, ← hs']
    have : roundEven (d / s) = k := by
      apply roundEven_unique
      have : d / s - k = (d - x) / s := by rw [hxk]; field_simp
      rw [this, abs_div, abs_of_pos hs, div_lt_iff₀ hs, abs_lt]
      constructor <;> linarith
    rw [this, hxk]
  · have hlow' : d < 2 ^ e := by linarith [lt_of_not_ge hlow]
    -- then x is the power of two
    have hk2 : k = 2 ^ (p - 1) := by
      by_contra hne
      have : ((2 ^ (p - 1) + 1 : Int) : K) ≤ k := by exact_mod_cast (by omega : (2 : Int) ^ (p - 1) + 1 ≤ k)
      have h := mul_le_mul_of_nonneg_right this hs.le
      push_cast at h
      rw [hpow0] at hlow'
      nlinarith
    have hx2 : x = 2 ^ (p - 1) * s := by rw [hxk, hk2]; push_cast; ring
    have hd4 : |d - x| < s / 4 := by
      refine lt_of_le_of_lt hd ?_
      rw [hx2]
      have h := mul_lt_mul_of_pos_right hε2 hs
      rw [hp2] at h
      nlinarith
    rw [abs_lt] at hd4
    have hge : (2 : K) ^ (e - 1) ≤ d := by
      have a : (2 : K) ^ (e - 1) = x / 2 := by
        rw [hx2, ← hpow0, zpow_sub_one₀ (by norm_num : (2 : K) ≠ 0)]; ring
      have b : (1 : K) ≤ 2 ^ (p - 1) := one_le_pow₀ (by norm_num)
      have c := mul_le_mul_of_nonneg_right b hs.le
      rw [a]; linarith
    have hl := log2_eq (e := e - 1) hge (by rw [sub_add_cancel]; exact hlow')
    unfold nearestPos
    have hs2 : (2 : K) ^ (e - 1 + 1 - (p : Int)) = s / 2 := by
      rw [hs', show e - 1 + 1 - (p : Int) = (e + 1 - (p : Int)) - 1 by ring, zpow_sub_one₀ (by norm_num : (2 : K) ≠ 0)]; ring
    rw [hl, hs2]
    have : roundEven (d / (s / 2)) = 2 ^ p := by
      apply roundEven_unique
      have hs20 : 0 < s / 2 := by linarith
      have : d / (s / 2) - ((2 ^ p : Int) : K) = (d - x) / (s / 2) := by
        rw [hx2]; push_cast; rw [hp2]; field_simp
      rw [this, abs_div, abs_of_pos hs20, div_lt_iff₀ hs20, abs_lt]
      constructor <;> linarith
    rw [this, hx2]; push_cast; rw [hp2]; ring

/-! ### Texts -/

theorem fraction_eq (fs : List Char) : ∃ (gs : List Char) (k : Nat), fs = gs ++ List.replicate k '0' ∧
    fraction fs = if gs = [] then [] else '.' :: gs := by
  refine ⟨(fs.reverse.dropWhile (fun c => c == '0')).reverse, (fs.reverse.takeWhile (fun c => c == '0')).length, ?_, ?_⟩
  · have h1 : fs.reverse.takeWhile (fun c => c == '0') = List.replicate (fs.reverse.takeWhile (fun c => c == '0')).length '0' := by
      rw [List.eq_replicate_iff]
      refine ⟨rfl, fun b hb => ?_⟩
      have := List.all_takeWhile (l := fs.reverse) (p := fun c => c == '0')
      rw [List.all_eq_true] at this
      simpa using this b hb
    have h2 := List.takeWhile_append_dropWhile (p := fun c => c == '0') (l := fs.reverse)
    have h3 := congrArg List.reverse h2
    rw [List.reverse_append, List.reverse_reverse] at h3
    conv_lhs => rw [← h3]
    congr 1
    conv_lhs => rw [h1]
    rw [List.reverse_replicate]
  · unfold fraction
    split
    · rename_i h; simp [h]
    · rename_i h; rw [if_neg h]

/-- Zeros at the end of the fraction do not change the value. -/
theorem convert_zeros (rnd : K → K) (neg : Bool) (ds gs : List Char) (k : Nat) (e : Int) :
    convert rnd neg ds (gs ++ List.replicate k '0') e = convert rnd neg ds gs e := by
  unfold convert
  congr 1
  rw [← List.append_assoc, Nat.ofDigitChars_append, Nat.ofDigitChars_replicate_zero]
  have : (10 : K) ^ (e - (gs.length : Int)) = 10 ^ k * 10 ^ (e - ((gs ++ List.replicate k '0').length : Int)) := by
    rw [← zpow_natCast, ← zpow_add₀ (by norm_num : (10 : K) ≠ 0)]; congr 1; simp only [List.length_append, List.length_replicate]; omega
  rw [this]; push_cast; ring

def sgn (neg : Bool) : List Char := if neg then ['-'] else []

theorem scanSign_digit {c : Char} {r : List Char} (h : c.isDigit = true) : scanSign (c :: r) = (false, c :: r) := by
  unfold scanSign
  split
  · rename_i h'; cases h'; exact absurd h (by decide)
  · rename_i h'; cases h'; exact absurd h (by decide)
  · rfl

theorem scanSign_sgn (neg : Bool) {c : Char} {r : List Char} (h : c.isDigit = true) : scanSign (sgn neg ++ c :: r) = (neg, c :: r) := by
  cases neg
  · exact scanSign_digit h
  · rfl

theorem isDigit_take {ds w : List Char} (hd : ∀ c ∈ ds, c.isDigit = true) (hw : ∀ c r, w = c :: r → c.isDigit = false) :
    (ds ++ w).takeWhile Char.isDigit = ds ∧ (ds ++ w).dropWhile Char.isDigit = w := by
  rw [List.takeWhile_append_of_pos hd, List.dropWhile_append_of_pos hd]
  cases w with
  | nil => simp
  | cons c r => simp [List.takeWhile_cons, List.dropWhile_cons, hw c r rfl]

theorem blank_facts {c : Char} (hc : Blank c) : c.isDigit = false ∧ c ≠ '.' ∧ c ≠ 'e' ∧ c ≠ 'E' := by
  simp only [Blank, List.mem_cons, List.not_mem_nil, or_false] at hc
  rcases hc with h | h | h | h | h | h <;> subst h <;> decide

/-- Scanning the digits before the exponent. -/
theorem scan_head (rnd : K → K) (neg : Bool) (ds gs t3 : List Char) (hne : ds ≠ []) (hd : ∀ c ∈ ds, c.isDigit = true)
    (hg : ∀ c ∈ gs, c.isDigit = true) (ht : ∀ c r, t3 = c :: r → c.isDigit = false ∧ c ≠ '.') :
    scan rnd (sgn neg ++ (ds ++ ((if gs = [] then [] else '.' :: gs) ++ t3))) =
      if t3.head? = some 'e' ∨ t3.head? = some 'E' then
      match scanSign t3.tail with
      | (eneg, t4) =>
        let es := t4.takeWhile Char.isDigit
        let t5 := t4.dropWhile Char.isDigit
        if es = [] then (none, t5)
        else (some (convert rnd neg ds gs ((if eneg then -1 else 1) * (Nat.ofDigitChars 10 es 0 : Int))), t5)
      else (some (convert rnd neg ds gs 0), t3) := by
  obtain ⟨c, r, hcr⟩ := List.exists_cons_of_ne_nil hne
  have h1 : scanSign (sgn neg ++ (ds ++ ((if gs = [] then [] else '.' :: gs) ++ t3))) =
      (neg, ds ++ ((if gs = [] then [] else '.' :: gs) ++ t3)) := by
    rw [hcr]; exact scanSign_sgn neg (hd c (by simp [hcr]))
  obtain ⟨h2, h3⟩ := isDigit_take (ds := ds) (w := (if gs = [] then [] else '.' :: gs) ++ t3) hd (by
    intro c r h
    by_cases hgs : gs = []
    · rw [if_pos hgs, List.nil_append] at h; exact (ht c r h).1
    · rw [if_neg hgs, List.cons_append] at h; cases h; decide)
  unfold scan
  rw [h1]
  simp only [h2, h3]
  by_cases hgs : gs = []
  · subst hgs
    simp only [if_true, List.nil_append]
    have e1 : scanFrac t3 = ([], t3) := by
      unfold scanFrac
      split
      · exact absurd rfl (ht _ _ rfl).2
      · rfl
    rw [e1]
    simp only [List.append_nil, hne, if_false]
  · simp only [hgs, if_false, List.cons_append]
    obtain ⟨h4, h5⟩ := isDigit_take (ds := gs) (w := t3) hg (fun c r h => (ht c r h).1)
    simp only [scanFrac, h4, h5]
    rw [if_neg (by simp [hne])]

/-- Without an exponent. -/
theorem scan_fixed (rnd : K → K) (neg : Bool) (ds fs w : List Char) (hne : ds ≠ []) (hd : ∀ c ∈ ds, c.isDigit = true)
    (hf : ∀ c ∈ fs, c.isDigit = true) (hw : StartsBlank w) :
    scan rnd (sgn neg ++ (ds ++ fraction fs) ++ w) = (some (convert rnd neg ds fs 0), w) := by
  obtain ⟨gs, k, rfl, e⟩ := fraction_eq fs
  obtain ⟨c, r, rfl, hc⟩ := hw
  obtain ⟨b1, b2, b3, b4⟩ := blank_facts hc
  rw [e, List.append_assoc, List.append_assoc, scan_head rnd neg ds gs (c :: r) hne hd (fun c hc => hf c (by simp [hc]))
    (fun _ _ h => by cases h; exact ⟨b1, b2⟩), convert_zeros]
  simp [b3, b4]

theorem exponent_scan (e : Int) : ∃ s es, exponent e = s :: es ∧ es ≠ [] ∧ (∀ c ∈ es, c.isDigit = true) ∧
    s = (if e < 0 then '-' else '+') ∧ Nat.ofDigitChars 10 es 0 = e.natAbs := by
  have hdig : ∀ c ∈ Nat.toDigits 10 e.natAbs, c.isDigit = true := fun c hc => Nat.isDigit_of_mem_toDigits (by decide) (by decide) hc
  by_cases h : (Nat.toDigits 10 e.natAbs).length < 2
  · refine ⟨_, '0' :: Nat.toDigits 10 e.natAbs, by simp [exponent, h], by simp, ?_, rfl, ?_⟩
    · intro c hc
      rcases List.mem_cons.mp hc with rfl | hc
      · decide
      · exact hdig c hc
    · simp [Nat.ofDigitChars_cons]
  · exact ⟨_, Nat.toDigits 10 e.natAbs, by simp [exponent, h], Nat.toDigits_ne_nil, hdig, rfl, by simp⟩

/-- With an exponent. -/
theorem scan_exp (rnd : K → K) (neg : Bool) (ds fs w : List Char) (e : Int) (hne : ds ≠ []) (hd : ∀ c ∈ ds, c.isDigit = true)
    (hf : ∀ c ∈ fs, c.isDigit = true) (hw : StartsBlank w) :
    scan rnd (sgn neg ++ (ds ++ fraction fs ++ 'e' :: exponent e) ++ w) = (some (convert rnd neg ds fs e), w) := by
  obtain ⟨gs, k, rfl, e0⟩ := fraction_eq fs
  obtain ⟨c, r, rfl, hc⟩ := hw
  obtain ⟨b1, b2, b3, b4⟩ := blank_facts hc
  obtain ⟨s, es, e1, e2, e3, e4, e5⟩ := exponent_scan e
  rw [e0, e1, show sgn neg ++ (ds ++ (if gs = [] then [] else '.' :: gs) ++ 'e' :: s :: es) ++ c :: r =
    sgn neg ++ (ds ++ ((if gs = [] then [] else '.' :: gs) ++ ('e' :: s :: (es ++ c :: r)))) by simp,
    scan_head rnd neg ds gs _ hne hd (fun c hc => hf c (by simp [hc]))
    (fun _ _ h => by cases h; decide), convert_zeros]
  simp only [List.head?_cons, true_or, if_true, List.tail_cons]
  have hs : scanSign (s :: (es ++ c :: r)) = (decide (e < 0), es ++ c :: r) := by
    by_cases h : e < 0
    · rw [e4]; simp [h, scanSign]
    · rw [e4]; simp [h, scanSign]
  obtain ⟨h2, h3⟩ := isDigit_take (ds := es) (w := c :: r) e3 (fun _ _ h => by cases h; exact b1)
  simp only [hs, h2, h3, e2, if_false, e5, decide_eq_true_eq]
  congr 4
  split <;> omega

theorem toDigits_length {P m : Nat} (hP : 0 < P) (h1 : 10 ^ (P - 1) ≤ m) (h2 : m < 10 ^ P) : (Nat.toDigits 10 m).length = P := by
  have a := (Nat.length_toDigits_le_iff (b := 10) (n := m) (k := P) (by decide) hP).mpr h2
  by_contra hne
  by_cases hP1 : P = 1
  · have := Nat.length_toDigits_pos (b := 10) (n := m); omega
  · have := (Nat.length_toDigits_le_iff (b := 10) (n := m) (k := P - 1) (by decide) (by omega)).mp (by omega)
    omega

/-- The text of `P` digits `m` with exponent `e` reads as `m · 10^(e+1-P)`. -/
theorem scan_layout (rnd : K → K) (neg : Bool) {P m : Nat} (hP : 0 < P) (h1 : 10 ^ (P - 1) ≤ m) (h2 : m < 10 ^ P) (e : Int)
    (w : List Char) (hw : StartsBlank w) :
    scan rnd (sgn neg ++ layout P m e ++ w) = (some (rnd ((if neg then -1 else 1) * ((m : K) * 10 ^ (e + 1 - P)))), w) := by
  have hlen := toDigits_length hP h1 h2
  have hdig : ∀ c ∈ Nat.toDigits 10 m, c.isDigit = true := fun c hc => Nat.isDigit_of_mem_toDigits (by decide) (by decide) hc
  unfold layout
  simp only
  split
  · rw [scan_exp rnd neg _ _ w e _ (fun c hc => hdig c (List.mem_of_mem_take hc)) (fun c hc => hdig c (List.mem_of_mem_drop hc)) hw]
    · unfold convert
      rw [List.take_append_drop, Nat.ofDigitChars_ten_toDigits, mul_assoc,
        show e - ((List.drop 1 (Nat.toDigits 10 m)).length : Int) = e + 1 - P by rw [List.length_drop, hlen]; omega]
    · rw [← List.length_pos_iff, List.length_take, hlen]; omega
  · split
    · rename_i h h'
      rw [show '0' :: fraction (List.replicate (-e - 1).toNat '0' ++ Nat.toDigits 10 m) =
        ['0'] ++ fraction (List.replicate (-e - 1).toNat '0' ++ Nat.toDigits 10 m) from rfl,
        scan_fixed rnd neg _ _ w (by simp) (by simp) _ hw]
      · unfold convert
        rw [← List.append_assoc, Nat.ofDigitChars_append,
          show (['0'] ++ List.replicate (-e - 1).toNat '0') = List.replicate ((-e - 1).toNat + 1) '0' by
            rw [List.replicate_succ]; rfl,
          Nat.ofDigitChars_replicate_zero, Nat.mul_zero, Nat.ofDigitChars_ten_toDigits, mul_assoc,
          show (0 : Int) - ((List.replicate (-e - 1).toNat '0' ++ Nat.toDigits 10 m).length : Int) = e + 1 - P by
            rw [List.length_append, List.length_replicate, hlen]; omega]
      · intro c hc
        rcases List.mem_append.mp hc with hc | hc
        · rw [List.eq_of_mem_replicate hc]; decide
        · exact hdig c hc
    · rename_i h h'
      rw [scan_fixed rnd neg _ _ w _ (fun c hc => hdig c (List.mem_of_mem_take hc)) (fun c hc => hdig c (List.mem_of_mem_drop hc)) hw]
      · unfold convert
        rw [List.take_append_drop, Nat.ofDigitChars_ten_toDigits, mul_assoc,
          show (0 : Int) - ((List.drop (e + 1).toNat (Nat.toDigits 10 m)).length : Int) = e + 1 - P by
            rw [List.length_drop, hlen]; omega]
      · rw [← List.length_pos_iff, List.length_take, hlen]; omega

/-- The text of a positive number reads as the rounded decimal number. -/
theorem scan_printPos (rnd : K → K) (neg : Bool) {P : Nat} (hP : 0 < P) {x : K} (hx : 0 < x) (w : List Char) (hw : StartsBlank w) :
    scan rnd (sgn neg ++ printPos P x ++ w) = (some (rnd ((if neg then -1 else 1) * nearestDecimalPos P x)), w) := by
  obtain ⟨b1, b2⟩ := mant_bounds (P := P) hx hP
  unfold printPos nearestDecimalPos
  simp only
  obtain ⟨m, hm⟩ : ∃ m, m = roundEven (x / 10 ^ (Int.log 10 x + 1 - P)) := ⟨_, rfl⟩
  rw [← hm] at b1 b2 ⊢
  split
  · rename_i h
    rw [scan_layout rnd neg hP (le_refl _) (Nat.pow_lt_pow_right (by decide) (by omega)) _ w hw, h]
    congr 4
    push_cast
    rw [← zpow_natCast, ← zpow_natCast, ← zpow_add₀ (by norm_num : (10 : K) ≠ 0), ← zpow_add₀ (by norm_num : (10 : K) ≠ 0)]
    congr 1; omega
  · rename_i h
    have hpos : (0 : Int) < 10 ^ (P - 1) := by positivity
    obtain ⟨k, rfl⟩ : ∃ k : Nat, m = k := ⟨m.toNat, by omega⟩
    have c1 : 10 ^ (P - 1) ≤ k := by exact_mod_cast b1
    have c2 : k < 10 ^ P := by
      have : (k : Int) < 10 ^ P := by omega
      exact_mod_cast this
    rw [Int.toNat_natCast, scan_layout rnd neg hP c1 c2 _ w hw]
    simp

theorem layout_start {P m : Nat} (e : Int) : ∃ c r, layout P m e = c :: r ∧ c.isDigit = true := by
  have hdig : ∀ c ∈ Nat.toDigits 10 m, c.isDigit = true := fun c hc => Nat.isDigit_of_mem_toDigits (by decide) (by decide) hc
  obtain ⟨c, r, hcr⟩ := List.exists_cons_of_ne_nil (Nat.toDigits_ne_nil (n := m) (b := 10))
  have hc := hdig c (by simp [hcr])
  unfold layout
  simp only
  split
  · rw [hcr]; exact ⟨c, _, rfl, hc⟩
  · split
    · exact ⟨'0', _, rfl, by decide⟩
    · rw [hcr]
      obtain ⟨k, hk⟩ : ∃ k, (e + 1).toNat = k + 1 := ⟨(e + 1).toNat - 1, by omega⟩
      rw [hk]; exact ⟨c, _, rfl, hc⟩

theorem printPos_start {P : Nat} (x : K) : ∃ c r, printPos P x = c :: r ∧ c.isDigit = true := by
  unfold printPos
  simp only
  split <;> exact layout_start _

/-- The text printed for a number denotes the nearest decimal number, rounded to a double. -/
theorem denotes_print (rnd : K → K) (h0 : rnd 0 = 0) {P : Nat} (hP : 0 < P) (x : K) : Denotes (scan rnd) (print P x) (rnd (nearestDecimal P x)) := by
  have nb : ∀ c : Char, c.isDigit = true → ¬ Blank c := fun c hc hb => by rw [(blank_facts hb).1] at hc; exact absurd hc (by decide)
  unfold print nearestDecimal
  by_cases hx : 0 < x
  · simp only [hx, if_true]
    obtain ⟨c, r, e, hc⟩ := printPos_start (P := P) x
    exact ⟨⟨c, r, e, nb c hc⟩, fun w hw => by simpa [sgn] using scan_printPos rnd false hP hx w hw⟩
  · by_cases hx' : x < 0
    · simp only [hx, hx', if_true, if_false]
      refine ⟨⟨'-', _, rfl, by simp [Blank]⟩, fun w hw => ?_⟩
      simpa [sgn] using scan_printPos rnd true hP (neg_pos.mpr hx') w hw
    · simp only [hx, hx', if_false]
      refine ⟨⟨'0', [], rfl, by simp [Blank]⟩, fun w hw => ?_⟩
      have h := scan_fixed rnd false ['0'] [] w (by simp) (by simp) (by simp) hw
      have e : convert rnd false ['0'] [] 0 = 0 := by simp [convert, Nat.ofDigitChars_cons, h0]
      rw [e] at h
      simpa [sgn, fraction, h0] using h

/-- With enough digits the double is the one printed. -/
theorem nearestEven_decimal {p P : Nat} (hp : 0 < p) (hP : 0 < P) (hpP : 2 ^ p < 10 ^ (P - 1)) {x : K} (hx : IsFloat (nearestEven p) x) :
    nearestEven p (nearestDecimal P x) = x := by
  have key : ∀ y : K, 0 < y → nearestPos p y = y → nearestPos p (nearestDecimalPos P y) = y := by
    intro y hy hf
    refine nearestPos_close hp hy hf ?_ (decimalPos_err hy)
    have a : (2 : K) ^ p < 10 ^ (P - 1) := by exact_mod_cast hpP
    have b : (10 : K) ^ (1 - (P : Int)) * 10 ^ (P - 1) = 1 := by
      rw [← zpow_natCast, ← zpow_add₀ (by norm_num : (10 : K) ≠ 0)]
      have : (1 - (P : Int)) + ((P - 1 : Nat) : Int) = 0 := by omega
      rw [this, zpow_zero]
    have c := mul_lt_mul_of_pos_left a (ten_pow_pos (K := K) (1 - (P : Int)))
    rw [b] at c
    rw [zpow_add₀ (by norm_num : (2 : K) ≠ 0), zpow_natCast, zpow_one]
    linarith
  unfold IsFloat nearestEven at hx
  unfold nearestDecimal
  by_cases h : 0 < x
  · simp only [h, if_true] at hx ⊢
    have hd := decimalPos_pos (P := P) h hP
    unfold nearestEven
    rw [if_pos hd]
    exact key x h hx
  · by_cases h' : x < 0
    · simp only [h, h', if_true, if_false] at hx ⊢
      have hd := decimalPos_pos (P := P) (neg_pos.mpr h') hP
      unfold nearestEven
      rw [if_neg (by linarith), if_pos (by linarith), neg_neg, key (-x) (neg_pos.mpr h') (by linarith), neg_neg]
    · simp only [h, h', if_false]
      simp only [nearestEven, lt_self_iff_false, if_false]
      exact le_antisymm (not_lt.mp h') (not_lt.mp h) 

theorem decimal_err {P : Nat} (x : K) : |nearestDecimal P x - x| ≤ 1 / 2 * 10 ^ (1 - (P : Int)) * |x| := by
  unfold nearestDecimal
  by_cases h : 0 < x
  · simp only [h, if_true]; rw [abs_of_pos h]; exact decimalPos_err h
  · by_cases h' : x < 0
    · simp only [h, h', if_true, if_false]
      have := decimalPos_err (P := P) (neg_pos.mpr h')
      rw [abs_of_neg h', ← abs_neg]
      convert this using 2; ring
    · have : x = 0 := le_antisymm (not_lt.mp h) (not_lt.mp h')
      subst this; simp

end NumText
end Verif
