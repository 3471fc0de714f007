import Verif.Lemmas.NumText
import Verif.Props.Series

/-!
# Coefficients as text, with the number formats of the standard library (C125)

`NumText.print P` is `sout << x` on a stream of precision `P` (6 unless the client sets it), `NumText.scan rnd` is `sin >> x`.
-/

namespace Verif
open Spec NDArray IStream

section
variable {K : Type} [Field K] [LinearOrder K] [IsStrictOrderedRing K] [FloorRing K]

/-- **C125** (what is printed) A number printed with `P` digits and read back is the nearest number with `P` significant decimal digits,
rounded to a double: it differs from the number printed by at most half a unit of the last digit (relative to the number: `10^(1-P)/2`)
and a rounding error. -/
theorem C125_number {u : K} (rnd : K → K) (R : Rounding rnd u) (P : Nat) (hP : 0 < P) (x : K) :
    Denotes (NumText.scan rnd) (NumText.print P x) (rnd (nearestDecimal P x)) ∧
    |rnd (nearestDecimal P x) - x| ≤ (1 / 2 * 10 ^ (1 - (P : Int)) * (1 + u) + u) * |x| := by
  have h0 : rnd 0 = 0 := by have := R.neg 0; rw [neg_zero] at this; linarith
  refine ⟨NumText.denotes_print rnd h0 hP x, ?_⟩
  have e1 := R.err (nearestDecimal P x)
  have e2 := NumText.decimal_err (P := P) x
  obtain ⟨q, hq⟩ : ∃ q : K, q = 1 / 2 * 10 ^ (1 - (P : Int)) := ⟨_, rfl⟩
  rw [← hq] at e2 ⊢
  have hu : 0 ≤ u := by
    have h := R.err 1
    rw [R.one, sub_self, abs_zero, abs_one, mul_one] at h; exact h
  have e3 : |nearestDecimal P x| ≤ (1 + q) * |x| := by
    have := abs_sub_abs_le_abs_sub (nearestDecimal P x) x; linarith
  have e4 : |rnd (nearestDecimal P x) - x| ≤ |rnd (nearestDecimal P x) - nearestDecimal P x| + |nearestDecimal P x - x| := abs_sub_le _ _ _
  have e5 := mul_le_mul_of_nonneg_left e3 hu
  linarith

/-- **C125** partial: with so many digits that `2^p < 10^(P-1)` (17 digits for binary64, 9 for binary32) every floating-point number read
back is the number printed. Missing: with fewer digits, such as the default of 6, it is not (`C125_default_precision_violated`). -/
theorem C125_enough_digits_partial (p P : Nat) (hp : 0 < p) (hP : 2 ^ p < 10 ^ (P - 1)) (x : K) (hx : IsFloat (nearestEven p) x) :
    Denotes (NumText.scan (nearestEven p)) (NumText.print P x) x := by
  have hP0 : 0 < P := by
    rcases P with _ | P
    · have : 0 < 2 ^ p := by positivity
      simp at hP
    · omega
  have h := NumText.denotes_print (nearestEven p) (by simp [nearestEven]) hP0 x
  rwa [NumText.nearestEven_decimal hp hP0 hP hx] at h

/-- **C125** partial: after `sout.precision(17)` (or more) `read_coeff` of what `print_coeff` wrote restores every coefficient exactly, in a
series of the same shape in any state. -/
theorem C125_restored_partial (P : Nat) (hP : 17 ≤ P) (fs : List (Family K)) (hg : GoodDims (extents fs)) (s s' : Series K)
    (hs : s.Over fs) (hs' : s'.Over fs)
    (hf : ∀ t y, InBox (extents fs) t → s.coeff.get t = .ok y → IsFloat (nearestEven 53) y) :
    ∃ text, s.printCoeff (NumText.print P) = .ok text ∧ ∀ rest, ∃ sin s'' w,
      s'.readCoeff (NumText.scan (nearestEven 53)) (ofText (text ++ rest)) = .ok (sin, s'') ∧
      (∀ t, InBox (extents fs) t → s''.coeff.get t = s.coeff.get t) ∧ s''.coeff.dim = s'.coeff.dim ∧
      sin = ofText (w ++ rest) ∧ ∀ ch ∈ w, Blank ch :=
  C53_round_trip _ _ fs hg s s' hs hs' fun t y ht hy =>
    C125_enough_digits_partial 53 P (by decide)
      (lt_of_lt_of_le (by norm_num : 2 ^ 53 < 10 ^ 16) (Nat.pow_le_pow_right (by decide) (by omega))) y (hf t y ht hy)

/-- **C125** With any precision every coefficient comes back as the nearest number of so many decimal digits, rounded to a double: with the
default of 6 digits, wrong by at most a relative `5·10^-6` and a few roundoffs. -/
theorem C125_any_precision {u : K} (rnd : K → K) (R : Rounding rnd u) (P : Nat) (hP : 0 < P) (fs : List (Family K))
    (hg : GoodDims (extents fs)) (s s' : Series K) (hs : s.Over fs) (hs' : s'.Over fs) :
    ∃ text, s.printCoeff (NumText.print P) = .ok text ∧ ∃ sin s'',
      s'.readCoeff (NumText.scan rnd) (ofText text) = .ok (sin, s'') ∧
      ∀ t, InBox (extents fs) t → ∃ y y', s.coeff.get t = .ok y ∧ s''.coeff.get t = .ok y' ∧ y' = rnd (nearestDecimal P y) ∧
        |y' - y| ≤ (1 / 2 * 10 ^ (1 - (P : Int)) * (1 + u) + u) * |y| := by
  obtain ⟨text, h1, h2⟩ := Series.read_printed (NumText.print P) (NumText.scan rnd) (fun y => rnd (nearestDecimal P y)) fs hg s s' hs hs'
    fun t y _ _ => (C125_number rnd R P hP y).1
  obtain ⟨sin, s'', w, e1, e2, _⟩ := h2 []
  rw [List.append_nil] at e1
  refine ⟨text, h1, sin, s'', e1, fun t ht => ?_⟩
  obtain ⟨y, hy, _⟩ := NDArray.get_of (hs.wf hg).shaped hg ht
  have h := e2 t ht
  rw [hy] at h
  exact ⟨y, _, hy, h, rfl, (C125_number rnd R P hP y).2⟩

/-- **C125** (vtk files) Points and field values printed with 17 digits or more and separated by blanks are read as the doubles they were:
the tokens denote them, as `IsVtk` (C30, C31) asks. -/
theorem C125_tokens_partial (P : Nat) (hP : 17 ≤ P) (xs : List K) (hx : ∀ x ∈ xs, IsFloat (nearestEven 53) x) :
    List.Forall₂ (Denotes (NumText.scan (nearestEven 53))) (xs.map (NumText.print P)) xs := by
  induction xs with
  | nil => exact .nil
  | cons x xs ih =>
    exact .cons (C125_enough_digits_partial 53 P (by decide)
      (lt_of_lt_of_le (by norm_num : 2 ^ 53 < 10 ^ 16) (Nat.pow_le_pow_right (by decide) (by omega))) x (hx x (by simp)))
      (ih fun y hy => hx y (by simp [hy]))

end

/-- **C125** violated: a stream prints 6 digits unless told otherwise. Whatever the series, a coefficient equal to the double 1/3 is read back
as the double 0.333333. -/
theorem C125_default_precision_violated (fs : List (Family ℚ)) (hg : GoodDims (extents fs)) (s s' : Series ℚ) (hs : s.Over fs)
    (hs' : s'.Over fs) (t : List Int) (ht : InBox (extents fs) t) (h3 : s.coeff.get t = .ok (nearestEven 53 (1 / 3))) :
    ∃ text, s.printCoeff (NumText.print 6) = .ok text ∧ ∃ sin s'',
      s'.readCoeff (NumText.scan (nearestEven 53)) (ofText text) = .ok (sin, s'') ∧
      s''.coeff.get t = .ok (nearestEven 53 0.333333) ∧ s''.coeff.get t ≠ s.coeff.get t := by
  obtain ⟨text, h1, sin, s'', h2, h⟩ := C125_any_precision (nearestEven 53) (nearestEven_rounding (K := ℚ) (p := 53) (by decide)) 6
    (by decide) fs hg s s' hs hs'
  obtain ⟨y, y', hy, hy', e, _⟩ := h t ht
  rw [h3] at hy
  cases hy
  have e1 : nearestEven 53 (nearestDecimal 6 (nearestEven 53 (1 / 3 : ℚ))) = nearestEven 53 0.333333 := by decide +kernel
  have e2 : (nearestEven 53 0.333333 : ℚ) ≠ nearestEven 53 (1 / 3) := by decide +kernel
  rw [e1] at e
  subst e
  refine ⟨text, h1, sin, s'', h2, hy', ?_⟩
  rw [hy', h3]
  exact fun h => e2 (Except.ok.inj h)

namespace NumTextDemo

/-- The texts of some doubles: default precision, rounding with a carry, small and large numbers, 17 digits. -/
example : NumText.print 6 (nearestEven 53 (1 / 3 : ℚ)) = "0.333333".toList ∧ NumText.print 6 (9999995 / 10 : ℚ) = "1e+06".toList ∧
    NumText.print 6 (1234 / 10 ^ 8 : ℚ) = "1.234e-05".toList ∧ NumText.print 6 (-1200 : ℚ) = "-1200".toList ∧
    NumText.print 17 (nearestEven 53 (1 / 10 : ℚ)) = "0.10000000000000001".toList := by decide +kernel

/-- `5 x y^2` with the coefficient 1/3 in place of 5. -/
def ser : Series ℚ := { Demo.ser ℚ with coeff := { (Demo.ser ℚ).coeff with val := [0, 0, 0, 0, 0, nearestEven 53 (1 / 3)] } }

theorem ser_over : ser.Over (Demo.fams ℚ) := by
  refine ⟨Series.make 0 1, _, [some (Demo.newBasis (Demo.mono ℚ 2)), some (Demo.newBasis (Demo.mono ℚ 3))],
    [.setCoeff [1, 2] (nearestEven 53 (1 / 3))], rfl, rfl, ?_, Demo.ser0_set, ?_, ?_⟩
  · exact .cons ⟨_, rfl, 2, [], rfl, rfl⟩ (.cons ⟨_, rfl, 3, [], rfl, rfl⟩ .nil)
  · simp [SerOp.KeepsBasis]
  · rfl

theorem in_box : InBox (extents (Demo.fams ℚ)) [1, 2] := by
  simp [InBox, extents, Demo.fams, Demo.mono]

/-- The series with the coefficient 1/3 is changed by writing and reading with the default precision ... -/
example : ∃ text, ser.printCoeff (NumText.print 6) = .ok text ∧ ∃ sin s'',
    (Demo.ser ℚ).readCoeff (NumText.scan (nearestEven 53)) (ofText text) = .ok (sin, s'') ∧ s''.coeff.get [1, 2] ≠ ser.coeff.get [1, 2] := by
  obtain ⟨text, h1, sin, s'', h2, _, h3⟩ := C125_default_precision_violated (Demo.fams ℚ) (Demo.good ℚ) ser (Demo.ser ℚ) ser_over
    Demo.ser_over [1, 2] in_box rfl
  exact ⟨text, h1, sin, s'', h2, h3⟩

/-- ... and restored with 17 digits. -/
example : ∃ text, ser.printCoeff (NumText.print 17) = .ok text ∧ ∃ sin s'',
    (Demo.ser ℚ).readCoeff (NumText.scan (nearestEven 53)) (ofText text) = .ok (sin, s'') ∧ s''.coeff.get [1, 2] = ser.coeff.get [1, 2] := by
  obtain ⟨text, h1, h2⟩ := C125_restored_partial 17 (by decide) (Demo.fams ℚ) (Demo.good ℚ) ser (Demo.ser ℚ) ser_over Demo.ser_over
    (by
      intro t y ht hy
      have : y ∈ ser.coeff.val := by
        obtain ⟨z, hz, hz'⟩ := NDArray.get_of (ser_over.wf (Demo.good ℚ)).shaped (Demo.good ℚ) ht
        rw [hy] at hz; cases hz
        exact List.mem_of_getElem? hz'
      have hall : ∀ y ∈ ser.coeff.val, nearestEven 53 y = y := by decide +kernel
      exact hall y this)
  obtain ⟨sin, s'', w, e1, e2, _⟩ := h2 []
  rw [List.append_nil] at e1
  exact ⟨text, h1, sin, s'', e1, e2 [1, 2] in_box⟩

end NumTextDemo
end Verif
