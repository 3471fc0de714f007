import Verif.Lemmas.NumText
import Verif.Spec.Numeral
import Mathlib.Tactic.IntervalCases

/-! The text `strtod` converts is a decimal numeral, and every numeral is converted. -/

namespace Verif
variable {K : Type} [Field K] [LinearOrder K] [IsStrictOrderedRing K] [FloorRing K]
open Spec

namespace NumText

theorem digitChar_isDigit (d : Fin 10) : (digitChar d).isDigit = true := by revert d; decide

theorem digitChar_val (d : Fin 10) : (digitChar d).toNat - '0'.toNat = d.val := by revert d; decide

theorem digits_isDigit (ds : List (Fin 10)) : ∀ c ∈ ds.map digitChar, c.isDigit = true := by
  intro c hc
  obtain ⟨d, _, rfl⟩ := List.mem_map.mp hc
  exact digitChar_isDigit d

theorem ofDigits (ds : List (Fin 10)) : ∀ n, Nat.ofDigitChars 10 (ds.map digitChar) n = ds.foldl (fun n d => 10 * n + d.val) n := by
  induction ds with
  | nil => intro n; rfl
  | cons d ds ih =>
    intro n
    rw [List.map_cons, Nat.ofDigitChars_cons, ih, digitChar_val]; rfl

theorem ofDigits_value (ds : List (Fin 10)) : Nat.ofDigitChars 10 (ds.map digitChar) 0 = digitsValue ds := ofDigits ds 0

theorem char_digit {c : Char} (h : c.isDigit = true) : ∃ d, digitChar d = c := by
  have hb : 48 ≤ c.toNat ∧ c.toNat ≤ 57 := by
    simp only [Char.isDigit, Bool.and_eq_true, decide_eq_true_eq] at h
    exact ⟨h.1, h.2⟩
  refine ⟨⟨c.toNat - 48, by omega⟩, ?_⟩
  unfold digitChar
  simp only
  rw [show 48 + (c.toNat - 48) = c.toNat by omega, Char.ofNat_toNat]

theorem mem_takeWhile {l : List Char} {c : Char} (h : c ∈ l.takeWhile Char.isDigit) : c.isDigit = true := by
  have := List.all_takeWhile (l := l) (p := Char.isDigit)
  rw [List.all_eq_true] at this
  exact this c h

theorem chars_digits {cs : List Char} (h : ∀ c ∈ cs, c.isDigit = true) : ∃ ds : List (Fin 10), ds.map digitChar = cs := by
  induction cs with
  | nil => exact ⟨[], rfl⟩
  | cons c cs ih =>
    obtain ⟨d, hd⟩ := char_digit (h c (by simp))
    obtain ⟨ds, hds⟩ := ih fun c hc => h c (by simp [hc])
    exact ⟨d :: ds, by simp [hd, hds]⟩

/-- The signs that may stand there, and what is behind them does not start with a sign. -/
theorem scanSign_signText (s : Option Bool) (t : List Char) (ht : ∀ c r, t = c :: r → c ≠ '+' ∧ c ≠ '-') :
    scanSign (signText s ++ t) = (s == some true, t) := by
  rcases s with _ | s
  · unfold signText scanSign
    simp only [List.nil_append]
    split
    · exact absurd rfl (ht _ _ rfl).2
    · exact absurd rfl (ht _ _ rfl).1
    · rfl
  · cases s <;> rfl

theorem scanSign_inv (t : List Char) : ∃ s t1, scanSign t = (s == some true, t1) ∧ t = signText s ++ t1 := by
  unfold scanSign
  split
  · exact ⟨some true, _, rfl, rfl⟩
  · exact ⟨some false, _, rfl, rfl⟩
  · exact ⟨none, _, rfl, rfl⟩

theorem digit_no_sign {c : Char} (h : c.isDigit = true) : c ≠ '+' ∧ c ≠ '-' := by
  constructor <;> rintro rfl <;> revert h <;> decide

def fracText : Option (List (Fin 10)) → List Char
  | none => []
  | some fs => '.' :: fs.map digitChar

def expText : Option Exponent → List Char
  | none => []
  | some x => x.text

def expValue : Option Exponent → Int
  | none => 0
  | some x => x.value

theorem text_eq (n : Numeral) : n.text = signText n.sign ++ (n.whole.map digitChar ++ (fracText n.frac ++ expText n.exp)) := by
  unfold Numeral.text fracText expText
  rcases n with ⟨_, _, _ | _, _ | _⟩ <;> rfl

theorem value_eq (n : Numeral) : (n.value : K) =
    signed n.sign ((digitsValue n.whole : K) + (digitsValue (n.frac.getD []) : K) / 10 ^ (n.frac.getD []).length) * 10 ^ expValue n.exp := by
  unfold Numeral.value expValue
  rcases n with ⟨_, _, _, _ | _⟩ <;> rfl

theorem convert_value (rnd : K → K) (n : Numeral) :
    convert rnd (n.sign == some true) (n.whole.map digitChar) ((n.frac.getD []).map digitChar) (expValue n.exp) = rnd n.value := by
  unfold convert
  congr 1
  rw [value_eq, ← List.map_append, ofDigits_value]
  have h1 : (digitsValue (n.whole ++ n.frac.getD []) : K) =
      10 ^ (n.frac.getD []).length * digitsValue n.whole + digitsValue (n.frac.getD []) := by
    rw [← ofDigits_value, List.map_append, Nat.ofDigitChars_append, Nat.ofDigitChars_eq_ofDigitChars_zero, ofDigits_value, ofDigits_value]
    push_cast; simp
  have hp : (10 : K) ^ (n.frac.getD []).length ≠ 0 := by positivity
  rw [h1, List.length_map, zpow_sub₀ (by norm_num : (10 : K) ≠ 0), zpow_natCast]
  unfold signed
  rcases hs : n.sign with _ | _ | _
  all_goals
    simp
    field_simp

theorem getD_frac (fr : Option (List (Fin 10))) (w : List Char) (hw : ∀ c r, w = c :: r → c.isDigit = false ∧ c ≠ '.') :
    scanFrac (fracText fr ++ w) = ((fr.getD []).map digitChar, w) := by
  cases fr with
  | none =>
    unfold scanFrac fracText
    simp only [List.nil_append]
    split
    · exact absurd rfl (hw _ _ rfl).2
    · rfl
  | some fs =>
    obtain ⟨h1, h2⟩ := isDigit_take (ds := fs.map digitChar) (w := w) (digits_isDigit fs) fun c r h => (hw c r h).1
    simp [fracText, scanFrac, h1, h2]

theorem expText_start (x : Option Exponent) (w : List Char) (hw : StartsBlank w) :
    ∀ c r, expText x ++ w = c :: r → c.isDigit = false ∧ c ≠ '.' := by
  intro c r h
  cases x with
  | none =>
    obtain ⟨c', r', rfl, hc⟩ := hw
    obtain ⟨b1, b2, _⟩ := blank_facts hc
    cases h; exact ⟨b1, b2⟩
  | some x =>
    rcases x with ⟨_ | _, _, _⟩
    · cases h; exact (by decide : 'e'.isDigit = false ∧ 'e' ≠ '.')
    · cases h; exact (by decide : 'E'.isDigit = false ∧ 'E' ≠ '.')

theorem blank_no_sign {c : Char} (hc : Blank c) : c ≠ '+' ∧ c ≠ '-' := by
  simp only [Blank, List.mem_cons, List.not_mem_nil, or_false] at hc
  rcases hc with h | h | h | h | h | h <;> subst h <;> decide

/-- Scanning a numeral. -/
theorem scan_numeral (rnd : K → K) (n : Numeral) (w : List Char) (hw : StartsBlank w) :
    (n.WellFormed → scan rnd (n.text ++ w) = (some (rnd n.value), w)) ∧ (¬ n.WellFormed → (scan rnd (n.text ++ w)).1 = none) := by
  obtain ⟨c0, r0, hw0, hc0⟩ := id hw
  obtain ⟨b1, b2, b3, b4⟩ := blank_facts hc0
  have hx := expText_start n.exp w hw
  have hnd : ∀ c r, fracText n.frac ++ (expText n.exp ++ w) = c :: r → c.isDigit = false := by
    intro c r h
    cases hf : n.frac with
    | none => rw [hf] at h; exact (hx c r h).1
    | some fs => rw [hf] at h; cases h; decide
  have hns : ∀ c r, n.whole.map digitChar ++ (fracText n.frac ++ (expText n.exp ++ w)) = c :: r → c ≠ '+' ∧ c ≠ '-' := by
    intro c r h
    cases hf : n.whole with
    | cons d ds =>
      rw [hf] at h; cases h
      exact digit_no_sign (digitChar_isDigit d)
    | nil =>
      rw [hf] at h
      cases hf : n.frac with
      | some fs => rw [hf] at h; cases h; decide
      | none =>
        rw [hf] at h
        cases he : n.exp with
        | none => rw [he, hw0] at h; cases h; exact blank_no_sign hc0
        | some x =>
          rw [he] at h
          rcases x with ⟨_ | _, _, _⟩
          · cases h; exact (by decide : 'e' ≠ '+' ∧ 'e' ≠ '-')
          · cases h; exact (by decide : 'E' ≠ '+' ∧ 'E' ≠ '-')
  have hsc := scanSign_signText n.sign _ hns
  obtain ⟨t1, t2⟩ := isDigit_take (digits_isDigit n.whole) hnd
  have hfr := getD_frac n.frac (expText n.exp ++ w) hx
  have hconv := convert_value rnd n
  unfold scan
  rw [text_eq, List.append_assoc, List.append_assoc, List.append_assoc, hsc]
  simp only [t1, t2, hfr]
  have key : n.whole.map digitChar ++ (n.frac.getD []).map digitChar = [] ↔ n.whole = [] ∧ n.frac.getD [] = [] := by
    rw [← List.map_append, List.map_eq_nil_iff, List.append_eq_nil_iff]
  by_cases hm : n.whole = [] ∧ n.frac.getD [] = []
  · rw [if_pos (key.mpr hm)]
    refine ⟨fun h => ?_, fun _ => rfl⟩
    rcases h.1 with h | h
    · exact absurd hm.1 h
    · exact absurd hm.2 h
  · rw [if_neg fun h => hm (key.mp h)]
    have hm' : n.whole ≠ [] ∨ n.frac.getD [] ≠ [] := by
      by_cases h : n.whole = []
      · exact Or.inr fun h' => hm ⟨h, h'⟩
      · exact Or.inl h
    cases he : n.exp with
    | none =>
      rw [he] at hconv
      have : ¬ ((expText none ++ w).head? = some 'e' ∨ (expText none ++ w).head? = some 'E') := by
        rw [hw0]; simp [expText, b3, b4]
      rw [if_neg this]
      refine ⟨fun _ => by rw [← hconv]; rfl, fun h => absurd ⟨hm', by simp [he]⟩ h⟩
    | some x =>
      rw [he] at hconv
      have h1 : (expText (some x) ++ w).head? = some 'e' ∨ (expText (some x) ++ w).head? = some 'E' := by
        rcases x with ⟨_ | _, _, _⟩
        · exact Or.inl rfl
        · exact Or.inr rfl
      have h2 : (expText (some x) ++ w).tail = signText x.sign ++ (x.digits.map digitChar ++ w) := by
        rcases x with ⟨_ | _, _, _⟩ <;> simp [expText, Exponent.text]
      rw [if_pos h1, h2, scanSign_signText]
      swap
      · intro c r h
        cases hd : x.digits with
        | nil => rw [hd, hw0] at h; cases h; exact blank_no_sign hc0
        | cons d ds => rw [hd] at h; cases h; exact digit_no_sign (digitChar_isDigit d)
      obtain ⟨t3, t4⟩ := isDigit_take (w := w) (digits_isDigit x.digits) (fun c r h => by rw [hw0] at h; cases h; exact b1)
      simp only [t3, t4]
      by_cases hd : x.digits = []
      · rw [if_pos (List.map_eq_nil_iff.mpr hd)]
        exact ⟨fun h => absurd hd (h.2 x he), fun _ => rfl⟩
      · rw [if_neg fun h => hd (List.map_eq_nil_iff.mp h)]
        refine ⟨fun _ => ?_, fun h => absurd ⟨hm', fun y hy => by rw [he] at hy; cases hy; exact hd⟩ h⟩
        rw [← hconv, ofDigits_value]
        congr 3
        unfold expValue Exponent.value signed
        rcases hs : x.sign with _ | _ | _ <;> simp [hs]

/-- Whatever is converted is a numeral. -/
theorem scan_only (rnd : K → K) (t : List Char) (x : K) (w : List Char) (h : scan rnd t = (some x, w)) :
    ∃ n : Numeral, n.WellFormed ∧ t = n.text ++ w ∧ x = rnd n.value := by
  obtain ⟨s, t1, hs, ht⟩ := scanSign_inv t
  unfold scan at h
  rw [hs] at h
  simp only at h
  obtain ⟨ds, hds⟩ := chars_digits (cs := t1.takeWhile Char.isDigit) (fun c hc => mem_takeWhile hc)
  have h1 : t1 = ds.map digitChar ++ t1.dropWhile Char.isDigit := by
    rw [hds, List.takeWhile_append_dropWhile]
  obtain ⟨t2, ht2⟩ : ∃ t2, t2 = t1.dropWhile Char.isDigit := ⟨_, rfl⟩
  rw [← ht2] at h h1
  obtain ⟨fr, t3, hf1, hf2⟩ : ∃ fr t3, scanFrac t2 = ((fr.getD []).map digitChar, t3) ∧ t2 = fracText fr ++ t3 := by
    unfold scanFrac
    split
    · rename_i r
      obtain ⟨fs, hfs⟩ := chars_digits (cs := r.takeWhile Char.isDigit) (fun c hc => mem_takeWhile hc)
      exact ⟨some fs, _, by rw [Option.getD_some, hfs], by rw [fracText, hfs, List.cons_append, List.takeWhile_append_dropWhile]⟩
    · exact ⟨none, _, rfl, rfl⟩
  rw [hf1, ← hds] at h
  simp only at h
  split at h
  · cases h
  · rename_i hm0
    have hm : ¬ (ds = [] ∧ fr.getD [] = []) := fun h => hm0 (by rw [h.1, h.2]; rfl)
    have hm' : ds ≠ [] ∨ fr.getD [] ≠ [] := by
      by_cases h : ds = []
      · exact Or.inr fun h' => hm ⟨h, h'⟩
      · exact Or.inl h
    split at h
    · rename_i hE
      obtain ⟨cap, t4, ht4⟩ : ∃ (cap : Bool) (t4 : List Char), t3 = (if cap then 'E' else 'e') :: t4 := by
        cases t3 with
        | nil => simp at hE
        | cons c r =>
          simp only [List.head?_cons, Option.some.injEq] at hE
          rcases hE with rfl | rfl
          · exact ⟨false, r, rfl⟩
          · exact ⟨true, r, rfl⟩
      obtain ⟨es, t5, he1, he2⟩ := scanSign_inv t4
      rw [ht4, List.tail_cons, he1] at h
      simp only at h
      obtain ⟨xs, hxs⟩ := chars_digits (cs := t5.takeWhile Char.isDigit) (fun c hc => mem_takeWhile hc)
      rw [← hxs] at h
      split at h
      · cases h
      · rename_i hx0
        have hx : xs ≠ [] := fun h => hx0 (by rw [h]; rfl)
        have h5 : t5 = xs.map digitChar ++ w := by
          have := List.takeWhile_append_dropWhile (p := Char.isDigit) (l := t5)
          rw [(Prod.mk.inj h).2, ← hxs] at this
          exact this.symm
        refine ⟨⟨s, ds, fr, some ⟨cap, es, xs⟩⟩, ⟨hm', fun y hy => by cases hy; exact hx⟩, ?_, ?_⟩
        · rw [text_eq, ht, h1, hf2, ht4, he2, h5]
          simp [expText, Exponent.text]
        · rw [← convert_value rnd]
          have := Option.some.inj (Prod.mk.inj h).1
          rw [← this, ofDigits_value]
          congr 1
          unfold expValue Exponent.value signed
          rcases es with _ | _ | _ <;> simp
    · refine ⟨⟨s, ds, fr, none⟩, ⟨hm', by simp⟩, ?_, ?_⟩
      · rw [text_eq, ht, h1, hf2, (Prod.mk.inj h).2]
        simp [expText]
      · rw [← convert_value rnd]
        exact (Option.some.inj (Prod.mk.inj h).1).symm

theorem text_start (n : Numeral) (hn : n.WellFormed) : ∃ c r, n.text = c :: r ∧ ¬ Blank c := by
  have dg : ∀ d : Fin 10, ¬ Blank (digitChar d) := fun d hb => by
    have := (blank_facts hb).1; rw [digitChar_isDigit] at this; cases this
  rw [text_eq]
  rcases hs : n.sign with _ | _ | _
  · cases hw : n.whole with
    | cons d ds => exact ⟨digitChar d, _, rfl, dg d⟩
    | nil =>
      cases hf : n.frac with
      | some fs => exact ⟨'.', _, rfl, fun hb => (blank_facts hb).2.1 rfl⟩
      | none =>
        rcases hn.1 with h | h
        · exact absurd hw h
        · rw [hf] at h; exact absurd rfl h
  · exact ⟨'+', _, rfl, fun hb => (blank_no_sign hb).1 rfl⟩
  · exact ⟨'-', _, rfl, fun hb => (blank_no_sign hb).2 rfl⟩

end NumText
end Verif
