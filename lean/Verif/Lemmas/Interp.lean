import Verif.Model.Interp
import Verif.Spec.Cell
import Mathlib.Algebra.Order.Field.Basic
import Mathlib.Tactic.FieldSimp
import Mathlib.Tactic.Ring
import Mathlib.Tactic.Linarith
import Mathlib.Tactic.FinCases
import Mathlib.Data.Fintype.Basic
import Mathlib.Tactic.NormNum

/-! Helper lemmas for the interpolator properties: the corner weight in one direction. -/

namespace Verif
open Spec
variable {K : Type} [Field K]

/-- Local coordinate `(c-a)/h`. -/
def loc (a h c : K) : K := (c - a) / h

theorem loc_lo {a h c : K} : 1 - 1 * (c - (a + 0 * h)) / h = 1 - loc a h c := by
  unfold loc; ring

theorem loc_hi {a h c : K} (hh : h ≠ 0) : 1 - -1 * (c - (a + 1 * h)) / h = loc a h c := by
  unfold loc; field_simp; ring

section order
variable [LinearOrder K] [IsStrictOrderedRing K]

theorem loc_nonneg_iff {a h c : K} (hh : 0 < h) : 0 ≤ loc a h c ↔ a ≤ c := by
  unfold loc
  rw [le_div_iff₀ hh]; constructor <;> intro h <;> linarith

theorem loc_le_one_iff {a h c : K} (hh : 0 < h) : loc a h c ≤ 1 ↔ c ≤ a + h := by
  unfold loc
  rw [div_le_one hh]; constructor <;> intro h <;> linarith

theorem loc_lt_one_iff {a h c : K} (hh : 0 < h) : loc a h c < 1 ↔ c < a + h := by
  unfold loc
  rw [div_lt_one hh]; constructor <;> intro h <;> linarith

theorem loc_pos_iff {a h c : K} (hh : 0 < h) : 0 < loc a h c ↔ a < c := by
  unfold loc
  rw [lt_div_iff₀ hh]; constructor <;> intro h <;> linarith

end order

/-- The value of the quad interpolator of corner `j` in local coordinates. -/
theorem quadF_corner {a h c : Fin 2 → K} (h0 : h 0 ≠ 0) (h1 : h 1 ≠ 0) (j : Fin 4) :
    quadF c (cornerPos a h (quadUnit j)) h (quadSign j) =
      (match j with
        | 0 => (1 - loc (a 0) (h 0) (c 0)) * (1 - loc (a 1) (h 1) (c 1))
        | 1 => loc (a 0) (h 0) (c 0) * (1 - loc (a 1) (h 1) (c 1))
        | 2 => loc (a 0) (h 0) (c 0) * loc (a 1) (h 1) (c 1)
        | 3 => (1 - loc (a 0) (h 0) (c 0)) * loc (a 1) (h 1) (c 1)) := by
  fin_cases j <;> simp [quadF, cornerPos, quadUnit, quadSign, loc] <;> field_simp <;> ring_nf <;> simp

theorem hexF_corner {a h c : Fin 3 → K} (h0 : h 0 ≠ 0) (h1 : h 1 ≠ 0) (h2 : h 2 ≠ 0) (j : Fin 8) :
    hexF c (cornerPos a h (hexUnit j)) h (hexSign j) =
      (match j with
        | 0 => (1 - loc (a 0) (h 0) (c 0)) * (1 - loc (a 1) (h 1) (c 1)) * (1 - loc (a 2) (h 2) (c 2))
        | 1 => loc (a 0) (h 0) (c 0) * (1 - loc (a 1) (h 1) (c 1)) * (1 - loc (a 2) (h 2) (c 2))
        | 2 => loc (a 0) (h 0) (c 0) * loc (a 1) (h 1) (c 1) * (1 - loc (a 2) (h 2) (c 2))
        | 3 => (1 - loc (a 0) (h 0) (c 0)) * loc (a 1) (h 1) (c 1) * (1 - loc (a 2) (h 2) (c 2))
        | 4 => (1 - loc (a 0) (h 0) (c 0)) * (1 - loc (a 1) (h 1) (c 1)) * loc (a 2) (h 2) (c 2)
        | 5 => loc (a 0) (h 0) (c 0) * (1 - loc (a 1) (h 1) (c 1)) * loc (a 2) (h 2) (c 2)
        | 6 => loc (a 0) (h 0) (c 0) * loc (a 1) (h 1) (c 1) * loc (a 2) (h 2) (c 2)
        | 7 => (1 - loc (a 0) (h 0) (c 0)) * loc (a 1) (h 1) (c 1) * loc (a 2) (h 2) (c 2)) := by
  fin_cases j <;> simp [hexF, cornerPos, hexUnit, hexSign, loc] <;> field_simp <;> ring_nf <;> simp

section order
variable [LinearOrder K] [IsStrictOrderedRing K]

theorem passOk_lo {d : Nat} {q : Interp K d} {c : Fin d → K} {i : Fin d} {a : K} (hh : 0 < q.h i) (hs : q.s i = 1)
    (hn : q.n i = a) : q.passOk c i = true ↔ a ≤ c i ∧ c i < a + q.h i := by
  have e : q.s i * (c i - q.n i) / q.h i = loc a (q.h i) (c i) := by rw [hs, hn]; simp [loc]
  simp only [Interp.passOk, e, ← loc_nonneg_iff (a := a) hh, ← loc_lt_one_iff (a := a) hh]
  by_cases h1 : loc a (q.h i) (c i) < 0
  · simp [h1]
  · by_cases h2 : loc a (q.h i) (c i) < 1
    · simp [not_lt.mp h1, h2, not_le.mpr h2]
    · simp [h2, not_lt.mp h2]

theorem passOk_hi {d : Nat} {q : Interp K d} {c : Fin d → K} {i : Fin d} {a : K} (hh : 0 < q.h i) (hs : q.s i = -1)
    (hn : q.n i = a + q.h i) : q.passOk c i = true ↔ a < c i ∧ c i ≤ a + q.h i := by
  have e : q.s i * (c i - q.n i) / q.h i = 1 - loc a (q.h i) (c i) := by
    rw [hs, hn]; unfold loc; field_simp; ring
  simp only [Interp.passOk, e, ← loc_pos_iff (a := a) hh, ← loc_le_one_iff (a := a) hh]
  by_cases h1 : loc a (q.h i) (c i) ≤ 1
  · by_cases h2 : 0 < loc a (q.h i) (c i)
    · have : ¬ (1 - loc a (q.h i) (c i) < 0 ∨ 1 - loc a (q.h i) (c i) ≥ 1) := by
        rintro (h | h) <;> linarith
      simp [this, h1, h2]
    · have : (1 - loc a (q.h i) (c i) < 0 ∨ 1 - loc a (q.h i) (c i) ≥ 1) := by
        right; linarith [not_lt.mp h2]
      simp only [this, if_true]; simp [h2]
  · have : (1 - loc a (q.h i) (c i) < 0 ∨ 1 - loc a (q.h i) (c i) ≥ 1) := by
      left; linarith [not_le.mp h1]
    simp only [this, if_true]; simp [h1]

end order
end Verif
