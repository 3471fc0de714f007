import Verif.Props.Interp
import Verif.Lemmas.Field

/-! `HexahedronValues` meets the element laws, with the column over the cell's base as accepted region. -/

namespace Verif
open Spec Mesh PField
variable {K : Type} [Field K] [LinearOrder K] [FloorRing K] [IsStrictOrderedRing K]

/-- The vertical column over the base of a 3D cell. -/
def InColumn (a h c : Fin 3 → K) : Prop := (a 0 ≤ c 0 ∧ c 0 ≤ a 0 + h 0) ∧ (a 1 ≤ c 1 ∧ c 1 ≤ a 1 + h 1)

omit [FloorRing K] in
theorem hexLaw : ElemLaw (hexOps K) hexUnit (InColumn (K := K)) where
  dpos := by decide
  npos := by decide
  corners := rfl
  far := by show 6 < 8; decide
  unit_far _ := by funext i; fin_cases i <;> simp [hexOps, hexUnit]
  unit_zero _ := by funext i; fin_cases i <;> simp [hexUnit]
  node _ _ _ _ _ := rfl
  element _ _ _ _ _ := rfl
  min_eq nd el a h j := ((C20_bounding_box nd el).2 a h j).1
  max_eq nd el a h j := ((C20_bounding_box nd el).2 a h j).2
  range_sub nd el a h j c hh hr := (C19_hex_range_partial (fun _ => nd) el a h c hh).1.mp ⟨j, hr⟩
  range_all a h c hh hc := by
    obtain ⟨j, hj⟩ := (C19_hex_range_partial (fun _ => 0) 0 a h c hh).1.mpr hc
    exact ⟨j, fun nd el => hj⟩
  range_cov a h c hh hc := by
    obtain ⟨j, hj⟩ := (C19_hex_range_partial (fun _ => 0) 0 a h c hh).2 hc
    exact ⟨j, fun nd el => hj⟩

theorem hexTotal : ElemTotal (hexOps K) where
  value c := ⟨fun q => hexF c q.n q.h q.s, rfl⟩
  grad c di := by
    fin_cases di
    · exact ⟨fun q => -q.s 0 * (1 - q.s 1 * (c 1 - q.n 1) / q.h 1) * (1 - q.s 2 * (c 2 - q.n 2) / q.h 2) / q.h 0, rfl⟩
    · exact ⟨fun q => -q.s 1 * (1 - q.s 0 * (c 0 - q.n 0) / q.h 0) * (1 - q.s 2 * (c 2 - q.n 2) / q.h 2) / q.h 1, rfl⟩
    · exact ⟨fun q => -q.s 2 * (1 - q.s 0 * (c 0 - q.n 0) / q.h 0) * (1 - q.s 1 * (c 1 - q.n 1) / q.h 1) / q.h 2, rfl⟩
  hess c di dj := by
    fin_cases di <;> fin_cases dj
    · exact ⟨fun _ => 0, rfl⟩
    · exact ⟨fun q => q.s 0 * q.s 1 / q.h 0 / q.h 1, rfl⟩
    · exact ⟨fun q => q.s 0 * q.s 2 / q.h 0 / q.h 2, rfl⟩
    · exact ⟨fun q => q.s 1 * q.s 0 / q.h 1 / q.h 0, rfl⟩
    · exact ⟨fun _ => 0, rfl⟩
    · exact ⟨fun q => q.s 1 * q.s 2 / q.h 1 / q.h 2, rfl⟩
    · exact ⟨fun q => q.s 2 * q.s 0 / q.h 2 / q.h 0, rfl⟩
    · exact ⟨fun q => q.s 2 * q.s 1 / q.h 2 / q.h 1, rfl⟩
    · exact ⟨fun _ => 0, rfl⟩

end Verif
