import Verif.Lemmas.RoundedField
import Verif.Lemmas.HexLaw

/-! Helper lemmas: the two element classes in floating-point arithmetic. -/

namespace Verif
open Spec
namespace Fl
variable {K : Type} [Field K] [LinearOrder K] [FloorRing K] [IsStrictOrderedRing K] {rnd : K → K} {u : K}

theorem flQuad : FlElem rnd (quadOps rnd) (quadUnit (K := K)) (fun j => quadSign (j : Nat)) (fun _ => True) where
  law := ⟨_, _, quadLaw⟩
  corners := rfl
  far := by show 2 < 4; decide
  unit_far _ := by funext i; fin_cases i <;> simp [quadOps, quadUnit]
  element _ _ _ _ _ := rfl
  make _ _ _ _ _ := rfl
  sign j i := by fin_cases j <;> fin_cases i <;> simp [quadUnit, quadSign]
  every f := by
    cases h0 : f 0 <;> cases h1 : f 1
    · exact ⟨0, fun i => by fin_cases i <;> simp [quadUnit, h0, h1]⟩
    · exact ⟨3, fun i => by fin_cases i <;> simp [quadUnit, h0, h1]⟩
    · exact ⟨1, fun i => by fin_cases i <;> simp [quadUnit, h0, h1]⟩
    · exact ⟨2, fun i => by fin_cases i <;> simp [quadUnit, h0, h1]⟩
  inRange q c := by
    simp only [quadOps, quadInRange, Bool.and_eq_true]
    constructor
    · intro h i _; fin_cases i; exact h.1; exact h.2
    · intro h; exact ⟨h 0 trivial, h 1 trivial⟩

theorem flQuadTotal : PField.ElemTotal (quadOps rnd) where
  value c := ⟨fun q => quadF rnd c q.n q.h q.s, rfl⟩
  grad c di := by
    fin_cases di
    · exact ⟨fun q => rnd (rnd (-q.s 0 * rnd (1 - local1 rnd (c 1) (q.n 1) (q.h 1) (q.s 1))) / q.h 0), rfl⟩
    · exact ⟨fun q => rnd (rnd (-q.s 1 * rnd (1 - local1 rnd (c 0) (q.n 0) (q.h 0) (q.s 0))) / q.h 1), rfl⟩
  hess c di dj := by
    fin_cases di <;> fin_cases dj
    · exact ⟨fun _ => 0, rfl⟩
    · exact ⟨fun q => rnd (rnd (rnd (q.s 0 * q.s 1) / q.h 0) / q.h 1), rfl⟩
    · exact ⟨fun q => rnd (rnd (rnd (q.s 0 * q.s 1) / q.h 0) / q.h 1), rfl⟩
    · exact ⟨fun _ => 0, rfl⟩

theorem flHex : FlElem rnd (hexOps rnd) (hexUnit (K := K)) (fun j => hexSign (j : Nat)) (fun i => i ≠ 2) where
  law := ⟨_, _, hexLaw⟩
  corners := rfl
  far := by show 6 < 8; decide
  unit_far _ := by funext i; fin_cases i <;> simp [hexOps, hexUnit]
  element _ _ _ _ _ := rfl
  make _ _ _ _ _ := rfl
  sign j i := by fin_cases j <;> fin_cases i <;> simp [hexUnit, hexSign]
  every f := by
    cases h0 : f 0 <;> cases h1 : f 1 <;> cases h2 : f 2
    · exact ⟨0, fun i => by fin_cases i <;> simp [hexUnit, h0, h1, h2]⟩
    · exact ⟨4, fun i => by fin_cases i <;> simp [hexUnit, h0, h1, h2]⟩
    · exact ⟨3, fun i => by fin_cases i <;> simp [hexUnit, h0, h1, h2]⟩
    · exact ⟨7, fun i => by fin_cases i <;> simp [hexUnit, h0, h1, h2]⟩
    · exact ⟨1, fun i => by fin_cases i <;> simp [hexUnit, h0, h1, h2]⟩
    · exact ⟨5, fun i => by fin_cases i <;> simp [hexUnit, h0, h1, h2]⟩
    · exact ⟨2, fun i => by fin_cases i <;> simp [hexUnit, h0, h1, h2]⟩
    · exact ⟨6, fun i => by fin_cases i <;> simp [hexUnit, h0, h1, h2]⟩
  inRange q c := by
    simp only [hexOps, hexInRange, Bool.and_eq_true]
    constructor
    · intro h i hi; fin_cases i; exact h.1; exact h.2; exact absurd rfl hi
    · intro h; exact ⟨h 0 (by decide), h 1 (by decide)⟩

theorem flHexTotal : PField.ElemTotal (hexOps rnd) where
  value c := ⟨fun q => hexF rnd c q.n q.h q.s, rfl⟩
  grad c di := by
    fin_cases di
    · exact ⟨fun q => hexSlope rnd (q.s 0) (local1 rnd (c 1) (q.n 1) (q.h 1) (q.s 1)) (local1 rnd (c 2) (q.n 2) (q.h 2) (q.s 2)) (q.h 0), rfl⟩
    · exact ⟨fun q => hexSlope rnd (q.s 1) (local1 rnd (c 0) (q.n 0) (q.h 0) (q.s 0)) (local1 rnd (c 2) (q.n 2) (q.h 2) (q.s 2)) (q.h 1), rfl⟩
    · exact ⟨fun q => hexSlope rnd (q.s 2) (local1 rnd (c 0) (q.n 0) (q.h 0) (q.s 0)) (local1 rnd (c 1) (q.n 1) (q.h 1) (q.s 1)) (q.h 2), rfl⟩
  hess c di dj := by
    fin_cases di <;> fin_cases dj
    · exact ⟨fun _ => 0, rfl⟩
    · exact ⟨fun q => hexTwist rnd (q.s 0) (q.s 1) (q.h 0) (q.h 1), rfl⟩
    · exact ⟨fun q => hexTwist rnd (q.s 0) (q.s 2) (q.h 0) (q.h 2), rfl⟩
    · exact ⟨fun q => hexTwist rnd (q.s 1) (q.s 0) (q.h 1) (q.h 0), rfl⟩
    · exact ⟨fun _ => 0, rfl⟩
    · exact ⟨fun q => hexTwist rnd (q.s 1) (q.s 2) (q.h 1) (q.h 2), rfl⟩
    · exact ⟨fun q => hexTwist rnd (q.s 2) (q.s 0) (q.h 2) (q.h 0), rfl⟩
    · exact ⟨fun q => hexTwist rnd (q.s 2) (q.s 1) (q.h 2) (q.h 1), rfl⟩
    · exact ⟨fun _ => 0, rfl⟩

end Fl
end Verif
