import Verif.Props.Field2D

/-! A small concrete mesh used by the non-vacuity examples. -/

namespace Verif.Demo
open Spec

/-- Two cells side by side, of different widths: `[0,1]×[0,1]` and `[1,3]×[0,1]`. -/
def pts : List (Fin 2 → ℚ) := [![0, 0], ![1, 0], ![3, 0], ![0, 1], ![1, 1], ![3, 1]]
def cells : List (List Nat) := [[0, 1, 4, 3], [1, 2, 5, 4]]
def flds : List (String × List ℚ) := [("u", [1, 2, 3, 4, 5, 7]), ("w", [0, 1, 0, 2, 0, 5])]

theorem cell0 : CellAt quadUnit pts [0, 1, 4, 3] ![0, 0] ![1, 1] := by
  refine ⟨rfl, by decide +kernel, ?_⟩
  intro j
  fin_cases j
  · exact ⟨0, rfl, by simp [pts]; decide +kernel⟩
  · exact ⟨1, rfl, by simp [pts]; decide +kernel⟩
  · exact ⟨4, rfl, by simp [pts]; decide +kernel⟩
  · exact ⟨3, rfl, by simp [pts]; decide +kernel⟩

theorem cell1 : CellAt quadUnit pts [1, 2, 5, 4] ![1, 0] ![2, 1] := by
  refine ⟨rfl, by decide +kernel, ?_⟩
  intro j
  fin_cases j
  · exact ⟨1, rfl, by simp [pts]; decide +kernel⟩
  · exact ⟨2, rfl, by simp [pts]; decide +kernel⟩
  · exact ⟨5, rfl, by simp [pts]; decide +kernel⟩
  · exact ⟨4, rfl, by simp [pts]; decide +kernel⟩

theorem rect : RectMesh quadUnit pts cells where
  nonempty := by decide
  rect := by
    intro cell hc
    simp only [cells, List.mem_cons, List.not_mem_nil, or_false] at hc
    rcases hc with rfl | rfl
    · exact ⟨_, _, cell0⟩
    · exact ⟨_, _, cell1⟩
  small := by decide +kernel

theorem lens : ∀ fl ∈ flds, fl.2.length = pts.length := by decide

theorem conforming : Conforming quadUnit pts cells := by
  have key : ∀ cell ∈ cells, ∀ a h, CellAt quadUnit pts cell a h →
      (cell = [0, 1, 4, 3] ∧ a = ![0, 0] ∧ h = ![1, 1]) ∨ (cell = [1, 2, 5, 4] ∧ a = ![1, 0] ∧ h = ![2, 1]) := by
    intro cell hc a h hah
    simp only [cells, List.mem_cons, List.not_mem_nil, or_false] at hc
    rcases hc with rfl | rfl
    · exact Or.inl ⟨rfl, Mesh.cellAt_unique quadLaw hah cell0⟩
    · exact Or.inr ⟨rfl, Mesh.cellAt_unique quadLaw hah cell1⟩
  intro cell hc cell' hc' a h a' h' hah hah' _ u hu
  have ext : ∀ x y : ℚ, u 0 = x → u 1 = y → u = ![x, y] := by
    intro x y hx hy; funext i; fin_cases i <;> simp [hx, hy]
  have m01 : max (0 : ℚ) 1 = 1 := by decide +kernel
  have m10 : max (1 : ℚ) 0 = 1 := by decide +kernel
  have n13 : min (1 : ℚ) (1 + 2) = 1 := by decide +kernel
  have n31 : min ((1 : ℚ) + 2) 1 = 1 := by decide +kernel
  have e3 : (1 : ℚ) + 2 = 3 := by decide +kernel
  have h0 := hu 0
  have h1 := hu 1
  rcases key cell hc a h hah with ⟨rfl, rfl, rfl⟩ | ⟨rfl, rfl, rfl⟩ <;>
  rcases key cell' hc' a' h' hah' with ⟨rfl, rfl, rfl⟩ | ⟨rfl, rfl, rfl⟩ <;>
  simp [m01, m10, n13, n31, e3] at h0 h1
  · rcases h0 with h0 | h0 <;> rcases h1 with h1 | h1 <;> rw [ext _ _ h0 h1] <;> simp [pts]
  · rcases h1 with h1 | h1 <;> rw [ext _ _ h0 h1] <;> simp [pts]
  · rcases h1 with h1 | h1 <;> rw [ext _ _ h0 h1] <;> simp [pts]
  · rcases h0 with h0 | h0 <;> rcases h1 with h1 | h1 <;> rw [ext _ _ h0 h1] <;> simp [pts]

end Verif.Demo
