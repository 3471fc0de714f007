import Verif.Spec.Mesh

/-! # Specification: refined meshes -/

namespace Verif.Spec
variable {K : Type} [Field K] [LinearOrder K]

/-- Every cell of the second mesh is part of a cell of the first. -/
def Refines {d n : Nat} (unit : Fin n → Fin d → K) (pts : List (Fin d → K)) (cells : List (List Nat)) (pts' : List (Fin d → K)) (cells' : List (List Nat)) : Prop :=
  ∀ cell' ∈ cells', ∀ a' h', CellAt unit pts' cell' a' h' → ∃ cell ∈ cells, ∃ a h, CellAt unit pts cell a h ∧ ∀ i, a i ≤ a' i ∧ a' i + h' i ≤ a i + h i

end Verif.Spec
