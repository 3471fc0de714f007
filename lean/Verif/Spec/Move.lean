import Mathlib.Algebra.Field.Defs

/-!
# Specification: changing the units and the origin of the axes

This file does not mention the model.
-/

namespace Verif.Spec
variable {K : Type} [Field K] {d : Nat}

/-- Coordinate `i` is multiplied by `s i`, then `t i` is added (other units, another origin). -/
def rescale (s t : Fin d → K) (c : Fin d → K) : Fin d → K := fun i => s i * c i + t i

end Verif.Spec
