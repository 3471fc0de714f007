import Mathlib.Algebra.Field.Defs
import Mathlib.Algebra.GroupWithZero.Basic

/-!
# Specification: factors that rounding does not notice

This file does not mention the model.
-/

namespace Verif.Spec
variable {K : Type} [Field K]

/-- Multiplying by `s` commutes with rounding. For binary floating-point numbers (without overflow and underflow) this holds for the powers
of two and their negatives; for exact arithmetic (`rnd = id`) for every `s`. -/
def Respects (rnd : K → K) (s : K) : Prop := ∀ x, rnd (s * x) = s * rnd x

/-- Coordinate `i` is multiplied by `s i`. -/
def inUnits {d : Nat} (s : Fin d → K) (c : Fin d → K) : Fin d → K := fun i => s i * c i

end Verif.Spec
