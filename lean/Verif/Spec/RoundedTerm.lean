import Verif.Spec.Rounding

/-!
# Specification: arithmetic of which only the order is known

This file does not mention the model.
-/

namespace Verif.Spec
variable {K : Type} [Zero K] [LinearOrder K]

/-- A rounding that keeps the order and 0 and does not change numbers already rounded. Its error may be anything: this also covers roundings that
underflow, or that replace numbers which are too big by the biggest one. -/
structure OrderRounding (rnd : K → K) : Prop where
  mono : ∀ x y, x ≤ y → rnd x ≤ rnd y
  zero : rnd 0 = 0
  idem : ∀ x, rnd (rnd x) = rnd x

end Verif.Spec
