import Verif.Spec.Rounding
import Verif.Model.Special

/-!
# Specification: rounding to doubles that may overflow
-/

namespace Verif.Spec
variable {K : Type} [Field K] [LinearOrder K]

/-- What is used of the rounding of finite results: 0, 1 and 1/4 are doubles, a result is never NaN, and a result that is not negative does not become `-∞`. -/
structure MayOverflow (rnd : K → Dbl K) : Prop where
  zero : rnd 0 = .fin 0
  one : rnd 1 = .fin 1
  quarter : rnd (1 / 4) = .fin (1 / 4)
  number : ∀ a, rnd a ≠ .nan
  nonneg : ∀ a, 0 ≤ a → rnd a ≠ .ninf

end Verif.Spec
