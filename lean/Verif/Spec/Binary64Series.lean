import Verif.Spec.Binary64
import Verif.Spec.Series

/-!
# Specification: series of moderate size

This file does not mention the model.
-/

namespace Verif.Spec
variable {K : Type} [Field K] [LinearOrder K]

/-- At the point `x`, the values, derivatives and second derivatives of the basis functions of every direction are 0 or of a magnitude between `2^-B`
and `2^B`. -/
def BasisSized (B : Nat) (fs : List (Family K)) (x : List K) : Prop :=
  ∀ (j : Nat) F y, fs[j]? = some F → x[j]? = some y → ∀ k, k < F.size → Sized B B (F.phi k y) ∧ Sized B B (F.dphi k y) ∧ Sized B B (F.ddphi k y)

/-- `y` is a double, 0 or of a magnitude between `2^-V` and `2^V`. -/
def Moderate [FloorRing K] (V : Nat) (y : K) : Prop := IsFloat (nearestEven 53) y ∧ Sized V V y

end Verif.Spec
