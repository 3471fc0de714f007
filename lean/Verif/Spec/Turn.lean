import Verif.Spec.Mesh
import Mathlib.Algebra.Group.Equiv.Basic

/-!
# Specification: turned, mirrored and stretched coordinates
-/

namespace Verif.Spec
variable {K : Type} [Field K] {d : Nat}

/-- New coordinate `i` is the old coordinate `π i`, multiplied by `s i` (possibly negative), plus `t i`. With factors 1 and -1 these are all the turns by right
angles and the mirrorings. -/
def turn (π : Equiv.Perm (Fin d)) (s t : Fin d → K) (c : Fin d → K) : Fin d → K := fun i => s i * c (π i) + t i

end Verif.Spec
