import Verif.Spec.Testlib

/-!
# Specification: the Chebyshev polynomials without minus signs

This file does not mention the model.
-/

namespace Verif.Spec
open Polynomial

/-- The polynomials with the absolute values of the coefficients of the Chebyshev polynomials: `|T_0| = 1`, `|T_1| = x`,
`|T_{k+2}| = 2 x |T_{k+1}| + |T_k|`. -/
noncomputable def absT (K : Type) [Field K] : Nat → K[X]
  | 0 => 1
  | 1 => X
  | k + 2 => 2 * X * absT K (k + 1) + absT K k

end Verif.Spec
