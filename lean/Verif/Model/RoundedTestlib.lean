import Verif.Model.Testlib
import Mathlib.Algebra.Order.Field.Basic

/-!
# The functions of tests/testlib in floating-point arithmetic

The objects are those of `Model/Testlib`, with numbers of a type whose operations round.
-/

namespace Verif

/-- Doubles: every literal, every `+`, `-` and `*` in an expression (Monomial.hh:14-16, Chebyshev.hh:14-16, Quadratic.hh:14-16,
MyFunc.hh:14-16 and the same lines of every class) is rounded by `rnd`; the unary minus is exact. Overflow, underflow, infinities, NaN, extended
precision and fused operations are not modelled. -/
def Flt {K : Type} (_ : K → K) : Type := K

instance {K : Type} [Field K] (rnd : K → K) : Arith (Flt rnd) where
  lit q := rnd (q : K)
  add a b := rnd (Add.add (α := K) a b)
  sub a b := rnd (Sub.sub (α := K) a b)
  mul a b := rnd (Mul.mul (α := K) a b)
  neg a := Neg.neg (α := K) a

instance {K : Type} [Field K] (rnd : K → K) : Zero (Flt rnd) := ⟨(0 : K)⟩

end Verif
