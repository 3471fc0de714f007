import Verif.Spec.Func
import Mathlib.Algebra.BigOperators.Group.Finset.Basic
import Mathlib.Algebra.Field.Defs
import Mathlib.Data.Fintype.Basic

/-!
# Specification: element functions

The function of a node with position `n`, in a cell with extents `h` in the directions `s` (1 or -1) from the node. This file does not mention
the model.
-/

namespace Verif.Spec
variable {K : Type} [Field K] {d : Nat}

/-- 1 at the node and 0 on the opposite sides of the cell, linear in each direction. -/
def tent (r n h s : Fin d → K) : K := ∏ i, (1 - s i * (r i - n i) / h i)

/-- Its derivative in direction `i` of `r`. -/
def tentGrad (r n h s : Fin d → K) (i : Fin d) : K := -(s i / h i) * ∏ k ∈ Finset.univ.erase i, (1 - s k * (r k - n k) / h k)

/-- Its second derivatives. -/
def tentHess (r n h s : Fin d → K) (i j : Fin d) : K :=
  if i = j then 0 else s i / h i * (s j / h j) * ∏ k ∈ (Finset.univ.erase i).erase j, (1 - s k * (r k - n k) / h k)

/-- Value, gradient and Hessian. -/
def tentPart (r n h s : Fin d → K) : Comp → K
  | .f => tent r n h s
  | .g i => if hi : i < d then tentGrad r n h s ⟨i, hi⟩ else 0
  | .h i j => if hij : i < d ∧ j < d then tentHess r n h s ⟨i, hij.1⟩ ⟨j, hij.2⟩ else 0

/-- The arguments of a call with at least the four coordinates `r`, `n`, `h`, `s`, directions below `d` and variables below 4. -/
def FCall.ElemOk {V : Type} (d : Nat) (len : V → Nat) : FCall V → Prop
  | .varName i | .varDesc i => 0 ≤ i ∧ i < 4
  | .evalAt v | .eval v | .evalGrad v | .evalHess v => 4 ≤ len v
  | .gradAt v di => 4 ≤ len v ∧ 0 ≤ di ∧ di < d
  | .hessAt v di dj => 4 ≤ len v ∧ (0 ≤ di ∧ di < d) ∧ (0 ≤ dj ∧ dj < d)
  | c => c.InRange d

/-- The point of the last call that evaluates component `c`, where `eval_grad` and `eval_hess` evaluate the derivatives in the first `n`
directions. -/
def lastAt {V : Type} (n : Nat) (c : Comp) : List (FCall V) → Option V → Option V
  | [], last => last
  | call :: calls, last =>
    lastAt n c calls <|
      match call.evaluates n with
      | some (v, cs) => if c ∈ cs then some v else last
      | none => last

end Verif.Spec
