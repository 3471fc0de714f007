/-!
# Specification: renumbering

This file does not mention the model.
-/

namespace Verif.Spec

/-- `l'` is `l` with its entries renumbered: entry `p` of `l` is entry `σ p` of `l'`, and `l'` has no other entries. -/
def Renumbered {α : Type} (σ : Nat → Nat) (l l' : List α) : Prop := ∀ p, l'[σ p]? = l[p]?

end Verif.Spec
