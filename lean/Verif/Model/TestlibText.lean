import Lean.Elab.Term
import Lean.ToExpr
import Verif.Spec.Expr

/-!
# Texts of generated classes
-/

namespace Verif.Testlib
open Lean Elab Term

/-- `chars!"ab"` is the list `['a', 'b']`. -/
elab "chars!" s:str : term => return toExpr s.getString.toList

/-- What a class derived from `PSimpleBase` consists of: its `_name`, the C++ expression that `eval` returns, and the strings that
`csrc`, `sym` and `latex` return. -/
structure ClassText where
  name : String
  eval : Spec.Text
  csrc : Spec.Text
  sym : Spec.Text
  latex : Spec.Text

/-- One case of the `switch` in `basis_function`. -/
structure TermText where
  name : String
  f : ClassText
  grad : ClassText
  hess : ClassText

end Verif.Testlib
