import Verif.Lemmas.PolyText
import Verif.Model.TestlibData

/-! # The texts of the generated basis functions, checked by evaluation in the kernel -/

namespace Verif.Testlib
open Spec

/-- `eval` of one class, read as C++. -/
def evalOk (p : List ℚ) (t : ClassText) : Bool := hasCoeffs readCpp1 p t.eval
/-- `csrc`, `sym` and `latex` of one class. -/
def textOk (p : List ℚ) (t : ClassText) : Bool :=
  hasCoeffs readCpp1 p t.csrc && hasCoeffs readSym p t.sym && hasCoeffs readLatex p t.latex

/-- Term `k` of the list exists, and `ok` holds of its three classes. -/
def termOk (ok : List ℚ → ClassText → Bool) (ts : List TermText) (p : Nat → List ℚ) (k : Nat) : Bool :=
  match ts[k]? with
  | some t => ok (p k) t.f && ok (pdiff (p k)) t.grad && ok (pdiff (pdiff (p k))) t.hess
  | none => false

theorem mono_eval : (List.range 30).all (termOk evalOk monomialTerms monoC) = true := by decide +kernel
theorem mono_text : (List.range 30).all (termOk textOk monomialTerms monoC) = true := by decide +kernel
theorem cheb_eval : (List.range 30).all (termOk evalOk chebyshevTerms fun k => (chebC k).1) = true := by decide +kernel
theorem cheb_text : (List.range 30).all (termOk textOk chebyshevTerms fun k => (chebC k).1) = true := by decide +kernel

end Verif.Testlib
