import Verif.Model.PyField
import Verif.Spec.FieldVars
import Verif.Lemmas.FieldVars

/-!
# Specification: what the field objects of a Python program are

The bodies are the files in the order of the calls of `BodyXD`, the function objects pairs of a body and a field name.
-/

namespace Verif.Spec
variable {K File : Type} {d : Nat}

/-- The files of the bodies. -/
def pyFiles : List (PyFieldOp K File) → List File
  | [] => []
  | .body f :: ops => f :: pyFiles ops
  | _ :: ops => pyFiles ops

/-- The function objects: body number and field name. -/
def pyFuncs : List (PyFieldOp K File) → List (Nat × String)
  | [] => []
  | .func h n :: ops => (h, n) :: pyFuncs ops
  | _ :: ops => pyFuncs ops

/-- Arguments in range: points in the binned region or outside it, existing directions. -/
def PyArgs [Field K] [LinearOrder K] (D : BodyData K d) : PyFn K → Prop
  | .calc v | .eval v => ∃ c, PointAt v c ∧ (InBins D.pts c ∨ OutOfBins D.pts c)
  | .calcGrad v di | .evalGrad v di => (0 ≤ di ∧ di < d) ∧ ∃ c, PointAt v c ∧ (InBins D.pts c ∨ OutOfBins D.pts c)
  | .calcHess v di dj | .evalHess v di dj =>
    ((0 ≤ di ∧ di < d) ∧ (0 ≤ dj ∧ dj < d)) ∧ ∃ c, PointAt v c ∧ (InBins D.pts c ∨ OutOfBins D.pts c)
  | _ => True

/-- The program uses existing bodies, existing fields of them and existing function objects, and deletes nothing. -/
def PyFine [Field K] [LinearOrder K] (info : File → BodyData K d) : List (PyFieldOp K File) → List File → List (Nat × String) → Prop
  | [], _, _ => True
  | .body f :: ops, files, funcs => PyFine info ops (files ++ [f]) funcs
  | .func h n :: ops, files, funcs =>
    (∃ f, files[h]? = some f ∧ ∃ fl ∈ (info f).flds, fl.1 = n) ∧ PyFine info ops files (funcs ++ [(h, n)])
  | .call g m :: ops, files, funcs =>
    (∃ h n f, funcs[g]? = some (h, n) ∧ files[h]? = some f ∧ PyArgs (info f) m) ∧ PyFine info ops files funcs
  | .deleteBody _ :: _, _, _ => False
  | .deleteFunc _ :: _, _, _ => False

end Verif.Spec
