import Verif.Model.Python
import Verif.Model.BodyExtern

/-!
# Model of the Python classes `Body2D`, `Body3D` and of `PFunc_dsd` as a field (src/python/pfunction/body.py, pfunc_dsd.py)

Objects are numbered in the order of their creation; Python variables that name the same object are the same number. Every object has a
pointer variable of its own, `self.ptr`. A C++ exception ends the interpreter (`PyErr.cpp`).
-/

namespace Verif
open Spec
variable {K File : Type} {d : Nat}

/-- What a Python program does with bodies and fields. -/
inductive PyFieldOp (K File : Type) where
  /-- `BodyXD(file)` -/
  | body (file : File)
  /-- `PFunc_dsd(name, bodyXd=b)`, `b` being body number `h` -/
  | func (h : Nat) (name : String)
  /-- a method of function object number `g` -/
  | call (g : Nat) (m : PyFn K)
  /-- `delete()` of a body -/
  | deleteBody (h : Nat)
  /-- `delete()` of a function object -/
  | deleteFunc (g : Nat)

/-- What a call of a C function means in Python. -/
def pyOut : Res (Option (XOut K)) → Except PyErr (PyVal K)
  | .ok (some x) => x.toPy
  | .ok none => .ok .none
  | .error e => .error (.cpp e)

/-- body.py:6-11, 13-14, 19-24, 26-27; pfunc_dsd.py:6-23. `ptr` is a new variable, then the C function is called; it is never `None`
afterwards. -/
def PyFieldOp.toC (nb nf : Nat) : PyFieldOp K File → List (BOp File (FuncFn × List (CVal K)))
  | .body file => [.declBody, .newBody nb file]
  | .func h name => [.declField, .field nf h name]
  | .call g m => [.call g m.toC]
  | .deleteBody h => [.deleteBody h]
  | .deleteFunc g => [.deleteField g]

/-- One operation: its result is that of the last C call. -/
def pyFieldStep (make : File → Res (Body K d)) (sem : FuncFn × List (CVal K) → Mesh K d × PField K → Res (XOut K) × Mesh K d × PField K)
    (m : FieldMem K d) (op : PyFieldOp K File) : Except PyErr (PyVal K) × FieldMem K d :=
  match FieldMem.run make sem (op.toC m.bodies.handles.length m.ptrs.length) m with
  | (rs, m') => (pyOut (rs.getLast?.getD (.ok none)), m')

/-- A program. -/
def pyFieldRun (make : File → Res (Body K d)) (sem : FuncFn × List (CVal K) → Mesh K d × PField K → Res (XOut K) × Mesh K d × PField K) :
    List (PyFieldOp K File) → FieldMem K d → List (Except PyErr (PyVal K)) × FieldMem K d
  | [], m => ([], m)
  | op :: ops, m =>
    match pyFieldStep make sem m op with
    | (r, m') => match pyFieldRun make sem ops m' with | (rs, m'') => (r :: rs, m'')

/-- What a method call returns, or raises, after a program. -/
def pyFieldAfter (make : File → Res (Body K d)) (sem : FuncFn × List (CVal K) → Mesh K d × PField K → Res (XOut K) × Mesh K d × PField K)
    (ops : List (PyFieldOp K File)) (op : PyFieldOp K File) : Except PyErr (PyVal K) :=
  (pyFieldStep make sem (pyFieldRun make sem ops FieldMem.start).2 op).1

end Verif
