import Verif.Spec.PyObject

/-!
# Model of the life of the Python objects (src/python/pfunction/psimple_dsd.py, psimple_dd.py, pfunc_dsd.py, pbasisset_dd.py,
pseries_dsis.py: `__init__` and `delete`)

Every object has a member `ptr`, handle number `h` of `Model/Handle` for object number `h`. Python variables name objects. None of the
classes has `__del__`: when no variable names an object any more, Python frees the object, and nothing happens to what `ptr` points to.
-/

namespace Verif
open Spec

/-- The C++ objects, the members `ptr`, and the variables. -/
structure PyMem (Obj : Type) where
  mem : Mem Obj
  vars : Binding

namespace PyMem
variable {Obj Arg M Out : Type}

/-- The start of a program. -/
def start : PyMem Obj := ⟨Mem.start, fun _ => none⟩

/-- psimple_dsd.py:6-11, psimple_dd.py:6-11, pfunc_dsd.py:6-12, pbasisset_dd.py:6-11, pseries_dsis.py:9-25, `__init__`: `ptr` is set to
`None`, the C function is called with a reference to it, then `ptr` is compared with `None`. -/
def init (make : Arg → Res Obj) (m : Mem Obj) (a : Arg) : Except PyErr (Nat × Mem Obj) :=
  match Ext.new make (m.push none) m.handles.length a with
  | .error e => .error (.cpp e)
  | .ok m' =>
    match m'.ptr m.handles.length with
    | .ok none => .error .systemExit
    | _ => .ok (m.handles.length, m')

/-- A method called with `self.ptr` of object `h`. -/
def method (sem : M → Obj → Except PyErr Out × Obj) (m : Mem Obj) (h : Nat) (c : M) : Except PyErr Out × Mem Obj :=
  match m.ptr h with
  | .error e => (.error (.cpp e), m)
  | .ok none => (.error (.cpp (.ub .nullDeref)), m)
  | .ok (some a) =>
    match m.deref (some a) with
    | .error e => (.error (.cpp e), m)
    | .ok o => ((sem c o).1, { m with heap := m.heap.set a (some (sem c o).2) })

/-- A statement. `delete` is psimple_dsd.py:17-18, psimple_dd.py:16-17, pfunc_dsd.py:22-23, pbasisset_dd.py:17-18, pseries_dsis.py:31-32.
A second name, the end of a name and a new object under an old name change only the variables. -/
def step (make : Arg → Res Obj) (sem : M → Obj → Except PyErr Out × Obj) (p : PyMem Obj) : PyStmt Arg M → Except PyErr (Option Out) × PyMem Obj
  | .new v a =>
    match init make p.mem a with
    | .error e => (.error e, p)
    | .ok (h, m) => (.ok none, ⟨m, p.vars.set v (some h)⟩)
  | .assign v w =>
    match p.vars w with
    | none => (.error .nameError, p)
    | some h => (.ok none, { p with vars := p.vars.set v (some h) })
  | .unbind v =>
    match p.vars v with
    | none => (.error .nameError, p)
    | some _ => (.ok none, { p with vars := p.vars.set v none })
  | .delete v =>
    match p.vars v with
    | none => (.error .nameError, p)
    | some h =>
      match Ext.delete p.mem h with
      | .error e => (.error (.cpp e), p)
      | .ok m => (.ok none, { p with mem := m })
  | .call v c =>
    match p.vars v with
    | none => (.error .nameError, p)
    | some h =>
      match method sem p.mem h c with
      | (r, m) => (r.map some, { p with mem := m })

/-- A program; it ends when the interpreter ends. -/
def run (make : Arg → Res Obj) (sem : M → Obj → Except PyErr Out × Obj) : List (PyStmt Arg M) → PyMem Obj →
    List (Except PyErr (Option Out)) × PyMem Obj
  | [], p => ([], p)
  | st :: sts, p =>
    match p.step make sem st with
    | (.error e, p') =>
      if e.fatal then ([.error e], p') else match run make sem sts p' with | (rs, p'') => (.error e :: rs, p'')
    | (.ok r, p') => match run make sem sts p' with | (rs, p'') => (.ok r :: rs, p'')

end PyMem

/-! ## The classes -/

section
variable {K : Type}

/-- `checkout(name, f)` for functions, as written by lw.cpp:825-855, 890-979: the object of that name, or `runtime_error`. -/
def checkoutObj {Obj : Type} (lib : String → Option Obj) (name : String) : Res Obj :=
  match lib name with
  | some o => .ok o
  | none => .error .runtimeError

end

/-! ## Basis sets and series in one program -/

/-- The objects of both classes. -/
structure PyWorld (K : Type) where
  basis : PyMem (XBasis K)
  series : PyMem (Series K)

namespace PyWorld
variable {K : Type} [Field K] [LinearOrder K] [FloorRing K]

/-- pseries_dsis.py:19-22, 39-42: `basis[i].ptr` for every element of the list. -/
def ptrs (p : PyMem (XBasis K)) : List Nat → Except PyErr (List Nat)
  | [] => .ok []
  | w :: ws =>
    match p.vars w with
    | none => .error .nameError
    | some h => match ptrs p ws with | .ok hs => .ok (h :: hs) | .error e => .error e

/-- The pointers, and what the C function reads through them. -/
def parts (p : PyMem (XBasis K)) (ws : List Nat) : Except PyErr (List (XBasis K)) :=
  match ptrs p ws with
  | .error e => .error e
  | .ok hs => match XWorld.derefAll p.mem hs with | .ok bs => .ok bs | .error e => .error (.cpp e)

/-- A statement of a program that uses `PBasisSet_dd` and `PSeries_dsis`: pseries_dsis.py:9-29, `PSeries_dsis(basis)` (`build`; `basis is []` is
never true, so every list goes to `PSeriesFunction_dsis_setnew`), and 38-43, `set(basis)` (`rebuild`). -/
def step (lib : String → Option (BClass K)) (w : PyWorld K) :
    PyDuoStmt (String × Int) (PyBasis K) (PySer K) → Except PyErr (Option (PyVal K)) × PyWorld K
  | .part st => match w.basis.step (checkoutBasis 0 lib) (PyBasis.sem 0) st with | (r, b) => (r, { w with basis := b })
  | .build v ws =>
    match parts w.basis ws with
    | .error e => (.error e, w)
    | .ok bs => match w.series.step XSeries.setnew PySer.sem (.new v bs) with | (r, s) => (r, { w with series := s })
  | .rebuild v ws =>
    match w.series.vars v with
    | none => (.error .nameError, w)
    | some _ =>
      match parts w.basis ws with
      | .error e => (.error e, w)
      | .ok bs => match w.series.step XSeries.setnew (pySet lib) (.call v bs) with | (r, s) => (r, { w with series := s })
  | .thing st => match w.series.step (fun e : Empty => nomatch e) PySer.sem st with | (r, s) => (r, { w with series := s })

/-- A program. -/
def run (lib : String → Option (BClass K)) : List (PyDuoStmt (String × Int) (PyBasis K) (PySer K)) → PyWorld K → List (Except PyErr (Option (PyVal K))) × PyWorld K
  | [], w => ([], w)
  | st :: sts, w =>
    match w.step lib st with
    | (.error e, w') =>
      if e.fatal then ([.error e], w') else match run lib sts w' with | (rs, w'') => (.error e :: rs, w'')
    | (.ok r, w') => match run lib sts w' with | (rs, w'') => (.ok r :: rs, w'')

end PyWorld
end Verif
