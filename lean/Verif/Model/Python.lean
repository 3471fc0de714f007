import Verif.Model.Extern

/-!
# Model of the Python classes (src/python/pfunction/*.py, Python 2, ctypes)

The C functions are looked up by name at the time of the call and called with whatever arguments are given. A C++ exception or `exit` ends
the interpreter; it appears as `PyErr.cpp`. The objects are those behind the `ptr` members; `tval` and `tint` are written by the call whose
method returns them, so they are not modelled.
-/

namespace Verif
open Spec

/-- What ends a Python call other than by returning. -/
inductive PyErr where
  /-- a C++ exception, `exit`, or undefined behaviour behind the call -/
  | cpp (e : Err)
  /-- there is no C function of that name -/
  | attributeError
  | indexError
  | valueError
  /-- the variable is not bound -/
  | nameError
  /-- `exit()` of Python: the program ends after a message -/
  | systemExit
  deriving DecidableEq

/-- The interpreter ends. -/
def PyErr.fatal : PyErr → Bool
  | .cpp _ | .systemExit => true
  | _ => false

/-- What a method returns. -/
inductive PyVal (K : Type) where
  | none
  | num (y : K)
  | int (i : Int)
  | ints (l : List Int)
  | str (s : String)
  deriving DecidableEq

/-- The value of a `c_char_p` whose eight bytes were overwritten with a text of at most seven characters: an empty text is the null
pointer, `None`; anything else is the address the characters happen to spell, which is read. -/
def charCell {K : Type} (s : String) : Except PyErr (PyVal K) := if s = "" then .ok .none else .error (.cpp (.ub .oob))

/-- The value returned from what the C function stored. -/
def XOut.toPy {K : Type} : XOut K → Except PyErr (PyVal K)
  | .num y => .ok (.num y)
  | .int i => .ok (.int i)
  | .ints l => .ok (.ints l)
  | .str s => charCell s
  | .void => .ok .none

/-- A method that calls the C function `c.1` with the arguments `c.2` behind `self.ptr`. -/
def pyCall {Fn K Obj : Type} (api : Fn → List (CVal K) → Option (Obj → Res (XOut K) × Obj)) (c : Fn × List (CVal K)) (o : Obj) :
    Except PyErr (PyVal K) × Obj :=
  match apiSem api c o with
  | (.ok x, o') => (x.toPy, o')
  | (.error e, o') => (.error (.cpp e), o')

/-- A sequence of method calls: what each returned or raised. (A client that goes on after `PyErr.cpp` is not realistic; the theorems say
which calls do not raise it.) -/
def pyRun {M R Obj : Type} (sem : M → Obj → R × Obj) : List M → Obj → List R × Obj
  | [], o => ([], o)
  | m :: ms, o => match sem m o with | (r, o') => match pyRun sem ms o' with | (rs, o'') => (r :: rs, o'')

/-! ## PFunc_dsd -/

/-- pfunc_dsd.py:25-80, the methods other than `delete`. -/
inductive PyFn (K : Type) where
  | name | size | varName (i : Int) | varDescription (i : Int)
  | calc (v : List K) | calcGrad (v : List K) (di : Int) | calcHess (v : List K) (di dj : Int)
  | eval (v : List K) | evalGrad (v : List K) (di : Int) | evalHess (v : List K) (di dj : Int)
  | get | getGrad (di : Int) | getHess (di dj : Int)

/-- pfunc_dsd.py:25-80: the C function and the arguments. The names are asked for with a pointer to a `c_char_p`, eight bytes
(24-27, 33-41). `get_grad` and `get_hess` call `PFunction_dsd_get` (73-79). -/
def PyFn.toC {K : Type} : PyFn K → FuncFn × List (CVal K)
  | .name => (.name, [.buf 8])
  | .size => (.size, [.refInt])
  | .varName i => (.varName, [.int i, .buf 8])
  | .varDescription i => (.varDescription, [.int i, .buf 8])
  | .calc v => (.calc, [.dbls v, .refDbl])
  | .calcGrad v di => (.calcGrad, [.dbls v, .int di, .refDbl])
  | .calcHess v di dj => (.calcHess, [.dbls v, .int di, .int dj, .refDbl])
  | .eval v => (.eval, [.dbls v])
  | .evalGrad v di => (.evalGrad, [.dbls v, .int di])
  | .evalHess v di dj => (.evalHess, [.dbls v, .int di, .int dj])
  | .get => (.get, [.refDbl])
  | .getGrad di => (.get, [.int di, .refDbl])
  | .getHess di dj => (.get, [.int di, .int dj, .refDbl])

/-- A call on a `PFunc_dsd`. -/
def PyFn.sem {K F : Type} (C : FClass F (List K) K) (m : PyFn K) : F → Except PyErr (PyVal K) × F := pyCall (funcApi C) m.toC

/-! ## PSimple_dsd, PSimple_dd -/

/-- psimple_dsd.py:20-31, psimple_dd.py:19-30. -/
inductive PySimple (V : Type) where
  | name | calc (v : V) | get

/-- psimple_dsd.py:20-31. -/
def PySimple.toDsd {K : Type} : PySimple (List K) → SimpleFn × List (CVal K)
  | .name => (.name, [.buf 8])
  | .calc v => (.calc, [.dbls v, .refDbl])
  | .get => (.get, [.refDbl])

/-- psimple_dd.py:19-30. -/
def PySimple.toDd {K : Type} : PySimple K → SimpleFn × List (CVal K)
  | .name => (.name, [.buf 8])
  | .calc v => (.calc, [.dbl v, .refDbl])
  | .get => (.get, [.refDbl])

/-! ## PBasisSet_dd -/

/-- pbasisset_dd.py:20-74, the methods other than `delete`. -/
inductive PyBasis (K : Type) where
  | name | description | size | resize (n : Int) | maxSize
  | calc (t : Int) (x : K) | calcGrad (t : Int) (x : K) | calcHess (t : Int) (x : K)
  | eval (x : K) | evalGrad (x : K) | evalHess (x : K)
  | get (t : Int) | getGrad (t : Int) | getHess (t : Int)

/-- pbasisset_dd.py:20-74. -/
def PyBasis.toC {K : Type} : PyBasis K → BasisFn × List (CVal K)
  | .name => (.name, [.buf 8])
  | .description => (.description, [.buf 8])
  | .size => (.size, [.refInt])
  | .resize n => (.resize, [.int n])
  | .maxSize => (.maxSize, [.refInt])
  | .calc t x => (.calc, [.int t, .dbl x, .refDbl])
  | .calcGrad t x => (.calcGrad, [.int t, .dbl x, .refDbl])
  | .calcHess t x => (.calcHess, [.int t, .dbl x, .refDbl])
  | .eval x => (.eval, [.dbl x])
  | .evalGrad x => (.evalGrad, [.dbl x])
  | .evalHess x => (.evalHess, [.dbl x])
  | .get t => (.get, [.int t, .refDbl])
  | .getGrad t => (.getGrad, [.int t, .refDbl])
  | .getHess t => (.getHess, [.int t, .refDbl])

/-- A call on a `PBasisSet_dd`. -/
def PyBasis.sem {K : Type} (zero : K) (m : PyBasis K) : XBasis K → Except PyErr (PyVal K) × XBasis K := pyCall (XBasis.api zero) m.toC

/-! ## PSeries_dsis -/

/-- pseries_dsis.py:34-203, the methods other than `delete`, `set`, `print_coeff` and `read_coeff`. -/
inductive PySer (K : Type) where
  | clear | order | volume | dim (i : Int)
  | getLinearCoeff (i : Int) | getTensorCoeff (t : List Int) | setLinearCoeff (i : Int) (y : K) | setTensorCoeff (t : List Int) (y : K)
  | linearIndex (t : List Int) | tensorIndices (i : Int)
  | calc (x : List K) | calcGrad (x : List K) (di : Int) | calcHess (x : List K) (di dj : Int)
  | eval (x : List K) | evalGrad (x : List K) | evalHess (x : List K)
  | get | getGrad (di : Int) | getHess (di dj : Int)
  | calcBasis (b t : Int) (x : List K) | calcBasisGrad (b t : Int) (x : List K) (di : Int)
  | calcBasisHess (b t : Int) (x : List K) (di dj : Int)
  | calcTensorBasis (t : List Int) (x : List K) | calcTensorBasisGrad (t : List Int) (x : List K) (di : Int)
  | calcTensorBasisHess (t : List Int) (x : List K) (di dj : Int)
  | evalBasisAll (k : Kind) (x : List K) | evalBasis (k : Kind) (x : List K) (i : Int) | getBasis (k : Kind) (b t : Int)
  | getTensorBasis (t : List Int) | getTensorBasisGrad (t : List Int) (di : Int) | getTensorBasisHess (t : List Int) (di dj : Int)

section
variable {K : Type} [Field K] [LinearOrder K] [FloorRing K]

/-- A method that makes one C call. -/
def pySerC (c : SeriesFn × List (CVal K)) : Series K → Except PyErr (PyVal K) × Series K := pyCall XSeries.api c

/-- pseries_dsis.py:79-82, `tensor_indices`: asks for the order, makes an array of zeros and passes it. -/
def pyTensorIndices (i : Int) (s : Series K) : Except PyErr (PyVal K) × Series K :=
  match pySerC (.order, [.refInt]) s with
  | (.ok (.int n), s') => pySerC (.tensorIndices, [.int i, .ints (List.replicate n.toNat 0)]) s'
  | (.ok _, s') => (.ok .none, s')   -- cannot happen: `order` is a number
  | (.error e, s') => (.error e, s')

/-- pseries_dsis.py:34-203. `linear_index` asks for a C function `PSeriesFunction_dsis_linear_coeff` (75), which does not exist.
`calc_basis_grad` and `calc_basis_hess` pass the directions, too (134-140), which the C functions do not take. -/
def PySer.sem (m : PySer K) (s : Series K) : Except PyErr (PyVal K) × Series K :=
  match m with
  | .clear => pySerC (.clear, []) s
  | .order => pySerC (.order, [.refInt]) s
  | .volume => pySerC (.volume, [.refInt]) s
  | .dim i => pySerC (.dim, [.int i, .refInt]) s
  | .getLinearCoeff i => pySerC (.getLinearCoeff, [.int i, .refDbl]) s
  | .getTensorCoeff t => pySerC (.getTensorCoeff, [.ints t, .refDbl]) s
  | .setLinearCoeff i y => pySerC (.setLinearCoeff, [.int i, .dbl y]) s
  | .setTensorCoeff t y => pySerC (.setTensorCoeff, [.ints t, .dbl y]) s
  | .linearIndex _ => (.error .attributeError, s)
  | .tensorIndices i => pyTensorIndices i s
  | .calc x => pySerC (.calc, [.dbls x, .refDbl]) s
  | .calcGrad x di => pySerC (.calcGrad, [.dbls x, .int di, .refDbl]) s
  | .calcHess x di dj => pySerC (.calcHess, [.dbls x, .int di, .int dj, .refDbl]) s
  | .eval x => pySerC (.eval, [.dbls x]) s
  | .evalGrad x => pySerC (.evalGrad, [.dbls x]) s
  | .evalHess x => pySerC (.evalHess, [.dbls x]) s
  | .get => pySerC (.get, [.refDbl]) s
  | .getGrad di => pySerC (.getGrad, [.int di, .refDbl]) s
  | .getHess di dj => pySerC (.getHess, [.int di, .int dj, .refDbl]) s
  | .calcBasis b t x => pySerC (.calcBasis .v, [.int b, .int t, .dbls x, .refDbl]) s
  | .calcBasisGrad b t x di => pySerC (.calcBasis .g, [.int b, .int t, .dbls x, .int di, .refDbl]) s
  | .calcBasisHess b t x di dj => pySerC (.calcBasis .h, [.int b, .int t, .dbls x, .int di, .int dj, .refDbl]) s
  | .calcTensorBasis t x => pySerC (.calcTensorBasis, [.ints t, .dbls x, .refDbl]) s
  | .calcTensorBasisGrad t x di => pySerC (.calcTensorBasisGrad, [.ints t, .dbls x, .int di, .refDbl]) s
  | .calcTensorBasisHess t x di dj => pySerC (.calcTensorBasisHess, [.ints t, .dbls x, .int di, .int dj, .refDbl]) s
  | .evalBasisAll k x => pySerC (.evalBasisAll k, [.dbls x]) s
  | .evalBasis k x i => pySerC (.evalBasis k, [.dbls x, .int i]) s
  | .getBasis k b t => pySerC (.getBasis k, [.int b, .int t, .refDbl]) s
  | .getTensorBasis t => pySerC (.getTensorBasis, [.ints t, .refDbl]) s
  | .getTensorBasisGrad t di => pySerC (.getTensorBasisGrad, [.ints t, .int di, .refDbl]) s
  | .getTensorBasisHess t di dj => pySerC (.getTensorBasisHess, [.ints t, .int di, .int dj, .refDbl]) s

/-- pseries_dsis.py:9-28, `PSeries_dsis(basis)`: `basis is []` compares identities with a new list and is never true, so every list, also
the default, goes to `PSeriesFunction_dsis_setnew`. -/
def pySeries (basis : List (XBasis K)) : Except PyErr (Series K) :=
  match XSeries.setnew basis with
  | .ok s => .ok s
  | .error e => .error (.cpp e)

/-- pseries_dsis.py:38-43, `set(basis)`. -/
def pySet (lib : String → Option (BClass K)) (basis : List (XBasis K)) (s : Series K) : Except PyErr (PyVal K) × Series K :=
  match XSeries.voidM (fun s => XSeries.set lib s basis) s with
  | (.ok x, s') => (x.toPy, s')
  | (.error e, s') => (.error (.cpp e), s')

/-! ## Coefficients in text files -/

/-- A method that returns a number. -/
def pyNum (r : Except PyErr (PyVal K) × Series K) : Except PyErr K :=
  match r.1 with
  | .ok (.num y) => .ok y
  | .ok _ => .error .valueError   -- cannot happen
  | .error e => .error e

/-- A method that returns an `int`. -/
def pyInt (r : Except PyErr (PyVal K) × Series K) : Except PyErr Int :=
  match r.1 with
  | .ok (.int i) => .ok i
  | .ok _ => .error .valueError   -- cannot happen
  | .error e => .error e

/-- A method that returns an array. -/
def pyInts (r : Except PyErr (PyVal K) × Series K) : Except PyErr (List Int) :=
  match r.1 with
  | .ok (.ints l) => .ok l
  | .ok _ => .error .valueError   -- cannot happen
  | .error e => .error e

/-- pseries_dsis.py:206-210, the loop of `print_coeff`; `fmt` is `str` of a float. The methods called do not change the series. -/
def pyPrintLoop (fmt : K → List Char) (s : Series K) : Nat → Nat → Except PyErr (List Char)
  | 0, _ => .ok []
  | n + 1, i => do
    let term ← pyInts (PySer.sem (.tensorIndices i) s)
    let y ← pyNum (PySer.sem (.getLinearCoeff i) s)
    let rest ← pyPrintLoop fmt s n (i + 1)
    .ok ((term.flatMap fun t => showInt t ++ [' ']) ++ (fmt y ++ ['\n']) ++ rest)

/-- pseries_dsis.py:205-210, `print_coeff`: what is written. -/
def pyPrint (fmt : K → List Char) (s : Series K) : Except PyErr (List Char) := do
  let v ← pyInt (PySer.sem .volume s)
  pyPrintLoop fmt s v.toNat 0

/-- `sin.readline()`: up to and with the next end of line; the rest. -/
def pyReadline : List Char → List Char × List Char
  | [] => ([], [])
  | c :: cs => if c = '\n' then (['\n'], cs) else match pyReadline cs with | (l, r) => (c :: l, r)

/-- `str.split()` without arguments, with the word before the first character of the text. -/
def pySplitFrom (word : List Char) : List Char → List (List Char)
  | [] => if word = [] then [] else [word]
  | c :: cs =>
    if isSpace c then (if word = [] then pySplitFrom [] cs else word :: pySplitFrom [] cs) else pySplitFrom (word ++ [c]) cs

/-- `str.split()`: the words between white space. -/
def pySplit (t : List Char) : List (List Char) := pySplitFrom [] t

/-- pseries_dsis.py:215-217, the loop of `read_coeff`; `parse` is `float`. -/
def pyReadLoop (parse : List Char → Option K) : Nat → Nat → List Char → Series K → Except PyErr (List Char) × Series K
  | 0, _, t, s => (.ok t, s)
  | n + 1, i, t, s =>
    match pyReadline t with
    | (line, rest) =>
      match (pySplit line).getLast? with
      | none => (.error .indexError, s)
      | some w =>
        match parse w with
        | none => (.error .valueError, s)
        | some y =>
          match PySer.sem (.setLinearCoeff i y) s with
          | (.ok _, s') => pyReadLoop parse n (i + 1) rest s'
          | (.error e, s') => (.error e, s')

/-- pseries_dsis.py:212-217, `read_coeff`: the rest of the file, or what was raised. -/
def pyRead (parse : List Char → Option K) (t : List Char) (s : Series K) : Except PyErr (List Char) × Series K :=
  match pyInt (PySer.sem .volume s) with
  | .ok v => pyReadLoop parse v.toNat 0 t s
  | .error e => (.error e, s)

end
end Verif
