import Verif.Spec.Extern
import Verif.Model.Handle
import Verif.Model.Piecewise
import Verif.Model.SeriesOps

/-!
# Model of the C interface (src/c/PExtern.cc; the same text is written by `write_pextern_cc`, src/lw/lw.cpp:1012-1584)

A pointer variable of the client is modelled as a handle of `Model/Handle` (`some none` is `NULL`). An exception leaves a function
through `extern "C"`; the model reports it to the client, which in C or Python would be terminated. Arguments a function is called with
are `CVal`s: a caller that does not know the parameter list (Python) can get them wrong, which is undefined.
-/

namespace Verif
open Spec

namespace Ext
variable {Obj Arg Call Out : Type}

/-- PExtern.cc:23-26, 56-59, 89-92, 176-179, 270-282, `T_new(..., p)`: the variable gets the new object; what it pointed to before is
not looked at. -/
def new (make : Arg → Res Obj) (m : Mem Obj) (h : Nat) (a : Arg) : Res (Mem Obj) := do
  let _ ← m.ptr h
  let o ← make a
  match m.alloc o with
  | (b, m') => .ok (m'.setPtr h (some (some b)))

/-- PExtern.cc:28-32, 61-65, 94-98, 181-185, 284-288, `T_delete(p)`: `delete p; p = NULL;`. -/
def delete (m : Mem Obj) (h : Nat) : Res (Mem Obj) := do
  let p ← m.ptr h
  let m1 ← m.delPtr p
  .ok (m1.setPtr h (some none))

/-- What the client and the interface do for an operation. -/
def step (make : Arg → Res Obj) (sem : Call → Obj → Res Out × Obj) (m : Mem Obj) : XOp Arg Call → Res (Option Out) × Mem Obj
  | .decl => (.ok none, m.push none)
  | .share g => m.done do
    let p ← m.ptr g
    .ok (m.push p)
  | .new h a => m.done (new make m h a)
  | .delete h => m.done (delete m h)
  | .call h c => m.forward sem h c

/-- A history. -/
def run (make : Arg → Res Obj) (sem : Call → Obj → Res Out × Obj) : List (XOp Arg Call) → Mem Obj →
    List (Res (Option Out)) × Mem Obj
  | [], m => ([], m)
  | op :: ops, m =>
    match step make sem m op with
    | (r, m') => match run make sem ops m' with | (rs, m'') => (r :: rs, m'')

end Ext

/-! ## Arguments and results -/

/-- An argument after the object pointer. -/
inductive CVal (K : Type) where
  | int (i : Int)
  | dbl (x : K)
  /-- `double*`, with what it points to -/
  | dbls (xs : List K)
  /-- `int*`, with what it points to -/
  | ints (is : List Int)
  /-- `double&` -/
  | refDbl
  /-- `int&` -/
  | refInt
  /-- `char*`, room for so many characters -/
  | buf (room : Nat)

/-- What a function stores through its reference argument. -/
inductive XOut (K : Type) where
  | num (y : K)
  | int (i : Int)
  | ints (l : List Int)
  | str (s : String)
  | void
  deriving DecidableEq

/-- `std::strcpy(name, text.c_str())` into a buffer: the terminating 0 needs a place, too. -/
def strcpy {K : Type} (room : Nat) (s : String) : Res (XOut K) :=
  if s.length + 1 ≤ room then .ok (.str s) else .error (.ub .oob)

/-- A function of the interface called through a pointer whose parameter list the caller guesses: `api` is `none` if the arguments do not
fit. -/
def apiSem {Fn K Obj : Type} (api : Fn → List (CVal K) → Option (Obj → Res (XOut K) × Obj)) (c : Fn × List (CVal K)) (o : Obj) :
    Res (XOut K) × Obj :=
  match api c.1 c.2 with
  | some f => f o
  | none => (.error (.ub .badCall), o)

/-! ## Simple functions -/

/-- PExtern.cc:34-47 (`PSimpleFunction_dsd_...`), 67-80 (`PSimpleFunction_dd_...`). -/
inductive SimpleFn where
  | name | calc | get

/-- PExtern.cc:34-47: `VarContainer = double*`. -/
def simpleDsd {K : Type} : SimpleFn → List (CVal K) → Option (SObj (List K) K → Res (XOut K) × SObj (List K) K)
  | .name, [.buf n] => some fun o => (strcpy n o.name, o)
  | .calc, [.dbls v, .refDbl] => some fun o => match o.evalAt v with | (r, o') => (r.map .num, o')
  | .get, [.refDbl] => some fun o => (o.get.map .num, o)
  | _, _ => none

/-- PExtern.cc:67-80: `VarContainer = double`. -/
def simpleDd {K : Type} : SimpleFn → List (CVal K) → Option (SObj K K → Res (XOut K) × SObj K K)
  | .name, [.buf n] => some fun o => (strcpy n o.name, o)
  | .calc, [.dbl v, .refDbl] => some fun o => match o.evalAt v with | (r, o') => (r.map .num, o')
  | .get, [.refDbl] => some fun o => (o.get.map .num, o)
  | _, _ => none

/-! ## Functions -/

/-- PExtern.cc:100-167, `PFunction_dsd_...`. -/
inductive FuncFn where
  | name | size | varName | varDescription | calc | calcGrad | calcHess | eval | evalGrad | evalHess | get | getGrad | getHess

/-- A member that returns a number, stored in `val`. -/
def FOut.numOut {V K : Type} : FOut V K → Res (XOut K)
  | .num y => .ok (.num y)
  | _ => .error (.ub .missingReturn)   -- cannot happen: the member returns a number

/-- A member that returns a string. -/
def FOut.strOut {V K : Type} (room : Nat) : FOut V K → Res (XOut K)
  | .str s => strcpy room s
  | _ => .error (.ub .missingReturn)   -- cannot happen

/-- `size()`; the conversion to `int` is taken to fit. -/
def FOut.intOut {V K : Type} : FOut V K → Res (XOut K)
  | .size n => .ok (.int n)
  | _ => .error (.ub .missingReturn)   -- cannot happen

section
variable {K F : Type}

/-- A call on the object, and what is done with the result. -/
def viaF (C : FClass F (List K) K) (c : FCall (List K)) (k : FOut (List K) K → Res (XOut K)) (f : F) : Res (XOut K) × F :=
  match C.sem c f with
  | (r, f') => (r.bind k, f')

/-- PExtern.cc:100-167. `PFunction_dsd_eval`, `_eval_grad`, `_eval_hess` call `operator()(var)`, `grad(var,di)`, `hess(var,di,dj)` and drop
the result. -/
def funcApi (C : FClass F (List K) K) : FuncFn → List (CVal K) → Option (F → Res (XOut K) × F)
  | .name, [.buf n] => some (viaF C .name (FOut.strOut n))
  | .size, [.refInt] => some (viaF C .size FOut.intOut)
  | .varName, [.int i, .buf n] => some (viaF C (.varName i) (FOut.strOut n))
  | .varDescription, [.int i, .buf n] => some (viaF C (.varDesc i) (FOut.strOut n))
  | .calc, [.dbls v, .refDbl] => some (viaF C (.evalAt v) FOut.numOut)
  | .calcGrad, [.dbls v, .int di, .refDbl] => some (viaF C (.gradAt v di) FOut.numOut)
  | .calcHess, [.dbls v, .int di, .int dj, .refDbl] => some (viaF C (.hessAt v di dj) FOut.numOut)
  | .eval, [.dbls v] => some (viaF C (.evalAt v) fun _ => .ok .void)
  | .evalGrad, [.dbls v, .int di] => some (viaF C (.gradAt v di) fun _ => .ok .void)
  | .evalHess, [.dbls v, .int di, .int dj] => some (viaF C (.hessAt v di dj) fun _ => .ok .void)
  | .get, [.refDbl] => some (viaF C .get FOut.numOut)
  | .getGrad, [.int di, .refDbl] => some (viaF C (.getGrad di) FOut.numOut)
  | .getHess, [.int di, .int dj, .refDbl] => some (viaF C (.getHess di dj) FOut.numOut)
  | _, _ => none

end

/-! ## Basis sets -/

/-- A class of basis sets of the library: the functions, the name and description its constructor sets, and the largest size (`none`: not
limited). -/
structure BClass (K : Type) where
  name : String
  description : String
  phi : Option (Nat → K → K)
  dphi : Option (Nat → K → K)
  ddphi : Option (Nat → K → K)
  maxSize : Option Nat

/-- An object of such a class. -/
structure XBasis (K : Type) where
  cls : BClass K
  set : BasisSet K

/-- PExtern.cc:187-257, `PBasisSet_dd_...`. -/
inductive BasisFn where
  | name | description | size | resize | maxSize | calc | calcGrad | calcHess | eval | evalGrad | evalHess | get | getGrad | getHess

namespace XBasis
variable {K : Type}

/-- A size given as an `int` (converted to `size_type`: a negative number is a huge one) that the class accepts: Monomial.hh:2885-2890
exits if it is too large; without a limit, a negative one makes `std::vector` throw. -/
def checkSize (c : BClass K) (n : Int) : Res Nat :=
  match c.maxSize with
  | some m => if 0 ≤ n ∧ n ≤ m then .ok n.toNat else .error (.exit 1)
  | none => if 0 ≤ n then .ok n.toNat else .error .lengthError

/-- `new CLASS(N)`. -/
def make (zero : K) (c : BClass K) (n : Int) : Res (XBasis K) := do
  let n ← checkSize c n
  .ok ⟨c, BasisSet.make zero n c.phi c.dphi c.ddphi⟩

/-- A member that returns a number and changes the set. The state after an error (`exit` or undefined) is not modelled. -/
def numM (f : BasisSet K → Res (K × BasisSet K)) (b : XBasis K) : Res (XOut K) × XBasis K :=
  match f b.set with
  | .ok (y, s) => (.ok (.num y), { b with set := s })
  | .error e => (.error e, b)

/-- A member that returns nothing. -/
def voidM (f : BasisSet K → Res (BasisSet K)) (b : XBasis K) : Res (XOut K) × XBasis K :=
  match f b.set with
  | .ok s => (.ok .void, { b with set := s })
  | .error e => (.error e, b)

/-- A size as an `int`: PBasisSetBase.hh:65-68 without a limit is the largest `size_type`, which becomes -1. -/
def maxInt (c : BClass K) : Int :=
  match c.maxSize with
  | some m => m
  | none => -1

/-- PExtern.cc:187-257. -/
def api (zero : K) : BasisFn → List (CVal K) → Option (XBasis K → Res (XOut K) × XBasis K)
  | .name, [.buf n] => some fun b => (strcpy n b.cls.name, b)
  | .description, [.buf n] => some fun b => (strcpy n b.cls.description, b)
  | .size, [.refInt] => some fun b => (.ok (.int b.set.size), b)
  | .resize, [.int n] => some fun b =>
    match checkSize b.cls n with
    | .ok n => (.ok .void, { b with set := b.set.resize zero n })
    | .error e => (.error e, b)
  | .maxSize, [.refInt] => some fun b => (.ok (.int (maxInt b.cls)), b)
  | .calc, [.int t, .dbl x, .refDbl] => some (numM fun s => s.evalTerm t x)
  | .calcGrad, [.int t, .dbl x, .refDbl] => some (numM fun s => s.gradTerm t x)
  | .calcHess, [.int t, .dbl x, .refDbl] => some (numM fun s => s.hessTerm t x)
  | .eval, [.dbl x] => some (voidM fun s => s.eval x)
  | .evalGrad, [.dbl x] => some (voidM fun s => s.evalGrad x)
  | .evalHess, [.dbl x] => some (voidM fun s => s.evalHess x)
  | .get, [.int t, .refDbl] => some fun b => ((b.set.getVal t).map .num, b)
  | .getGrad, [.int t, .refDbl] => some fun b => ((b.set.getGrad t).map .num, b)
  | .getHess, [.int t, .refDbl] => some fun b => ((b.set.getHess t).map .num, b)
  | _, _ => none

end XBasis

/-- PLibrary's `checkout(name, basis_set, N)` (both versions): the class of that name, constructed with `N`; no such class is a
`runtime_error` (lw.cpp:857-880, 981-1001). -/
def checkoutBasis {K : Type} (zero : K) (lib : String → Option (BClass K)) (a : String × Int) : Res (XBasis K) :=
  match lib a.1 with
  | some c => XBasis.make zero c a.2
  | none => .error .runtimeError

/-! ## Series -/

/-- PExtern.cc:290-510, `PSeriesFunction_dsis_...`, without those that take basis sets. -/
inductive SeriesFn where
  | clear | order | volume | dim | getLinearCoeff | getTensorCoeff | setLinearCoeff | setTensorCoeff | linearIndex | tensorIndices
  | calc | calcGrad | calcHess | eval | evalGrad | evalHess | get | getGrad | getHess
  | calcBasis (k : Kind) | calcTensorBasis | calcTensorBasisGrad | calcTensorBasisHess
  | evalBasisAll (k : Kind) | evalBasis (k : Kind) | getBasis (k : Kind)
  | getTensorBasis | getTensorBasisGrad | getTensorBasisHess

namespace XSeries
variable {K : Type} [Field K] [LinearOrder K] [FloorRing K]

/-- A member that returns a number and changes the series. The state after an error (`exit` or undefined) is not modelled. -/
def numM (f : Series K → Res (K × Series K)) (s : Series K) : Res (XOut K) × Series K :=
  match f s with
  | .ok (y, s') => (.ok (.num y), s')
  | .error e => (.error e, s)

/-- A member that returns nothing. -/
def voidM (f : Series K → Res (Series K)) (s : Series K) : Res (XOut K) × Series K :=
  match f s with
  | .ok s' => (.ok .void, s')
  | .error e => (.error e, s)

/-- A constant member. -/
def constM {α : Type} (f : Series K → Res α) (k : α → XOut K) (s : Series K) : Res (XOut K) × Series K := ((f s).map k, s)

/-- The getter `basis(bindex, term)` and its derivatives, PSeriesFunction.hh:335-346. -/
def getBasis1 (k : Kind) (s : Series K) (bindex term : Int) : Res K := do
  let b ← s.basisAt bindex
  match k with
  | .v => b.getVal term
  | .g => b.getGrad term
  | .h => b.getHess term

/-- PExtern.cc:290-510. -/
def api : SeriesFn → List (CVal K) → Option (Series K → Res (XOut K) × Series K)
  | .clear, [] => some fun s => (.ok .void, s.clear)
  | .order, [.refInt] => some (constM (fun s => .ok s.coeff.order) .int)
  | .volume, [.refInt] => some (constM (fun s => .ok s.coeff.volume) .int)
  | .dim, [.int i, .refInt] => some (constM (fun s => vget s.coeff.dim i) .int)
  | .getLinearCoeff, [.int i, .refDbl] => some (constM (fun s => s.coeff.getLin i) .num)
  | .getTensorCoeff, [.ints t, .refDbl] => some (constM (fun s => s.coeff.get t) .num)
  | .setLinearCoeff, [.int i, .dbl y] => some (voidM fun s => s.step (.setCoeffLin i y))
  | .setTensorCoeff, [.ints t, .dbl y] => some (voidM fun s => s.step (.setCoeff t y))
  | .linearIndex, [.ints t, .refInt] => some (constM (fun s => s.coeff.linearIndex t) .int)
  | .tensorIndices, [.int i, .ints t] => some (constM (fun s => s.coeff.tensorIndices i t) .ints)
  | .calc, [.dbls x, .refDbl] => some (numM fun s => s.evalAt x)
  | .calcGrad, [.dbls x, .int di, .refDbl] => some (numM fun s => s.gradAt x di)
  | .calcHess, [.dbls x, .int di, .int dj, .refDbl] => some (numM fun s => s.hessAt x di dj)
  | .eval, [.dbls x] => some (voidM fun s => s.step (.evalAt x))
  | .evalGrad, [.dbls x] => some (voidM fun s => s.step (.evalGrad x))
  | .evalHess, [.dbls x] => some (voidM fun s => s.step (.evalHess x))
  | .get, [.refDbl] => some (constM (fun s => s.get) .num)
  | .getGrad, [.int di, .refDbl] => some (constM (fun s => s.getGrad di) .num)
  | .getHess, [.int di, .int dj, .refDbl] => some (constM (fun s => s.getHess di dj) .num)
  | .calcBasis k, [.int b, .int t, .dbls x, .refDbl] => some (numM fun s => s.basis1 (Series.termMember k) b t x)
  | .calcTensorBasis, [.ints t, .dbls x, .refDbl] => some (numM fun s => s.basisProd Series.evVal t x)
  | .calcTensorBasisGrad, [.ints t, .dbls x, .int di, .refDbl] => some (numM fun s => s.basisProd (Series.evGrad di) t x)
  | .calcTensorBasisHess, [.ints t, .dbls x, .int di, .int dj, .refDbl] =>
    some (numM fun s => s.basisProd (Series.evHess di dj) t x)
  | .evalBasisAll k, [.dbls x] => some (voidM fun s => s.step (.basisAll k x))
  | .evalBasis k, [.dbls x, .int i] => some (voidM fun s => s.step (.basisOne k x i))
  | .getBasis k, [.int b, .int t, .refDbl] => some (constM (fun s => getBasis1 k s b t) .num)
  | .getTensorBasis, [.ints t, .refDbl] => some (constM (fun s => s.basisGet Series.facVal t) .num)
  | .getTensorBasisGrad, [.ints t, .int di, .refDbl] => some (constM (fun s => s.basisGet (Series.facGrad di) t) .num)
  | .getTensorBasisHess, [.ints t, .int di, .int dj, .refDbl] =>
    some (constM (fun s => s.basisGet (Series.facHess di dj) t) .num)
  | _, _ => none

/-- PExtern.cc:270-273, `PSeriesFunction_dsis_new`. -/
def fresh : Series K := Series.make 0 1

/-- PExtern.cc:275-282, `PSeriesFunction_dsis_setnew`, given the objects the array points to: copies of the basis sets are given to the
constructor (PSeriesFunction.hh:59-65), which calls `set`. -/
def setnew (bs : List (XBasis K)) : Res (Series K) := fresh.set (bs.map fun b => some b.set)

/-- PExtern.cc:299-303: the loop of `PSeriesFunction_dsis_set`; a basis set is checked out by the name and size of each given one. -/
def checkoutAll (lib : String → Option (BClass K)) : List (XBasis K) → Res (List (Option (BasisSet K)))
  | [] => .ok []
  | b :: bs => do
    let tmp ← checkoutBasis 0 lib (b.cls.name, (b.set.size : Int))
    let rest ← checkoutAll lib bs
    .ok (some tmp.set :: rest)

/-- PExtern.cc:295-306, `PSeriesFunction_dsis_set`. -/
def set (lib : String → Option (BClass K)) (s : Series K) (bs : List (XBasis K)) : Res (Series K) := do
  let v ← checkoutAll lib bs
  s.set v

end XSeries

/-! ## Basis sets and series together -/

/-- The pointer variables to basis sets and those to series. -/
structure XWorld (K : Type) where
  basis : Mem (XBasis K)
  series : Mem (Series K)

/-- What a client does with them. -/
inductive WOp (K : Type) where
  | basis (op : XOp (String × Int) (BasisFn × List (CVal K)))
  /-- everything that does not involve basis sets; `new` is `PSeriesFunction_dsis_new` -/
  | series (op : XOp Unit (SeriesFn × List (CVal K)))
  /-- `PSeriesFunction_dsis_setnew(f, basis_set, order)`: the variables in the array -/
  | setnew (h : Nat) (bs : List Nat)
  /-- `PSeriesFunction_dsis_set(f, basis_set, order)` -/
  | set (h : Nat) (bs : List Nat)

namespace XWorld
variable {K : Type} [Field K] [LinearOrder K] [FloorRing K]

/-- `*basis_set[i]` for each of the variables. -/
def derefAll (m : Mem (XBasis K)) : List Nat → Res (List (XBasis K))
  | [] => .ok []
  | g :: gs => do
    let p ← m.ptr g
    let b ← m.deref p
    let bs ← derefAll m gs
    .ok (b :: bs)

/-- What the interface does. -/
def step (lib : String → Option (BClass K)) (w : XWorld K) : WOp K → Res (Option (XOut K)) × XWorld K
  | .basis op => match Ext.step (checkoutBasis 0 lib) (apiSem (XBasis.api 0)) w.basis op with | (r, m) => (r, { w with basis := m })
  | .series op => match Ext.step (fun _ => .ok XSeries.fresh) (apiSem XSeries.api) w.series op with | (r, m) => (r, { w with series := m })
  | .setnew h gs =>
    match derefAll w.basis gs with
    | .error e => (.error e, w)
    | .ok bs =>
      match w.series.done (Ext.new XSeries.setnew w.series h bs) with
      | (r, m) => (r, { w with series := m })
  | .set h gs =>
    match derefAll w.basis gs with
    | .error e => (.error e, w)
    | .ok bs =>
      match w.series.forward (fun bs s => XSeries.voidM (fun s => XSeries.set lib s bs) s) h bs with
      | (r, m) => (r, { w with series := m })

/-- A history. -/
def run (lib : String → Option (BClass K)) : List (WOp K) → XWorld K → List (Res (Option (XOut K))) × XWorld K
  | [], w => ([], w)
  | op :: ops, w =>
    match step lib w op with
    | (r, w') => match run lib ops w' with | (rs, w'') => (r :: rs, w'')

end XWorld
end Verif
