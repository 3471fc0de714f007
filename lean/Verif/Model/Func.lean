import Verif.Model.Simple
import Verif.Spec.Func

/-!
# Model of `PFuncBase` (pfunction/PFuncBase.hh), `PFlexFunction` (pfunction/PFlexFunction.hh) and the generated function classes

Member `PSimpleFunction` handles are modelled as the values they hold (`Option`, `none` is an empty handle); that handles behave like
values is property C38.
-/

namespace Verif
open Spec

/-- What the members of a function return. -/
inductive FOut (V O : Type) where
  | num (y : O)
  | str (s : String)
  | strs (s : List String)
  | size (n : Nat)
  | simple (s : Option (SObj V O))
  | void

/-- The data members of `PFuncBase` (PFuncBase.hh:21-23). -/
structure FBase where
  name : String
  varName : List String
  varDesc : List String

/-- The virtual members a derived class overrides; `none`: not overridden. -/
abbrev Overrides (σ V O : Type) := FCall V → Option (σ → Res (FOut V O) × σ)

section
variable {σ V O : Type}

/-- PFuncBase.hh:39-62 for the members that are not virtual (PFunction.hh:51-74 forwards them; `size()` is returned as `int`, taken
to fit); PFuncBase.hh:69-139 for those that are: the derived class's member if there is one, else `undefined` throws
(PFuncBase.hh:142-146). -/
def FBase.sem (base : σ → FBase) (ov : Overrides σ V O) (c : FCall V) (s : σ) : Res (FOut V O) × σ :=
  match c with
  | .name => (.ok (.str (base s).name), s)
  | .size => (.ok (.size (base s).varName.length), s)
  | .varNames => (.ok (.strs (base s).varName), s)
  | .varName i => ((vget (base s).varName i).map .str, s)
  | .varDescs => (.ok (.strs (base s).varDesc), s)
  | .varDesc i => ((vget (base s).varDesc i).map .str, s)
  | c =>
    match ov c with
    | some f => f s
    | none => (.error .runtimeError, s)

/-- A history of calls on one function; the client catches exceptions and goes on. -/
def runCalls {Call Out : Type} (sem : Call → σ → Res Out × σ) : List Call → σ → List (Res Out) × σ
  | [], s => ([], s)
  | c :: cs, s => match sem c s with
    | (r, s') => match runCalls sem cs s' with | (rs, s'') => (r :: rs, s'')

end

/-- A `PSimpleFunction` member. -/
abbrev SFun (V O : Type) := Option (SObj V O)

namespace SFun
variable {V O : Type}

/-- PSimpleFunction.hh:43-46, `operator()(var)`. -/
def evalAt (h : SFun V O) (v : V) : Res O × SFun V O :=
  match h with
  | none => (.error (.ub .nullDeref), none)
  | some o => match o.evalAt v with | (r, o') => (r, some o')

/-- PSimpleFunction.hh:55-58, `operator()()`. -/
def get : SFun V O → Res O
  | none => .error (.ub .nullDeref)
  | some o => o.get

/-- PSimpleFunction.hh:62-68, assignment from another handle: an empty right-hand side is dereferenced. -/
def assign (_old new : SFun V O) : Res (SFun V O) :=
  match new with
  | none => .error (.ub .nullDeref)
  | some o => .ok (some o)

/-- `std::vector<PSimpleFunction>::operator=`: elements that exist on both sides are assigned, the others copied. (When the capacity
does not suffice all are copied, which would not dereference an empty handle; the model always assigns.) -/
def vecAssign : List (SFun V O) → List (SFun V O) → Res (List (SFun V O))
  | _, [] => .ok []
  | [], new => .ok new
  | a :: old, b :: new => do
    let c ← assign a b
    let cs ← vecAssign old new
    .ok (c :: cs)

/-- The same for `std::vector< std::vector<PSimpleFunction> >`. -/
def vecAssign2 : List (List (SFun V O)) → List (List (SFun V O)) → Res (List (List (SFun V O)))
  | _, [] => .ok []
  | [], new => .ok new
  | a :: old, b :: new => do
    let c ← vecAssign a b
    let cs ← vecAssign2 old new
    .ok (c :: cs)

/-- PFlexFunction.hh:143-144, the loop of `eval_grad` from element `i` on, and the inner loop of `eval_hess` (150-151). An exception
leaves the loop. -/
def evalAll (v : V) : List (SFun V O) → Res Unit × List (SFun V O)
  | [] => (.ok (), [])
  | h :: hs =>
    match h.evalAt v with
    | (.error e, h') => (.error e, h' :: hs)
    | (.ok _, h') => match evalAll v hs with | (r, hs') => (r, h' :: hs')

/-- PFlexFunction.hh:149-151, the outer loop of `eval_hess`. -/
def evalRows (v : V) : List (List (SFun V O)) → Res Unit × List (List (SFun V O))
  | [] => (.ok (), [])
  | row :: rows =>
    match evalAll v row with
    | (.error e, row') => (.error e, row' :: rows)
    | (.ok _, row') => match evalRows v rows with | (r, rows') => (r, row' :: rows')

end SFun

/-- PFlexFunction.hh:21-23 and the members of the base class. Also the layout of the generated classes (tests/testlib/MyFunc.hh:270-272,
Quadratic.hh), whose pointers are never NULL. -/
structure Flex (V O : Type) where
  base : FBase
  val : SFun V O
  grad : List (SFun V O)
  hess : List (List (SFun V O))

namespace Flex
variable {V O : Type}

/-- PFlexFunction.hh:29-32, default constructor. -/
def empty : Flex V O := ⟨⟨"", [], []⟩, none, [], []⟩

/-- PFlexFunction.hh:189-196, the loop over the rows of the Hessian. -/
def checkRows (n : Nat) : List (List (SFun V O)) → Res Unit
  | [] => .ok ()
  | row :: rows => if row.length ≠ n then .error (.exit 1) else checkRows n rows

/-- PFlexFunction.hh:171-197, `check`. -/
def check (p : Flex V O) : Res Unit :=
  let n := p.base.varName.length
  if p.base.varDesc.length ≠ n then .error (.exit 1)
  else if p.grad.length ≠ n then .error (.exit 1)
  else if p.hess.length ≠ n then .error (.exit 1)
  else checkRows n p.hess

/-- PFlexFunction.hh:34-44, constructor: copies everything, then `check`. -/
def make (b : FBase) (f : SFun V O) (g : List (SFun V O)) (h : List (List (SFun V O))) : Res (Flex V O) :=
  let p : Flex V O := ⟨b, f, g, h⟩
  match p.check with
  | .ok _ => .ok p
  | .error e => .error e

/-- PFlexFunction.hh:56-71, `set`. -/
def set (p : Flex V O) (b : FBase) (f : SFun V O) (g : List (SFun V O)) (h : List (List (SFun V O))) : Res (Flex V O) := do
  let f' ← p.val.assign f
  let g' ← SFun.vecAssign p.grad g
  let h' ← SFun.vecAssign2 p.hess h
  let q : Flex V O := ⟨b, f', g', h'⟩
  q.check
  .ok q

/-- PFlexFunction.hh:73-82, copy constructor: default construction, then assignment of the members. -/
def copyCtor (rhs : Flex V O) : Res (Flex V O) := do
  let f' ← SFun.assign none rhs.val
  let g' ← SFun.vecAssign [] rhs.grad
  let h' ← SFun.vecAssign2 [] rhs.hess
  .ok ⟨rhs.base, f', g', h'⟩

/-- PFlexFunction.hh:84-94, `operator=`: the members are assigned, but nothing is returned from a function that returns a
reference. -/
def assign (p rhs : Flex V O) : Res (Flex V O) := do
  let _ ← p.val.assign rhs.val
  let _ ← SFun.vecAssign p.grad rhs.grad
  let _ ← SFun.vecAssign2 p.hess rhs.hess
  .error (.ub .missingReturn)

/-- PFlexFunction.hh:46-54, `clear`: assigns an empty handle to `_val`. -/
def clear (p : Flex V O) : Res (Flex V O) := do
  let f' ← p.val.assign none
  .ok ⟨⟨"", [], []⟩, f', [], []⟩

/-- PFlexFunction.hh:121-124, `operator()(var)`; MyFunc.hh:330-333. -/
def evalAt (p : Flex V O) (v : V) : Res O × Flex V O :=
  match p.val.evalAt v with | (r, f') => (r, { p with val := f' })

/-- PFlexFunction.hh:126-129, `grad(var, di)`. -/
def gradAt (p : Flex V O) (v : V) (di : Int) : Res O × Flex V O :=
  match vget p.grad di with
  | .error e => (.error e, p)
  | .ok h => match h.evalAt v with | (r, h') => (r, { p with grad := p.grad.set di.toNat h' })

/-- PFlexFunction.hh:131-134, `hess(var, di, dj)`. -/
def hessAt (p : Flex V O) (v : V) (di dj : Int) : Res O × Flex V O :=
  match vget p.hess di with
  | .error e => (.error e, p)
  | .ok row =>
    match vget row dj with
    | .error e => (.error e, p)
    | .ok h => match h.evalAt v with | (r, h') => (r, { p with hess := p.hess.set di.toNat (row.set dj.toNat h') })

/-- PFlexFunction.hh:141-145, `eval_grad`. -/
def evalGrad (p : Flex V O) (v : V) : Res Unit × Flex V O :=
  match SFun.evalAll v p.grad with | (r, g) => (r, { p with grad := g })

/-- PFlexFunction.hh:147-152, `eval_hess`. -/
def evalHess (p : Flex V O) (v : V) : Res Unit × Flex V O :=
  match SFun.evalRows v p.hess with | (r, h) => (r, { p with hess := h })

/-- The overridden members, PFlexFunction.hh:106-167 (all of them). -/
def ov : Overrides (Flex V O) V O
  | .evalAt v => some fun p => match p.evalAt v with | (r, p') => (r.map .num, p')
  | .gradAt v di => some fun p => match p.gradAt v di with | (r, p') => (r.map .num, p')
  | .hessAt v di dj => some fun p => match p.hessAt v di dj with | (r, p') => (r.map .num, p')
  | .eval v => some fun p => match p.evalAt v with | (r, p') => (r.map fun _ => .void, p')
  | .evalGrad v => some fun p => match p.evalGrad v with | (r, p') => (r.map fun _ => .void, p')
  | .evalHess v => some fun p => match p.evalHess v with | (r, p') => (r.map fun _ => .void, p')
  | .get => some fun p => (p.val.get.map .num, p)
  | .getGrad di => some fun p => ((vget p.grad di).bind fun h => h.get.map .num, p)
  | .getHess di dj => some fun p => ((vget p.hess di).bind fun row => (vget row dj).bind fun h => h.get.map .num, p)
  | .simple => some fun p => (.ok (.simple p.val), p)
  | .gradSimple di => some fun p => ((vget p.grad di).map .simple, p)
  | .hessSimple di dj => some fun p => ((vget p.hess di).bind fun row => (vget row dj).map .simple, p)
  | _ => none

/-- Calls on a `PFlexFunction` or a generated function. -/
def sem : FCall V → Flex V O → Res (FOut V O) × Flex V O := FBase.sem Flex.base ov

end Flex

/-- A plain `PFuncBase` object: nothing is overridden. -/
def FBase.plain {V O : Type} : FCall V → FBase → Res (FOut V O) × FBase := FBase.sem id fun _ => none

end Verif
