import Verif.Model.Handle

/-!
# Model of `PSimpleBase` (pfunction/PSimpleBase.hh) and of the calls `PSimpleFunction` forwards to it
-/

namespace Verif

/-- An object of a class derived from `PSimpleBase`: `none` stands for a virtual member that is not overridden, or (`val`) for the
uninitialised `_val`. The result of an overridden `eval` may be an exception. Copying an uninitialised `_val` is taken to be
harmless. -/
structure SObj (V O : Type) where
  name : String
  fn : Option (V → Res O)
  csrc : Option (Res String)
  sym : Option (Res String)
  latex : Option (Res String)
  val : Option O

/-- The members `PSimpleFunction` forwards (PSimpleFunction.hh:22-58). -/
inductive SCall (V : Type) where
  | evalAt (v : V)   -- `operator()(var)`
  | eval (v : V)
  | get              -- `operator()()`
  | name | csrc | sym | latex

/-- What they return. -/
inductive SOut (O : Type) where
  | num (y : O)
  | str (s : String)
  | void
  deriving DecidableEq, Repr

namespace SObj
variable {V O : Type}

/-- PSimpleBase.hh:62 and the overriding `eval` of a derived class. -/
def evalFn (o : SObj V O) (v : V) : Res O :=
  match o.fn with
  | some f => f v
  | none => .error .runtimeError

/-- PSimpleBase.hh:30, `operator()(var)`: `return _val = eval(var);`. -/
def evalAt (o : SObj V O) (v : V) : Res O × SObj V O :=
  match o.evalFn v with
  | .ok y => (.ok y, { o with val := some y })
  | .error e => (.error e, o)

/-- PSimpleBase.hh:31, `operator()()`. -/
def get (o : SObj V O) : Res O :=
  match o.val with
  | some y => .ok y
  | none => .error (.ub .uninit)

/-- PSimpleBase.hh:43-59, a virtual member returning a string. -/
def text : Option (Res String) → Res (SOut O)
  | some s => s.map .str
  | none => .error .runtimeError

/-- PSimpleFunction.hh:22-58, the forwarded calls. -/
def sem : SCall V → SObj V O → Res (SOut O) × SObj V O
  | .evalAt v, o => match o.evalAt v with | (r, o') => (r.map .num, o')
  | .eval v, o => match o.evalAt v with | (r, o') => (r.map fun _ => .void, o')
  | .get, o => (o.get.map .num, o)
  | .name, o => (.ok (.str o.name), o)
  | .csrc, o => (text o.csrc, o)
  | .sym, o => (text o.sym, o)
  | .latex, o => (text o.latex, o)

end SObj
end Verif
