import Verif.Model.Core

/-!
# Specification: functions with gradient and Hessian

The calls a client can make on a function (`PFuncBase`, `PFunction`), and which component each of them evaluates.
-/

namespace Verif.Spec

/-- The members of `PFuncBase` / `PFunction`. Directions and indices are `int`s. -/
inductive FCall (V : Type) where
  | evalAt (v : V)                 -- `operator()(var)`
  | gradAt (v : V) (di : Int)      -- `grad(var, di)`
  | hessAt (v : V) (di dj : Int)   -- `hess(var, di, dj)`
  | eval (v : V) | evalGrad (v : V) | evalHess (v : V)
  | get                            -- `operator()()`
  | getGrad (di : Int) | getHess (di dj : Int)
  | simple | gradSimple (di : Int) | hessSimple (di dj : Int)   -- `simplefunction()`, ...
  | name | size | varNames | varName (i : Int) | varDescs | varDesc (i : Int)

/-- The components of a function: value, gradient, Hessian. -/
inductive Comp where
  | f | g (i : Nat) | h (i j : Nat)
  deriving DecidableEq, Repr

/-- The component functions, given the value, the gradient and the Hessian functions. -/
def compFn {V O : Type} (f : V → Res O) (g : List (V → Res O)) (h : List (List (V → Res O))) : Comp → V → Res O
  | .f => f
  | .g i => (g[i]?).getD fun _ => .error .runtimeError
  | .h i j => (((h[i]?).getD [])[j]?).getD fun _ => .error .runtimeError

/-- The components of a function of `n` variables that a call evaluates, in order, and the point. -/
def FCall.evaluates {V : Type} (n : Nat) : FCall V → Option (V × List Comp)
  | .evalAt v | .eval v => some (v, [.f])
  | .gradAt v di => some (v, [.g di.toNat])
  | .hessAt v di dj => some (v, [.h di.toNat dj.toNat])
  | .evalGrad v => some (v, (List.range n).map .g)
  | .evalHess v => some (v, (List.range n).flatMap fun i => (List.range n).map (.h i))
  | _ => none

/-- The directions of a call exist, for a function of `n` variables. -/
def FCall.InRange {V : Type} (n : Nat) : FCall V → Prop
  | .gradAt _ di | .getGrad di | .gradSimple di | .varName di | .varDesc di => 0 ≤ di ∧ di < n
  | .hessAt _ di dj | .getHess di dj | .hessSimple di dj => (0 ≤ di ∧ di < n) ∧ (0 ≤ dj ∧ dj < n)
  | _ => True

/-- A value, not an exception. -/
def isValue {O : Type} : Res O → Bool
  | .ok _ => true
  | .error _ => false

/-- Where component `c` was last evaluated successfully; `F` are the component functions. A call that evaluates several components
stops at the first that throws. -/
def lastEval {V O : Type} (F : Comp → V → Res O) (n : Nat) (c : Comp) : List (FCall V) → Option V → Option V
  | [], last => last
  | call :: calls, last =>
    lastEval F n c calls <|
      match call.evaluates n with
      | some (v, cs) => if c ∈ cs.takeWhile (fun c' => isValue (F c' v)) then some v else last
      | none => last

/-- The getter of a component. -/
def getter {V : Type} : Comp → FCall V
  | .f => .get
  | .g i => .getGrad i
  | .h i j => .getHess i j

/-- The single evaluation of a component. -/
def single {V : Type} (v : V) : Comp → FCall V
  | .f => .evalAt v
  | .g i => .gradAt v i
  | .h i j => .hessAt v i j

end Verif.Spec
