import Verif.Spec.Func

/-!
# Specification: what threads ask of functions and should get
-/

namespace Verif.Spec

/-- What a thread asks for: `p(v)`, `p.grad(v,i)`, `p.hess(v,i,j)` (`one`); or `p.eval(v)` and then `p()`, `p.eval_grad(v)` and then `p.grad(i)`,
`p.eval_hess(v)` and then `p.hess(i,j)` (`kept`). -/
inductive FQuery (V : Type) where
  | one (c : Comp) (v : V)
  | kept (c : Comp) (v : V)

/-- The point. -/
def FQuery.point {V : Type} : FQuery V → V
  | .one _ v | .kept _ v => v

/-- The component. -/
def FQuery.comp {V : Type} : FQuery V → Comp
  | .one c _ | .kept c _ => c

/-- The directions of the query are among those of a function of `n` variables. -/
def FQuery.Fits {V : Type} (n : Nat) (q : FQuery V) : Prop :=
  match q.comp with
  | .f => True
  | .g i => i < n
  | .h i j => i < n ∧ j < n

/-- The components that are computed: the one asked for, or the value, the whole gradient, the whole Hessian. -/
def FQuery.computes {V : Type} (n : Nat) : FQuery V → List Comp
  | .one c _ => [c]
  | .kept .f _ => [.f]
  | .kept (.g _) _ => (List.range n).map .g
  | .kept (.h _ _) _ => (List.range n).flatMap fun i => (List.range n).map (.h i)

/-- What the thread should get, the component functions being `F`: the component's value at its point, or the exception of the first component (in the order
of the list above) that throws there. -/
def FQuery.meant {V O : Type} (n : Nat) (F : Comp → V → Res O) (q : FQuery V) : Res O := do
  for c in q.computes n do
    let _ ← F c q.point
  F q.comp q.point

/-- The call of the family of a component: `eval(v)`, `eval_grad(v)`, `eval_hess(v)`. -/
def whole {V : Type} (v : V) : Comp → FCall V
  | .f => .eval v
  | .g _ => .evalGrad v
  | .h _ _ => .evalHess v

/-- No component has one value for the one query and another for the other. -/
def FQuery.Agree {V O : Type} (n : Nat) (F : Comp → V → Res O) (q r : FQuery V) : Prop :=
  ∀ c ∈ q.computes n, c ∈ r.computes n → ∀ y z, F c q.point = .ok y → F c r.point = .ok z → y = z

end Verif.Spec
