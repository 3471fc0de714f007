import Verif.Model.TestlibPiecewise
import Verif.Model.Special

/-!
# `MyPieceWiseFunc` (tests/testlib/MyPieceWiseFunc.hh) on machine numbers

The objects are those of `Model/TestlibPiecewise`, with numbers whose arithmetic is given: the real numbers, or IEEE doubles with infinities
and NaN.
-/

namespace Verif
open Spec Testlib

/-- Arithmetic of a number type: literals, `+ - * /`, unary minus, `pow`, `<` and `>=`. -/
structure Machine (N : Type) where
  lit : ℚ → N
  add : N → N → N
  sub : N → N → N
  mul : N → N → N
  div : N → N → N
  neg : N → N
  pow : N → N → N
  sqrt : N → N
  lt : N → N → Bool
  ge : N → N → Bool

/-- An expression, evaluated operation by operation (MyPieceWiseFunc.hh:14-17 and the same lines of every class). -/
def Spec.RAst.compute {N : Type} (M : Machine N) (v : Nat → N) : RAst → N
  | .num q => M.lit q
  | .var i => v i
  | .add a b => M.add (a.compute M v) (b.compute M v)
  | .sub a b => M.sub (a.compute M v) (b.compute M v)
  | .mul a b => M.mul (a.compute M v) (b.compute M v)
  | .div a b => M.div (a.compute M v) (b.compute M v)
  | .neg a => M.neg (a.compute M v)
  | .pow a b => M.pow (a.compute M v) (b.compute M v)
  | .sqrt a => M.sqrt (a.compute M v)

/-- A comparison of two computed numbers (MyPieceWiseFunc.hh:413-416 and the same lines of every condition). -/
def Spec.Cmp.compute {N : Type} (M : Machine N) (v : Nat → N) (c : Cmp) : Bool :=
  if c.lt then M.lt (c.lhs.compute M v) (c.rhs.compute M v) else M.ge (c.lhs.compute M v) (c.rhs.compute M v)

/-- A vector of at least two numbers. -/
abbrev VecOf (N : Type) := { v : List N // 2 ≤ v.length }

section
variable {N : Type} (M : Machine N)

/-- An object of one of the classes with a `double` result (MyPieceWiseFunc.hh:11-264, 447-697, 919-1169). -/
def Testlib.ClassText.objM (t : ClassText) : SObj (VecOf N) N :=
  t.objOf fun v => match cpp.read t.eval with
    | some a => if a.vars ≤ v.1.length then .ok (a.compute M fun i => v.1.getD i (M.lit 0)) else .error (.ub .oob)
    | none => .error .runtimeError

/-- An object of one of the classes with a `bool` result (MyPieceWiseFunc.hh:410-444, 846-916, 1318-1388). -/
def Testlib.ClassText.objMB (t : ClassText) : SObj (VecOf N) Bool :=
  t.objOf fun v => match cpp.readCmp t.eval with
    | some c => if c.vars ≤ v.1.length then .ok (c.compute M fun i => v.1.getD i (M.lit 0)) else .error (.ub .oob)
    | none => .error .runtimeError

/-- MyPieceWiseFunc.hh:266-407, class `MyPieceWiseFunc_piece0`. -/
def pieceM0 : Flex (VecOf N) N :=
  ⟨⟨"MyPieceWiseFunc_piece0", ["x", "y"], ["x variable", "y variable"]⟩, some (MyPieceWiseFunc_piece0_f.objM M),
    [some (MyPieceWiseFunc_piece0_grad_0.objM M), some (MyPieceWiseFunc_piece0_grad_1.objM M)],
    [[some (MyPieceWiseFunc_piece0_hess_0_0.objM M), some (MyPieceWiseFunc_piece0_hess_0_1.objM M)],
     [some (MyPieceWiseFunc_piece0_hess_1_0.objM M), some (MyPieceWiseFunc_piece0_hess_1_1.objM M)]]⟩

/-- MyPieceWiseFunc.hh:698-843, class `MyPieceWiseFunc_piece1`. -/
def pieceM1 : Flex (VecOf N) N :=
  ⟨⟨"MyPieceWiseFunc_piece1", ["x", "y"], ["x variable", "y variable"]⟩, some (MyPieceWiseFunc_piece1_f.objM M),
    [some (MyPieceWiseFunc_piece1_grad_0.objM M), some (MyPieceWiseFunc_piece1_grad_1.objM M)],
    [[some (MyPieceWiseFunc_piece1_hess_0_0.objM M), some (MyPieceWiseFunc_piece1_hess_0_1.objM M)],
     [some (MyPieceWiseFunc_piece1_hess_1_0.objM M), some (MyPieceWiseFunc_piece1_hess_1_1.objM M)]]⟩

/-- MyPieceWiseFunc.hh:1170-1315, class `MyPieceWiseFunc_piece2`. -/
def pieceM2 : Flex (VecOf N) N :=
  ⟨⟨"MyPieceWiseFunc_piece2", ["x", "y"], ["x variable", "y variable"]⟩, some (MyPieceWiseFunc_piece2_f.objM M),
    [some (MyPieceWiseFunc_piece2_grad_0.objM M), some (MyPieceWiseFunc_piece2_grad_1.objM M)],
    [[some (MyPieceWiseFunc_piece2_hess_0_0.objM M), some (MyPieceWiseFunc_piece2_hess_0_1.objM M)],
     [some (MyPieceWiseFunc_piece2_hess_1_0.objM M), some (MyPieceWiseFunc_piece2_hess_1_1.objM M)]]⟩

/-- MyPieceWiseFunc.hh:1394-1424, constructor. -/
def pieceWiseM : Res (PWFunc (Flex (VecOf N) N) (VecOf N)) := do
  let p0 ← Piece.make (flexCls (VecOf N) N) (some (pieceM0 M)) [some (MyPieceWiseFunc_piece0_cond0.objMB M)]
  let p1 ← Piece.make (flexCls (VecOf N) N) (some (pieceM1 M))
    [some (MyPieceWiseFunc_piece1_cond0.objMB M), some (MyPieceWiseFunc_piece1_cond1.objMB M)]
  let p2 ← Piece.make (flexCls (VecOf N) N) (some (pieceM2 M))
    [some (MyPieceWiseFunc_piece2_cond0.objMB M), some (MyPieceWiseFunc_piece2_cond1.objMB M)]
  .ok ⟨⟨"MyPieceWiseFunc", ["x", "y"], ["x variable", "y variable"]⟩, none, [p0, p1, p2]⟩

end

/-- The real numbers. -/
noncomputable def Machine.real : Machine ℝ where
  lit q := (q : ℝ)
  add := (· + ·)
  sub := (· - ·)
  mul := (· * ·)
  div := (· / ·)
  neg := (- ·)
  pow := (· ^ ·)
  sqrt := Real.sqrt
  lt a b := by classical exact decide (a < b)
  ge a b := by classical exact decide (a ≥ b)

/-- IEEE doubles: the result of an operation on finite numbers is rounded by `rnd`, which may overflow; `pow` and `sqrt` are those of the C library (any functions). -/
def Machine.ieee {K : Type} [Field K] [LinearOrder K] (rnd : K → Dbl K) (pow : Dbl K → Dbl K → Dbl K) (sqrt : Dbl K → Dbl K) : Machine (Dbl K) where
  lit q := rnd (q : K)
  add
    | .nan, _ => .nan
    | _, .nan => .nan
    | .fin a, .fin b => rnd (a + b)
    | .inf, .ninf => .nan
    | .ninf, .inf => .nan
    | .inf, _ => .inf
    | _, .inf => .inf
    | .ninf, _ => .ninf
    | _, .ninf => .ninf
  sub a b := match a, b with
    | .fin a, .fin b => rnd (a - b)
    | a, b => Dbl.sub a b
  mul
    | .nan, _ => .nan
    | _, .nan => .nan
    | .fin a, .fin b => rnd (a * b)
    | .fin a, .inf => if a = 0 then .nan else if 0 < a then .inf else .ninf
    | .fin a, .ninf => if a = 0 then .nan else if 0 < a then .ninf else .inf
    | .inf, .fin b => if b = 0 then .nan else if 0 < b then .inf else .ninf
    | .ninf, .fin b => if b = 0 then .nan else if 0 < b then .ninf else .inf
    | .inf, .inf => .inf
    | .ninf, .ninf => .inf
    | .inf, .ninf => .ninf
    | .ninf, .inf => .ninf
  div a b := match a, b with
    | .fin a, .fin b => if b = 0 then Dbl.divide (.fin a) (.fin b) else rnd (a / b)
    | a, b => Dbl.divide a b
  neg
    | .fin a => .fin (-a)
    | .inf => .ninf
    | .ninf => .inf
    | .nan => .nan
  pow := pow
  sqrt := sqrt
  lt := Dbl.lt
  ge a b := match a, b with
    | .fin a, .fin b => decide (a ≥ b)
    | .nan, _ => false
    | _, .nan => false
    | .inf, _ => true
    | _, .ninf => true
    | _, _ => false

end Verif
