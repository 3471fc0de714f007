import Verif.Model.TestlibData
import Verif.Model.Piecewise
import Verif.Spec.ExprReal

/-!
# Model of `MyPieceWiseFunc` (tests/testlib/MyPieceWiseFunc.hh)

Expressions and strings are in `TestlibData`. `VarContainer` is a `std::vector<double>` with at least two elements. Doubles are real
numbers, and `pow` is the real power (in C++ a negative power of zero is infinite; no such power is evaluated inside the third piece).
-/

namespace Verif
open Spec Testlib

/-- A vector of at least two numbers. -/
abbrev Vec2 := { v : List ℝ // 2 ≤ v.length }

/-- A class derived from `PSimpleBase< VarContainer, T>`, `fn` being what its `eval` computes. -/
def Testlib.ClassText.objOf {V T : Type} (fn : V → Res T) (t : ClassText) : SObj V T where
  name := t.name
  fn := some fn
  csrc := some (.ok (String.ofList t.csrc))
  sym := some (.ok (String.ofList t.sym))
  latex := some (.ok (String.ofList t.latex))
  val := none

/-- An object of one of the classes with a `double` result (MyPieceWiseFunc.hh:11-264, 447-697, 919-1169): `eval` read as a C++
expression. An access beyond the end of the vector is undefined; text that is no expression would not compile. -/
noncomputable def Testlib.ClassText.objR (t : ClassText) : SObj Vec2 ℝ :=
  t.objOf fun v => match cpp.read t.eval with
    | some a => if a.vars ≤ v.1.length then .ok (a.eval fun i => v.1.getD i 0) else .error (.ub .oob)
    | none => .error .runtimeError

open Classical in
/-- An object of one of the classes with a `bool` result (MyPieceWiseFunc.hh:410-444, 846-916, 1318-1388). -/
noncomputable def Testlib.ClassText.objB (t : ClassText) : SObj Vec2 Bool :=
  t.objOf fun v => match cpp.readCmp t.eval with
    | some c => if c.vars ≤ v.1.length then .ok (decide (c.Holds fun i => v.1.getD i 0)) else .error (.ub .oob)
    | none => .error .runtimeError

/-- MyPieceWiseFunc.hh:266-407, class `MyPieceWiseFunc_piece0`; `construct()` is lines 383-405. Its members are those of a
`PFlexFunction` with these components, and its copy constructor gives a newly constructed object. -/
noncomputable def myPiece0 : Flex Vec2 ℝ :=
  ⟨⟨"MyPieceWiseFunc_piece0", ["x", "y"], ["x variable", "y variable"]⟩, some MyPieceWiseFunc_piece0_f.objR,
    [some MyPieceWiseFunc_piece0_grad_0.objR, some MyPieceWiseFunc_piece0_grad_1.objR],
    [[some MyPieceWiseFunc_piece0_hess_0_0.objR, some MyPieceWiseFunc_piece0_hess_0_1.objR],
     [some MyPieceWiseFunc_piece0_hess_1_0.objR, some MyPieceWiseFunc_piece0_hess_1_1.objR]]⟩

/-- MyPieceWiseFunc.hh:698-843, class `MyPieceWiseFunc_piece1`. -/
noncomputable def myPiece1 : Flex Vec2 ℝ :=
  ⟨⟨"MyPieceWiseFunc_piece1", ["x", "y"], ["x variable", "y variable"]⟩, some MyPieceWiseFunc_piece1_f.objR,
    [some MyPieceWiseFunc_piece1_grad_0.objR, some MyPieceWiseFunc_piece1_grad_1.objR],
    [[some MyPieceWiseFunc_piece1_hess_0_0.objR, some MyPieceWiseFunc_piece1_hess_0_1.objR],
     [some MyPieceWiseFunc_piece1_hess_1_0.objR, some MyPieceWiseFunc_piece1_hess_1_1.objR]]⟩

/-- MyPieceWiseFunc.hh:1170-1315, class `MyPieceWiseFunc_piece2`. -/
noncomputable def myPiece2 : Flex Vec2 ℝ :=
  ⟨⟨"MyPieceWiseFunc_piece2", ["x", "y"], ["x variable", "y variable"]⟩, some MyPieceWiseFunc_piece2_f.objR,
    [some MyPieceWiseFunc_piece2_grad_0.objR, some MyPieceWiseFunc_piece2_grad_1.objR],
    [[some MyPieceWiseFunc_piece2_hess_0_0.objR, some MyPieceWiseFunc_piece2_hess_0_1.objR],
     [some MyPieceWiseFunc_piece2_hess_1_0.objR, some MyPieceWiseFunc_piece2_hess_1_1.objR]]⟩

/-- MyPieceWiseFunc.hh:1394-1424, constructor: `Pc( pf(piece), cond)` for each piece. -/
noncomputable def myPieceWise : Res (PWFunc (Flex Vec2 ℝ) Vec2) := do
  let p0 ← Piece.make (flexCls Vec2 ℝ) (some myPiece0) [some MyPieceWiseFunc_piece0_cond0.objB]
  let p1 ← Piece.make (flexCls Vec2 ℝ) (some myPiece1)
    [some MyPieceWiseFunc_piece1_cond0.objB, some MyPieceWiseFunc_piece1_cond1.objB]
  let p2 ← Piece.make (flexCls Vec2 ℝ) (some myPiece2)
    [some MyPieceWiseFunc_piece2_cond0.objB, some MyPieceWiseFunc_piece2_cond1.objB]
  .ok ⟨⟨"MyPieceWiseFunc", ["x", "y"], ["x variable", "y variable"]⟩, none, [p0, p1, p2]⟩

end Verif
