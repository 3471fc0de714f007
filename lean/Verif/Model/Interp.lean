import Verif.Model.Core
import Mathlib.Algebra.Field.Defs
import Mathlib.Order.Defs.LinearOrder
import Mathlib.Logic.Function.Basic
import Mathlib.Data.Fin.VecNotation

/-!
# Model of `include/IntegrationTools/pfield/interpolation/{Interpolator,Quad,Hexahedron}.hh`

`PRISMS::Coordinate<DIM>` (pfield/Coordinate.hh:14-34, a `double[DIM]`) is a function `Fin DIM → K`. `K` stands for `double`,
exactly. Division by a zero cell extent gives an infinity or NaN in C++; the theorems assume positive extents.
-/

namespace Verif
variable {K : Type} [Field K] [LinearOrder K]

/-- Interpolator.hh:18-19 and Quad.hh:306-310 / Hexahedron.hh:443-447: node index, element index and `_var[1..3]` (node
coordinate, cell extents, corner signs). `_var[0]` is scratch space overwritten by every member before use, and the basis
function pointer is fixed by the class, so neither is kept. -/
structure Interp (K : Type) (d : Nat) where
  node : Nat
  element : Nat
  n : Fin d → K
  h : Fin d → K
  s : Fin d → K

omit [LinearOrder K] in
/-- Quad.hh:13-26, `Quad_f::eval`. -/
def quadF (r n h s : Fin 2 → K) : K :=
  (1 - s 0 * (r 0 - n 0) / h 0) * (1 - s 1 * (r 1 - n 1) / h 1)

omit [LinearOrder K] in
/-- Quad.hh:41-80, `Quad_grad_0::eval`, `Quad_grad_1::eval`; other components read past `_grad_val` (Quad.hh:227). -/
def quadGrad (r n h s : Fin 2 → K) (di : Nat) : Res K :=
  match di with
  | 0 => .ok (-s 0 * (1 - s 1 * (r 1 - n 1) / h 1) / h 0)
  | 1 => .ok (-s 1 * (1 - s 0 * (r 0 - n 0) / h 0) / h 1)
  | _ => .error (.ub .oob)

omit [LinearOrder K] in
/-- Quad.hh:82-160, `Quad_hess_i_j::eval`; other components read out of bounds (Quad.hh:232). -/
def quadHess (_r _n h s : Fin 2 → K) (di dj : Nat) : Res K :=
  match di, dj with
  | 0, 0 => .ok 0
  | 0, 1 => .ok (s 0 * s 1 / h 0 / h 1)
  | 1, 0 => .ok (s 0 * s 1 / h 0 / h 1)
  | 1, 1 => .ok 0
  | _, _ => .error (.ub .oob)

omit [LinearOrder K] in
/-- Hexahedron.hh:13-28, `Hexahedron_f::eval`. -/
def hexF (r n h s : Fin 3 → K) : K :=
  (1 - s 0 * (r 0 - n 0) / h 0) * (1 - s 1 * (r 1 - n 1) / h 1) * (1 - s 2 * (r 2 - n 2) / h 2)

omit [LinearOrder K] in
/-- Hexahedron.hh:43-106, `Hexahedron_grad_i::eval`. -/
def hexGrad (r n h s : Fin 3 → K) (di : Nat) : Res K :=
  match di with
  | 0 => .ok (-s 0 * (1 - s 1 * (r 1 - n 1) / h 1) * (1 - s 2 * (r 2 - n 2) / h 2) / h 0)
  | 1 => .ok (-s 1 * (1 - s 0 * (r 0 - n 0) / h 0) * (1 - s 2 * (r 2 - n 2) / h 2) / h 1)
  | 2 => .ok (-s 2 * (1 - s 0 * (r 0 - n 0) / h 0) * (1 - s 1 * (r 1 - n 1) / h 1) / h 2)
  | _ => .error (.ub .oob)

omit [LinearOrder K] in
/-- Hexahedron.hh:108-286, `Hexahedron_hess_i_j::eval`. -/
def hexHess (_r _n h s : Fin 3 → K) (di dj : Nat) : Res K :=
  match di, dj with
  | 0, 0 => .ok 0
  | 0, 1 => .ok (s 0 * s 1 / h 0 / h 1)
  | 0, 2 => .ok (s 0 * s 2 / h 0 / h 2)
  | 1, 0 => .ok (s 1 * s 0 / h 1 / h 0)
  | 1, 1 => .ok 0
  | 1, 2 => .ok (s 1 * s 2 / h 1 / h 2)
  | 2, 0 => .ok (s 2 * s 0 / h 2 / h 0)
  | 2, 1 => .ok (s 2 * s 1 / h 2 / h 1)
  | 2, 2 => .ok 0
  | _, _ => .error (.ub .oob)

omit [LinearOrder K] in
/-- Quad.hh:339-370, the corner signs (`_var.resize(4)` value-initialises, so an index outside 0..3 leaves zeros). -/
def quadSign (j : Nat) : Fin 2 → K :=
  match j with
  | 0 => ![1, 1]
  | 1 => ![-1, 1]
  | 2 => ![-1, -1]
  | 3 => ![1, -1]
  | _ => ![0, 0]

omit [LinearOrder K] in
/-- Hexahedron.hh:478-525, the corner signs. -/
def hexSign (j : Nat) : Fin 3 → K :=
  match j with
  | 0 => ![1, 1, 1]
  | 1 => ![-1, 1, 1]
  | 2 => ![-1, -1, 1]
  | 3 => ![1, -1, 1]
  | 4 => ![1, 1, -1]
  | 5 => ![-1, 1, -1]
  | 6 => ![-1, -1, -1]
  | 7 => ![1, -1, -1]
  | _ => ![0, 0, 0]

omit [LinearOrder K] in
/-- Quad.hh:323-371, constructor of `QuadValues`. -/
def mkQuad (node element : Nat) (nodeCoord dim : Fin 2 → K) (j : Nat) : Interp K 2 :=
  ⟨node, element, nodeCoord, dim, quadSign j⟩

omit [LinearOrder K] in
/-- Hexahedron.hh:460-526, constructor of `HexahedronValues`. -/
def mkHex (node element : Nat) (nodeCoord dim : Fin 3 → K) (j : Nat) : Interp K 3 :=
  ⟨node, element, nodeCoord, dim, hexSign j⟩

namespace Interp

/-- Quad.hh:373-383, Hexahedron.hh:528-540, `min()`. -/
def min {d : Nat} (q : Interp K d) : Fin d → K := fun i => if q.s i = -1 then q.n i - q.h i else q.n i

/-- Quad.hh:385-395, Hexahedron.hh:542-554, `max()`. -/
def max {d : Nat} (q : Interp K d) : Fin d → K := fun i => if q.s i = 1 then q.n i + q.h i else q.n i

/-- One pass of the loop of `is_in_range` (Quad.hh:405-407, Hexahedron.hh:565-567): `true` if the pass does not return. -/
def passOk {d : Nat} (q : Interp K d) (c : Fin d → K) (i : Fin d) : Bool :=
  let e := q.s i * (c i - q.n i) / q.h i
  if e < 0 ∨ e ≥ 1 then false else true

/-- Quad.hh:397-424, `QuadValues::is_in_range` (loop over `i<2`). -/
def quadInRange (q : Interp K 2) (c : Fin 2 → K) : Bool := q.passOk c 0 && q.passOk c 1

/-- Hexahedron.hh:556-584, `HexahedronValues::is_in_range` (loop over `i<2`, as in the code). -/
def hexInRange (q : Interp K 3) (c : Fin 3 → K) : Bool := q.passOk c 0 && q.passOk c 1

end Interp

/-- What `Mesh` uses of an interpolator class (Interpolator.hh:40-74 and the two overriding classes). -/
structure ElemOps (K : Type) (d : Nat) where
  corners : Nat                                             -- number of nodes of a cell
  far : Nat                                                 -- the local node opposite to node 0
  make : Nat → Nat → (Fin d → K) → (Fin d → K) → Nat → Interp K d
  inRange : Interp K d → (Fin d → K) → Bool
  value : Interp K d → (Fin d → K) → Res K
  grad : Interp K d → (Fin d → K) → Nat → Res K
  hess : Interp K d → (Fin d → K) → Nat → Nat → Res K

/-- `QuadValues` (Quad.hh:304-450; corner numbers used by Mesh.hh construct_interpolating_functions). -/
def quadOps (K : Type) [Field K] [LinearOrder K] : ElemOps K 2 where
  corners := 4
  far := 2
  make := mkQuad
  inRange := Interp.quadInRange
  value q c := .ok (quadF c q.n q.h q.s)
  grad q c di := quadGrad c q.n q.h q.s di
  hess q c di dj := quadHess c q.n q.h q.s di dj

/-- `HexahedronValues` (Hexahedron.hh:441-613). -/
def hexOps (K : Type) [Field K] [LinearOrder K] : ElemOps K 3 where
  corners := 8
  far := 6
  make := mkHex
  inRange := Interp.hexInRange
  value q c := .ok (hexF c q.n q.h q.s)
  grad q c di := hexGrad c q.n q.h q.s di
  hess q c di dj := hexHess c q.n q.h q.s di dj

/-! ### The element function objects `Quad` and `Hexahedron` (stored component values) -/

/-- The stored result of each component object (PSimpleBase.hh `_val`); `none` is "never evaluated". Quad.hh:163-167,
Hexahedron.hh:289-293. -/
structure ElemFn (K : Type) (d : Nat) where
  val : Option K
  grad : Fin d → Option K
  hess : Fin d → Fin d → Option K

namespace ElemFn

/-- Quad.hh:173-176, 270-297, Hexahedron.hh:296-299, 400-434: a new object; also the result of copying or cloning one
(Quad.hh:178-181, 200-203), since the copy constructor ignores its argument. -/
def fresh (K : Type) (d : Nat) : ElemFn K d := ⟨none, fun _ => none, fun _ _ => none⟩

/-- `_grad_val[i](var)` used as a statement: PSimpleBase.hh stores the value. -/
def putGrad {d : Nat} (f : ElemFn K d) (i : Fin d) (x : K) : ElemFn K d :=
  { f with grad := fun j => if j = i then some x else f.grad j }

/-- `_hess_val[i][j](var)` used as a statement. -/
def putHess {d : Nat} (f : ElemFn K d) (i j : Fin d) (x : K) : ElemFn K d :=
  { f with hess := fun a b => if a = i ∧ b = j then some x else f.hess a b }

/-- Value of a component or 0 (only used for in-range components, whose `Res` is `ok`). -/
def okOr0 (r : Res K) : K := match r with | .ok x => x | .error _ => 0

/-- Quad.hh:240-244, `Quad::eval_grad`. -/
def quadEvalGrad (f : ElemFn K 2) (r n h s : Fin 2 → K) : ElemFn K 2 :=
  (f.putGrad 0 (okOr0 (quadGrad r n h s 0))).putGrad 1 (okOr0 (quadGrad r n h s 1))

/-- Quad.hh:246-252, `Quad::eval_hess`. -/
def quadEvalHess (f : ElemFn K 2) (r n h s : Fin 2 → K) : ElemFn K 2 :=
  (((f.putHess 0 0 (okOr0 (quadHess r n h s 0 0))).putHess 0 1 (okOr0 (quadHess r n h s 0 1))).putHess 1 0
    (okOr0 (quadHess r n h s 1 0))).putHess 1 1 (okOr0 (quadHess r n h s 1 1))

/-- Hexahedron.hh:370-374, `Hexahedron::eval_grad`. -/
def hexEvalGrad (f : ElemFn K 3) (r n h s : Fin 3 → K) : ElemFn K 3 :=
  (f.putGrad 0 (okOr0 (hexGrad r n h s 0))).putGrad 1 (okOr0 (hexGrad r n h s 1))

/-- Hexahedron.hh:376-382, `Hexahedron::eval_hess`. -/
def hexEvalHess (f : ElemFn K 3) (r n h s : Fin 3 → K) : ElemFn K 3 :=
  (((f.putHess 0 0 (okOr0 (hexHess r n h s 0 0))).putHess 0 1 (okOr0 (hexHess r n h s 0 1))).putHess 1 0
    (okOr0 (hexHess r n h s 1 0))).putHess 1 1 (okOr0 (hexHess r n h s 1 1))

/-- Quad.hh:259-262, Hexahedron.hh:389-392, the getter `grad(di)`. -/
def getGrad {d : Nat} (f : ElemFn K d) (i : Fin d) : Res K :=
  match f.grad i with | some x => .ok x | none => .error (.ub .uninit)

/-- Quad.hh:264-267, Hexahedron.hh:394-397, the getter `hess(di,dj)`. -/
def getHess {d : Nat} (f : ElemFn K d) (i j : Fin d) : Res K :=
  match f.hess i j with | some x => .ok x | none => .error (.ub .uninit)

end ElemFn
end Verif
