import Verif.Model.Func
import Verif.Model.Interp
import Verif.Model.TestlibPieceMem

/-!
# The element functions `Quad` and `Hexahedron` as objects (pfield/interpolation/{Quad,Hexahedron}.hh)

Functions of a `std::vector<Coordinate>` (a list) with the members of `PFuncBase`; the component objects never have NULL pointers. The
arrays of components are lists, an index outside of which is undefined behaviour. Simplification: the components of one object, which are
allocated and deleted together, are one block of memory.
-/

namespace Verif
open Spec
namespace Elem
variable {K : Type} [Field K] {d : Nat}

/-- `var[0]` to `var[3]` of a component's `eval` (Quad.hh:15-26, Hexahedron.hh:15-28 and the other components). -/
def onVar (f : (r n h s : Fin d → K) → Res K) (v : List (Fin d → K)) : Res K := do
  let s ← vget v 3
  let r ← vget v 0
  let n ← vget v 1
  let h ← vget v 2
  f r n h s

/-- A component object: a name and `eval`; nothing else is overridden (Quad.hh:13-38). -/
def part (name : String) (f : List (Fin d → K) → Res K) : SFun (List (Fin d → K)) K := some ⟨name, some f, none, none, none, none⟩

/-- Quad.hh:272-281, Hexahedron.hh:402-411: the data members of the base class. -/
def base (name : String) : FBase :=
  ⟨name, ["r", "n", "h", "s"],
    ["Coordinate to be evaluated (Cartesian)", "Coordinate of node", "Coordinate containing element dimensions",
      "Coordinate containing +/- 1.0, depending on which corner of quad element"]⟩

/-- Quad.hh:173-176, 270-297: a new `Quad`; the components of Quad.hh:13-160. -/
def quad : Flex (List (Fin 2 → K)) K where
  base := base "Quad"
  val := part "Quad_f" (onVar fun r n h s => .ok (quadF r n h s))
  grad := [part "Quad_grad_0" (onVar fun r n h s => quadGrad r n h s 0), part "Quad_grad_1" (onVar fun r n h s => quadGrad r n h s 1)]
  hess := [[part "Quad_hess_0_0" (fun _ => .ok 0), part "Quad_hess_0_1" (onVar fun r n h s => quadHess r n h s 0 1)],
    [part "Quad_hess_1_0" (onVar fun r n h s => quadHess r n h s 1 0), part "Quad_hess_1_1" (fun _ => .ok 0)]]

/-- Hexahedron.hh:296-299, 400-434: a new `Hexahedron`; the components of Hexahedron.hh:13-286. -/
def hex : Flex (List (Fin 3 → K)) K where
  base := base "Hexahedron"
  val := part "Hexahedron_f" (onVar fun r n h s => .ok (hexF r n h s))
  grad := [part "Hexahedron_grad_0" (onVar fun r n h s => hexGrad r n h s 0), part "Hexahedron_grad_1" (onVar fun r n h s => hexGrad r n h s 1),
    part "Hexahedron_grad_2" (onVar fun r n h s => hexGrad r n h s 2)]
  hess := [[part "Hexahedron_hess_0_0" (fun _ => .ok 0), part "Hexahedron_hess_0_1" (onVar fun r n h s => hexHess r n h s 0 1),
      part "Hexahedron_hess_0_2" (onVar fun r n h s => hexHess r n h s 0 2)],
    [part "Hexahedron_hess_1_0" (onVar fun r n h s => hexHess r n h s 1 0), part "Hexahedron_hess_1_1" (fun _ => .ok 0),
      part "Hexahedron_hess_1_2" (onVar fun r n h s => hexHess r n h s 1 2)],
    [part "Hexahedron_hess_2_0" (onVar fun r n h s => hexHess r n h s 2 0),
      part "Hexahedron_hess_2_1" (onVar fun r n h s => hexHess r n h s 2 1), part "Hexahedron_hess_2_2" (fun _ => .ok 0)]]

/-- Statements `(*_grad_val[i])(var);` one after the other. -/
def stmts {V O : Type} : List (Flex V O → Res O × Flex V O) → Flex V O → Res (FOut V O) × Flex V O
  | [], p => (.ok .void, p)
  | f :: fs, p => match f p with
    | (.ok _, p') => stmts fs p'
    | (.error e, p') => (.error e, p')

/-- The overridden members, Quad.hh:205-267, Hexahedron.hh:335-397. `eval_grad` (Quad.hh:240-244, Hexahedron.hh:370-374) and `eval_hess`
(Quad.hh:246-252, Hexahedron.hh:376-382) are the same in both classes; the others are as in `PFlexFunction`. -/
def ov {V O : Type} : Overrides (Flex V O) V O
  | .evalGrad v => some (stmts [fun p => p.gradAt v 0, fun p => p.gradAt v 1])
  | .evalHess v => some (stmts [fun p => p.hessAt v 0 0, fun p => p.hessAt v 0 1, fun p => p.hessAt v 1 0, fun p => p.hessAt v 1 1])
  | c => Flex.ov c

/-- Calls on a `Quad` or a `Hexahedron`. -/
def sem {V O : Type} : FCall V → Flex V O → Res (FOut V O) × Flex V O := FBase.sem Flex.base ov

/-- What the code does for an operation of a client on objects `fresh` of such a class: constructors (Quad.hh:173-181, 270-297,
Hexahedron.hh:296-304; a copy is a new object), the destructor (Quad.hh:183-198, Hexahedron.hh:306-328), `clone` (Quad.hh:200-203,
Hexahedron.hh:330-333), the implicit `operator=`, which copies the pointers to the components (and the strings, which are those of every
object of the class), and the other members. -/
def mstep {Obj Call Out : Type} (fresh : Obj) (sem : Call → Obj → Res Out × Obj) (m : Mem Obj) : GOp Call → Res (Option Out) × Mem Obj
  | .assign h g =>
    match m.ptr h, m.ptr g with
    | .ok _, .ok q => (.ok none, m.setPtr h (some q))
    | .error e, _ => (.error e, m)
    | _, .error e => (.error e, m)
  | op => GenMem.step fresh sem m op

/-- A history. -/
def mrun {Obj Call Out : Type} (fresh : Obj) (sem : Call → Obj → Res Out × Obj) :
    List (GOp Call) → Mem Obj → List (Res (Option Out)) × Mem Obj
  | [], m => ([], m)
  | op :: ops, m =>
    match mstep fresh sem m op with
    | (r, m') => match mrun fresh sem ops m' with | (rs, m'') => (r :: rs, m'')

end Elem
end Verif
