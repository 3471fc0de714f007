import Verif.Model.Vtk
import Verif.Model.Rounded

/-!
# Model of `Body::read_vtk` in floating-point arithmetic

The text is read by the functions of `Model/Vtk.lean` (with `NumText.scan rnd` for the conversion of doubles); what is done with the numbers is
`Model/Rounded.lean`.
-/

namespace Verif
variable {K : Type} {d : Nat} [Field K] [LinearOrder K] [FloorRing K]

namespace Fl

/-- Mesh.hh:218-269, 302-333: the POINTS and CELLS sections in the arithmetic `rnd`. -/
def meshOps (rnd : K → K) (E : ElemOps K d) : MeshOps K d := ⟨readPoints rnd, readCells rnd E⟩

/-- Body.hh:41-123, `read_vtk`; `file` is the content of the named file, if it can be opened. -/
def readVtk (rnd : K → K) (scan : List Char → Option K × List Char) (E : ElemOps K d) (fuel : Nat) (file : Option (List Char)) (b : Body K d) :
    Res (Body K d) :=
  match file with
  | none => Vtk.readFrom scan (meshOps rnd E) fuel .missing b
  | some t => Vtk.readFrom scan (meshOps rnd E) fuel (.ofText t) b

end Fl
end Verif
