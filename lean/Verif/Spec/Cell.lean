import Mathlib.Algebra.Field.Defs
import Mathlib.Order.Defs.LinearOrder
import Mathlib.Data.Fin.VecNotation

/-!
# Specification: axis-aligned rectangular cells and multilinear interpolation

A cell has lower corner `a` and extents `h`. Corners are numbered as in the VTK legacy format: counter-clockwise from the lower
left corner, first the lower face, then the upper face. This file does not mention the model.
-/

namespace Verif.Spec
variable {K : Type} [Field K] [LinearOrder K]

/-- Offsets (in cell units) of the corners of a quadrilateral. -/
def quadUnit : Fin 4 → Fin 2 → K
  | 0 => ![0, 0]
  | 1 => ![1, 0]
  | 2 => ![1, 1]
  | 3 => ![0, 1]

/-- Offsets (in cell units) of the corners of a hexahedron. -/
def hexUnit : Fin 8 → Fin 3 → K
  | 0 => ![0, 0, 0]
  | 1 => ![1, 0, 0]
  | 2 => ![1, 1, 0]
  | 3 => ![0, 1, 0]
  | 4 => ![0, 0, 1]
  | 5 => ![1, 0, 1]
  | 6 => ![1, 1, 1]
  | 7 => ![0, 1, 1]

/-- Position of the corner with unit offset `u`. -/
def cornerPos {d : Nat} (a h u : Fin d → K) : Fin d → K := fun i => a i + u i * h i

/-- The closed cell. -/
def InCell {d : Nat} (a h c : Fin d → K) : Prop := ∀ i, a i ≤ c i ∧ c i ≤ a i + h i

/-- Bilinear interpolation of four corner values. -/
def bilinear (a h : Fin 2 → K) (v : Fin 4 → K) (c : Fin 2 → K) : K :=
  let x := (c 0 - a 0) / h 0
  let y := (c 1 - a 1) / h 1
  (1 - x) * (1 - y) * v 0 + x * (1 - y) * v 1 + x * y * v 2 + (1 - x) * y * v 3

/-- Trilinear interpolation of eight corner values. -/
def trilinear (a h : Fin 3 → K) (v : Fin 8 → K) (c : Fin 3 → K) : K :=
  let x := (c 0 - a 0) / h 0
  let y := (c 1 - a 1) / h 1
  let z := (c 2 - a 2) / h 2
  (1 - z) * ((1 - x) * (1 - y) * v 0 + x * (1 - y) * v 1 + x * y * v 2 + (1 - x) * y * v 3) +
    z * ((1 - x) * (1 - y) * v 4 + x * (1 - y) * v 5 + x * y * v 6 + (1 - x) * y * v 7)

end Verif.Spec
