import Verif.Spec.Cell
import Verif.Spec.Tensor
import Mathlib.Data.Finset.Card
import Mathlib.Data.Finset.Dedup
import Mathlib.Algebra.Order.Floor.Defs

/-!
# Specification: meshes of axis-aligned rectangular cells

A mesh is a list of points and a list of cells; a cell is a list of point numbers in VTK corner order. This file does not mention
the model.
-/

namespace Verif.Spec
variable {K : Type} [Field K] [LinearOrder K] {d n : Nat}

/-- The `n` point numbers of `cell` are, in order, the corners of the box with lower corner `a` and (positive) extents `h`.
`unit` lists the corner offsets (`quadUnit` or `hexUnit`). -/
def CellAt (unit : Fin n → Fin d → K) (pts : List (Fin d → K)) (cell : List Nat) (a h : Fin d → K) : Prop :=
  cell.length = n ∧ (∀ i, 0 < h i) ∧
    ∀ j : Fin n, ∃ p, cell[(j : Nat)]? = some p ∧ pts[p]? = some (cornerPos a h (unit j))

/-- Number of distinct values of coordinate `i` among the points. -/
def nDistinct (pts : List (Fin d → K)) (i : Fin d) : Nat := (pts.map (· i)).toFinset.card

/-- A legal mesh: there are cells, all are rectangular, and the bins fit an `int`. Cells may overlap, leave gaps, or have
different sizes; points need not be used. -/
structure RectMesh (unit : Fin n → Fin d → K) (pts : List (Fin d → K)) (cells : List (List Nat)) : Prop where
  nonempty : cells ≠ []
  rect : ∀ cell ∈ cells, ∃ a h, CellAt unit pts cell a h
  small : prod (List.ofFn fun i => (nDistinct pts i : Int) + 2) ≤ 2147483647

/-- `c` is a point of the body: some cell contains it. -/
def Covered (unit : Fin n → Fin d → K) (pts : List (Fin d → K)) (cells : List (List Nat)) (c : Fin d → K) : Prop :=
  ∃ cell ∈ cells, ∃ a h, CellAt unit pts cell a h ∧ InCell a h c

/-- `x` is the least value of coordinate `i` over the points. -/
def IsLow (pts : List (Fin d → K)) (i : Fin d) (x : K) : Prop := (∃ p ∈ pts, p i = x) ∧ ∀ p ∈ pts, x ≤ p i

/-- `x` is the greatest value of coordinate `i` over the points. -/
def IsHigh (pts : List (Fin d → K)) (i : Fin d) (x : K) : Prop := (∃ p ∈ pts, p i = x) ∧ ∀ p ∈ pts, p i ≤ x

/-- Width of the margin the bins add around the body in direction `i`, for limits `lo`, `hi`. -/
def margin (pts : List (Fin d → K)) (i : Fin d) (lo hi : K) : K := (hi - lo) / (nDistinct pts i : K)

/-- `c` is in the (half-open) binned region: the bounding box of the points and a margin around it. -/
def InBins (pts : List (Fin d → K)) (c : Fin d → K) : Prop :=
  ∀ i lo hi, IsLow pts i lo → IsHigh pts i hi →
    lo - margin pts i lo hi ≤ c i ∧ c i < hi + margin pts i lo hi

/-- `c` is outside the (closed) binned region. -/
def OutOfBins (pts : List (Fin d → K)) (c : Fin d → K) : Prop :=
  ∃ i lo hi, IsLow pts i lo ∧ IsHigh pts i hi ∧
    (c i < lo - margin pts i lo hi ∨ hi + margin pts i lo hi < c i)

/-- `v` lists the data values at the corners of a cell. -/
def CornerVals (data : List K) (cell : List Nat) (v : Fin n → K) : Prop :=
  ∀ j : Fin n, ∃ p, cell[(j : Nat)]? = some p ∧ data[p]? = some (v j)

/-- A conforming mesh: two cells that have a point in common share the nodes at all corners of their intersection (a corner, an
edge, a face, or the whole cell). No hanging nodes, no partial overlaps. -/
def Conforming (unit : Fin n → Fin d → K) (pts : List (Fin d → K)) (cells : List (List Nat)) : Prop :=
  ∀ cell ∈ cells, ∀ cell' ∈ cells, ∀ a h a' h', CellAt unit pts cell a h → CellAt unit pts cell' a' h' →
    (∃ c, InCell a h c ∧ InCell a' h' c) →
    ∀ u : Fin d → K, (∀ i, u i = max (a i) (a' i) ∨ u i = min (a i + h i) (a' i + h' i)) →
      ∃ p, p ∈ cell ∧ p ∈ cell' ∧ pts[p]? = some u

/-- Layers of the thickness of the margin, counted upwards from one margin below the mesh: the layer of height `z`. -/
def layer [FloorRing K] (pts : List (Fin 3 → K)) (lo hi z : K) : Int := ⌊(z - (lo - margin pts 2 lo hi)) / margin pts 2 lo hi⌋

/-- The cell over or under the point reaches the layer of the point. -/
def Reaches [FloorRing K] (pts : List (Fin 3 → K)) (a h c : Fin 3 → K) : Prop :=
  (∀ i : Fin 3, i ≠ 2 → a i ≤ c i ∧ c i ≤ a i + h i) ∧
    ∀ lo hi, IsLow pts 2 lo → IsHigh pts 2 hi → layer pts lo hi (a 2) ≤ layer pts lo hi (c 2) ∧ layer pts lo hi (c 2) ≤ layer pts lo hi (a 2 + h 2)

/-- Every cell over or under the point whose vertical range comes within one margin of it contains the point. -/
def NearClear (pts : List (Fin 3 → K)) (cells : List (List Nat)) (c : Fin 3 → K) : Prop :=
  ∀ cell ∈ cells, ∀ a h, CellAt hexUnit pts cell a h → (∀ i : Fin 3, i ≠ 2 → a i ≤ c i ∧ c i ≤ a i + h i) →
    (∀ lo hi, IsLow pts 2 lo → IsHigh pts 2 hi → a 2 - margin pts 2 lo hi < c 2 ∧ c 2 < a 2 + h 2 + margin pts 2 lo hi) → InCell a h c

end Verif.Spec
