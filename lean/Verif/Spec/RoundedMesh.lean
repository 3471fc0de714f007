import Verif.Spec.Mesh
import Verif.Spec.Rounding

/-!
# Specification: meshes in floating-point arithmetic

This file does not mention the model.
-/

namespace Verif.Spec
variable {K : Type} [Field K] [LinearOrder K] {d n : Nat}

/-- The body is not too small for where it is: in every direction its extent divided by the number of distinct values exceeds
16 roundoffs of its largest coordinate. (In binary64, `u = 2^-53`: a body of 1000 nodes per direction at position 1 is longer than 2e-12.) -/
def Resolved (u : K) (pts : List (Fin d → K)) : Prop :=
  ∀ i lo hi, IsLow pts i lo → IsHigh pts i hi → 16 * u * (|lo| + (hi - lo)) ≤ margin pts i lo hi

/-- A legal mesh whose coordinates are floating-point numbers, and which is resolved. -/
structure FloatMesh (unit : Fin n → Fin d → K) (rnd : K → K) (u : K) (pts : List (Fin d → K)) (cells : List (List Nat)) : Prop where
  rect : RectMesh unit pts cells
  float : ∀ p ∈ pts, ∀ i, IsFloat rnd (p i)
  resolved : Resolved u pts

/-- A point of the body with floating-point coordinates. -/
def FloatPoint (unit : Fin n → Fin d → K) (rnd : K → K) (pts : List (Fin d → K)) (cells : List (List Nat)) (c : Fin d → K) : Prop :=
  Covered unit pts cells c ∧ ∀ i, IsFloat rnd (c i)

/-- A point with floating-point coordinates in the bounding box of the points. -/
def FloatInBox (rnd : K → K) (pts : List (Fin d → K)) (c : Fin d → K) : Prop :=
  ∀ i, IsFloat rnd (c i) ∧ ∀ lo hi, IsLow pts i lo → IsHigh pts i hi → lo ≤ c i ∧ c i ≤ hi

/-- In direction `i`, the point is more than two margins outside the bounding box. -/
def FarIn (pts : List (Fin d → K)) (c : Fin d → K) (i : Fin d) : Prop :=
  ∃ lo hi, IsLow pts i lo ∧ IsHigh pts i hi ∧ (c i < lo - 2 * margin pts i lo hi ∨ hi + 2 * margin pts i lo hi < c i)

/-- The point is more than two margins outside in some direction, and inside in the directions before it. -/
def FloatFar (rnd : K → K) (pts : List (Fin d → K)) (c : Fin d → K) : Prop :=
  ∃ i, FarIn pts c i ∧ ∀ j < i, IsFloat rnd (c j) ∧ ∀ lo hi, IsLow pts j lo → IsHigh pts j hi → lo ≤ c j ∧ c j ≤ hi

/-- The slope of the bilinear interpolant of a cell in direction `di`: its difference between the two sides of the cell, along the line
through `c`, divided by the extent. -/
def cellSlope (a h : Fin 2 → K) (v : Fin 4 → K) (c : Fin 2 → K) (di : Fin 2) : K :=
  (bilinear a h v (Function.update c di (a di + h di)) - bilinear a h v (Function.update c di (a di))) / h di

/-- The mixed second derivative of the bilinear interpolant: the difference of the slopes in the first direction between the two sides of the
cell in the second, divided by the extent. -/
def cellTwist (a h : Fin 2 → K) (v : Fin 4 → K) (c : Fin 2 → K) : K :=
  (cellSlope a h v (Function.update c 1 (a 1 + h 1)) 0 - cellSlope a h v (Function.update c 1 (a 1)) 0) / h 1

/-- In direction `i` the point is within the computed extent of the cell from its lower and from its upper side. -/
def Reach (rnd : K → K) (a h c : Fin d → K) (i : Fin d) : Prop :=
  c i ≤ rnd (a i + rnd (h i)) ∧ rnd (a i + h i - rnd (h i)) ≤ c i

/-- Adding the computed extent of a cell to its lower corner does not fall short of its upper corner, and subtracting it from the upper corner
does not stay above the lower one. (So it is when the extents are floating-point numbers.) -/
def Snug (unit : Fin n → Fin d → K) (rnd : K → K) (pts : List (Fin d → K)) (cells : List (List Nat)) : Prop :=
  ∀ cell ∈ cells, ∀ a h : Fin d → K, CellAt unit pts cell a h → ∀ i,
    a i + h i ≤ rnd (a i + rnd (h i)) ∧ rnd (a i + h i - rnd (h i)) ≤ a i

/-- The slope of the trilinear interpolant of a cell in direction `di`: its difference between the two sides of the cell, along the line
through `c`, divided by the extent. -/
def cellSlope3 (a h : Fin 3 → K) (v : Fin 8 → K) (c : Fin 3 → K) (di : Fin 3) : K :=
  (trilinear a h v (Function.update c di (a di + h di)) - trilinear a h v (Function.update c di (a di))) / h di

/-- Every cell over or under the point whose vertical range comes within two margins of it contains the point. -/
def VerticallyClear (pts : List (Fin 3 → K)) (cells : List (List Nat)) (c : Fin 3 → K) : Prop :=
  ∀ cell ∈ cells, ∀ a h, CellAt hexUnit pts cell a h → (∀ i : Fin 3, i ≠ 2 → a i ≤ c i ∧ c i ≤ a i + h i) →
    (∀ lo hi, IsLow pts 2 lo → IsHigh pts 2 hi →
      a 2 - 2 * margin pts 2 lo hi < c 2 ∧ c 2 < a 2 + h 2 + 2 * margin pts 2 lo hi) → InCell a h c

end Verif.Spec
