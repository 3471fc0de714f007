import Verif.Model.Core

/-!
# Model of `include/IntegrationTools/pfield/Coordinate.hh`

`double _coord[DIM]` is a list of DIM numbers, `none` while uninitialised. The formatting of a number is abstract (`fmt`).
-/

namespace Verif
variable {K : Type}

/-- Coordinate.hh:13-16, the member `_coord`. -/
structure Coord (K : Type) where
  val : List (Option K)

namespace Coord

/-- Coordinate.hh:13-16, a default-initialised coordinate. -/
def fresh (d : Nat) : Coord K := ⟨List.replicate d none⟩

/-- Coordinate.hh:20-23, `size()`; DIM is the extent of the array. -/
def size (c : Coord K) : Int := c.val.length

/-- Coordinate.hh:25-28, assignment through `operator[]`. -/
def set (c : Coord K) (i : Int) (x : K) : Res (Coord K) := do
  let v ← vset c.val i (some x)
  .ok ⟨v⟩

/-- Coordinate.hh:30-33, reading through `operator[]`. -/
def get (c : Coord K) (i : Int) : Res K := do
  match ← vget c.val i with
  | some x => .ok x
  | none => .error (.ub .uninit)

/-- Coordinate.hh:41-46, the loop of `operator<<`: `n` passes are left, the next has index `i`; `out` is what was written. -/
def printLoop (fmt : K → List Char) (c : Coord K) : Nat → Nat → List Char → Res (List Char)
  | 0, _, out => .ok out
  | n + 1, i, out => do
      let x ← c.get i
      let out := out ++ fmt x
      let out := if (i : Int) < c.size - 1 then out ++ [' '] else out
      printLoop fmt c n (i + 1) out

/-- Coordinate.hh:39-48, `operator<<`: the text that is written. -/
def print (fmt : K → List Char) (c : Coord K) : Res (List Char) := printLoop fmt c c.size.toNat 0 []

/-- A sequence of assignments `c[i] = x`. -/
def assign : List (Int × K) → Coord K → Res (Coord K)
  | [], c => .ok c
  | w :: ws, c => do
      let c' ← c.set w.1 w.2
      assign ws c'

end Coord
end Verif
