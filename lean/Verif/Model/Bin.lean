import Verif.Model.NDArray
import Mathlib.Algebra.Order.Floor.Ring
import Mathlib.Algebra.Field.Defs

/-!
# Model of `include/IntegrationTools/datastruc/Bin.hh`

`K` stands for `double`, exactly (see DESIGN.md). Coordinates are lists, accessed with a bounds check.
`min()` and `max()` (Bin.hh:59-67) hand out references to the stored corners; the model only reads them.
-/

namespace Verif

/-- Bin.hh:22-28, the data members. -/
structure Bin (T K : Type) where
  item : NDArray (List T)
  min : List K
  incr : List K
  N : List Int
  max : List K
  indices : List Int

namespace Bin
variable {T K : Type} [Field K] [LinearOrder K] [FloorRing K]

omit [Field K] [LinearOrder K] [FloorRing K] in
/-- Bin.hh:32, default constructor. -/
def empty : Bin T K := ⟨NDArray.empty, [], [], [], [], []⟩

omit [LinearOrder K] [FloorRing K] in
/-- Bin.hh:48-49, the loop computing `_max`; the lists are `_min` from position `i` on. -/
def maxLoop (incr : List K) (N : List Int) : List K → Nat → Res (List K)
  | [], _ => .ok []
  | m :: ms, i => do
      let d ← vget incr (i : Nat)
      let n ← vget N (i : Nat)
      let rest ← maxLoop incr N ms (i + 1)
      .ok ((m + d * (n : K)) :: rest)

omit [LinearOrder K] [FloorRing K] in
/-- Bin.hh:42-52, constructor. -/
def mk' (min incr : List K) (N : List Int) : Res (Bin T K) := do
  let max ← maxLoop incr N min 0
  let item ← NDArray.ofDim ([] : List T) N
  .ok ⟨item, min, incr, N, max, N⟩

/-- Bin.hh:185-187, one pass of `indices`: range check, then `std::floor((coord[i] - _min[i])/_incr[i])` converted to
`int`. A zero `_incr[i]` gives an infinity or NaN in C++, whose conversion to `int` is undefined. -/
def idxAt (min max incr coord : List K) (i : Nat) : Res Int := do
  let c ← vget coord (i : Nat)
  let lo ← vget min (i : Nat)
  if c < lo then .error .domainError
  else do
    let hi ← vget max (i : Nat)
    if hi < c then .error .domainError
    else do
      let d ← vget incr (i : Nat)
      if d = 0 then .error (.ub .overflow) else ckInt ⌊(c - lo) / d⌋

/-- Bin.hh:177-188, the loop of `indices`; `n` passes are left, the next one has loop index `i`. The caller's `term` is returned
as it is when the loop ends or throws. -/
def idxLoop (min max incr coord : List K) : Nat → Nat → List Int → Res Unit × List Int
  | 0, _, term => (.ok (), term)
  | n + 1, i, term =>
    match idxAt min max incr coord i with
    | .error e => (.error e, term)
    | .ok k =>
      match vset term (i : Nat) k with
      | .error e => (.error e, term)
      | .ok term' => idxLoop min max incr coord n (i + 1) term'

/-- Bin.hh:174-189, `indices(coord, term)`. -/
def indicesOf (b : Bin T K) (coord : List K) (term : List Int) : Res Unit × List Int :=
  idxLoop b.min b.max b.incr coord b.item.order.toNat 0 term

omit [Field K] [LinearOrder K] [FloorRing K] in
/-- `_item(_indices).push_back(newitem)` (Bin.hh:73, 127). -/
def push (item : NDArray (List T)) (idx : List Int) (x : T) : Res (NDArray (List T)) := do
  let l ← item.linearIndex idx
  let v ← item.getLin l
  item.setLin l (v ++ [x])

/-- Bin.hh:70-74, `add`. -/
def add (b : Bin T K) (x : T) (coord : List K) : Res Unit × Bin T K :=
  let (r, idx) := b.indicesOf coord b.indices
  let b1 := { b with indices := idx }
  match r with
  | .error e => (.error e, b1)
  | .ok _ =>
    match push b1.item idx x with
    | .error e => (.error e, b1)
    | .ok it => (.ok (), { b1 with item := it })

/-- Bin.hh:83-87, the search loop of `add_once` (`T::operator==` is modelled as equality). -/
def hasItem [DecidableEq T] (x : T) : List T → Bool
  | [] => false
  | y :: ys => if y = x then true else hasItem x ys

/-- Bin.hh:79-90, `add_once`. -/
def addOnce [DecidableEq T] (b : Bin T K) (x : T) (coord : List K) : Res Unit × Bin T K :=
  let (r, idx) := b.indicesOf coord b.indices
  let b1 := { b with indices := idx }
  match r with
  | .error e => (.error e, b1)
  | .ok _ =>
    match b1.item.get idx with
    | .error e => (.error e, b1)
    | .ok v =>
      if hasItem x v then (.ok (), b1)
      else
        match push b1.item idx x with
        | .error e => (.error e, b1)
        | .ok it => (.ok (), { b1 with item := it })

/-- Bin.hh:131-139, the counter's inner `while`: `some i` if it stops at position `i`, `none` if `add_range` returns.
`fuel` only bounds the recursion; `i` runs off the end of `_indices` first (undefined behaviour). -/
def findPos (order : Int) (idx imax : List Int) : Nat → Nat → Res (Option Nat)
  | 0, _ => .error .diverge
  | fuel + 1, i => do
      let a ← vget idx (i : Nat)
      let m ← vget imax (i : Nat)
      if a = m then
        if ((i + 1 : Nat) : Int) = order then .ok none else findPos order idx imax fuel (i + 1)
      else .ok (some i)

/-- Bin.hh:143-146, `for(i=i-1; i>=0; i--) _indices[i]=index_min[i]`; `i` passes are left. -/
def resetLoop (imin : List Int) : Nat → List Int → Res (List Int)
  | 0, idx => .ok idx
  | i + 1, idx => do
      let m ← vget imin (i : Nat)
      let idx' ← vset idx (i : Nat) m
      resetLoop imin i idx'

/-- Bin.hh:131-146, the counter: the next `_indices`, or `none` if the function returns. -/
def advance (order : Int) (imin imax idx : List Int) : Res (Option (List Int)) := do
  let p ← findPos order idx imax (idx.length + 1) 0
  match p with
  | none => .ok none
  | some i => do
      let a ← vget idx (i : Nat)
      let a' ← iadd a 1
      let idx1 ← vset idx (i : Nat) a'
      let idx2 ← resetLoop imin i idx1
      .ok (some idx2)

/-- Bin.hh:118-148, the `while(true)` of `add_range`; `fuel` bounds the number of passes. -/
def rangeLoop (imin imax : List Int) (x : T) : Nat → NDArray (List T) → List Int →
    Res Unit × NDArray (List T) × List Int
  | 0, item, idx => (.error .diverge, item, idx)
  | fuel + 1, item, idx =>
    match push item idx x with
    | .error e => (.error e, item, idx)
    | .ok item' =>
      match advance item'.order imin imax idx with
      | .error e => (.error e, item', idx)
      | .ok none => (.ok (), item', idx)
      | .ok (some idx') => rangeLoop imin imax x fuel item' idx'

/-- Bin.hh:93-152, `add_range`. The bound on the number of passes is never reached, whatever the corners are: theorem
`C71_insertion_terminates`. -/
def addRange (b : Bin T K) (x : T) (lo hi : List K) : Res Unit × Bin T K :=
  let z := List.replicate b.item.order.toNat (0 : Int)
  let (r1, imin) := b.indicesOf lo z
  match r1 with
  | .error e => (.error e, b)
  | .ok _ =>
    let (r2, imax) := b.indicesOf hi z
    match r2 with
    | .error e => (.error e, b)
    | .ok _ =>
      let (r, it, idx) := rangeLoop imin imax x (b.item.volume.toNat ^ b.item.order.toNat + 1) b.item imin
      (r, { b with item := it, indices := idx })

/-- Bin.hh:154-158, `contents` (the returned reference is read). -/
def contents (b : Bin T K) (coord : List K) : Res (List T) × Bin T K :=
  let (r, idx) := b.indicesOf coord b.indices
  let b1 := { b with indices := idx }
  match r with
  | .error e => (.error e, b1)
  | .ok _ => (b1.item.get idx, b1)

omit [Field K] [LinearOrder K] [FloorRing K] in
/-- Bin.hh:54-57, `clear` assigns a default-constructed `Bin`. -/
def clear (_ : Bin T K) : Bin T K := empty

/-- Bin.hh:164-166, the loop of `max_size` (sizes are assumed to fit an `int`). -/
def maxSizeLoop (item : NDArray (List T)) : Nat → Nat → Int → Res Int
  | 0, _, m => .ok m
  | n + 1, i, m => do
      let v ← item.getLin (i : Nat)
      maxSizeLoop item n (i + 1) (if m < v.length then v.length else m)

/-- Bin.hh:161-168, `max_size`. -/
def maxSize (b : Bin T K) : Res Int := maxSizeLoop b.item b.item.volume.toNat 0 0

/-- A mutating public call. -/
inductive Op (T K : Type) where
  | add (x : T) (c : List K)
  | addOnce (x : T) (c : List K)
  | addRange (x : T) (lo hi : List K)

/-- Outcome and state after one call (the state is kept when an exception is thrown and caught). -/
def step [DecidableEq T] (b : Bin T K) : Op T K → Res Unit × Bin T K
  | .add x c => b.add x c
  | .addOnce x c => b.addOnce x c
  | .addRange x lo hi => b.addRange x lo hi

/-- State after a list of calls, exceptions being caught and ignored by the caller. -/
def run [DecidableEq T] (b : Bin T K) : List (Op T K) → Bin T K
  | [] => b
  | op :: ops => run (b.step op).2 ops

end Bin
end Verif
