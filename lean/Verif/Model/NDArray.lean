import Verif.Model.Core

/-!
# Model of `include/IntegrationTools/datastruc/PNDArray.hh`

Mutating members return the object state together with the outcome, because after a C++ exception the object
keeps whatever had been assigned before the throw.
-/

namespace Verif

/-- PNDArray.hh:18-22, the data members. -/
structure NDArray (α : Type) where
  dim : List Int
  unroll : List Int
  val : List α
  order : Int
  volume : Int
  deriving DecidableEq, Repr

namespace NDArray
variable {α : Type}

/-- PNDArray.hh:26, default constructor. -/
def empty : NDArray α := ⟨[], [], [], 0, 0⟩

/-- PNDArray.hh:141-144, the product loop of `calc_volume`. -/
def volLoop (vol : Int) : List Int → Res Int
  | [] => .ok vol
  | d :: ds => do
      let v ← imul vol d
      volLoop v ds

/-- PNDArray.hh:133-146, `calc_volume`. -/
def calcVolume (dim : List Int) : Res Int :=
  if dim.length = 0 then .ok 0 else volLoop 1 dim

/-- PNDArray.hh:152-153, the loop of `generate_unroll`; the argument `i+1` stands for the pass with loop index `i`. -/
def unrollLoop (dim : List Int) : Nat → List Int → Res (List Int)
  | 0, u => .ok u
  | i + 1, u => do
      let a ← vget u (i + 1 : Nat)
      let d ← vget dim (i + 1 : Nat)
      let p ← imul a d
      let u' ← vset u (i : Nat) p
      unrollLoop dim i u'

/-- PNDArray.hh:148-154, `generate_unroll`, as a function of `_dim` and the old `_unroll`. For an empty `_dim` the write
`_unroll[_dim.size()-1]` (line 151) is out of bounds. -/
def genUnroll (dim old : List Int) : Res (List Int) := do
  let u := vresize old dim.length 0
  let u' ← vset u ((dim.length : Int) - 1) 1
  unrollLoop dim (dim.length - 1) u'

/-- PNDArray.hh:54-61, `resize`. `d` is the value-initialised `OutType()`. A negative `_volume` is converted to a
`size_t` larger than `max_size()`, so `_val.resize` throws `length_error` (after `_dim`, `_order`, `_volume` were
assigned). If `calc_volume` itself overflows, the behaviour is undefined. -/
def resize (d : α) (a : NDArray α) (dim : List Int) : Res Unit × NDArray α :=
  let a1 := { a with dim := dim, order := dim.length }
  match calcVolume dim with
  | .error e => (.error e, a1)
  | .ok v =>
    let a2 := { a1 with volume := v }
    if v < 0 then (.error .lengthError, a2)
    else
      let a3 := { a2 with val := vresize a.val v.toNat d }
      match genUnroll dim a.unroll with
      | .error e => (.error e, a3)
      | .ok u => (.ok (), { a3 with unroll := u })

/-- PNDArray.hh:27-30, constructor from extents (`_order`, `_volume` start indeterminate and are assigned by `resize`). -/
def ofDim (d : α) (dim : List Int) : Res (NDArray α) :=
  match resize d empty dim with
  | (.ok _, a) => .ok a
  | (.error e, _) => .error e

/-- PNDArray.hh:32-42, constructor from extents and values. -/
def ofDimVal (d : α) (dim : List Int) (value : List α) : Res (NDArray α) := do
  let a ← ofDim d dim
  if a.volume ≠ value.length then .error (.exit 1)
  else .ok { a with val := value }

/-- PNDArray.hh:63-76, `reshape`. -/
def reshape (a : NDArray α) (dim : List Int) : Res Unit × NDArray α :=
  match calcVolume dim with
  | .error e => (.error e, a)
  | .ok v =>
    if v = a.volume then
      let a1 := { a with dim := dim, order := dim.length }
      match genUnroll dim a.unroll with
      | .error e => (.error e, a1)
      | .ok u => (.ok (), { a1 with unroll := u })
    else (.error (.exit 1), a)

/-- PNDArray.hh:78-86, `clear`. -/
def clear (_ : NDArray α) : NDArray α := ⟨[], [], [], 0, 0⟩

/-- PNDArray.hh:93-96, `dim(i)`. -/
def dimAt (a : NDArray α) (i : Int) : Res Int := vget a.dim i

/-- PNDArray.hh:113-114, the loop of `linear_index`; `i` is the loop index, the list is `_unroll` from `i` on. -/
def linLoop (term : List Int) : List Int → Nat → Int → Res Int
  | [], _, lindex => .ok lindex
  | u :: us, i, lindex => do
      let t ← vget term (i : Nat)
      let p ← imul t u
      let l ← iadd lindex p
      linLoop term us (i + 1) l

/-- PNDArray.hh:109-116, `linear_index`. -/
def linearIndex (a : NDArray α) (term : List Int) : Res Int := linLoop term a.unroll 0 0

/-- PNDArray.hh:123-127, the loop of `tensor_indices`. -/
def tenLoop : List Int → Nat → Int → List Int → Res (List Int)
  | [], _, _, term => .ok term
  | u :: us, i, lindex, term => do
      let q ← idiv lindex u
      let term' ← vset term (i : Nat) q
      let p ← imul q u
      let l ← isub lindex p
      tenLoop us (i + 1) l term'

/-- PNDArray.hh:118-128, `tensor_indices`; `term` is the caller's container, returned updated. -/
def tensorIndices (a : NDArray α) (lindex : Int) (term : List Int) : Res (List Int) :=
  tenLoop a.unroll 0 lindex term

/-- PNDArray.hh:98-101, `operator()(int)` used for reading. -/
def getLin (a : NDArray α) (i : Int) : Res α := vget a.val i

/-- PNDArray.hh:98-101, `operator()(int)` used for writing. -/
def setLin (a : NDArray α) (i : Int) (x : α) : Res (NDArray α) := do
  let v ← vset a.val i x
  .ok { a with val := v }

/-- PNDArray.hh:103-107, `operator()(IndexContainer)` used for reading. -/
def get (a : NDArray α) (term : List Int) : Res α := do
  let l ← a.linearIndex term
  a.getLin l

/-- PNDArray.hh:103-107, `operator()(IndexContainer)` used for writing. -/
def set (a : NDArray α) (term : List Int) (x : α) : Res (NDArray α) := do
  let l ← a.linearIndex term
  a.setLin l x

end NDArray
end Verif

namespace Verif

/-- One public mutating call on an array object (PNDArray.hh:26-107). -/
inductive NDOp (α : Type) where
  | construct (dim : List Int)                      -- replace by `PNDArray(dim)`
  | constructVal (dim : List Int) (value : List α)  -- replace by `PNDArray(dim, value)`
  | resize (dim : List Int)
  | reshape (dim : List Int)
  | clear
  | setLin (i : Int) (x : α)
  | set (t : List Int) (x : α)

/-- Outcome of one call; an error ends the history (exceptions caught by the caller are treated separately, see
`NDArray.resize`, which also returns the state left behind). -/
def NDArray.step {α : Type} (d : α) (a : NDArray α) : NDOp α → Res (NDArray α)
  | .construct dim => NDArray.ofDim d dim
  | .constructVal dim value => NDArray.ofDimVal d dim value
  | .resize dim => match a.resize d dim with
    | (.ok _, a') => .ok a'
    | (.error e, _) => .error e
  | .reshape dim => match a.reshape dim with
    | (.ok _, a') => .ok a'
    | (.error e, _) => .error e
  | .clear => .ok a.clear
  | .setLin i x => a.setLin i x
  | .set t x => a.set t x

/-- A whole history of calls. -/
def NDArray.run {α : Type} (d : α) (a : NDArray α) : List (NDOp α) → Res (NDArray α)
  | [] => .ok a
  | op :: ops => do
      let a' ← a.step d op
      a'.run d ops

/-- `a` is the state of an array object after some error-free history of public calls. -/
def NDArray.Reachable {α : Type} (d : α) (a : NDArray α) : Prop :=
  ∃ ops : List (NDOp α), NDArray.run d NDArray.empty ops = .ok a

end Verif
