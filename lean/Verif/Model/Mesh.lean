import Verif.Model.Bin
import Verif.Model.Interp
import Mathlib.Data.List.Sort
import Mathlib.Data.List.FinRange

/-!
# Model of `include/IntegrationTools/pfield/Mesh.hh` (construction and basis functions)

Parametrised by the element class `E` the mesh uses (`quadOps` when DIM = 2, `hexOps` when DIM = 3: Mesh.hh:287-298, 315-322).
A pointer to an interpolator is modelled by the interpolator it points to: interpolators are never modified after they are
built (their `_var[0]` is scratch) and are owned by the mesh. Node numbers (`unsigned long`) are naturals.
`PFuncBase` objects shared by the interpolators (`_bfunc`) carry no state used by the mesh.
The text-level reader is in `Model/Vtk.lean`; it calls `readPoints` and `readCells`.
-/

namespace Verif

/-- A loop that computes one result per element and stops at the first failure. -/
def mapRes {α β : Type} (f : α → Res β) : List α → Res (List β)
  | [] => .ok []
  | a :: as => do
      let b ← f a
      let bs ← mapRes f as
      .ok (b :: bs)

/-- Mesh.hh:114-138, the data members. `_min`/`_max` are uninitialised until points are read. -/
structure Mesh (K : Type) (d : Nat) where
  min : Fin d → Option K
  max : Fin d → Option K
  node : List (Fin d → K)
  interp : List (Interp K d)
  bin : Bin (Interp K d) K

namespace Mesh
variable {K : Type} {d : Nat} [Field K] [LinearOrder K] [FloorRing K]

omit [Field K] [LinearOrder K] [FloorRing K] in
/-- Mesh.hh:143, constructor. -/
def empty : Mesh K d := ⟨fun _ => none, fun _ => none, [], [], Bin.empty⟩

omit [Field K] [LinearOrder K] [FloorRing K] in
/-- Mesh.hh:518-536, `add_once` on the list of coordinate values. The parallel histogram is only read by commented-out code. -/
def addOnceVal [DecidableEq K] (list : List K) (v : K) : List K :=
  if list.any (fun x => x = v) then list else list ++ [v]

omit [Field K] [LinearOrder K] [FloorRing K] in
/-- Mesh.hh:194, 200-216, the distinct values of coordinate `j`, in order of first appearance. -/
def distinct [DecidableEq K] (pts : List (Fin d → K)) (j : Fin d) : List K :=
  pts.foldl (fun l p => addOnceVal l (p j)) []

/-- What is computed per direction (Mesh.hh:240-252). -/
structure Axis (K : Type) where
  lo : K      -- `_min[j]`
  hi : K      -- `_max[j]`
  incr : K
  min : K     -- lower bin limit, after `min[j] -= incr[j]`
  N : Int     -- number of bins, after `N[j] += 2`

omit [FloorRing K] in
/-- Mesh.hh:240-252, one pass of the loop over directions. `std::sort` is modelled by insertion sort. -/
def axis (value : List K) : Res (Axis K) := do
  let s := value.insertionSort (· ≤ ·)
  let lo ← vget s 0
  let hi ← vget s ((s.length : Int) - 1)
  let incr := (hi - lo) / ((s.length : Nat) : K)
  .ok ⟨lo, hi, incr, lo - incr, (s.length : Int) + 2⟩

omit [FloorRing K] in
/-- Mesh.hh:185-269, the POINTS section, once the numbers are read. -/
def readPoints (m : Mesh K d) (pts : List (Fin d → K)) : Res (Mesh K d) := do
  let axes ← mapRes (fun j => axis (distinct pts j)) (List.finRange d)
  let bin ← Bin.mk' (axes.map Axis.min) (axes.map Axis.incr) (axes.map Axis.N)
  .ok { min := fun j => axes[(j : Nat)]?.map Axis.lo
        max := fun j => axes[(j : Nat)]?.map Axis.hi
        node := m.node ++ pts
        interp := m.interp
        bin := bin }

omit [LinearOrder K] [FloorRing K] in
/-- Mesh.hh:57-66, 87-97: the interpolators of cell number `el`. -/
def makeCell (E : ElemOps K d) (node : List (Fin d → K)) (el : Nat) (cell : List Nat) : Res (List (Interp K d)) := do
  let nf ← vget cell (E.far : Nat)
  let n0 ← vget cell 0
  let pf ← vget node (nf : Nat)
  let p0 ← vget node (n0 : Nat)
  let dim : Fin d → K := fun i => pf i - p0 i
  mapRes (fun j => do
    let nj ← vget cell (j : Nat)
    let pj ← vget node (nj : Nat)
    .ok (E.make nj el pj dim j)) (List.range E.corners)

omit [LinearOrder K] [FloorRing K] in
/-- Mesh.hh:302-324, the loop over cells, from cell number `el` on. -/
def makeCells (E : ElemOps K d) (node : List (Fin d → K)) : Nat → List (List Nat) → Res (List (Interp K d))
  | _, [] => .ok []
  | el, c :: cs => do
      let a ← makeCell E node el c
      let b ← makeCells E node (el + 1) cs
      .ok (a ++ b)

/-- Mesh.hh:330-333, filing the interpolators. -/
def fileAll : List (Interp K d) → Bin (Interp K d) K → Res (Bin (Interp K d) K)
  | [], b => .ok b
  | q :: qs, b =>
    match b.addRange q (List.ofFn q.min) (List.ofFn q.max) with
    | (.error e, _) => .error e
    | (.ok _, b') => fileAll qs b'

/-- Mesh.hh:276-337, the CELLS section, once the numbers are read. -/
def readCells (E : ElemOps K d) (m : Mesh K d) (cells : List (List Nat)) : Res (Mesh K d) := do
  let new ← makeCells E m.node 0 cells
  let all := m.interp ++ new
  let bin ← fileAll all m.bin
  .ok { m with interp := all, bin := bin }

/-- Mesh.hh:159-364 on a file with one POINTS and one CELLS section, for a mesh in any state. -/
def readInto (E : ElemOps K d) (m : Mesh K d) (pts : List (Fin d → K)) (cells : List (List Nat)) : Res (Mesh K d) := do
  let m' ← readPoints m pts
  readCells E m' cells

/-- Mesh.hh:159-364 on a file with one POINTS and one CELLS section, for a new mesh. -/
def build (E : ElemOps K d) (pts : List (Fin d → K)) (cells : List (List Nat)) : Res (Mesh K d) := do
  let m ← readPoints empty pts
  readCells E m cells

omit [Field K] [LinearOrder K] [FloorRing K] in
/-- Mesh.hh:378-381, 366-370 (`min(i)`, and component `i` of `min(coord)`). -/
def minAt (m : Mesh K d) (i : Fin d) : Res K := match m.min i with | some x => .ok x | none => .error (.ub .uninit)

omit [Field K] [LinearOrder K] [FloorRing K] in
/-- Mesh.hh:383-386, 372-376 (`max(i)`). -/
def maxAt (m : Mesh K d) (i : Fin d) : Res K := match m.max i with | some x => .ok x | none => .error (.ub .uninit)

/-- Caller's buffers of `basis_functions`: the weights and the node numbers. -/
structure Buf (K : Type) where
  bf : List K
  ni : List Nat

omit [Field K] [LinearOrder K] [FloorRing K] in
/-- Mesh.hh:407-411 (447-451, 487-491): the search for the first interpolator in range. -/
def firstInRange (E : ElemOps K d) (c : Fin d → K) : List (Interp K d) → Option (Interp K d)
  | [] => none
  | q :: qs => if E.inRange q c then some q else firstInRange E c qs

omit [LinearOrder K] [FloorRing K] in
/-- Mesh.hh:412-424 (452-464, 492-504): fill the buffers from position `i` on; `w` is the evaluated member. -/
def fillLoop (w : Interp K d → Res K) (el : Nat) : List (Interp K d) → Nat → Buf K → Res Unit × Buf K
  | [], _, b => (.ok (), b)
  | q :: qs, i, b =>
    match (if q.element = el then w q else .ok 0) with
    | .error e => (.error e, b)
    | .ok v =>
      match vset b.bf (i : Nat) v with
      | .error e => (.error e, b)
      | .ok bf' =>
        match vset b.ni (i : Nat) q.node with
        | .error e => (.error e, { b with bf := bf' })
        | .ok ni' => fillLoop w el qs (i + 1) ⟨bf', ni'⟩

/-- Mesh.hh:399-435 (438-476, 479-514). Returns `s`. When no interpolator of the bin is in range, the buffers are left as they
are but `s` is set. -/
def fill (E : ElemOps K d) (w : Interp K d → Res K) (m : Mesh K d) (c : Fin d → K) (b : Buf K) :
    Res Nat × Mesh K d × Buf K :=
  let (r, bin') := m.bin.contents (List.ofFn c)
  let m' := { m with bin := bin' }
  match r with
  | .error e => (.error e, m', b)
  | .ok content =>
    match firstInRange E c content with
    | none => (.ok content.length, m', b)
    | some q =>
      match fillLoop w q.element content 0 b with
      | (.error e, b') => (.error e, m', b')
      | (.ok _, b') => (.ok content.length, m', b')

/-- Mesh.hh:399-435, `basis_functions`. -/
def basisFunctions (E : ElemOps K d) (m : Mesh K d) (c : Fin d → K) (b : Buf K) : Res Nat × Mesh K d × Buf K :=
  fill E (fun q => E.value q c) m c b

/-- Mesh.hh:438-476, `grad_basis_functions`. -/
def gradBasisFunctions (E : ElemOps K d) (m : Mesh K d) (c : Fin d → K) (di : Nat) (b : Buf K) :
    Res Nat × Mesh K d × Buf K :=
  fill E (fun q => E.grad q c di) m c b

/-- Mesh.hh:479-514, `hess_basis_functions`. -/
def hessBasisFunctions (E : ElemOps K d) (m : Mesh K d) (c : Fin d → K) (di dj : Nat) (b : Buf K) :
    Res Nat × Mesh K d × Buf K :=
  fill E (fun q => E.hess q c di dj) m c b

end Mesh
end Verif
