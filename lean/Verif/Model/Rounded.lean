import Verif.Model.Field

/-!
# The same code in floating-point arithmetic

In the other models numbers are exact. Here the operations `+ - * /` on doubles that Bin.hh, Quad.hh, Hexahedron.hh, Mesh.hh and PField.hh
execute when a mesh is read and a field is evaluated are rounded, one by one, by a function `rnd` (IEEE 754: the result of an operation is the exact
result rounded). Comparisons, `floor` and the conversion of an `int` are exact. Overflow, underflow, infinities and NaN are not modelled (but see C127),
nor are extended precision and fused operations. The definitions repeat those of Model/Bin, Interp, Mesh and Field; with exact arithmetic
they are the same (`Fl.rounded_id` in `Lemmas/RoundedId`).
-/

namespace Verif
namespace Fl
variable {T K : Type} {d : Nat} [Field K] [LinearOrder K] [FloorRing K] (rnd : K → K)

/-! ## Bin.hh -/

omit [LinearOrder K] [FloorRing K] in
/-- Bin.hh:48-49, `_max[i] = _min[i] + _incr[i]*_N[i]`. -/
def maxLoop (incr : List K) (N : List Int) : List K → Nat → Res (List K)
  | [], _ => .ok []
  | m :: ms, i => do
      let d ← vget incr (i : Nat)
      let n ← vget N (i : Nat)
      let rest ← maxLoop incr N ms (i + 1)
      .ok (rnd (m + rnd (d * (n : K))) :: rest)

omit [LinearOrder K] [FloorRing K] in
/-- Bin.hh:42-52, constructor. -/
def mkBin (min incr : List K) (N : List Int) : Res (Bin T K) := do
  let max ← maxLoop rnd incr N min 0
  let item ← NDArray.ofDim ([] : List T) N
  .ok ⟨item, min, incr, N, max, N⟩

/-- Bin.hh:185-187, `std::floor((coord[i] - _min[i])/_incr[i])` after the range check. -/
def idxAt (min max incr coord : List K) (i : Nat) : Res Int := do
  let c ← vget coord (i : Nat)
  let lo ← vget min (i : Nat)
  if c < lo then .error .domainError
  else do
    let hi ← vget max (i : Nat)
    if hi < c then .error .domainError
    else do
      let d ← vget incr (i : Nat)
      if d = 0 then .error (.ub .overflow) else ckInt ⌊rnd (rnd (c - lo) / d)⌋

/-- Bin.hh:177-188, the loop of `indices`. -/
def idxLoop (min max incr coord : List K) : Nat → Nat → List Int → Res Unit × List Int
  | 0, _, term => (.ok (), term)
  | n + 1, i, term =>
    match idxAt rnd min max incr coord i with
    | .error e => (.error e, term)
    | .ok k =>
      match vset term (i : Nat) k with
      | .error e => (.error e, term)
      | .ok term' => idxLoop min max incr coord n (i + 1) term'

/-- Bin.hh:174-189, `indices(coord, term)`. -/
def indicesOf (b : Bin T K) (coord : List K) (term : List Int) : Res Unit × List Int :=
  idxLoop rnd b.min b.max b.incr coord b.item.order.toNat 0 term

/-- Bin.hh:70-74, `add`. -/
def add (b : Bin T K) (x : T) (coord : List K) : Res Unit × Bin T K :=
  let (r, idx) := indicesOf rnd b coord b.indices
  let b1 := { b with indices := idx }
  match r with
  | .error e => (.error e, b1)
  | .ok _ =>
    match Bin.push b1.item idx x with
    | .error e => (.error e, b1)
    | .ok it => (.ok (), { b1 with item := it })

/-- Bin.hh:79-90, `add_once`. -/
def addOnce [DecidableEq T] (b : Bin T K) (x : T) (coord : List K) : Res Unit × Bin T K :=
  let (r, idx) := indicesOf rnd b coord b.indices
  let b1 := { b with indices := idx }
  match r with
  | .error e => (.error e, b1)
  | .ok _ =>
    match b1.item.get idx with
    | .error e => (.error e, b1)
    | .ok v =>
      if Bin.hasItem x v then (.ok (), b1)
      else
        match Bin.push b1.item idx x with
        | .error e => (.error e, b1)
        | .ok it => (.ok (), { b1 with item := it })

/-- Bin.hh:93-152, `add_range`. -/
def addRange (b : Bin T K) (x : T) (lo hi : List K) : Res Unit × Bin T K :=
  let z := List.replicate b.item.order.toNat (0 : Int)
  let (r1, imin) := indicesOf rnd b lo z
  match r1 with
  | .error e => (.error e, b)
  | .ok _ =>
    let (r2, imax) := indicesOf rnd b hi z
    match r2 with
    | .error e => (.error e, b)
    | .ok _ =>
      let (r, it, idx) := Bin.rangeLoop imin imax x (b.item.volume.toNat ^ b.item.order.toNat + 1) b.item imin
      (r, { b with item := it, indices := idx })

/-- Bin.hh:154-158, `contents`. -/
def contents (b : Bin T K) (coord : List K) : Res (List T) × Bin T K :=
  let (r, idx) := indicesOf rnd b coord b.indices
  let b1 := { b with indices := idx }
  match r with
  | .error e => (.error e, b1)
  | .ok _ => (b1.item.get idx, b1)

/-- Outcome and state after one insertion. -/
def binStep [DecidableEq T] (b : Bin T K) : Bin.Op T K → Res Unit × Bin T K
  | .add x c => add rnd b x c
  | .addOnce x c => addOnce rnd b x c
  | .addRange x lo hi => addRange rnd b x lo hi

/-- State after a list of insertions, exceptions being caught. -/
def binRun [DecidableEq T] (b : Bin T K) : List (Bin.Op T K) → Bin T K
  | [] => b
  | op :: ops => binRun (binStep rnd b op).2 ops

/-! ## Quad.hh -/

omit [LinearOrder K] [FloorRing K] in
/-- Quad.hh:24, 405: `var[3][i]*(var[0][i] - var[1][i])/var[2][i]`. -/
def local1 (r n h s : K) : K := rnd (rnd (s * rnd (r - n)) / h)

omit [LinearOrder K] [FloorRing K] in
/-- Quad.hh:13-26, `Quad_f::eval`. -/
def quadF (r n h s : Fin 2 → K) : K :=
  rnd (rnd (1 - local1 rnd (r 0) (n 0) (h 0) (s 0)) * rnd (1 - local1 rnd (r 1) (n 1) (h 1) (s 1)))

omit [LinearOrder K] [FloorRing K] in
/-- Quad.hh:41-80, `Quad_grad_0::eval`, `Quad_grad_1::eval`; other components read past `_grad_val` (Quad.hh:227). -/
def quadGrad (r n h s : Fin 2 → K) (di : Nat) : Res K :=
  match di with
  | 0 => .ok (rnd (rnd (-s 0 * rnd (1 - local1 rnd (r 1) (n 1) (h 1) (s 1))) / h 0))
  | 1 => .ok (rnd (rnd (-s 1 * rnd (1 - local1 rnd (r 0) (n 0) (h 0) (s 0))) / h 1))
  | _ => .error (.ub .oob)

omit [LinearOrder K] [FloorRing K] in
/-- Quad.hh:82-160, `Quad_hess_i_j::eval`; other components read out of bounds (Quad.hh:232). -/
def quadHess (h s : Fin 2 → K) (di dj : Nat) : Res K :=
  match di, dj with
  | 0, 0 => .ok 0
  | 0, 1 => .ok (rnd (rnd (rnd (s 0 * s 1) / h 0) / h 1))
  | 1, 0 => .ok (rnd (rnd (rnd (s 0 * s 1) / h 0) / h 1))
  | 1, 1 => .ok 0
  | _, _ => .error (.ub .oob)

/-! ## Hexahedron.hh -/

omit [LinearOrder K] [FloorRing K] in
/-- Hexahedron.hh:15-28, `Hexahedron_f::eval`. -/
def hexF (r n h s : Fin 3 → K) : K :=
  rnd (rnd (rnd (1 - local1 rnd (r 0) (n 0) (h 0) (s 0)) * rnd (1 - local1 rnd (r 1) (n 1) (h 1) (s 1))) *
    rnd (1 - local1 rnd (r 2) (n 2) (h 2) (s 2)))

omit [LinearOrder K] [FloorRing K] in
/-- Hexahedron.hh:47-49 (68-70, 90-92): `-s*(1 - ...)*(1 - ...)/h`. -/
def hexSlope (s w w' h : K) : K := rnd (rnd (rnd (-s * rnd (1 - w)) * rnd (1 - w')) / h)

omit [LinearOrder K] [FloorRing K] in
/-- Hexahedron.hh:43-106, `Hexahedron_grad_i::eval`; other components read past `_grad_val`. -/
def hexGrad (r n h s : Fin 3 → K) (di : Nat) : Res K :=
  match di with
  | 0 => .ok (hexSlope rnd (s 0) (local1 rnd (r 1) (n 1) (h 1) (s 1)) (local1 rnd (r 2) (n 2) (h 2) (s 2)) (h 0))
  | 1 => .ok (hexSlope rnd (s 1) (local1 rnd (r 0) (n 0) (h 0) (s 0)) (local1 rnd (r 2) (n 2) (h 2) (s 2)) (h 1))
  | 2 => .ok (hexSlope rnd (s 2) (local1 rnd (r 0) (n 0) (h 0) (s 0)) (local1 rnd (r 1) (n 1) (h 1) (s 1)) (h 2))
  | _ => .error (.ub .oob)

omit [LinearOrder K] [FloorRing K] in
/-- Hexahedron.hh:132 (152, 172, 212, 232, 252): `s*s'/h/h'`. -/
def hexTwist (s s' h h' : K) : K := rnd (rnd (rnd (s * s') / h) / h')

omit [LinearOrder K] [FloorRing K] in
/-- Hexahedron.hh:108-286, `Hexahedron_hess_i_j::eval`. -/
def hexHess (h s : Fin 3 → K) (di dj : Nat) : Res K :=
  match di, dj with
  | 0, 0 => .ok 0
  | 0, 1 => .ok (hexTwist rnd (s 0) (s 1) (h 0) (h 1))
  | 0, 2 => .ok (hexTwist rnd (s 0) (s 2) (h 0) (h 2))
  | 1, 0 => .ok (hexTwist rnd (s 1) (s 0) (h 1) (h 0))
  | 1, 1 => .ok 0
  | 1, 2 => .ok (hexTwist rnd (s 1) (s 2) (h 1) (h 2))
  | 2, 0 => .ok (hexTwist rnd (s 2) (s 0) (h 2) (h 0))
  | 2, 1 => .ok (hexTwist rnd (s 2) (s 1) (h 2) (h 1))
  | 2, 2 => .ok 0
  | _, _ => .error (.ub .oob)

/-! ## Limits and range test of the interpolators -/

omit [FloorRing K] in
/-- Quad.hh:373-383, Hexahedron.hh:528-540, `min()`. -/
def minOf (q : Interp K d) : Fin d → K := fun i => if q.s i = -1 then rnd (q.n i - q.h i) else q.n i

omit [FloorRing K] in
/-- Quad.hh:385-395, Hexahedron.hh:542-554, `max()`. -/
def maxOf (q : Interp K d) : Fin d → K := fun i => if q.s i = 1 then rnd (q.n i + q.h i) else q.n i

omit [FloorRing K] in
/-- Quad.hh:405-407, Hexahedron.hh:565-567, one pass of the loop of `is_in_range`: `true` if it does not return. -/
def passOk (q : Interp K d) (c : Fin d → K) (i : Fin d) : Bool :=
  let e := local1 rnd (c i) (q.n i) (q.h i) (q.s i)
  if e < 0 ∨ e ≥ 1 then false else true

omit [FloorRing K] in
/-- Quad.hh:397-424, `is_in_range`. -/
def quadInRange (q : Interp K 2) (c : Fin 2 → K) : Bool := passOk rnd q c 0 && passOk rnd q c 1

omit [FloorRing K] in
/-- Hexahedron.hh:556-584, `is_in_range` (loop over `i<2`, as in the code). -/
def hexInRange (q : Interp K 3) (c : Fin 3 → K) : Bool := passOk rnd q c 0 && passOk rnd q c 1

omit [FloorRing K] in
/-- `QuadValues` (Quad.hh:304-450) in the arithmetic `rnd`. -/
def quadOps : ElemOps K 2 where
  corners := 4
  far := 2
  make := mkQuad
  inRange := quadInRange rnd
  value q c := .ok (quadF rnd c q.n q.h q.s)
  grad q c di := quadGrad rnd c q.n q.h q.s di
  hess q _ di dj := quadHess rnd q.h q.s di dj

omit [FloorRing K] in
/-- `HexahedronValues` (Hexahedron.hh:441-613) in the arithmetic `rnd`. -/
def hexOps : ElemOps K 3 where
  corners := 8
  far := 6
  make := mkHex
  inRange := hexInRange rnd
  value q c := .ok (hexF rnd c q.n q.h q.s)
  grad q c di := hexGrad rnd c q.n q.h q.s di
  hess q _ di dj := hexHess rnd q.h q.s di dj

/-! ## Mesh.hh; `E` is the element class in the arithmetic `rnd` -/

variable (E : ElemOps K d)

omit [FloorRing K] in
/-- Mesh.hh:240-252, one pass of the loop over directions; `1.0*N.back()` is exact. -/
def axis (value : List K) : Res (Mesh.Axis K) := do
  let s := value.insertionSort (· ≤ ·)
  let lo ← vget s 0
  let hi ← vget s ((s.length : Int) - 1)
  let incr := rnd (rnd (hi - lo) / ((s.length : Nat) : K))
  .ok ⟨lo, hi, incr, rnd (lo - incr), (s.length : Int) + 2⟩

omit [FloorRing K] in
/-- Mesh.hh:185-269, the POINTS section. -/
def readPoints (m : Mesh K d) (pts : List (Fin d → K)) : Res (Mesh K d) := do
  let axes ← mapRes (fun j => axis rnd (Mesh.distinct pts j)) (List.finRange d)
  let bin ← mkBin rnd (axes.map Mesh.Axis.min) (axes.map Mesh.Axis.incr) (axes.map Mesh.Axis.N)
  .ok { min := fun j => axes[(j : Nat)]?.map Mesh.Axis.lo
        max := fun j => axes[(j : Nat)]?.map Mesh.Axis.hi
        node := m.node ++ pts
        interp := m.interp
        bin := bin }

omit [LinearOrder K] [FloorRing K] in
/-- Mesh.hh:57-66, 87-97: the interpolators of cell number `el`; the extents are a rounded difference. -/
def makeCell (node : List (Fin d → K)) (el : Nat) (cell : List Nat) : Res (List (Interp K d)) := do
  let nf ← vget cell (E.far : Nat)
  let n0 ← vget cell 0
  let pf ← vget node (nf : Nat)
  let p0 ← vget node (n0 : Nat)
  let dim : Fin d → K := fun i => rnd (pf i - p0 i)
  mapRes (fun j => do
    let nj ← vget cell (j : Nat)
    let pj ← vget node (nj : Nat)
    .ok (E.make nj el pj dim j)) (List.range E.corners)

omit [LinearOrder K] [FloorRing K] in
/-- Mesh.hh:302-324, the loop over cells. -/
def makeCells (node : List (Fin d → K)) : Nat → List (List Nat) → Res (List (Interp K d))
  | _, [] => .ok []
  | el, c :: cs => do
      let a ← makeCell rnd E node el c
      let b ← makeCells node (el + 1) cs
      .ok (a ++ b)

/-- Mesh.hh:330-333, filing the interpolators. -/
def fileAll : List (Interp K d) → Bin (Interp K d) K → Res (Bin (Interp K d) K)
  | [], b => .ok b
  | q :: qs, b =>
    match addRange rnd b q (List.ofFn (minOf rnd q)) (List.ofFn (maxOf rnd q)) with
    | (.error e, _) => .error e
    | (.ok _, b') => fileAll qs b'

/-- Mesh.hh:276-337, the CELLS section. -/
def readCells (m : Mesh K d) (cells : List (List Nat)) : Res (Mesh K d) := do
  let new ← makeCells rnd E m.node 0 cells
  let all := m.interp ++ new
  let bin ← fileAll rnd all m.bin
  .ok { m with interp := all, bin := bin }

/-- Mesh.hh:159-364 on a file with one POINTS and one CELLS section, for a new mesh. -/
def build (pts : List (Fin d → K)) (cells : List (List Nat)) : Res (Mesh K d) := do
  let m ← readPoints rnd Mesh.empty pts
  readCells rnd E m cells

/-- Mesh.hh:399-435 (438-476, 479-514). Returns `s`; `w` is the evaluated member of the interpolators. -/
def fill (w : Interp K d → Res K) (m : Mesh K d) (c : Fin d → K) (b : Mesh.Buf K) : Res Nat × Mesh K d × Mesh.Buf K :=
  let (r, bin') := contents rnd m.bin (List.ofFn c)
  let m' := { m with bin := bin' }
  match r with
  | .error e => (.error e, m', b)
  | .ok content =>
    match Mesh.firstInRange E c content with
    | none => (.ok content.length, m', b)
    | some q =>
      match Mesh.fillLoop w q.element content 0 b with
      | (.error e, b') => (.error e, m', b')
      | (.ok _, b') => (.ok content.length, m', b')

/-- Mesh.hh:399-435, `basis_functions`. -/
def basisFunctions (m : Mesh K d) (c : Fin d → K) (b : Mesh.Buf K) : Res Nat × Mesh K d × Mesh.Buf K :=
  fill rnd E (fun q => E.value q c) m c b

/-- Mesh.hh:438-476, `grad_basis_functions`. -/
def gradBasisFunctions (m : Mesh K d) (c : Fin d → K) (di : Nat) (b : Mesh.Buf K) : Res Nat × Mesh K d × Mesh.Buf K :=
  fill rnd E (fun q => E.grad q c di) m c b

/-- Mesh.hh:479-514, `hess_basis_functions`. -/
def hessBasisFunctions (m : Mesh K d) (c : Fin d → K) (di dj : Nat) (b : Mesh.Buf K) : Res Nat × Mesh K d × Mesh.Buf K :=
  fill rnd E (fun q => E.hess q c di dj) m c b

/-! ## PField.hh, Body.hh -/

omit [LinearOrder K] [FloorRing K] in
/-- PField.hh:119-124, `_val += _bfunc[i]*_field[_node_index[i]]`. -/
def sumLoop (data : List K) (b : Mesh.Buf K) : Nat → Nat → K → Res K
  | 0, _, acc => .ok acc
  | n + 1, i, acc => do
      let w ← vget b.bf (i : Nat)
      let k ← vget b.ni (i : Nat)
      let v ← vget data (k : Nat)
      sumLoop data b n (i + 1) (rnd (acc + rnd (w * v)))

/-- PField.hh:105-127, `operator()(coord)`. -/
def value (m : Mesh K d) (f : PField K) (c : Fin d → K) : Res K × Mesh K d × PField K :=
  match basisFunctions rnd E m c f.buf with
  | (.error e, m', b) => (.error e, m', { f with buf := b })
  | (.ok s, m', b) =>
    match sumLoop rnd f.data b s 0 f.zero with
    | .error e => (.error e, m', { f with buf := b })
    | .ok v => (.ok v, m', { f with buf := b, val := some v })

/-- PField.hh:130-143, `grad(coord, di)`. -/
def gradAt (m : Mesh K d) (f : PField K) (c : Fin d → K) (di : Nat) : Res K × Mesh K d × PField K :=
  match gradBasisFunctions rnd E m c di f.buf with
  | (.error e, m', b) => (.error e, m', { f with buf := b })
  | (.ok s, m', b) =>
    match sumLoop rnd f.data b s 0 f.zero with
    | .error e => (.error e, m', { f with buf := b })
    | .ok v =>
      match vset f.grad (di : Nat) v with
      | .error e => (.error e, m', { f with buf := b })
      | .ok g => (.ok v, m', { f with buf := b, grad := g })

/-- PField.hh:146-156, `hess(coord, di, dj)`. -/
def hessAt (m : Mesh K d) (f : PField K) (c : Fin d → K) (di dj : Nat) : Res K × Mesh K d × PField K :=
  match hessBasisFunctions rnd E m c di dj f.buf with
  | (.error e, m', b) => (.error e, m', { f with buf := b })
  | (.ok s, m', b) =>
    match sumLoop rnd f.data b s 0 f.zero with
    | .error e => (.error e, m', { f with buf := b })
    | .ok v =>
      match (do let row ← vget f.hess (di : Nat); let row' ← vset row (dj : Nat) v; vset f.hess (di : Nat) row') with
      | .error e => (.error e, m', { f with buf := b })
      | .ok h => (.ok v, m', { f with buf := b, hess := h })

/-- PField.hh:165-169, the loop of `eval_grad` over the given directions. -/
def evalGradLoop (c : Fin d → K) : List Nat → Mesh K d → PField K → Res Unit × Mesh K d × PField K
  | [], m, f => (.ok (), m, f)
  | di :: ds, m, f =>
    match gradAt rnd E m f c di with
    | (.error e, m', f') => (.error e, m', f')
    | (.ok _, m', f') => evalGradLoop c ds m' f'

/-- PField.hh:172-177, the nested loop of `eval_hess` over the given pairs. -/
def evalHessLoop (c : Fin d → K) : List (Nat × Nat) → Mesh K d → PField K → Res Unit × Mesh K d × PField K
  | [], m, f => (.ok (), m, f)
  | p :: ps, m, f =>
    match hessAt rnd E m f c p.1 p.2 with
    | (.error e, m', f') => (.error e, m', f')
    | (.ok _, m', f') => evalHessLoop c ps m' f'

/-- Body.hh:41-121, `read_vtk` on a file with the given points, cells and scalar fields. -/
def load (pts : List (Fin d → K)) (cells : List (List Nat)) (flds : List (String × List K)) : Res (Body K d) := do
  let m ← build rnd E pts cells
  Body.addFields ⟨m, []⟩ flds

/-- An evaluation of a field that returns a number. -/
inductive Call (K : Type) (d : Nat) where
  | value (c : Fin d → K)
  | grad (c : Fin d → K) (di : Fin d)
  | hess (c : Fin d → K) (di dj : Fin d)

/-- The evaluation on a field over a mesh. -/
def queryField (m : Mesh K d) (f : PField K) : Call K d → Res K × Mesh K d × PField K
  | .value c => value rnd E m f c
  | .grad c di => gradAt rnd E m f c di
  | .hess c di dj => hessAt rnd E m f c di dj

/-- Outcome of `scalar_field[i](c)`, `scalar_field[i].grad(c, di)`, `scalar_field[i].hess(c, di, dj)`. -/
def eval (b : Body K d) (i : Nat) (op : Call K d) : Res K :=
  match b.fields[i]? with
  | none => .error (.ub .oob)
  | some f => (queryField rnd E b.mesh f op).1

/-- Outcome and states after any evaluating call on a field (the calls of `Model/Field.lean`). -/
def callField (m : Mesh K d) (f : PField K) : Body.Call K d → Res Unit × Mesh K d × PField K
  | .value c => match value rnd E m f c with | (r, m', f') => (r.map fun _ => (), m', f')
  | .grad c di => match gradAt rnd E m f c di with | (r, m', f') => (r.map fun _ => (), m', f')
  | .hess c di dj => match hessAt rnd E m f c di dj with | (r, m', f') => (r.map fun _ => (), m', f')
  | .evalGrad c => evalGradLoop rnd E c (List.range d) m f
  | .evalHess c => evalHessLoop rnd E c ((List.range d).flatMap fun i => (List.range d).map fun j => (i, j)) m f

/-- A call on field number `i` of the body; a missing field leaves the body alone. The state is kept when an exception is thrown. -/
def call (b : Body K d) (i : Nat) (op : Body.Call K d) : Body K d :=
  match b.fields[i]? with
  | none => b
  | some f => match callField rnd E b.mesh f op with | (_, m', f') => ⟨m', b.fields.set i f'⟩

/-- The body after a history of calls (exceptions are caught and ignored by the caller). -/
def evals (b : Body K d) : List (Nat × Body.Call K d) → Body K d
  | [] => b
  | (i, op) :: ops => evals (call rnd E b i op) ops

end Fl
end Verif
