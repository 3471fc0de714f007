import Verif.Model.Stream
import Verif.Model.Field

/-!
# Model of the text level of `Mesh::read_vtk` (pfield/Mesh.hh:159-364) and `Body::read_vtk` (pfield/Body.hh:41-123)

`scan` is the conversion of characters to a double. The loop counters (`int i`) are assumed not to overflow and the `reserve`
calls to succeed. The cells of a CELLS section are all read before their interpolators are made (the code alternates); the two
orders differ only in which undefined behaviour is reported first. Progress output is not modelled.
-/

namespace Verif
open IStream

/-- Mesh.hh:159-171, the stream, the members of the mesh and the local variables (`none` is uninitialised). The words read into
`str` and `type` and the number read into `Ncell_numbers` are never used. -/
structure MSt (K : Type) (d : Nat) where
  s : IStream
  line : List Char
  mesh : Mesh K d
  npoints : Option Nat
  ncells : Option Nat
  uli : Option Nat
  coord : Fin d → Option K
  cellNode : List Nat

/-- What the reader of the text does with the numbers read: a POINTS section (Mesh.hh:218-269) and a CELLS section (Mesh.hh:302-333)
changing a mesh. A parameter, so that the text is read by the same functions in exact and in rounded arithmetic. -/
structure MeshOps (K : Type) (d : Nat) where
  points : Mesh K d → List (Fin d → K) → Res (Mesh K d)
  cells : Mesh K d → List (List Nat) → Res (Mesh K d)

/-- Mesh.hh:218-269, 302-333 in exact arithmetic. -/
def ElemOps.mesh {K : Type} {d : Nat} [Field K] [LinearOrder K] [FloorRing K] (E : ElemOps K d) : MeshOps K d :=
  ⟨Mesh.readPoints, Mesh.readCells E⟩

namespace MeshOps
variable {K : Type} {d : Nat} (O : MeshOps K d)

/-- Mesh.hh:159-364 on a file with one POINTS and one CELLS section. -/
def into (m : Mesh K d) (pts : List (Fin d → K)) (cells : List (List Nat)) : Res (Mesh K d) := do
  let m' ← O.points m pts
  O.cells m' cells

/-- Body.hh:41-121, `read_vtk` on a file with the given points, cells and scalar fields. -/
def load [Field K] (b : Body K d) (pts : List (Fin d → K)) (cells : List (List Nat)) (flds : List (String × List K)) : Res (Body K d) := do
  let m ← O.into b.mesh pts cells
  Body.addFields { b with mesh := m } flds

end MeshOps

namespace Vtk
variable {K : Type} {d : Nat} [Field K] [LinearOrder K] [FloorRing K]

/-- The section keywords (Mesh.hh:185, 276, 338; Body.hh:64, 75). -/
def kwPoints : List Char := ['P', 'O', 'I', 'N', 'T', 'S']
/-- Mesh.hh:276. -/
def kwCells : List Char := ['C', 'E', 'L', 'L', 'S']
/-- Mesh.hh:338. -/
def kwTypes : List Char := ['C', 'E', 'L', 'L', '_', 'T', 'Y', 'P', 'E', 'S']
/-- Body.hh:64. -/
def kwData : List Char := ['P', 'O', 'I', 'N', 'T', '_', 'D', 'A', 'T', 'A']
/-- Body.hh:75. -/
def kwScalars : List Char := ['S', 'C', 'A', 'L', 'A', 'R', 'S']

/-- Mesh.hh:189-191, 279-282, 341-345, Body.hh:67-69: the word and the number at the start of a section line. -/
def hdrNat (line : List Char) (cur : Option Nat) : Option Nat :=
  match word (ofText line) [] with
  | (s, _) => (extract scanNat 0 s cur).2

/-- Body.hh:77-79: the second word of the line. -/
def hdrName (line : List Char) (cur : List Char) : List Char :=
  match word (ofText line) [] with
  | (s, _) => (word s cur).2

omit [LinearOrder K] [FloorRing K] in
/-- Mesh.hh:204, 209: the coordinates of a point, one after the other. -/
def readCoord (scan : List Char → Option K × List Char) : List (Fin d) → IStream → (Fin d → Option K) →
    IStream × (Fin d → Option K)
  | [], s, c => (s, c)
  | j :: js, s, c =>
    match extract scan 0 s (c j) with
    | (s', v) => readCoord scan js s' (fun i => if i = j then v else c i)

omit [LinearOrder K] [FloorRing K] in
/-- Mesh.hh:200-216, the loop over the points (a third number is read and dropped when DIM = 2). `n` passes are left. -/
def readPts (scan : List Char → Option K × List Char) : Nat → IStream → (Fin d → Option K) →
    Res (List (Fin d → K)) × IStream × (Fin d → Option K)
  | 0, s, c => (.ok [], s, c)
  | n + 1, s, c =>
    match readCoord scan (List.finRange d) s c with
    | (s1, c1) =>
      let s2 := if d = 2 then (extract scan 0 s1 none).1 else s1
      if ∀ j, (c1 j).isSome then
        match readPts scan n s2 c1 with
        | (r, s3, c3) => (r.map (fun ps => (fun j => (c1 j).getD 0) :: ps), s3, c3)
      else (.error (.ub .uninit), s2, c1)

/-- Mesh.hh:302-324, the numbers of the CELLS section. `n` passes are left. -/
def readCellsTxt : Nat → IStream → Option Nat → List Nat → Res (List (List Nat)) × IStream × Option Nat × List Nat
  | 0, s, u, cn => (.ok [], s, u, cn)
  | n + 1, s, u, cn =>
    match extract scanNat 0 s u with
    | (s1, none) => (.error (.ub .uninit), s1, none, cn)
    | (s1, some k) =>
      match readNums scanNat 0 (vresize cn k 0) s1 with
      | (s2, cn2) =>
        match readCellsTxt n s2 (some k) cn2 with
        | (r, s3, u3, cn3) => (r.map (fun cs => cn2 :: cs), s3, u3, cn3)

/-- Mesh.hh:347-357, the CELL_TYPES section. `n` passes are left. -/
def readTypes : Nat → IStream → Option Nat → Res Unit × IStream × Option Nat
  | 0, s, u => (.ok (), s, u)
  | n + 1, s, u =>
    match extract scanNat 0 s u with
    | (s1, none) => (.error (.ub .uninit), s1, none)
    | (s1, some k) => if k ≠ 9 ∧ k ≠ 12 then (.error (.exit 1), s1, some k) else readTypes n s1 (some k)

/-- Mesh.hh:185-269, the POINTS section. -/
def pointsSection (scan : List Char → Option K × List Char) (O : MeshOps K d) (st : MSt K d) : Res Bool × MSt K d :=
  match hdrNat st.line st.npoints with
  | none => (.error (.ub .uninit), st)
  | some n =>
    match readPts scan n st.s st.coord with
    | (.error e, s, c) => (.error e, { st with s := s, coord := c, npoints := some n })
    | (.ok pts, s, c) =>
      let st1 := { st with s := s, coord := c, npoints := some n }
      match O.points st.mesh pts with
      | .error e => (.error e, st1)
      | .ok m => (.ok false, { st1 with mesh := m })

/-- Mesh.hh:276-337, the CELLS section. -/
def cellsSection (O : MeshOps K d) (st : MSt K d) : Res Bool × MSt K d :=
  match hdrNat st.line st.ncells with
  | none => (.error (.ub .uninit), st)
  | some n =>
    match readCellsTxt n st.s st.uli st.cellNode with
    | (.error e, s, u, cn) => (.error e, { st with s := s, uli := u, cellNode := cn, ncells := some n })
    | (.ok cells, s, u, cn) =>
      let st1 := { st with s := s, uli := u, cellNode := cn, ncells := some n }
      match O.cells st.mesh cells with
      | .error e => (.error e, st1)
      | .ok m => (.ok false, { st1 with mesh := m })

/-- Mesh.hh:338-360, the CELL_TYPES section, which ends the function. -/
def typesSection (st : MSt K d) : Res Bool × MSt K d :=
  match hdrNat st.line st.ncells with
  | none => (.error (.ub .uninit), st)
  | some n =>
    match readTypes n st.s st.uli with
    | (.error e, s, u) => (.error e, { st with s := s, uli := u, ncells := some n })
    | (.ok _, s, u) => (.ok true, { st with s := s, uli := u, ncells := some n })

/-- Mesh.hh:175-362, one pass of the loop; `true` means the function returns. -/
def meshStep (scan : List Char → Option K × List Char) (O : MeshOps K d) (st : MSt K d) : Res Bool × MSt K d :=
  match getline st.s st.line with
  | (s, line) =>
    let st1 := { st with s := s, line := line }
    if kwPoints.isPrefixOf line then pointsSection scan O st1
    else if kwCells.isPrefixOf line then cellsSection O st1
    else if kwTypes.isPrefixOf line then typesSection st1
    else (.ok false, st1)

/-- Mesh.hh:173-363, `while(!infile.eof())`; `fuel` bounds the number of passes. -/
def meshLoop (scan : List Char → Option K × List Char) (O : MeshOps K d) : Nat → MSt K d → Res Unit × MSt K d
  | 0, st => (.error .diverge, st)
  | fuel + 1, st =>
    if st.s.eof then (.ok (), st)
    else
      match meshStep scan O st with
      | (.error e, st') => (.error e, st')
      | (.ok true, st') => (.ok (), st')
      | (.ok false, st') => meshLoop scan O fuel st'

end Vtk

/-- Body.hh:41-56, the stream, the body and the local variables. -/
structure BSt (K : Type) (d : Nat) where
  s : IStream
  line : List Char
  body : Body K d
  npoints : Option Nat
  name : List Char

namespace Vtk
variable {K : Type} {d : Nat} [Field K] [LinearOrder K] [FloorRing K]

omit [LinearOrder K] [FloorRing K] in
/-- Body.hh:75-118, a SCALARS section: the name, a skipped line, the values (`data(Npoints)` is zero-initialised). -/
def scalarsSection (scan : List Char → Option K × List Char) (st : BSt K d) : Res Unit × BSt K d :=
  let name := hdrName st.line st.name
  match getline st.s st.line with
  | (s, line) =>
    match st.npoints with
    | none => (.error (.ub .uninit), { st with s := s, line := line, name := name })
    | some n =>
      match readNums scan 0 (List.replicate n 0) s with
      | (s2, data) =>
        let st1 := { st with s := s2, line := line, name := name }
        match st.body.addField (String.ofList name) data with
        | .error e => (.error e, st1)
        | .ok b => (.ok (), { st1 with body := b })

omit [LinearOrder K] [FloorRing K] in
/-- Body.hh:60-119, one pass of the loop. -/
def bodyStep (scan : List Char → Option K × List Char) (st : BSt K d) : Res Unit × BSt K d :=
  match getline st.s st.line with
  | (s, line) =>
    let st1 := { st with s := s, line := line }
    if kwData.isPrefixOf line then (.ok (), { st1 with npoints := hdrNat line st.npoints })
    else if kwScalars.isPrefixOf line then scalarsSection scan st1
    else (.ok (), st1)

omit [LinearOrder K] [FloorRing K] in
/-- Body.hh:58-120, `while(!infile.eof())`; `fuel` bounds the number of passes. -/
def bodyLoop (scan : List Char → Option K × List Char) : Nat → BSt K d → Res Unit × BSt K d
  | 0, st => (.error .diverge, st)
  | fuel + 1, st =>
    if st.s.eof then (.ok (), st)
    else
      match bodyStep scan st with
      | (.error e, st') => (.error e, st')
      | (.ok _, st') => bodyLoop scan fuel st'

omit [Field K] [LinearOrder K] [FloorRing K] in
/-- Mesh.hh:159-171, the state when `Mesh::read_vtk` starts. -/
def mesh0 (s : IStream) (m : Mesh K d) : MSt K d := ⟨s, [], m, none, none, none, fun _ => none, []⟩

omit [Field K] [LinearOrder K] [FloorRing K] in
/-- Body.hh:53-56, the state when the loop of `Body::read_vtk` starts. -/
def body0 (s : IStream) (b : Body K d) : BSt K d := ⟨s, [], b, none, []⟩

/-- Body.hh:41-123, `read_vtk` from an opened (or not opened) stream. -/
def readFrom (scan : List Char → Option K × List Char) (O : MeshOps K d) (fuel : Nat) (s : IStream) (b : Body K d) :
    Res (Body K d) :=
  match meshLoop scan O fuel (mesh0 s b.mesh) with
  | (.error e, _) => .error e
  | (.ok _, st) =>
    match bodyLoop scan fuel (body0 st.s { b with mesh := st.mesh }) with
    | (.error e, _) => .error e
    | (.ok _, st') => .ok st'.body

end Vtk

/-- Body.hh:41-123, `read_vtk`; `file` is the content of the named file, if it can be opened. -/
def Body.readVtk {K : Type} {d : Nat} [Field K] [LinearOrder K] [FloorRing K] (scan : List Char → Option K × List Char)
    (E : ElemOps K d) (fuel : Nat) (file : Option (List Char)) (b : Body K d) : Res (Body K d) :=
  match file with
  | none => Vtk.readFrom scan E.mesh fuel .missing b
  | some t => Vtk.readFrom scan E.mesh fuel (.ofText t) b

end Verif
