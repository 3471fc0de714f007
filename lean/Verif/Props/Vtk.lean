import Verif.Lemmas.Vtk
import Verif.Lemmas.VtkTerm
import Verif.Lemmas.DemoVtk
import Verif.Props.Field3D

/-!
# Reading vtk files (C35, C36)
-/

namespace Verif
open Spec IStream Vtk

namespace Vtk
variable {K : Type} {d : Nat} [Field K] [LinearOrder K] [FloorRing K]

theorem meshLoop_done {scan : List Char → Option K × List Char} {E : MeshOps K d} {st st' : MSt K d}
    (he : st.s.eof = false) (h : meshStep scan E st = (.ok true, st')) (f : Nat) :
    meshLoop scan E (f + 1) st = (.ok (), st') := by simp [meshLoop, he, h]

theorem meshLoop_fails {scan : List Char → Option K × List Char} {E : MeshOps K d} {st st' : MSt K d} {e : Err}
    (he : st.s.eof = false) (h : meshStep scan E st = (.error e, st')) (f : Nat) :
    meshLoop scan E (f + 1) st = (.error e, st') := by simp [meshLoop, he, h]

/-- The first loop on the sections of a file, from the POINTS line on. -/
theorem mesh_sections (scan : List Char → Option K × List Char) (E : MeshOps K d) (pts : List (Fin d → K))
    (cells : List (List Nat)) (rows : List (List (List Char))) (types : List Nat) (r1 r2 r3 xp xc xt r : List Char)
    (h1 : LineEnd r1) (h2 : LineEnd r2) (h3 : LineEnd r3) (hrow : List.Forall₂ (PointRow scan) pts rows)
    (hxp : Layout rows.flatten xp) (hxc : Layout ((cells.flatMap fun c => c.length :: c).map dec) xc)
    (htl : types.length = cells.length) (ht : ∀ t ∈ types, t = 9 ∨ t = 12) (hxt : Layout (types.map dec) xt)
    (st : MSt K d) (m0 : Mesh K d) (hmesh : st.mesh = m0)
    (hs : st.s = ofText (sectionLine "POINTS" pts.length r1 ++ xp ++ (sectionLine "CELLS" cells.length r2 ++ xc ++
      (sectionLine "CELL_TYPES" cells.length r3 ++ xt ++ r)))) :
    (∀ e, E.into m0 pts cells = .error e → ∃ k, ∀ f, (meshLoop scan E (f + k) st).1 = .error e) ∧
    (∀ m, E.into m0 pts cells = .ok m → ∃ k y st', Layout [] y ∧ st'.s = ofText (y ++ r) ∧ st'.mesh = m ∧
      ∀ f, meshLoop scan E (f + k) st = (.ok (), st')) := by
  have heof : st.s.eof = false := by rw [hs]; rfl
  obtain ⟨p1, p2⟩ := points_step scan E pts rows r1 xp _ h1 hrow hxp st hs
  rw [hmesh] at p1 p2
  simp only [MeshOps.into]
  cases hrp : E.points m0 pts with
  | error e =>
    obtain ⟨st', hst⟩ := p1 e hrp
    refine ⟨fun e' he' => ⟨1, fun f => ?_⟩, fun m hm => by simp [bind, Except.bind] at hm⟩
    rw [meshLoop_fails heof hst f]
    simpa [bind, Except.bind] using he'
  | ok m1 =>
    obtain ⟨y1, st1, hy1, hs1, hm1, hstep1⟩ := p2 m1 hrp
    subst hm1
    have reach1 := MReach.step heof hstep1
    obtain ⟨line1, reach2⟩ := mesh_skip_blank scan E y1 _ hy1 st1 hs1
    have reach := reach1.trans reach2
    obtain ⟨q1, q2⟩ := cells_step scan E cells r2 xc _ h2 hxc
      { st1 with s := ofText (sectionLine "CELLS" cells.length r2 ++ xc ++ (sectionLine "CELL_TYPES" cells.length r3 ++ xt ++ r)),
                 line := line1 } rfl
    dsimp only at q1 q2
    simp only [ok_bind]
    obtain ⟨k, hk⟩ := reach
    constructor
    · intro e he
      obtain ⟨st', hst⟩ := q1 e he
      refine ⟨1 + k, fun f => ?_⟩
      rw [← Nat.add_assoc, hk, meshLoop_fails (by rfl) hst f]
    · intro m hm
      obtain ⟨y2, st2, hy2, hs2, hm2, hstep2⟩ := q2 m hm
      have reach3 := MReach.step (by rfl) hstep2
      obtain ⟨line2, reach4⟩ := mesh_skip_blank scan E y2 _ hy2 st2 hs2
      obtain ⟨k2, hk2⟩ := reach3.trans reach4
      rw [← htl] at hk2
      obtain ⟨y3, st3, hy3, hs3, hm3, hstep3⟩ := types_step scan E types r3 xt r h3 ht hxt
        { st2 with s := ofText (sectionLine "CELL_TYPES" types.length r3 ++ xt ++ r), line := line2 } rfl
      refine ⟨1 + k2 + k, y3, st3, hy3, hs3, by rw [hm3]; exact hm2, fun f => ?_⟩
      rw [← Nat.add_assoc, hk, ← Nat.add_assoc, ← htl, hk2, meshLoop_done (by rfl) hstep3 f]

omit [LinearOrder K] [FloorRing K] in
/-- The second loop on the rest of a file. -/
theorem body_sections (scan : List Char → Option K × List Char) (n : Nat) (flds : List (String × List K)) (mid : List (List Char))
    (y r4 xf : List Char) (hy : Layout [] y) (hmid : ∀ l ∈ mid, PlainLine ["POINT_DATA".toList, "SCALARS".toList] l)
    (h4 : LineEnd r4) (hf : ∀ st : BSt K d, st.s = ofText xf → st.npoints = some n →
      ∃ k, ∀ fuel, outB (bodyLoop scan (fuel + k) st) = st.body.addFields flds) (st : BSt K d)
    (hs : st.s = ofText (y ++ (linesText mid ++ (sectionLine "POINT_DATA" n r4 ++ xf)))) :
    ∃ k, ∀ f, outB (bodyLoop scan (f + k) st) = st.body.addFields flds := by
  obtain ⟨line1, reach1⟩ := body_skip_blank scan y _ hy st hs
  have hk1 : ("POINT_DATA".toList) = kwData := by decide
  have hk2 : ("SCALARS".toList) = kwScalars := by decide
  rw [hk1, hk2] at hmid
  obtain ⟨line2, reach2⟩ := body_skip scan (sectionLine "POINT_DATA" n r4 ++ xf) mid hmid
    { st with s := ofText (linesText mid ++ (sectionLine "POINT_DATA" n r4 ++ xf)), line := line1 } rfl
  have hline := getline_line (kwData ++ ' ' :: dec n ++ r4) xf line2 (section_no_newline _ _ _ (by decide) h4)
  have hpre : kwData.isPrefixOf (kwData ++ ' ' :: dec n ++ r4) = true := by
    rw [List.append_assoc]; exact isPrefixOf_append _ _
  have hh := hdrNat_section kwData n r4 st.npoints (by decide) (by decide) h4
  have hstep : bodyStep scan { st with s := ofText (sectionLine "POINT_DATA" n r4 ++ xf), line := line2 } =
      (.ok (), { st with s := ofText xf, line := kwData ++ ' ' :: dec n ++ r4, npoints := some n }) := by
    simp only [bodyStep, sectionLine_eq, hk1, hline, hpre, if_true, hh]
  obtain ⟨k, hk⟩ := (reach1.trans reach2).trans (BReach.step (by rfl) hstep)
  obtain ⟨k', hk'⟩ := hf
    { st with s := ofText xf, line := kwData ++ ' ' :: dec n ++ r4, npoints := some n } rfl rfl
  exact ⟨k' + k, fun f => by rw [← Nat.add_assoc, hk, hk']⟩

end Vtk

section
variable {K : Type} {d : Nat} [Field K] [LinearOrder K] [FloorRing K]

/-- Reading a file of this frame, when what its last part does is known. -/
theorem read_frame_ops (scan : List Char → Option K × List Char) (E : MeshOps K d) (pts : List (Fin d → K))
    (cells : List (List Nat)) (types : List Nat) (np : Nat) (flds : List (String × List K)) (xf text : List Char)
    (h : VtkFrame scan pts cells types np xf text) (ht : ∀ t ∈ types, t = 9 ∨ t = 12)
    (hf : ∀ st : BSt K d, st.s = ofText xf → st.npoints = some np →
      ∃ k, ∀ fuel, outB (bodyLoop scan (fuel + k) st) = st.body.addFields flds)
    (b : Body K d) : ∃ N, ∀ fuel ≥ N, readFrom scan E fuel (ofText text) b = E.load b pts cells flds := by
  obtain ⟨head, mid, r1, r2, r3, r4, rows, xp, xc, xt, hhead, hmid, h1, h2, h3, h4, hrow, hxp, hxc, htl, hxt, rfl⟩ := h
  have hk1 : "POINTS".toList = kwPoints := by decide
  have hk2 : "CELLS".toList = kwCells := by decide
  have hk3 : "CELL_TYPES".toList = kwTypes := by decide
  rw [hk1, hk2, hk3] at hhead
  generalize htxt : linesText head ++ sectionLine "POINTS" pts.length r1 ++ xp ++ sectionLine "CELLS" cells.length r2 ++ xc ++
      sectionLine "CELL_TYPES" cells.length r3 ++ xt ++ linesText mid ++ sectionLine "POINT_DATA" np r4 ++ xf = text
  have htxt' : text = linesText head ++ (sectionLine "POINTS" pts.length r1 ++ xp ++ (sectionLine "CELLS" cells.length r2 ++ xc ++
      (sectionLine "CELL_TYPES" cells.length r3 ++ xt ++ (linesText mid ++ (sectionLine "POINT_DATA" np r4 ++ xf))))) := by
    rw [← htxt]; simp [List.append_assoc]
  obtain ⟨line, k0, hk0⟩ := mesh_skip scan E _ head hhead (mesh0 (ofText text) b.mesh) (by rw [htxt']; rfl)
  obtain ⟨g1, g2⟩ := mesh_sections scan E pts cells rows types r1 r2 r3 xp xc xt _ h1 h2 h3 hrow hxp hxc htl ht hxt
    { mesh0 (ofText text) b.mesh with
      s := ofText (sectionLine "POINTS" pts.length r1 ++ xp ++ (sectionLine "CELLS" cells.length r2 ++ xc ++
        (sectionLine "CELL_TYPES" cells.length r3 ++ xt ++ (linesText mid ++ (sectionLine "POINT_DATA" np r4 ++ xf))))),
      line := line } b.mesh rfl rfl
  simp only [MeshOps.load, readFrom]
  cases hb : E.into b.mesh pts cells with
  | error e =>
    obtain ⟨k, hk⟩ := g1 e hb
    refine ⟨k + k0, fun fuel hfu => ?_⟩
    obtain ⟨f, rfl⟩ := Nat.exists_eq_add_of_le' hfu
    have := hk f
    rw [← hk0, Nat.add_assoc] at this
    cases hm : meshLoop scan E (f + (k + k0)) (mesh0 (ofText text) b.mesh) with
    | mk a b => rw [hm] at this; simp only at this; subst this; simp [bind, Except.bind]
  | ok m =>
    obtain ⟨k, y, st', hy, hs', hm', hk⟩ := g2 m hb
    obtain ⟨k2, hk2⟩ := body_sections scan np flds mid y r4 xf hy hmid h4 hf
      (body0 st'.s { b with mesh := st'.mesh }) hs'
    refine ⟨k + k0 + k2, fun fuel hfu => ?_⟩
    obtain ⟨f, rfl⟩ := Nat.exists_eq_add_of_le' hfu
    have e1 := hk (f + k2)
    rw [← hk0] at e1
    have e1' : f + (k + k0 + k2) = f + k2 + k + k0 := by omega
    have e2 := hk2 (f + k + k0)
    have e2' : f + k + k0 + k2 = f + (k + k0 + k2) := by omega
    rw [e2'] at e2
    rw [e1', e1, ← e1']
    simp only [ok_bind]
    rw [hm'] at e2 ⊢
    have hbody : (body0 st'.s { b with mesh := m }).body = { b with mesh := m } := rfl
    rw [hbody] at e2
    rw [← e2]
    cases bodyLoop scan (f + (k + k0 + k2)) (body0 st'.s { b with mesh := m }) with
    | mk a b => cases a <;> rfl

/-- The same in exact arithmetic. -/
theorem read_frame (scan : List Char → Option K × List Char) (E : ElemOps K d) (pts : List (Fin d → K))
    (cells : List (List Nat)) (types : List Nat) (np : Nat) (flds : List (String × List K)) (xf text : List Char)
    (h : VtkFrame scan pts cells types np xf text) (ht : ∀ t ∈ types, t = 9 ∨ t = 12)
    (hf : ∀ st : BSt K d, st.s = ofText xf → st.npoints = some np →
      ∃ k, ∀ fuel, outB (bodyLoop scan (fuel + k) st) = st.body.addFields flds)
    (b : Body K d) : ∃ N, ∀ fuel ≥ N, Body.readVtk scan E fuel (some text) b = b.loadInto E pts cells flds :=
  read_frame_ops scan E.mesh pts cells types np flds xf text h ht hf b

theorem isVtk_frame {scan : List Char → Option K × List Char} {pts : List (Fin d → K)} {cells : List (List Nat)}
    {flds : List (String × List K)} {text : List Char} (h : IsVtk scan pts cells flds text) :
    ∃ types xf, VtkFrame scan pts cells types pts.length xf text ∧ (∀ t ∈ types, t = 9 ∨ t = 12) ∧ FieldsText scan pts.length flds xf := by
  obtain ⟨head, mid, r1, r2, r3, r4, rows, types, xp, xc, xt, xf, hhead, hmid, h1, h2, h3, h4, hrow, hxp, hxc, htl, ht, hxt, hf,
    rfl⟩ := h
  exact ⟨types, xf, ⟨head, mid, r1, r2, r3, r4, rows, xp, xc, xt, hhead, hmid, h1, h2, h3, h4, hrow, hxp, hxc, htl, hxt, rfl⟩, ht, hf⟩

/-- **C35** Reading a vtk file listing points, cells and fields, into a body in any state, does what adding these points, cells and
fields to it does: the text contributes nothing else, and nothing in it is lost. -/
theorem C35_read_into (scan : List Char → Option K × List Char) (E : ElemOps K d) (pts : List (Fin d → K))
    (cells : List (List Nat)) (flds : List (String × List K)) (text : List Char) (h : IsVtk scan pts cells flds text)
    (b : Body K d) : ∃ N, ∀ fuel ≥ N, Body.readVtk scan E fuel (some text) b = b.loadInto E pts cells flds := by
  obtain ⟨types, xf, hfr, ht, hf⟩ := isVtk_frame h
  exact read_frame scan E pts cells types pts.length flds xf text hfr ht (fields_loop scan pts.length flds xf hf) b

/-- **C35** Reading a vtk file into a new body does what building a body from the points, cells and fields of the file does. -/
theorem C35_read_is_load (scan : List Char → Option K × List Char) (E : ElemOps K d) (pts : List (Fin d → K))
    (cells : List (List Nat)) (flds : List (String × List K)) (text : List Char) (h : IsVtk scan pts cells flds text) :
    ∃ N, ∀ fuel ≥ N, Body.readVtk scan E fuel (some text) Body.empty = Body.load E pts cells flds :=
  C35_read_into scan E pts cells flds text h Body.empty

theorem fieldsText_len {scan : List Char → Option K × List Char} {n : Nat} {flds : List (String × List K)} {x : List Char}
    (h : FieldsText scan n flds x) : ∀ fl ∈ flds, fl.2.length = n := by
  induction h with
  | nil => simp
  | cons name data fs rest table toks x y _ _ _ _ hl _ _ _ ih =>
    intro fl hfl
    rcases List.mem_cons.mp hfl with rfl | h
    · exact hl
    · exact ih fl h

theorem isVtk_len {scan : List Char → Option K × List Char} {pts : List (Fin d → K)} {cells : List (List Nat)}
    {flds : List (String × List K)} {text : List Char} (h : IsVtk scan pts cells flds text) :
    ∀ fl ∈ flds, fl.2.length = pts.length := by
  obtain ⟨_, _, _, _, _, _, _, _, _, _, _, _, _, _, _, _, _, _, _, _, _, _, _, _, hf, _⟩ := h
  exact fieldsText_len hf

variable [IsStrictOrderedRing K]

/-- The body holds the given points, cells (element `e` is the interpolators of the nodes of cell `e`) and fields. -/
def Holds (b : Body K d) (pts : List (Fin d → K)) (cells : List (List Nat)) (flds : List (String × List K)) : Prop :=
  b.mesh.node = pts ∧
  (∀ q ∈ b.mesh.interp, q.element < cells.length) ∧
  (∀ e cell, cells[e]? = some cell → (b.mesh.interp.filter fun q => q.element = e).map (fun q => q.node) = cell) ∧
  b.fields.map (fun f => (f.name, f.data)) = flds

theorem holds_of {n : Nat} {E : ElemOps K d} {unit : Fin n → Fin d → K} {R : (a h c : Fin d → K) → Prop}
    (L : Mesh.ElemLaw E unit R)
    {pts : List (Fin d → K)} {cells : List (List Nat)} {lo hi : Fin d → K} {qs : List (Interp K d)}
    {flds : List (String × List K)} {b : Body K d} (hb : Body.BOk E unit pts cells lo hi qs flds b) : Holds b pts cells flds := by
  refine ⟨hb.mesh.node_eq, ?_, ?_, ?_⟩
  · intro q hq
    rw [hb.mesh.interp_eq] at hq
    obtain ⟨e, cell, a, h, he, _, j, rfl⟩ := hb.mesh.ints.mem q hq
    rw [L.element, Nat.zero_add]
    exact (List.getElem?_eq_some_iff.mp he).1
  · intro e cell he
    obtain ⟨a, h, hah, hf⟩ := hb.mesh.ints.filt e cell he
    rw [hb.mesh.interp_eq]
    simp only [Nat.zero_add] at hf
    rw [hf, Mesh.cellInterps, List.map_ofFn]
    apply List.ext_getElem
    · simp [hah.1]
    · intro k h1 h2
      simp [L.node, h2]
  · have h3 := hb.fields
    clear hb
    generalize b.fields = fs at h3
    induction h3 with
    | nil => rfl
    | cons hd _ ih => simp [hd.1, hd.2.1, ih]

/-- **C35** Reading a vtk file of a 2D mesh of rectangles recovers exactly the points, cells and fields of the file. -/
theorem C35_read_2d (scan : List Char → Option K × List Char) (pts : List (Fin 2 → K)) (cells : List (List Nat))
    (flds : List (String × List K)) (text : List Char) (h : IsVtk scan pts cells flds text)
    (hm : RectMesh quadUnit pts cells) :
    ∃ b N, Holds b pts cells flds ∧ ∀ fuel ≥ N, Body.readVtk scan (quadOps K) fuel (some text) Body.empty = .ok b := by
  obtain ⟨b, lo, hi, qs, h1, h2⟩ := Body.load_ok quadLaw hm (isVtk_len h)
  obtain ⟨N, hN⟩ := C35_read_is_load scan (quadOps K) pts cells flds text h
  exact ⟨b, N, holds_of quadLaw h2, fun fuel hf => by rw [hN fuel hf, h1]⟩

/-- **C35** The same in 3D. -/
theorem C35_read_3d (scan : List Char → Option K × List Char) (pts : List (Fin 3 → K)) (cells : List (List Nat))
    (flds : List (String × List K)) (text : List Char) (h : IsVtk scan pts cells flds text)
    (hm : RectMesh hexUnit pts cells) :
    ∃ b N, Holds b pts cells flds ∧ ∀ fuel ≥ N, Body.readVtk scan (hexOps K) fuel (some text) Body.empty = .ok b := by
  obtain ⟨b, lo, hi, qs, h1, h2⟩ := Body.load_ok hexLaw hm (isVtk_len h)
  obtain ⟨N, hN⟩ := C35_read_is_load scan (hexOps K) pts cells flds text h
  exact ⟨b, N, holds_of hexLaw h2, fun fuel hf => by rw [hN fuel hf, h1]⟩

/-- The demo file is read into its six points, two cells and two fields. -/
example : ∃ b N, Holds b Demo.pts Demo.cells Demo.flds ∧
    ∀ fuel ≥ N, Body.readVtk Demo.scanDec (quadOps ℚ) fuel (some Demo.vtkText) Body.empty = .ok b :=
  C35_read_2d Demo.scanDec Demo.pts Demo.cells Demo.flds Demo.vtkText Demo.isVtk Demo.rect

/-! ### Termination (C36) -/

omit [IsStrictOrderedRing K] in
/-- **C36** (violated) If the file cannot be opened, `read_vtk` does not return, whatever the number of passes allowed. -/
theorem C36_missing_file_violated (scan : List Char → Option K × List Char) (E : ElemOps K d) (fuel : Nat) (b : Body K d) :
    Body.readVtk scan E fuel none b = .error .diverge := by
  have key : ∀ fuel (st : MSt K d), st.s = IStream.missing → st.line = [] →
      (meshLoop scan E.mesh fuel st).1 = .error .diverge := by
    intro fuel
    induction fuel with
    | zero => intro st _ _; rfl
    | succ n ih =>
      intro st hs hl
      have hstep : meshStep scan E.mesh st = (.ok false, st) := by
        cases st
        simp only at hs hl
        subst hs hl
        rfl
      unfold meshLoop
      rw [if_neg (by rw [hs]; decide), hstep]
      exact ih st hs hl
  have h := key fuel (mesh0 IStream.missing b.mesh) rfl rfl
  simp only [Body.readVtk, readFrom]
  cases hm : meshLoop scan E.mesh fuel (mesh0 IStream.missing b.mesh) with
  | mk r st => rw [hm] at h; simp only at h; subst h; rfl

omit [IsStrictOrderedRing K] [LinearOrder K] [FloorRing K] in
/-- Once the stream has failed before the end of the file and the last line read is no section line, the second loop never ends. -/
theorem bodyLoop_stuck_forever (scan : List Char → Option K × List Char) (fuel : Nat) : ∀ st : BSt K d, Stuck st.s →
    kwData.isPrefixOf st.line = false → kwScalars.isPrefixOf st.line = false →
    (bodyLoop scan fuel st).1 = .error .diverge := by
  induction fuel with
  | zero => intro st _ _ _; rfl
  | succ n ih =>
    intro st hs h1 h2
    have hg : getline st.s st.line = (st.s, st.line) := by
      obtain ⟨hf, he⟩ := hs
      cases hst : st.s with
      | mk r e f => rw [hst] at hf he; simp only at hf he; subst hf he; rfl
    have hstep : bodyStep scan st = (.ok (), st) := by
      simp only [bodyStep, hg, h1, h2]
      rfl
    unfold bodyLoop
    rw [if_neg (by simp [hs.2]), hstep]
    exact ih st hs h1 h2

/-- A vtk file whose second data value is not a number. -/
def badText : List Char :=
  linesText ["# vtk DataFile Version 3.0".toList, "ASCII".toList] ++ sectionLine "POINTS" 6 " double".toList ++
    Demo.lay Demo.rows.flatten ++ sectionLine "CELLS" 2 " 10".toList ++
    Demo.lay ((Demo.cells.flatMap fun c => c.length :: c).map dec) ++ sectionLine "CELL_TYPES" 2 [] ++
    Demo.lay ([9, 9].map dec) ++ sectionLine "POINT_DATA" 6 [] ++
    linesText ["SCALARS u double 1".toList, "LOOKUP_TABLE default".toList, "1 x 3 4 5 6".toList]

omit [IsStrictOrderedRing K] in
theorem meshLoop_mono (scan : List Char → Option K × List Char) (E : MeshOps K d) (k : Nat) : ∀ (n : Nat) (st : MSt K d),
    (meshLoop scan E n st).1 ≠ .error .diverge → meshLoop scan E (n + k) st = meshLoop scan E n st := by
  intro n
  induction n with
  | zero => intro st h; simp [meshLoop] at h
  | succ n ih =>
    intro st h
    rw [Nat.succ_add]
    unfold meshLoop at h ⊢
    split_ifs at h ⊢ with he
    · rfl
    · cases hm : meshStep scan E st with
      | mk r s1 =>
        rw [hm] at h
        cases r with
        | error e => rfl
        | ok b => cases b with
          | true => rfl
          | false => exact ih _ h

omit [IsStrictOrderedRing K] [LinearOrder K] [FloorRing K] in
/-- The state of the second loop after `k` passes that neither fail nor meet the end of the file. -/
def bodyAfter (scan : List Char → Option K × List Char) : Nat → BSt K d → Option (BSt K d)
  | 0, st => some st
  | k + 1, st => if st.s.eof then none else
      match bodyStep scan st with
      | (.error _, _) => none
      | (.ok _, st') => bodyAfter scan k st'

omit [IsStrictOrderedRing K] [LinearOrder K] [FloorRing K] in
theorem bodyAfter_forever (scan : List Char → Option K × List Char) (k : Nat) : ∀ st st' : BSt K d,
    bodyAfter scan k st = some st' → Stuck st'.s → kwData.isPrefixOf st'.line = false → kwScalars.isPrefixOf st'.line = false →
    ∀ fuel, (bodyLoop scan fuel st).1 = .error .diverge := by
  induction k with
  | zero => intro st st' h h1 h2 h3 fuel; simp [bodyAfter] at h; subst h; exact bodyLoop_stuck_forever scan fuel st h1 h2 h3
  | succ k ih =>
    intro st st' h h1 h2 h3 fuel
    cases fuel with
    | zero => rfl
    | succ n =>
      unfold bodyAfter at h
      unfold bodyLoop
      split_ifs at h ⊢ with he
      cases hm : bodyStep scan st with
      | mk r s1 =>
        rw [hm] at h
        cases r with
        | error e => simp at h
        | ok b => exact ih _ _ h h1 h2 h3 n

/-- Does the reader of the file, with `n` passes for the mesh, run into a stuck stream after `k` passes of the second loop? -/
def getsStuck (text : List Char) (n k : Nat) : Bool :=
  match meshLoop Demo.scanDec (quadOps ℚ).mesh n (mesh0 (ofText text) Mesh.empty) with
  | (.error _, _) => false
  | (.ok _, st) =>
    match bodyAfter Demo.scanDec k (body0 st.s { (Body.empty : Body ℚ 2) with mesh := st.mesh }) with
    | none => false
    | some st' => st'.s.fail && !st'.s.eof && !kwData.isPrefixOf st'.line && !kwScalars.isPrefixOf st'.line

theorem badText_stuck : getsStuck badText 12 3 = true := by decide +kernel

/-- **C36** (violated) On a file with a data value that is not a number, `read_vtk` does not return, whatever the number of passes
allowed. -/
theorem C36_bad_number_violated (fuel : Nat) :
    Body.readVtk Demo.scanDec (quadOps ℚ) fuel (some badText) Body.empty = .error .diverge := by
  have h := badText_stuck
  unfold getsStuck at h
  simp only [Body.readVtk, readFrom]
  have hb0 : (Body.empty : Body ℚ 2).mesh = Mesh.empty := rfl
  rw [hb0]
  cases h12 : meshLoop Demo.scanDec (quadOps ℚ).mesh 12 (mesh0 (ofText badText) Mesh.empty) with
  | mk r st =>
    rw [h12] at h
    cases r with
    | error e => simp at h
    | ok u =>
      simp only at h
      cases hba : bodyAfter Demo.scanDec 3 (body0 st.s { (Body.empty : Body ℚ 2) with mesh := st.mesh }) with
      | none => rw [hba] at h; simp at h
      | some st' =>
        rw [hba] at h
        simp only [Bool.and_eq_true, Bool.not_eq_true'] at h
        obtain ⟨⟨⟨h1, h2⟩, h3⟩, h4⟩ := h
        have hforever := bodyAfter_forever Demo.scanDec 3 _ st' hba ⟨h1, h2⟩ h3 h4
        by_cases hd : (meshLoop Demo.scanDec (quadOps ℚ).mesh fuel (mesh0 (ofText badText) Mesh.empty)).1 = .error .diverge
        · cases hf : meshLoop Demo.scanDec (quadOps ℚ).mesh fuel (mesh0 (ofText badText) Mesh.empty) with
          | mk r2 st2 => rw [hf] at hd; simp only at hd; subst hd; rfl
        · have e1 := meshLoop_mono Demo.scanDec (quadOps ℚ).mesh 12 fuel _ hd
          have e2 := meshLoop_mono Demo.scanDec (quadOps ℚ).mesh fuel 12 (mesh0 (ofText badText) Mesh.empty) (by rw [h12]; simp)
          rw [Nat.add_comm, e2, h12] at e1
          rw [← e1]
          simp only
          have := hforever fuel
          cases hbl : bodyLoop Demo.scanDec fuel (body0 st.s { (Body.empty : Body ℚ 2) with mesh := st.mesh }) with
          | mk a b => rw [hbl] at this; simp only at this; subst this; rfl

/-- **C36** (partial: the runs excluded are those of the two theorems above) Started on an opened file of `n` characters, each of the
two loops of `read_vtk` makes at most `n + 2` passes, unless the stream has failed before the end of the file. The only assumption
on the conversion of numbers is that it does not make the text longer. -/
theorem C36_terminates_partial (scan : List Char → Option K × List Char) (hscan : ∀ t, (scan t).2.length ≤ t.length)
    (E : ElemOps K d) (text : List Char) (fuel : Nat) (hf : text.length + 2 ≤ fuel)
    (hd : Body.readVtk scan E fuel (some text) Body.empty = .error .diverge) :
    ∃ s : IStream, s.fail = true ∧ s.eof = false ∧
      (s = (meshLoop scan E.mesh fuel (mesh0 (ofText text) Mesh.empty)).2.s ∨
        ∃ m s0, s = (bodyLoop scan fuel (body0 s0 (⟨m, []⟩ : Body K d))).2.s ∧
          s0 = (meshLoop scan E.mesh fuel (mesh0 (ofText text) Mesh.empty)).2.s) := by
  simp only [Body.readVtk, readFrom] at hd
  have hb0 : (Body.empty : Body K d).mesh = Mesh.empty := rfl
  rw [hb0] at hd
  have hbins : BinsOk (mesh0 (ofText text) (Mesh.empty : Mesh K d)).mesh := Or.inl rfl
  have hadv := meshLoop_adv hscan E.mesh fuel (mesh0 (ofText text) (Mesh.empty : Mesh K d))
  have hpro := meshLoop_progress hscan (exact_tame E) fuel (mesh0 (ofText text) (Mesh.empty : Mesh K d)) hbins hf
  cases hm : meshLoop scan E.mesh fuel (mesh0 (ofText text) (Mesh.empty : Mesh K d)) with
  | mk r st =>
    rw [hm] at hd hadv hpro
    cases r with
    | error e =>
      simp only [Except.error.injEq] at hd
      subst hd
      exact ⟨st.s, (hpro rfl).1, (hpro rfl).2, Or.inl rfl⟩
    | ok u =>
      simp only at hd
      have hlen : st.s.rest.length ≤ text.length := hadv.1
      have hpro2 := bodyLoop_progress hscan fuel (body0 st.s { (Body.empty : Body K d) with mesh := st.mesh })
        (show st.s.rest.length + 2 ≤ fuel by omega)
      cases hb : bodyLoop scan fuel (body0 st.s { (Body.empty : Body K d) with mesh := st.mesh }) with
      | mk r2 st2 =>
        rw [hb] at hd hpro2
        cases r2 with
        | ok u => simp at hd
        | error e =>
          simp only [Except.error.injEq] at hd
          subst hd
          refine ⟨st2.s, (hpro2 rfl).1, (hpro2 rfl).2, Or.inr ⟨st.mesh, st.s, ?_, rfl⟩⟩
          show st2.s = (bodyLoop scan fuel (body0 st.s { (Body.empty : Body K d) with mesh := st.mesh })).2.s
          rw [hb]

/-- The demo conversion never makes the text longer, and the bad file meets the hypotheses. -/
example : ∃ s : IStream, s.fail = true ∧ s.eof = false :=
  let ⟨s, h1, h2, _⟩ := C36_terminates_partial Demo.scanDec Demo.scanDec_shorter (quadOps ℚ) badText 1000 (by decide +kernel)
    (C36_bad_number_violated 1000)
  ⟨s, h1, h2⟩

end

end Verif
