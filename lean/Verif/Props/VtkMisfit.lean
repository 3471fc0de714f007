import Verif.Props.VtkCut

/-!
# Files whose parts do not fit together (C105)

A cell type that is not supported ends the program. A cell with a missing point, a field with too few values, a cell that is not a rectangle or is
listed from another corner are not noticed.
-/

namespace Verif
open Spec IStream Vtk

namespace Vtk
variable {K : Type} {d : Nat} [Field K] [LinearOrder K] [FloorRing K]

/-- The first loop gets from the POINTS line to the CELL_TYPES line. -/
theorem mesh_to_types (scan : List Char → Option K × List Char) (E : MeshOps K d) (pts : List (Fin d → K))
    (cells : List (List Nat)) (rows : List (List (List Char))) (r1 r2 xp xc r : List Char)
    (h1 : LineEnd r1) (h2 : LineEnd r2) (hrow : List.Forall₂ (PointRow scan) pts rows)
    (hxp : Layout rows.flatten xp) (hxc : Layout ((cells.flatMap fun c => c.length :: c).map dec) xc)
    (st : MSt K d) (m : Mesh K d) (hm : E.into st.mesh pts cells = .ok m)
    (hs : st.s = ofText (sectionLine "POINTS" pts.length r1 ++ xp ++ (sectionLine "CELLS" cells.length r2 ++ xc ++ r))) :
    ∃ st', st'.s = ofText r ∧ st'.mesh = m ∧ MReach scan E st st' := by
  have heof : st.s.eof = false := by rw [hs]; rfl
  obtain ⟨_, p2⟩ := points_step scan E pts rows r1 xp _ h1 hrow hxp st hs
  simp only [MeshOps.into] at hm
  obtain ⟨m1, hrp, hm⟩ := bind_eq_ok.mp hm
  obtain ⟨y1, st1, hy1, hs1, hm1, hstep1⟩ := p2 m1 hrp
  subst hm1
  obtain ⟨line1, reach2⟩ := mesh_skip_blank scan E y1 _ hy1 st1 hs1
  obtain ⟨_, q2⟩ := cells_step scan E cells r2 xc r h2 hxc
    { st1 with s := ofText (sectionLine "CELLS" cells.length r2 ++ xc ++ r), line := line1 } rfl
  obtain ⟨y2, st2, hy2, hs2, hm2, hstep2⟩ := q2 m hm
  obtain ⟨line2, reach4⟩ := mesh_skip_blank scan E y2 r hy2 st2 hs2
  exact ⟨{ st2 with s := ofText r, line := line2 }, rfl, hm2, (((MReach.step heof hstep1).trans reach2).trans (MReach.step (by rfl) hstep2)).trans reach4⟩

theorem readTypes_bad : ∀ (types : List Nat) (x : List Char) (u : Option Nat), (∃ t ∈ types, t ≠ 9 ∧ t ≠ 12) →
      Layout (types.map dec) x → ∀ r, (readTypes types.length (ofText (x ++ r)) u).1 = .error (.exit 1) := by
  intro types
  induction types with
  | nil => intro x u ht; simp at ht
  | cons t types ih =>
    intro x u ht hx r
    obtain ⟨y, hy, he⟩ := extract_layout scanNat 0 u (by simpa using hx) (denotes_dec t)
    by_cases h : t ≠ 9 ∧ t ≠ 12
    · simp only [List.length_cons, readTypes, he r, if_pos h]
    · obtain ⟨t', ht', hne⟩ := ht
      rcases List.mem_cons.mp ht' with rfl | hm
      · exact absurd hne h
      · simp only [List.length_cons, readTypes, he r, if_neg h]
        exact ih y (some t) ⟨t', hm, hne⟩ hy r

theorem types_bad (scan : List Char → Option K × List Char) (E : MeshOps K d) (types : List Nat)
    (r1 xp r : List Char) (hr : LineEnd r1) (ht : ∃ t ∈ types, t ≠ 9 ∧ t ≠ 12) (hx : Layout (types.map dec) xp)
    (st : MSt K d) (hs : st.s = ofText (sectionLine "CELL_TYPES" types.length r1 ++ xp ++ r)) :
    (meshStep scan E st).1 = .error (.exit 1) := by
  have hkw : "CELL_TYPES".toList = kwTypes := by decide
  rw [List.append_assoc, sectionLine_eq, hkw] at hs
  have hread := readTypes_bad types xp st.uli ht hx r
  have hline := getline_line (kwTypes ++ ' ' :: dec types.length ++ r1) (xp ++ r) st.line
    (section_no_newline _ _ _ (by decide) hr)
  have hpre : kwTypes.isPrefixOf (kwTypes ++ ' ' :: dec types.length ++ r1) = true := by
    rw [List.append_assoc]; exact isPrefixOf_append _ _
  have hpre1 : kwPoints.isPrefixOf (kwTypes ++ ' ' :: dec types.length ++ r1) = false := by
    simp [kwPoints, kwTypes, List.isPrefixOf]
  have hpre2 : kwCells.isPrefixOf (kwTypes ++ ' ' :: dec types.length ++ r1) = false := by
    simp [kwCells, kwTypes, List.isPrefixOf]
  have hh := hdrNat_section kwTypes types.length r1 st.ncells (by decide) (by decide) hr
  simp only [meshStep, hs, hline, hpre, hpre1, hpre2, if_true, Bool.false_eq_true, if_false, typesSection, hh]
  cases hq : readTypes types.length (ofText (xp ++ r)) st.uli with
  | mk a b =>
    rw [hq] at hread
    simp only at hread
    subst hread
    rfl

end Vtk

section
variable {K : Type} {d : Nat} [Field K] [LinearOrder K] [FloorRing K]

/-- Points and cells that can be read, and an unsupported cell type. -/
theorem bad_type (scan : List Char → Option K × List Char) (E : ElemOps K d) (pts : List (Fin d → K))
    (cells : List (List Nat)) (types : List Nat) (np : Nat) (xf text : List Char) (h : VtkFrame scan pts cells types np xf text)
    (ht : ∃ t ∈ types, t ≠ 9 ∧ t ≠ 12) (b : Body K d) (m : Mesh K d) (hm : b.mesh.readInto E pts cells = .ok m) :
    ∃ N, ∀ fuel ≥ N, Body.readVtk scan E fuel (some text) b = .error (.exit 1) := by
  obtain ⟨head, mid, r1, r2, r3, r4, rows, xp, xc, xt, hhead, hmid, h1, h2, h3, h4, hrow, hxp, hxc, htl, hxt, rfl⟩ := h
  have hk1 : "POINTS".toList = kwPoints := by decide
  have hk2 : "CELLS".toList = kwCells := by decide
  have hk3 : "CELL_TYPES".toList = kwTypes := by decide
  rw [hk1, hk2, hk3] at hhead
  generalize htxt : linesText head ++ sectionLine "POINTS" pts.length r1 ++ xp ++ sectionLine "CELLS" cells.length r2 ++ xc ++
      sectionLine "CELL_TYPES" cells.length r3 ++ xt ++ linesText mid ++ sectionLine "POINT_DATA" np r4 ++ xf = text
  have htxt' : text = linesText head ++ (sectionLine "POINTS" pts.length r1 ++ xp ++ (sectionLine "CELLS" cells.length r2 ++ xc ++
      (sectionLine "CELL_TYPES" cells.length r3 ++ xt ++ (linesText mid ++ (sectionLine "POINT_DATA" np r4 ++ xf))))) := by
    rw [← htxt]; simp [List.append_assoc]
  obtain ⟨line, k0, hk0⟩ := mesh_skip scan E.mesh _ head hhead (mesh0 (ofText text) b.mesh) (by rw [htxt']; rfl)
  obtain ⟨st', s1, _, k1, hk1'⟩ := mesh_to_types scan E.mesh pts cells rows r1 r2 xp xc _ h1 h2 hrow hxp hxc
    { mesh0 (ofText text) b.mesh with
      s := ofText (sectionLine "POINTS" pts.length r1 ++ xp ++ (sectionLine "CELLS" cells.length r2 ++ xc ++
        (sectionLine "CELL_TYPES" cells.length r3 ++ xt ++ (linesText mid ++ (sectionLine "POINT_DATA" np r4 ++ xf))))),
      line := line } m hm rfl
  rw [← htl] at s1
  have hstep := types_bad scan E.mesh types r3 xt _ h3 ht hxt st' s1
  have heof : st'.s.eof = false := by rw [s1]; rfl
  refine ⟨1 + k1 + k0, fun fuel hfu => ?_⟩
  obtain ⟨f, rfl⟩ := Nat.exists_eq_add_of_le' hfu
  simp only [Body.readVtk, readFrom]
  have e : f + (1 + k1 + k0) = f + 1 + k1 + k0 := by omega
  cases hms : meshStep scan E.mesh st' with
  | mk a s' =>
    rw [hms] at hstep
    simp only at hstep
    subst hstep
    rw [e, hk0, hk1', meshLoop_fails heof hms f]

/-! ### Node numbers without a point -/

omit [LinearOrder K] [FloorRing K] in
theorem mapRes_oob {α β : Type} {f : α → Res β} (l : List α) (h : ∀ a ∈ l, ∀ e, f a = .error e → e = .ub .oob) :
    ∀ e, mapRes f l = .error e → e = .ub .oob := by
  induction l with
  | nil => intro e he; simp [mapRes] at he
  | cons a as ih =>
    intro e he
    simp only [mapRes] at he
    cases ha : f a with
    | error e' => rw [ha] at he; simp only [err_bind, Except.error.injEq] at he; subst he; exact h a (by simp) _ ha
    | ok b =>
      rw [ha, ok_bind] at he
      cases hb : mapRes f as with
      | error e' =>
        rw [hb] at he
        simp only [err_bind, Except.error.injEq] at he
        subst he
        exact ih (fun x hx => h x (by simp [hx])) _ hb
      | ok bs => rw [hb] at he; simp [bind, Except.bind] at he

omit [LinearOrder K] [FloorRing K] in
theorem makeCell_oob (E : ElemOps K d) (node : List (Fin d → K)) (el : Nat) (cell : List Nat) (e : Err)
    (h : Mesh.makeCell E node el cell = .error e) : e = .ub .oob := by
  simp only [Mesh.makeCell] at h
  cases h1 : vget cell (E.far : Nat) with
  | error e' => rw [h1] at h; simp only [err_bind, Except.error.injEq] at h; subst h; exact vget_error h1
  | ok nf =>
    rw [h1, ok_bind] at h
    cases h2 : vget cell 0 with
    | error e' => rw [h2] at h; simp only [err_bind, Except.error.injEq] at h; subst h; exact vget_error h2
    | ok n0 =>
      rw [h2, ok_bind] at h
      cases h3 : vget node (nf : Nat) with
      | error e' => rw [h3] at h; simp only [err_bind, Except.error.injEq] at h; subst h; exact vget_error h3
      | ok pf =>
        rw [h3, ok_bind] at h
        cases h4 : vget node (n0 : Nat) with
        | error e' => rw [h4] at h; simp only [err_bind, Except.error.injEq] at h; subst h; exact vget_error h4
        | ok p0 =>
          rw [h4, ok_bind] at h
          refine mapRes_oob _ (fun j _ e' he => ?_) e h
          cases h5 : vget cell (j : Nat) with
          | error e'' => rw [h5] at he; simp only [err_bind, Except.error.injEq] at he; subst he; exact vget_error h5
          | ok nj =>
            rw [h5, ok_bind] at he
            cases h6 : vget node (nj : Nat) with
            | error e'' => rw [h6] at he; simp only [err_bind, Except.error.injEq] at he; subst he; exact vget_error h6
            | ok pj => rw [h6, ok_bind] at he; simp at he

omit [Field K] [LinearOrder K] [FloorRing K] in
theorem mapRes_ok_mem {α β : Type} {f : α → Res β} (l : List α) {bs : List β} (h : mapRes f l = .ok bs) : ∀ a ∈ l, ∃ b, f a = .ok b := by
  induction l generalizing bs with
  | nil => simp
  | cons a as ih =>
    simp only [mapRes] at h
    obtain ⟨b, hb, h⟩ := bind_eq_ok.mp h
    obtain ⟨bs', hbs, h⟩ := bind_eq_ok.mp h
    intro x hx
    rcases List.mem_cons.mp hx with rfl | hx
    · exact ⟨b, hb⟩
    · exact ih hbs x hx

omit [LinearOrder K] [FloorRing K] in
theorem makeCells_oob (E : ElemOps K d) (node : List (Fin d → K)) (cells : List (List Nat))
    (hbad : ∃ cell ∈ cells, ∃ j, j < E.corners ∧ ∀ p, cell[j]? = some p → node.length ≤ p) :
    ∀ el, Mesh.makeCells E node el cells = .error (.ub .oob) := by
  induction cells with
  | nil => simp at hbad
  | cons c cs ih =>
    intro el
    simp only [Mesh.makeCells]
    cases hc : Mesh.makeCell E node el c with
    | error e => rw [makeCell_oob E node el c e hc, err_bind]
    | ok a =>
      rw [ok_bind]
      obtain ⟨cell, hmem, j, hj, hp⟩ := hbad
      rcases List.mem_cons.mp hmem with rfl | hmem
      · exfalso
        simp only [Mesh.makeCell] at hc
        obtain ⟨_, _, hc⟩ := bind_eq_ok.mp hc
        obtain ⟨_, _, hc⟩ := bind_eq_ok.mp hc
        obtain ⟨_, _, hc⟩ := bind_eq_ok.mp hc
        obtain ⟨_, _, hc⟩ := bind_eq_ok.mp hc
        obtain ⟨x, hx⟩ := mapRes_ok_mem _ hc j (List.mem_range.mpr hj)
        obtain ⟨nj, h1, hx⟩ := bind_eq_ok.mp hx
        obtain ⟨pj, h2, _⟩ := bind_eq_ok.mp hx
        have g1 := (vget_ok.mp h1)
        have g2 := (vget_ok.mp h2).2
        have := hp nj (by simpa using g1.2)
        simp only [Int.toNat_natCast] at g2
        have := (List.getElem?_eq_some_iff.mp g2).1
        omega
      · rw [ih ⟨cell, hmem, j, hj, hp⟩, err_bind]

/-- **C105** (violated) A cell that names a point the file does not have, or too few points: reading the file is undefined (an access out of
bounds), not an error. -/
theorem C105_node_number_violated (scan : List Char → Option K × List Char) (E : ElemOps K d) (hd : 0 < d) (pts : List (Fin d → K))
    (cells : List (List Nat)) (flds : List (String × List K)) (text : List Char) (h : IsVtk scan pts cells flds text)
    (hne : pts ≠ []) (hsmall : prod (List.ofFn fun i => (nDistinct pts i : Int) + 2) ≤ 2147483647)
    (hbad : ∃ cell ∈ cells, ∃ j, j < E.corners ∧ ∀ p, cell[j]? = some p → pts.length ≤ p) :
    ∃ N, ∀ fuel ≥ N, Body.readVtk scan E fuel (some text) Body.empty = .error (.ub .oob) := by
  obtain ⟨N, hN⟩ := C35_read_into scan E pts cells flds text h Body.empty
  refine ⟨N, fun fuel hf => ?_⟩
  rw [hN fuel hf]
  obtain ⟨lo, hi, hg, hr⟩ := Mesh.readPoints_eq (K := K) (Mesh.empty) hne
  have hgd : GoodDims (List.ofFn (Mesh.gN pts)) := by
    refine ⟨?_, ?_, hsmall⟩
    · intro he
      have := congrArg List.length he
      simp at this
      omega
    · intro x hx
      obtain ⟨i, rfl⟩ := List.mem_ofFn.mp hx
      simp [Mesh.gN]; omega
  have hmk := Bin.mk'_eq (Interp K d) (min := List.ofFn (Mesh.gMin pts lo hi)) (incr := List.ofFn (Mesh.gIncr pts lo hi)) (by simp) (by simp) hgd
  rw [hmk] at hr
  simp only [Body.loadInto, Mesh.readInto, Body.empty]
  rw [hr]
  simp only [ok_bind, Mesh.readCells, Mesh.empty, List.nil_append]
  rw [makeCells_oob E pts cells hbad 0]
  rfl

variable [IsStrictOrderedRing K]

/-- **C105** (partial) A 2D mesh of rectangles with a cell type other than 9 and 12 anywhere: the program ends with status 1. -/
theorem C105_cell_type_2d_partial (scan : List Char → Option K × List Char) (pts : List (Fin 2 → K))
    (cells : List (List Nat)) (types : List Nat) (np : Nat) (xf text : List Char) (h : VtkFrame scan pts cells types np xf text)
    (hm : RectMesh quadUnit pts cells) (ht : ∃ t ∈ types, t ≠ 9 ∧ t ≠ 12) :
    ∃ N, ∀ fuel ≥ N, Body.readVtk scan (quadOps K) fuel (some text) Body.empty = .error (.exit 1) := by
  obtain ⟨m, _, _, _, h1, _⟩ := Mesh.build_of quadLaw hm
  exact bad_type scan (quadOps K) pts cells types np xf text h ht Body.empty m h1

/-- **C105** (partial) The same in 3D. -/
theorem C105_cell_type_3d_partial (scan : List Char → Option K × List Char) (pts : List (Fin 3 → K))
    (cells : List (List Nat)) (types : List Nat) (np : Nat) (xf text : List Char) (h : VtkFrame scan pts cells types np xf text)
    (hm : RectMesh hexUnit pts cells) (ht : ∃ t ∈ types, t ≠ 9 ∧ t ≠ 12) :
    ∃ N, ∀ fuel ≥ N, Body.readVtk scan (hexOps K) fuel (some text) Body.empty = .error (.exit 1) := by
  obtain ⟨m, _, _, _, h1, _⟩ := Mesh.build_of hexLaw hm
  exact bad_type scan (hexOps K) pts cells types np xf text h ht Body.empty m h1

/-! ### Fewer values than points -/

open Mesh

variable {n : Nat} {E : ElemOps K d} {unit : Fin n → Fin d → K} {R : (a h c : Fin d → K) → Prop}
variable {pts : List (Fin d → K)} {cells : List (List Nat)} {lo hi : Fin d → K} {qs : List (Interp K d)} {m : Mesh K d}

theorem addFields_any (hb : Built E unit pts cells lo hi qs m) (hne : pts ≠ []) (flds : List (String × List K)) :
    ∀ fs : List (PField K), ∃ fs', Body.addFields ⟨m, fs⟩ flds = .ok ⟨m, fs ++ fs'⟩ ∧
      List.Forall₂ (fun fl f => f.name = fl.1 ∧ f.data = fl.2 ∧ BufOk pts lo hi qs pts.length f.buf) flds fs' := by
  induction flds with
  | nil => intro fs; exact ⟨[], by simp [Body.addFields], List.Forall₂.nil⟩
  | cons fl fls ih =>
    intro fs
    obtain ⟨f, h1, h2, _⟩ := PField.make_ok hb hne fl.1 (data := List.replicate pts.length 0) (0 : K) (by simp)
    have hmk : PField.make m fl.1 fl.2 (0 : K) = .ok { f with data := fl.2 } ∧ f.name = fl.1 := by
      simp only [PField.make] at h1 ⊢
      obtain ⟨mx, hmx, h1⟩ := bind_eq_ok.mp h1
      rw [hmx, ok_bind]
      simp only [Except.ok.injEq] at h1
      subst h1
      exact ⟨rfl, rfl⟩
    obtain ⟨fs', g1, g2⟩ := ih (fs ++ [{ f with data := fl.2 }])
    refine ⟨{ f with data := fl.2 } :: fs', ?_, List.Forall₂.cons ⟨hmk.2, rfl, h2.buf⟩ g2⟩
    simp only [Body.addFields, Body.addField, hmk.1, ok_bind, g1]
    simp

omit [LinearOrder K] [FloorRing K] [IsStrictOrderedRing K] in
theorem sumLoop_oob (data : List K) (b : Buf K) (t x : Nat) (hx : b.ni[t]? = some x) (hlen : data.length ≤ x) (k : Nat) :
    ∀ i acc, i ≤ t → t < i + k → PField.sumLoop data b k i acc = .error (.ub .oob) := by
  induction k with
  | zero => intro i acc h1 h2; omega
  | succ k ih =>
    intro i acc h1 h2
    simp only [PField.sumLoop]
    cases e1 : vget b.bf (i : Nat) with
    | error e => rw [vget_error e1]; rfl
    | ok w =>
      rw [ok_bind]
      cases e2 : vget b.ni (i : Nat) with
      | error e => rw [vget_error e2]; rfl
      | ok p =>
        rw [ok_bind]
        cases e3 : vget data (p : Nat) with
        | error e => rw [vget_error e3]; rfl
        | ok v =>
          rw [ok_bind]
          by_cases hit : i = t
          · exfalso
            subst hit
            have h2' := (vget_ok.mp e2).2
            simp only [Int.toNat_natCast] at h2'
            rw [hx] at h2'
            obtain rfl := Option.some.inj h2'
            have h3' := (vget_ok.mp e3).2
            simp only [Int.toNat_natCast] at h3'
            have := (List.getElem?_eq_some_iff.mp h3').1
            omega
          · exact ih (i + 1) _ (by omega) (by omega)

/-- Summing at a point of a cell with a corner beyond the data. -/
theorem Built.short (L : ElemLaw E unit R) (hb : Built E unit pts cells lo hi qs m) {buf : Buf K} (hbuf : BufOk pts lo hi qs pts.length buf)
    (wv : Interp K d → K) {data : List K} {cell : List Nat} (hcell : cell ∈ cells) {a h c : Fin d → K} (hce : CellAt unit pts cell a h)
    (hic : InCell a h c) {p : Nat} (hp : p ∈ cell) (hlen : data.length ≤ p) (z : K) :
    ∃ s m' b', fill E (fun q => .ok (wv q)) m c buf = (.ok s, m', b') ∧ PField.sumLoop data b' s 0 z = .error (.ub .oob) := by
  have hbin := hb.inBins_of_inCell L hce hic
  obtain ⟨m', hf, _, _⟩ := fill_in hb hbuf wv hbin
  refine ⟨_, m', _, hf, ?_⟩
  obtain ⟨q, _, _, _, _, hq, _⟩ := hb.found L ⟨cell, hcell, a, h, hce, hic⟩
  obtain ⟨e, hlt, he⟩ := List.mem_iff_getElem.mp hcell
  have he' : cells[e]? = some cell := by rw [List.getElem?_eq_getElem hlt, he]
  have hfil := hb.filter_el L he' hce (binAt pts lo hi c)
  rw [if_pos (hb.between_of_inCell hic)] at hfil
  obtain ⟨j, hj, hpj⟩ := List.mem_iff_getElem.mp hp
  have hjn : j < n := by rw [← hce.1]; exact hj
  have hmem : E.make p e (cornerPos a h (unit ⟨j, hjn⟩)) h j ∈ inBin pts lo hi qs (binAt pts lo hi c) := by
    apply List.mem_of_mem_filter (p := fun q => decide (q.element = e))
    rw [hfil]
    refine List.mem_ofFn.mpr ⟨⟨j, hjn⟩, ?_⟩
    simp [hj, hpj]
  obtain ⟨t, ht, hte⟩ := List.mem_iff_getElem.mp hmem
  refine sumLoop_oob data _ t p ?_ hlen _ 0 z (Nat.zero_le _) (by simpa using ht)
  simp only [after, hq]
  rw [List.getElem?_append_left (by simpa using ht), List.getElem?_map, List.getElem?_eq_getElem ht, hte]
  simp [L.node]

theorem few_values (L : ElemLaw E unit R) (T : PField.ElemTotal E) (hm : RectMesh unit pts cells) (flds : List (String × List K)) :
    ∃ b, Body.loadInto E Body.empty pts cells flds = .ok b ∧ b.fields.map (fun f => (f.name, f.data)) = flds ∧
      ∀ cell ∈ cells, ∀ a h c, CellAt unit pts cell a h → InCell a h c → ∀ i fl, flds[i]? = some fl → (∃ p ∈ cell, fl.2.length ≤ p) →
        Body.value E b i c = .error (.ub .oob) ∧ (∀ di, di < d → Body.grad E b i c di = .error (.ub .oob)) ∧
        ∀ di dj, di < d → dj < d → Body.hess E b i c di dj = .error (.ub .oob) := by
  obtain ⟨m, lo, hi, qs, h1, hb⟩ := build_of L hm
  obtain ⟨c0, hc0⟩ := List.exists_mem_of_ne_nil cells hm.nonempty
  obtain ⟨a0, h0, hah0⟩ := hm.rect c0 hc0
  have hne : pts ≠ [] := List.ne_nil_of_mem (cellAt_mem L hah0).1
  obtain ⟨fs, g1, g2⟩ := addFields_any hb hne flds []
  refine ⟨⟨m, fs⟩, ?_, ?_, ?_⟩
  · have : Mesh.readInto E (Mesh.empty) pts cells = .ok m := h1
    simp only [Body.loadInto, Body.empty, this, ok_bind]
    exact g1
  · clear g1
    induction g2 with
    | nil => rfl
    | cons hd _ ih => simp only [List.map_cons, hd.1, hd.2.1, ih]
  · intro cell hcell a h c hce hic i fl hfl ⟨p, hp, hlen⟩
    obtain ⟨hi1, hfl'⟩ := List.getElem?_eq_some_iff.mp hfl
    have hi2 : i < fs.length := by rw [← g2.length_eq]; exact hi1
    have hff := g2.get hi1 hi2
    simp only [List.get_eq_getElem] at hff
    rw [hfl'] at hff
    have hfi : fs[i]? = some fs[i] := List.getElem?_eq_getElem hi2
    refine ⟨?_, ?_, ?_⟩
    · obtain ⟨g, hg⟩ := T.value c
      obtain ⟨s, m', b', k1, k2⟩ := Built.short L hb hff.2.2 g hcell hce hic hp hlen (fs[i]).zero
      simp only [Body.value, hfi, PField.value, basisFunctions, hg, k1, hff.2.1, k2]
    · intro di hdi
      obtain ⟨g, hg⟩ := T.grad c ⟨di, hdi⟩
      obtain ⟨s, m', b', k1, k2⟩ := Built.short L hb hff.2.2 g hcell hce hic hp hlen (fs[i]).zero
      simp only at hg
      simp only [Body.grad, hfi, PField.gradAt, gradBasisFunctions, hg, k1, hff.2.1, k2]
    · intro di dj hdi hdj
      obtain ⟨g, hg⟩ := T.hess c ⟨di, hdi⟩ ⟨dj, hdj⟩
      obtain ⟨s, m', b', k1, k2⟩ := Built.short L hb hff.2.2 g hcell hce hic hp hlen (fs[i]).zero
      simp only at hg
      simp only [Body.hess, hfi, PField.hessAt, hessBasisFunctions, hg, k1, hff.2.1, k2]

/-- **C105** (violated) A POINT_DATA section with fewer values than there are points (`np`, with the announced number of values in every
field): the file is read without an error, and evaluating any field, value or derivative, at any point of a cell with a corner numbered `np`
or more is undefined. 2D. -/
theorem C105_few_values_2d_violated (scan : List Char → Option K × List Char) (pts : List (Fin 2 → K))
    (cells : List (List Nat)) (types : List Nat) (np : Nat) (flds : List (String × List K)) (xf text : List Char)
    (h : VtkFrame scan pts cells types np xf text) (ht : ∀ t ∈ types, t = 9 ∨ t = 12) (hf : FieldsText scan np flds xf)
    (hm : RectMesh quadUnit pts cells) :
    ∃ b N, (∀ fuel ≥ N, Body.readVtk scan (quadOps K) fuel (some text) Body.empty = .ok b) ∧
      b.fields.map (fun f => (f.name, f.data)) = flds ∧
      ∀ cell ∈ cells, ∀ a h c, CellAt quadUnit pts cell a h → InCell a h c → (∃ p ∈ cell, np ≤ p) → ∀ i < flds.length,
        Body.value (quadOps K) b i c = .error (.ub .oob) ∧ (∀ di, di < 2 → Body.grad (quadOps K) b i c di = .error (.ub .oob)) ∧
        ∀ di dj, di < 2 → dj < 2 → Body.hess (quadOps K) b i c di dj = .error (.ub .oob) := by
  obtain ⟨b, e1, e2, e3⟩ := few_values quadLaw quadTotal hm flds
  obtain ⟨N, hN⟩ := read_frame scan (quadOps K) pts cells types np flds xf text h ht (fields_loop scan np flds xf hf) Body.empty
  refine ⟨b, N, fun fuel hfu => by rw [hN fuel hfu, e1], e2, fun cell hcell a h c hce hic ⟨p, hp, hl⟩ i hi => ?_⟩
  refine e3 cell hcell a h c hce hic i flds[i] (List.getElem?_eq_getElem hi) ⟨p, hp, ?_⟩
  rw [fieldsText_len hf _ (List.getElem_mem hi)]
  exact hl

/-- **C105** (violated) The same in 3D. -/
theorem C105_few_values_3d_violated (scan : List Char → Option K × List Char) (pts : List (Fin 3 → K))
    (cells : List (List Nat)) (types : List Nat) (np : Nat) (flds : List (String × List K)) (xf text : List Char)
    (h : VtkFrame scan pts cells types np xf text) (ht : ∀ t ∈ types, t = 9 ∨ t = 12) (hf : FieldsText scan np flds xf)
    (hm : RectMesh hexUnit pts cells) :
    ∃ b N, (∀ fuel ≥ N, Body.readVtk scan (hexOps K) fuel (some text) Body.empty = .ok b) ∧
      b.fields.map (fun f => (f.name, f.data)) = flds ∧
      ∀ cell ∈ cells, ∀ a h c, CellAt hexUnit pts cell a h → InCell a h c → (∃ p ∈ cell, np ≤ p) → ∀ i < flds.length,
        Body.value (hexOps K) b i c = .error (.ub .oob) ∧ (∀ di, di < 3 → Body.grad (hexOps K) b i c di = .error (.ub .oob)) ∧
        ∀ di dj, di < 3 → dj < 3 → Body.hess (hexOps K) b i c di dj = .error (.ub .oob) := by
  obtain ⟨b, e1, e2, e3⟩ := few_values hexLaw hexTotal hm flds
  obtain ⟨N, hN⟩ := read_frame scan (hexOps K) pts cells types np flds xf text h ht (fields_loop scan np flds xf hf) Body.empty
  refine ⟨b, N, fun fuel hfu => by rw [hN fuel hfu, e1], e2, fun cell hcell a h c hce hic ⟨p, hp, hl⟩ i hi => ?_⟩
  refine e3 cell hcell a h c hce hic i flds[i] (List.getElem?_eq_getElem hi) ⟨p, hp, ?_⟩
  rw [fieldsText_len hf _ (List.getElem_mem hi)]
  exact hl

end
/-! ### Examples -/

namespace Demo

/-- The demo file with the given cell types, number of values, and text of the fields. -/
def frameText (types : List Nat) (np : Nat) (xf : List Char) : List Char :=
  linesText ["# vtk DataFile Version 3.0".toList, "ASCII".toList] ++ sectionLine "POINTS" 6 " double".toList ++ lay rows.flatten
    ++ sectionLine "CELLS" 2 " 10".toList ++ lay ((cells.flatMap fun c => c.length :: c).map dec)
    ++ sectionLine "CELL_TYPES" 2 [] ++ lay (types.map dec) ++ linesText [[]] ++ sectionLine "POINT_DATA" np [] ++ xf

theorem isFrame (types : List Nat) (ht : types.length = 2) (np : Nat) (xf : List Char) :
    VtkFrame scanDec pts cells types np xf (frameText types np xf) := by
  refine ⟨["# vtk DataFile Version 3.0".toList, "ASCII".toList], [[]], " double".toList, " 10".toList, [], [], rows,
    _, _, _, ?_, ?_, ⟨by decide, Or.inr (startsBlank_space _)⟩, ⟨by decide, Or.inr (startsBlank_space _)⟩,
    ⟨by decide, Or.inl rfl⟩, ⟨by decide, Or.inl rfl⟩, rows_ok, layout_lay _, layout_lay _, ht, layout_lay _, rfl⟩
  · exact decP _ _ (by decide)
  · exact decP _ _ (by decide)

/-- Five values for the six points. -/
def fiveText : List Char :=
  "SCALARS".toList ++ ' ' :: "u".toList ++ " double 1".toList ++ ['\n'] ++ ("LOOKUP_TABLE default".toList ++ ['\n'])
    ++ lay ([1, 2, 3, 4, 5].map dec) ++ []

theorem five_ok : FieldsText scanDec 5 [("u", [1, 2, 3, 4, 5])] fiveText := by
  have e1 : ([1, 2, 3, 4, 5] : List ℚ) = ([1, 2, 3, 4, 5] : List Nat).map fun n : Nat => (n : ℚ) := by norm_num
  unfold fiveText
  rw [e1]
  exact .cons "u" _ _ _ _ _ _ _ (by decide) (by decide) ⟨by decide, Or.inr (startsBlank_space _)⟩ (by decide) rfl
    (nums_ok _) (layout_lay _) (.nil [] (by simp))

/-- A file with one cell, with points of natural numbers, and one field. -/
def quadText (ps : List (Nat × Nat)) (cell : List Nat) (vals : List Nat) : List Char :=
  linesText [] ++ sectionLine "POINTS" ps.length [] ++ lay (ps.map fun p => [dec p.1, dec p.2, dec 0]).flatten
    ++ sectionLine "CELLS" 1 [] ++ lay (([cell].flatMap fun c => c.length :: c).map dec)
    ++ sectionLine "CELL_TYPES" 1 [] ++ lay ([9].map dec) ++ linesText [] ++ sectionLine "POINT_DATA" ps.length [] ++
    ("SCALARS".toList ++ ' ' :: "u".toList ++ [] ++ ['\n'] ++ ("LOOKUP_TABLE default".toList ++ ['\n']) ++ lay (vals.map dec) ++ [])

/-- The points of such a file. -/
def quadPts (ps : List (Nat × Nat)) : List (Fin 2 → ℚ) := ps.map fun p => ![(p.1 : ℚ), (p.2 : ℚ)]

theorem isQuad (ps : List (Nat × Nat)) (cell : List Nat) (vals : List Nat) (hv : vals.length = ps.length) :
    IsVtk scanDec (quadPts ps) [cell] [("u", vals.map fun n : Nat => (n : ℚ))] (quadText ps cell vals) := by
  refine ⟨[], [], [], [], [], [], ps.map fun p => [dec p.1, dec p.2, dec 0], [9],
    _, _, _, _, by simp, by simp, ⟨by decide, Or.inl rfl⟩, ⟨by decide, Or.inl rfl⟩,
    ⟨by decide, Or.inl rfl⟩, ⟨by decide, Or.inl rfl⟩, ?_, layout_lay _, layout_lay _, rfl, by decide, layout_lay _,
    .cons "u" _ [] [] "LOOKUP_TABLE default".toList _ _ [] (by decide) (by decide) ⟨by decide, Or.inl rfl⟩ (by decide) (by simp [quadPts, hv])
      (nums_ok _) (layout_lay _) (.nil [] (by simp)), ?_⟩
  · rw [quadPts, List.forall₂_map_left_iff, List.forall₂_map_right_iff]
    exact List.forall₂_same.mpr fun p _ => row_ok p.1 p.2
  · simp [quadText, quadPts]

end Demo

/-- A cell type that is not supported (5, a triangle): the program ends with status 1. -/
example : ∃ N, ∀ fuel ≥ N, Body.readVtk Demo.scanDec (quadOps ℚ) fuel (some (Demo.frameText [9, 5] 6 [])) Body.empty = .error (.exit 1) :=
  C105_cell_type_2d_partial Demo.scanDec Demo.pts Demo.cells [9, 5] 6 [] _ (Demo.isFrame _ rfl _ _) Demo.rect ⟨5, by simp, by decide, by decide⟩

/-- Five values for six points: read, and undefined at every point of the second cell. -/
example : ∃ b N, (∀ fuel ≥ N, Body.readVtk Demo.scanDec (quadOps ℚ) fuel (some (Demo.frameText [9, 9] 5 Demo.fiveText)) Body.empty = .ok b) ∧
    Body.value (quadOps ℚ) b 0 ![2, 1 / 2] = .error (.ub .oob) := by
  obtain ⟨b, N, h1, _, h3⟩ := C105_few_values_2d_violated Demo.scanDec Demo.pts Demo.cells [9, 9] 5 _ _ _ (Demo.isFrame _ rfl _ _) (by decide)
    Demo.five_ok Demo.rect
  refine ⟨b, N, h1, (h3 [1, 2, 5, 4] (by decide) _ _ ![2, 1 / 2] Demo.cell1 ?_ ⟨5, by decide, by decide⟩ 0 (by decide)).1⟩
  intro i
  fin_cases i <;> norm_num

/-- A cell that names point 7 of 4. -/
example : ∃ N, ∀ fuel ≥ N, Body.readVtk Demo.scanDec (quadOps ℚ) fuel
    (some (Demo.quadText [(0, 0), (1, 0), (1, 1), (0, 1)] [0, 1, 7, 3] [1, 2, 3, 4])) Body.empty = .error (.ub .oob) :=
  C105_node_number_violated Demo.scanDec (quadOps ℚ) (by decide) _ _ _ _ (Demo.isQuad [(0, 0), (1, 0), (1, 1), (0, 1)] [0, 1, 7, 3] [1, 2, 3, 4] rfl)
    (by simp [Demo.quadPts]) (by decide +kernel) ⟨[0, 1, 7, 3], by simp, 2, by decide, by
      intro p hp; simp at hp; subst hp; simp [Demo.quadPts]⟩

/-- **C105** (violated) A cell that is not a rectangle is read as one: the value at the second node of this sheared cell, whose data value is 2,
is 11/5. -/
theorem C105_sheared_violated :
    ∃ b N, (∀ fuel ≥ N, Body.readVtk Demo.scanDec (quadOps ℚ) fuel
      (some (Demo.quadText [(0, 0), (4, 0), (5, 4), (1, 4)] [0, 1, 2, 3] [1, 2, 3, 4])) Body.empty = .ok b) ∧
      (Demo.quadPts [(0, 0), (4, 0), (5, 4), (1, 4)])[1]? = some ![4, 0] ∧ Body.value (quadOps ℚ) b 0 ![4, 0] = .ok (11 / 5) := by
  have h : (match Body.load (quadOps ℚ) (Demo.quadPts [(0, 0), (4, 0), (5, 4), (1, 4)]) [[0, 1, 2, 3]]
      [("u", [1, 2, 3, 4].map fun n : Nat => (n : ℚ))] with
        | .ok b => Body.value (quadOps ℚ) b 0 ![4, 0] | .error e => .error e) = .ok (11 / 5) := by decide +kernel
  obtain ⟨N, hN⟩ := C35_read_is_load Demo.scanDec (quadOps ℚ) _ _ _ _
    (Demo.isQuad [(0, 0), (4, 0), (5, 4), (1, 4)] [0, 1, 2, 3] [1, 2, 3, 4] rfl)
  cases hb : Body.load (quadOps ℚ) (Demo.quadPts [(0, 0), (4, 0), (5, 4), (1, 4)]) [[0, 1, 2, 3]]
      [("u", [1, 2, 3, 4].map fun n : Nat => (n : ℚ))] with
  | error e => rw [hb] at h; simp at h
  | ok b =>
    rw [hb] at h
    exact ⟨b, N, fun fuel hf => by rw [hN fuel hf, hb], by decide +kernel, h⟩

/-- **C105** (violated) The unit square, listed counterclockwise as vtk requires but from its second corner on: reading it is undefined. Listed
clockwise it is refused. -/
theorem C105_orientation_violated :
    (∃ N, ∀ fuel ≥ N, Body.readVtk Demo.scanDec (quadOps ℚ) fuel
      (some (Demo.quadText [(0, 0), (1, 0), (1, 1), (0, 1)] [1, 2, 3, 0] [1, 2, 3, 4])) Body.empty = .error (.ub .oob)) ∧
    ∃ N, ∀ fuel ≥ N, Body.readVtk Demo.scanDec (quadOps ℚ) fuel
      (some (Demo.quadText [(0, 0), (1, 0), (1, 1), (0, 1)] [0, 3, 2, 1] [1, 2, 3, 4])) Body.empty = .error .domainError := by
  constructor
  · have h : (match Body.load (quadOps ℚ) (Demo.quadPts [(0, 0), (1, 0), (1, 1), (0, 1)]) [[1, 2, 3, 0]]
        [("u", [1, 2, 3, 4].map fun n : Nat => (n : ℚ))] with | .ok _ => .ok () | .error e => .error e : Res Unit) = .error (.ub .oob) := by
      decide +kernel
    obtain ⟨N, hN⟩ := C35_read_is_load Demo.scanDec (quadOps ℚ) _ _ _ _
      (Demo.isQuad [(0, 0), (1, 0), (1, 1), (0, 1)] [1, 2, 3, 0] [1, 2, 3, 4] rfl)
    refine ⟨N, fun fuel hf => ?_⟩
    rw [hN fuel hf]
    cases hb : Body.load (quadOps ℚ) (Demo.quadPts [(0, 0), (1, 0), (1, 1), (0, 1)]) [[1, 2, 3, 0]]
        [("u", [1, 2, 3, 4].map fun n : Nat => (n : ℚ))] with
    | error e => rw [hb] at h; simpa using h
    | ok b => rw [hb] at h; simp at h
  · have h : (match Body.load (quadOps ℚ) (Demo.quadPts [(0, 0), (1, 0), (1, 1), (0, 1)]) [[0, 3, 2, 1]]
        [("u", [1, 2, 3, 4].map fun n : Nat => (n : ℚ))] with | .ok _ => .ok () | .error e => .error e : Res Unit) = .error .domainError := by
      decide +kernel
    obtain ⟨N, hN⟩ := C35_read_is_load Demo.scanDec (quadOps ℚ) _ _ _ _
      (Demo.isQuad [(0, 0), (1, 0), (1, 1), (0, 1)] [0, 3, 2, 1] [1, 2, 3, 4] rfl)
    refine ⟨N, fun fuel hf => ?_⟩
    rw [hN fuel hf]
    cases hb : Body.load (quadOps ℚ) (Demo.quadPts [(0, 0), (1, 0), (1, 1), (0, 1)]) [[0, 3, 2, 1]]
        [("u", [1, 2, 3, 4].map fun n : Nat => (n : ℚ))] with
    | error e => rw [hb] at h; simpa using h
    | ok b => rw [hb] at h; simp at h

/-- **C105** (violated) A number of values that is not a number (`POINT_DATA n`) is taken for 0: the file is read, the field has no values, and every
evaluation in the cell is an access out of bounds. -/
theorem C105_count_violated :
    ∃ fuel b, Body.readVtk Demo.scanDec (quadOps ℚ) fuel (some (linesText
      (["POINTS 4 double", "0 0 0  1 0 0  1 1 0  0 1 0", "CELLS 1 5", "4 0 1 2 3", "CELL_TYPES 1", "9", "POINT_DATA n", "SCALARS u double 1", "LOOKUP_TABLE default",
        "5 6 7 8"].map String.toList))) Body.empty = .ok b ∧ b.fields.map (fun f => (f.name, f.data)) = [("u", [])] ∧
      Body.value (quadOps ℚ) b 0 ![1 / 2, 1 / 2] = .error (.ub .oob) := by
  have h : (match Body.readVtk Demo.scanDec (quadOps ℚ) 100 (some (linesText
      (["POINTS 4 double", "0 0 0  1 0 0  1 1 0  0 1 0", "CELLS 1 5", "4 0 1 2 3", "CELL_TYPES 1", "9", "POINT_DATA n", "SCALARS u double 1", "LOOKUP_TABLE default",
        "5 6 7 8"].map String.toList))) Body.empty with
      | .ok b => .ok (b.fields.map (fun f => (f.name, f.data)), Body.value (quadOps ℚ) b 0 ![1 / 2, 1 / 2])
      | .error e => .error e : Res _) = .ok ([("u", [])], .error (.ub .oob)) := by decide +kernel
  cases hb : Body.readVtk Demo.scanDec (quadOps ℚ) 100 (some (linesText
      (["POINTS 4 double", "0 0 0  1 0 0  1 1 0  0 1 0", "CELLS 1 5", "4 0 1 2 3", "CELL_TYPES 1", "9", "POINT_DATA n", "SCALARS u double 1", "LOOKUP_TABLE default",
        "5 6 7 8"].map String.toList))) Body.empty with
  | error e => rw [hb] at h; simp at h
  | ok b =>
    rw [hb] at h
    simp only [Except.ok.injEq, Prod.mk.injEq] at h
    exact ⟨100, b, hb, h.1, h.2⟩

end Verif
