import Verif.Lemmas.Reread
import Verif.Props.Vtk
import Verif.Props.FieldState

/-!
# Reading a second file into a body (C90)
-/

namespace Verif
open Spec Bin Mesh PField Body

variable {K : Type} [Field K] [LinearOrder K] [FloorRing K]

/-- **C90** (what does hold) Reading a further file into a body in any state, when it succeeds, appends the points and the fields of the file
(names and values as in the file) to those of the body, keeps the fields of the body as they are, and with a name in both the field found is
the earlier one. Missing: the fields do not compute what they should afterwards (`C90_same_file_violated`, `C90_other_file_violated`,
`C90_old_field_violated`). -/
theorem C90_appends_partial {d : Nat} (scan : List Char → Option K × List Char) (E : ElemOps K d) (pts : List (Fin d → K))
    (cells : List (List Nat)) (flds : List (String × List K)) (text : List Char) (h : IsVtk scan pts cells flds text) (b : Body K d) :
    ∃ N, ∀ fuel ≥ N, ∀ b', Body.readVtk scan E fuel (some text) b = .ok b' →
      b'.mesh.node = b.mesh.node ++ pts ∧
      b'.fields.take b.fields.length = b.fields ∧
      (b'.fields.drop b.fields.length).map (fun f => (f.name, f.data)) = flds ∧
      ∀ name i, b.findScalarField name = .ok i → b'.findScalarField name = .ok i := by
  obtain ⟨N, hN⟩ := C35_read_into scan E pts cells flds text h b
  refine ⟨N, fun fuel hf b' hb' => ?_⟩
  rw [hN fuel hf] at hb'
  obtain ⟨m, h1, h2⟩ := bind_eq_ok.mp hb'
  obtain ⟨e1, new, e2, e3⟩ := addFields_spec h2
  obtain ⟨m1, h3, h4⟩ := bind_eq_ok.mp h1
  obtain ⟨axes, h5, h6⟩ := bind_eq_ok.mp h3
  obtain ⟨bin, h7, h8⟩ := bind_eq_ok.mp h6
  cases h8
  obtain ⟨ne, h9, h10⟩ := bind_eq_ok.mp h4
  obtain ⟨bin', h11, h12⟩ := bind_eq_ok.mp h10
  cases h12
  simp only at e1 e2
  refine ⟨by rw [e1], by rw [e2]; simp, by rw [e2]; simpa using e3, ?_⟩
  have key : ∀ (name : String) (l l' : List (PField K)) (k i : Nat), findLoop name l k = .ok i → findLoop name (l ++ l') k = .ok i := by
    intro name l l'
    induction l with
    | nil => intro k i hk; simp [findLoop] at hk
    | cons f fs ih =>
      intro k i hk
      simp only [findLoop, List.cons_append] at hk ⊢
      split_ifs at hk ⊢ with hn
      · exact hk
      · exact ih _ _ hk
  intro name i hi
  unfold findScalarField at hi ⊢
  rw [e2]
  exact key name _ _ 0 i hi

variable [IsStrictOrderedRing K]

/-- **C90** (violated, 2D: for every mesh, field and point) Reading the same file twice into a body: every field of the second reading is at
every point of the body twice the field of the file. (Cells of both readings have the same numbers, so the weights of both are summed.) -/
theorem C90_same_file_violated (scan : List Char → Option K × List Char) (pts : List (Fin 2 → K)) (cells : List (List Nat))
    (flds : List (String × List K)) (text : List Char) (h : IsVtk scan pts cells flds text) (hm : RectMesh quadUnit pts cells) :
    ∃ N b b2, (∀ fuel ≥ N, Body.readVtk scan (quadOps K) fuel (some text) Body.empty = .ok b ∧
        Body.readVtk scan (quadOps K) fuel (some text) b = .ok b2) ∧
      b2.fields.map (fun f => (f.name, f.data)) = flds ++ flds ∧
      ∀ i, i < flds.length → ∀ c, Covered quadUnit pts cells c →
        ∃ v, b.value (quadOps K) i c = .ok v ∧ b2.value (quadOps K) (flds.length + i) c = .ok (2 * v) := by
  obtain ⟨N1, h1⟩ := C35_read_is_load scan (quadOps K) pts cells flds text h
  obtain ⟨b, lo, hi, qs, hb, _⟩ := load_ok quadLaw hm (isVtk_len h)
  obtain ⟨b2, e1, _, e3, e4⟩ := loadInto_twice quadLaw quadTotal hm (isVtk_len h) hb
  obtain ⟨N2, h2⟩ := C35_read_into scan (quadOps K) pts cells flds text h b
  exact ⟨N1 + N2, b, b2, fun fuel hf => ⟨by rw [h1 fuel (by omega), hb], by rw [h2 fuel (by omega), e1]⟩, e3, e4⟩

/-- **C90** (violated, 3D) The same for bodies of hexahedra. -/
theorem C90_same_file_3d_violated (scan : List Char → Option K × List Char) (pts : List (Fin 3 → K)) (cells : List (List Nat))
    (flds : List (String × List K)) (text : List Char) (h : IsVtk scan pts cells flds text) (hm : RectMesh hexUnit pts cells) :
    ∃ N b b2, (∀ fuel ≥ N, Body.readVtk scan (hexOps K) fuel (some text) Body.empty = .ok b ∧
        Body.readVtk scan (hexOps K) fuel (some text) b = .ok b2) ∧
      b2.fields.map (fun f => (f.name, f.data)) = flds ++ flds ∧
      ∀ i, i < flds.length → ∀ c, Covered hexUnit pts cells c →
        ∃ v, b.value (hexOps K) i c = .ok v ∧ b2.value (hexOps K) (flds.length + i) c = .ok (2 * v) := by
  obtain ⟨N1, h1⟩ := C35_read_is_load scan (hexOps K) pts cells flds text h
  obtain ⟨b, lo, hi, qs, hb, _⟩ := load_ok hexLaw hm (isVtk_len h)
  obtain ⟨b2, e1, _, e3, e4⟩ := loadInto_twice hexLaw hexTotal hm (isVtk_len h) hb
  obtain ⟨N2, h2⟩ := C35_read_into scan (hexOps K) pts cells flds text h b
  exact ⟨N1 + N2, b, b2, fun fuel hf => ⟨by rw [h1 fuel (by omega), hb], by rw [h2 fuel (by omega), e1]⟩, e3, e4⟩

/-- The demo file and its two fields meet the hypotheses: `u` is 5 at the node `(1,1)` after the first reading and 10 after the second. -/
example : ∃ N b b2, (∀ fuel ≥ N, Body.readVtk Demo.scanDec (quadOps ℚ) fuel (some Demo.vtkText) Body.empty = .ok b ∧
      Body.readVtk Demo.scanDec (quadOps ℚ) fuel (some Demo.vtkText) b = .ok b2) ∧
    b2.fields.map (fun f => (f.name, f.data)) = Demo.flds ++ Demo.flds ∧
    b.value (quadOps ℚ) 0 ![1, 1] = .ok 5 ∧ b2.value (quadOps ℚ) 2 ![1, 1] = .ok 10 := by
  obtain ⟨N, b, b2, h1, h2, h3⟩ := C90_same_file_violated Demo.scanDec _ _ _ _ Demo.isVtk Demo.rect
  refine ⟨N, b, b2, h1, h2, ?_⟩
  obtain ⟨v, k1, k2⟩ := h3 0 (by decide) ![1, 1] ⟨_, by simp [Demo.cells], _, _, Demo.cell0, by intro i; fin_cases i <;> decide +kernel⟩
  obtain ⟨N', hN'⟩ := C35_read_is_load Demo.scanDec (quadOps ℚ) _ _ _ _ Demo.isVtk
  have hb : Body.load (quadOps ℚ) Demo.pts Demo.cells Demo.flds = .ok b := by
    rw [← hN' (N + N') (by omega)]; exact (h1 (N + N') (by omega)).1
  have hv : (Body.load (quadOps ℚ) Demo.pts Demo.cells Demo.flds >>= fun b => b.value (quadOps ℚ) 0 ![1, 1]) = .ok 5 := by
    decide +kernel
  rw [hb] at hv
  have e : v = 5 := by
    have : b.value (quadOps ℚ) 0 ![1, 1] = .ok 5 := hv
    rw [k1] at this; exact Except.ok.inj this
  subst e
  have e2 : (2 : ℚ) * 5 = 10 := by norm_num
  rw [e2] at k2
  exact ⟨k1, k2⟩

/-- **C90** (violated) A view of a field taken before the second reading is no longer usable: its buffers have the size of the old bins. The
demo file is read twice; evaluating `u` of the first reading at the node `(1,1)` accesses memory outside the buffers. -/
theorem C90_old_field_violated : ∃ b b2, Body.load (quadOps ℚ) Demo.pts Demo.cells Demo.flds = .ok b ∧
    b.value (quadOps ℚ) 0 ![1, 1] = .ok 5 ∧ b.loadInto (quadOps ℚ) Demo.pts Demo.cells Demo.flds = .ok b2 ∧
    b2.findScalarField "u" = .ok 0 ∧ b2.value (quadOps ℚ) 0 ![1, 1] = .error (.ub .oob) := by
  obtain ⟨b, lo, hi, qs, hb, _⟩ := load_ok quadLaw Demo.rect Demo.lens
  obtain ⟨b2, e1, _⟩ := loadInto_twice quadLaw quadTotal Demo.rect Demo.lens hb
  have hv : (Body.load (quadOps ℚ) Demo.pts Demo.cells Demo.flds >>= fun b => b.value (quadOps ℚ) 0 ![1, 1]) = .ok 5 := by
    decide +kernel
  have hv2 : (Body.load (quadOps ℚ) Demo.pts Demo.cells Demo.flds >>= fun b =>
      b.loadInto (quadOps ℚ) Demo.pts Demo.cells Demo.flds >>= fun b2 => b2.value (quadOps ℚ) 0 ![1, 1]) = .error (.ub .oob) := by
    decide +kernel
  have hv3 : (Body.load (quadOps ℚ) Demo.pts Demo.cells Demo.flds >>= fun b =>
      b.loadInto (quadOps ℚ) Demo.pts Demo.cells Demo.flds >>= fun b2 => b2.findScalarField "u") = .ok 0 := by
    decide +kernel
  rw [hb, ok_bind] at hv hv2 hv3
  rw [e1, ok_bind] at hv2 hv3
  exact ⟨b, b2, hb, hv, e1, hv3, hv2⟩

/-- **C90** (violated) The cells of the second file are placed at the points of the first. A unit square is read, then a square of side 2 with
a field that is 1 at its four corners: the field is 0 at `(1.5, 1.5)`, a point of the second square, and 2 at `(0.5, 0.5)`. -/
theorem C90_other_file_violated :
    let small : List (Fin 2 → ℚ) := [![0, 0], ![1, 0], ![1, 1], ![0, 1]]
    let large : List (Fin 2 → ℚ) := [![0, 0], ![2, 0], ![2, 2], ![0, 2]]
    RectMesh quadUnit small [[0, 1, 2, 3]] ∧ RectMesh quadUnit large [[0, 1, 2, 3]] ∧
    Covered quadUnit large [[0, 1, 2, 3]] ![3 / 2, 3 / 2] ∧
    (Body.load (quadOps ℚ) small [[0, 1, 2, 3]] [] >>= fun b => b.loadInto (quadOps ℚ) large [[0, 1, 2, 3]] [("w", [1, 1, 1, 1])] >>= fun b2 =>
      b2.value (quadOps ℚ) 0 ![3 / 2, 3 / 2]) = .ok 0 ∧
    (Body.load (quadOps ℚ) small [[0, 1, 2, 3]] [] >>= fun b => b.loadInto (quadOps ℚ) large [[0, 1, 2, 3]] [("w", [1, 1, 1, 1])] >>= fun b2 =>
      b2.value (quadOps ℚ) 0 ![1 / 2, 1 / 2]) = .ok 2 := by
  intro small large
  have cell : ∀ s : ℚ, 0 < s → CellAt quadUnit ([![0, 0], ![s, 0], ![s, s], ![0, s]] : List (Fin 2 → ℚ)) [0, 1, 2, 3] ![0, 0] ![s, s] := by
    intro s hs
    refine ⟨rfl, by intro i; fin_cases i <;> simpa, ?_⟩
    intro j
    fin_cases j
    · exact ⟨0, rfl, by simp [cornerPos, quadUnit]; funext i; fin_cases i <;> simp [cornerPos]⟩
    · exact ⟨1, rfl, by simp [cornerPos, quadUnit]; funext i; fin_cases i <;> simp [cornerPos]⟩
    · exact ⟨2, rfl, by simp [cornerPos, quadUnit]; funext i; fin_cases i <;> simp [cornerPos]⟩
    · exact ⟨3, rfl, by simp [cornerPos, quadUnit]; funext i; fin_cases i <;> simp [cornerPos]⟩
  refine ⟨⟨by simp, ?_, by decide +kernel⟩, ⟨by simp, ?_, by decide +kernel⟩, ?_, by decide +kernel, by decide +kernel⟩
  · intro c hc; rw [List.mem_singleton] at hc; subst hc; exact ⟨_, _, cell 1 (by norm_num)⟩
  · intro c hc; rw [List.mem_singleton] at hc; subst hc; exact ⟨_, _, cell 2 (by norm_num)⟩
  · exact ⟨_, List.mem_singleton.mpr rfl, _, _, cell 2 (by norm_num), by intro i; fin_cases i <;> norm_num⟩
end Verif
