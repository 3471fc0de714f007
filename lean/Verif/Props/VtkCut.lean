import Verif.Lemmas.VtkCut
import Verif.Props.Vtk

/-!
# Files that end early (C104)
-/

namespace Verif
open Spec IStream Vtk

section
variable {K : Type} {d : Nat} [Field K] [LinearOrder K] [FloorRing K]

/-- **C104** (violated) Any vtk file can be cut off after any number of values of its last field, and is then read as if the missing values
were 0: what is left does to a body what the complete file with zeros in these places does. -/
theorem C104_short_file_violated (scan : List Char → Option K × List Char) (E : ElemOps K d) (pts : List (Fin d → K))
    (cells : List (List Nat)) (flds : List (String × List K)) (name : String) (data : List K) (text : List Char)
    (h : IsVtk scan pts cells (flds ++ [(name, data)]) text) (b : Body K d) (m : Nat) (hm : m < data.length) :
    ∃ cut, cut <+: text ∧ cut.length < text.length ∧ ∃ N, ∀ fuel ≥ N, Body.readVtk scan E fuel (some cut) b =
      b.loadInto E pts cells (flds ++ [(name, data.take m ++ List.replicate (data.length - m) 0)]) := by
  have hl : data.length = pts.length := isVtk_len h (name, data) (by simp)
  obtain ⟨types, xf, ⟨head, mid, r1, r2, r3, r4, rows, xp, xc, xt, hhead, hmid, h1, h2, h3, h4, hrow, hxp, hxc, htl, hxt, rfl⟩, ht, hf⟩ :=
    isVtk_frame h
  obtain ⟨t, e1, e2, e3⟩ := cut_fields (d := d) scan pts.length m (by omega) name data flds xf hf
  rw [hl]
  refine ⟨_, (List.prefix_append_right_inj _).mpr e1, by simp only [List.length_append]; omega, ?_⟩
  exact read_frame scan E pts cells types pts.length _ t _
    ⟨head, mid, r1, r2, r3, r4, rows, xp, xc, xt, hhead, hmid, h1, h2, h3, h4, hrow, hxp, hxc, htl, hxt, rfl⟩ ht e3 b

/-- **C104** (partial) A file cut off before its first field, or any other text without the word SCALARS, adds no field: if the call returns,
a new body has no field, whatever its name. (`scan` leaves a part of the text.) -/
theorem C104_no_field_partial (scan : List Char → Option K × List Char) (hscan : ∀ t, (scan t).2 <:+ t) (E : ElemOps K d) (text : List Char)
    (h : ¬ "SCALARS".toList <:+: text) (fuel : Nat) (b b' : Body K d) (hb : Body.readVtk scan E fuel (some text) b = .ok b') :
    b'.fields = b.fields ∧ (b.fields = [] → ∀ name, b'.findScalarField name = .error .invalidArgument) := by
  have hkw : "SCALARS".toList = kwScalars := by decide
  rw [hkw] at h
  have key : b'.fields = b.fields := by
    simp only [Body.readVtk, readFrom] at hb
    have h1 := meshLoop_suf hscan E.mesh fuel (mesh0 (ofText text) b.mesh)
    cases hm : meshLoop scan E.mesh fuel (mesh0 (ofText text) b.mesh) with
    | mk r st =>
      rw [hm] at hb h1
      cases r with
      | error e => simp at hb
      | ok u =>
        simp only at hb
        cases hl : bodyLoop scan fuel (body0 st.s { b with mesh := st.mesh }) with
        | mk r2 st2 =>
          rw [hl] at hb
          cases r2 with
          | error e => simp at hb
          | ok u2 =>
            have := bodyLoop_plain fuel (st := body0 st.s { b with mesh := st.mesh }) (st' := st2)
              (fun hh => h (hh.trans h1.isInfix)) (by simp [body0, kwScalars]) hl
            simp only [Except.ok.injEq] at hb
            rw [← hb, this]
            rfl
  refine ⟨key, fun h0 name => ?_⟩
  rw [Body.findScalarField, key, h0]
  rfl

variable [IsStrictOrderedRing K]

/-- **C104** (violated) A 2D mesh of rectangles: the file cut off after `m` values of its last field is read without any error, and the body
has all points, all cells and all fields, the last one with zeros. -/
theorem C104_short_2d_violated (scan : List Char → Option K × List Char) (pts : List (Fin 2 → K))
    (cells : List (List Nat)) (flds : List (String × List K)) (name : String) (data : List K) (text : List Char)
    (h : IsVtk scan pts cells (flds ++ [(name, data)]) text) (hmesh : RectMesh quadUnit pts cells) (m : Nat) (hm : m < data.length) :
    ∃ cut, cut <+: text ∧ cut.length < text.length ∧
      ∃ b N, Holds b pts cells (flds ++ [(name, data.take m ++ List.replicate (data.length - m) 0)]) ∧
        ∀ fuel ≥ N, Body.readVtk scan (quadOps K) fuel (some cut) Body.empty = .ok b := by
  obtain ⟨cut, c1, c2, N, hN⟩ := C104_short_file_violated scan (quadOps K) pts cells flds name data text h Body.empty m hm
  have hlen := isVtk_len h
  obtain ⟨b, lo, hi, qs, e1, e2⟩ := Body.load_ok (flds := flds ++ [(name, data.take m ++ List.replicate (data.length - m) 0)]) quadLaw hmesh
    (by
      intro fl hfl
      rcases List.mem_append.mp hfl with hh | hh
      · exact hlen fl (by simp [hh])
      · simp only [List.mem_singleton] at hh
        subst hh
        have := hlen (name, data) (by simp)
        simp only at this
        simp only [List.length_append, List.length_take, List.length_replicate]
        omega)
  refine ⟨cut, c1, c2, b, N, holds_of quadLaw e2, fun fuel hf => ?_⟩
  rw [hN fuel hf]
  exact e1

end

/-- The demo file cut off in its last field: its values 0 1 0 2 0 5 become 0 1 0 0 0 0. -/
example : ∃ cut, cut <+: Demo.vtkText ∧ cut.length < Demo.vtkText.length ∧
    ∃ b N, Holds b Demo.pts Demo.cells [("u", [1, 2, 3, 4, 5, 7]), ("w", [0, 1, 0, 0, 0, 0])] ∧
      ∀ fuel ≥ N, Body.readVtk Demo.scanDec (quadOps ℚ) fuel (some cut) Body.empty = .ok b :=
  C104_short_2d_violated Demo.scanDec Demo.pts Demo.cells [("u", [1, 2, 3, 4, 5, 7])] "w" [0, 1, 0, 2, 0, 5] Demo.vtkText Demo.isVtk Demo.rect
    3 (by decide)

/-- A file that ends after its points. -/
def Demo.pointsOnly : List Char := sectionLine "POINTS" 6 " double".toList ++ Demo.lay Demo.rows.flatten

/-- It is read, and leaves a body with points and without fields. -/
example : (∃ b' : Body ℚ 2, Body.readVtk Demo.scanDec (quadOps ℚ) 9 (some Demo.pointsOnly) Body.empty = .ok b' ∧ b'.mesh.node.length = 6) ∧
    ¬ "SCALARS".toList <:+: Demo.pointsOnly := by
  constructor
  · have h : (match Body.readVtk Demo.scanDec (quadOps ℚ) 9 (some Demo.pointsOnly) (Body.empty : Body ℚ 2) with
        | .ok b => b.mesh.node.length | .error _ => 0) = 6 := by decide +kernel
    cases hb : Body.readVtk Demo.scanDec (quadOps ℚ) 9 (some Demo.pointsOnly) (Body.empty : Body ℚ 2) with
    | error e => rw [hb] at h; simp at h
    | ok b => rw [hb] at h; exact ⟨b, rfl, h⟩
  · decide +kernel

end Verif
