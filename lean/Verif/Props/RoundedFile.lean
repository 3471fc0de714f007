import Verif.Model.RoundedVtk
import Verif.Lemmas.RoundedFile
import Verif.Lemmas.NumText
import Verif.Props.RoundedHex
import Verif.Props.Field3DMore
import Verif.Props.Vtk

/-!
# Property C126: from the text of a file to the values computed, in floating-point arithmetic

The numbers of the file are decimal numbers. They are rounded when they are read (`NumText.scan rnd`), the mesh is built and the fields are
evaluated with every operation rounded. The values computed are compared with the interpolant of the decimal numbers in the file.
-/

namespace Verif
open Spec
variable {K : Type} [Field K] [LinearOrder K] [FloorRing K] {d : Nat}

/-- **C126** Reading a file, in any arithmetic, does what building a body from its points, cells and fields does in that arithmetic. -/
theorem C126_read_is_load (rnd : K → K) (scan : List Char → Option K × List Char) (E : ElemOps K d) (pts : List (Fin d → K))
    (cells : List (List Nat)) (flds : List (String × List K)) (text : List Char) (h : IsVtk scan pts cells flds text) :
    ∃ N, ∀ fuel ≥ N, Fl.readVtk rnd scan E fuel (some text) Body.empty = Fl.load rnd E pts cells flds := by
  obtain ⟨types, xf, hfr, ht, hf⟩ := isVtk_frame h
  exact read_frame_ops scan (Fl.meshOps rnd E) pts cells types pts.length flds xf text hfr ht (Vtk.fields_loop scan pts.length flds xf hf) Body.empty

variable [IsStrictOrderedRing K] {rnd : K → K} {u : K}

namespace Fl

theorem floatMesh_round {n : Nat} {E : ElemOps K d} {unit sgn : Fin n → Fin d → K} {tested : Fin d → Prop} (F : FlElem rnd E unit sgn tested)
    (R : Rounding rnd u) (hu : u ≤ 1 / 64) {pts : List (Fin d → K)} {cells : List (List Nat)} (hm : RectMesh unit pts cells) (hA : Apart rnd pts)
    (hr : Resolved (2 * u) pts) : FloatMesh unit rnd u (roundPts rnd pts) cells := by
  refine ⟨rectMesh_round F R hm hA, ?_, resolved_round R hu hA hr⟩
  intro p hp i
  obtain ⟨q, _, rfl⟩ := List.mem_map.mp hp
  exact R.idem _

theorem roundFlds_len {pts : List (Fin d → K)} {flds : List (String × List K)} (hl : ∀ fl ∈ flds, fl.2.length = pts.length) :
    ∀ fl ∈ roundFlds rnd flds, fl.2.length = (roundPts rnd pts).length := by
  intro fl hfl
  obtain ⟨q, hq, rfl⟩ := List.mem_map.mp hfl
  simpa [roundPts] using hl q hq

theorem roundFlds_float (R : Rounding rnd u) {flds : List (String × List K)} : ∀ fl ∈ roundFlds rnd flds, ∀ y ∈ fl.2, IsFloat rnd y := by
  intro fl hfl y hy
  obtain ⟨q, _, rfl⟩ := List.mem_map.mp hfl
  obtain ⟨z, _, rfl⟩ := List.mem_map.mp hy
  exact R.idem _

theorem roundFlds_get {flds : List (String × List K)} {i : Nat} {name : String} {data : List K} (h : flds[i]? = some (name, data)) :
    (roundFlds rnd flds)[i]? = some (name, data.map rnd) := by simp [roundFlds, h]

theorem cornerVals_round {n : Nat} {data : List K} {cell : List Nat} {v : Fin n → K} (h : CornerVals data cell v) :
    CornerVals (data.map rnd) cell fun j => rnd (v j) := by
  intro j
  obtain ⟨p, e1, e2⟩ := h j
  exact ⟨p, e1, by simp [e2]⟩

theorem bound_round (R : Rounding rnd u) {data : List K} {M : K} (hM : ∀ y ∈ data, |y| ≤ M) : ∀ y ∈ data.map rnd, |y| ≤ (1 + u) * M := by
  intro y hy
  obtain ⟨z, hz, rfl⟩ := List.mem_map.mp hy
  have e1 := val_close R (hM z hz)
  have e2 := hM z hz
  have := abs_sub_abs_le_abs_sub (rnd z) z
  rw [abs_sub_comm] at this
  linarith

/-- What a body holds after reading. -/
theorem reads {n : Nat} {E : ElemOps K d} {unit sgn : Fin n → Fin d → K} {tested : Fin d → Prop} (F : FlElem rnd E unit sgn tested)
    (R : Rounding rnd u) (hu : u ≤ 1 / 64) {pts : List (Fin d → K)} {cells : List (List Nat)} {flds : List (String × List K)} {text : List Char}
    (h : IsVtk (NumText.scan id) pts cells flds text) (hm : RectMesh unit pts cells) (hA : Apart rnd pts) (hr : Resolved (2 * u) pts) :
    ∃ b N, (∀ fuel ≥ N, readVtk rnd (NumText.scan rnd) E fuel (some text) Body.empty = .ok b) ∧
      load rnd E (roundPts rnd pts) cells (roundFlds rnd flds) = .ok b ∧
      b.fields.map (fun f => (f.name, f.data)) = roundFlds rnd flds := by
  obtain ⟨N, hN⟩ := C126_read_is_load rnd (NumText.scan rnd) E _ cells _ text (NumText.isVtk_round rnd h)
  obtain ⟨b, lo, hi, qs, h1, h2⟩ := load_ok F R hu (floatMesh_round F R hu hm hA hr) (roundFlds_len (isVtk_len h))
  refine ⟨b, N, fun fuel hf => by rw [hN fuel hf, h1], h1, ?_⟩
  have h3 := h2.fields
  clear h1 h2 hN
  generalize b.fields = fs at h3
  generalize roundFlds rnd flds = fl at h3 ⊢
  induction h3 with
  | nil => rfl
  | cons hd _ ih => simp [hd.1, hd.2.1, ih]

end Fl

/-- **C126** (2D) A file of decimal numbers describing a conforming mesh of rectangles is read without an error, if different coordinates remain
different as doubles and the body is resolved. After any history of evaluations, at every point with floating-point coordinates in a cell of the
file, the value computed is within `(66 + 8 κ) u M` of the bilinear interpolant of the numbers in the file, where `M` bounds the values of the
field and `κ` the distance of the cell from the origin in units of the cell. -/
theorem C126_file_2d (R : Rounding rnd u) (hu : u ≤ 1 / 64) (pts : List (Fin 2 → K)) (cells : List (List Nat)) (flds : List (String × List K))
    (text : List Char) (h : IsVtk (NumText.scan id) pts cells flds text) (hm : RectMesh quadUnit pts cells) (hcf : Conforming quadUnit pts cells)
    (hA : Apart rnd pts) (hr : Resolved (2 * u) pts) :
    ∃ b N, (∀ fuel ≥ N, Fl.readVtk rnd (NumText.scan rnd) (Fl.quadOps rnd) fuel (some text) Body.empty = .ok b) ∧
      b.fields.map (fun f => (f.name, f.data)) = roundFlds rnd flds ∧
      ∀ (ops : List (Nat × Body.Call K 2)), Fl.HistOk rnd (roundPts rnd pts) ops →
      ∀ (i : Nat) (name : String) (data : List K), flds[i]? = some (name, data) → ∀ M, (∀ y ∈ data, |y| ≤ M) →
      ∀ cell ∈ cells, ∀ (a h : Fin 2 → K), CellAt quadUnit pts cell a h → ∀ v, CornerVals data cell v →
      ∀ κ, Within κ a h → 4 * u * κ ≤ 1 → ∀ c, InCell a h c → (∀ i, IsFloat rnd (c i)) →
      ∃ y, Fl.eval rnd (Fl.quadOps rnd) (Fl.evals rnd (Fl.quadOps rnd) b ops) i (.value c) = .ok y ∧
        |y - bilinear a h v c| ≤ (66 + 8 * κ) * u * M := by
  obtain ⟨b, N, hN, hb, hf⟩ := Fl.reads Fl.flQuad R hu h hm hA hr
  refine ⟨b, N, hN, hf, fun ops ho i name data hi M hM cell hce a h' hah v hv κ hw hκ c hc hfc => ?_⟩
  have u0 := R.u_nonneg
  have hr' := Fl.cellAt_round Fl.flQuad R hA hah
  have hvM : ∀ j, |v j| ≤ M := fun j => by
    obtain ⟨p, _, e⟩ := hv j
    exact hM _ (List.mem_of_getElem? e)
  obtain ⟨y, e1, e2⟩ := C94_value_conforming R hu _ cells _ (Fl.floatMesh_round Fl.flQuad R hu hm hA hr) (Fl.conforming_round Fl.flQuad R hm hA hcf)
    (Fl.roundFlds_len (isVtk_len h)) (Fl.roundFlds_float R) b hb ops ho i name _ (Fl.roundFlds_get hi) _ (Fl.bound_round R hM) cell hce _ _ hr' _
    (Fl.cornerVals_round hv) c (Fl.inCell_round R hc hfc) hfc
  refine ⟨y, e1, ?_⟩
  have e3 := Fl.bilinear_round R hκ hah.2.1 hw hc hfc hr'.2.1 hvM
  have e4 := abs_sub_le y (bilinear (fun i => rnd (a i)) (Fl.rext rnd a h') (fun j => rnd (v j)) c) (bilinear a h' v c)
  rw [abs_sub_comm] at e3
  have M0 : 0 ≤ M := (abs_nonneg _).trans (hvM 0)
  have k : 64 * u * (u * M) ≤ 1 * (u * M) := mul_le_mul_of_nonneg_right (by linarith) (mul_nonneg u0 M0)
  linarith

/-- **C126** (3D) The same for a conforming mesh of one layer of hexahedra, within `(258 + 12 κ) u M` of the trilinear interpolant. (With more
layers the value can be another: C107.) -/
theorem C126_file_3d (R : Rounding rnd u) (hu : u ≤ 1 / 256) (pts : List (Fin 3 → K)) (cells : List (List Nat)) (flds : List (String × List K))
    (text : List Char) (h : IsVtk (NumText.scan id) pts cells flds text) (hm : RectMesh hexUnit pts cells) (hcf : Conforming hexUnit pts cells)
    (hA : Apart rnd pts) (hr : Resolved (2 * u) pts) (z dz : K)
    (hz : ∀ cell ∈ cells, ∀ a h, CellAt hexUnit pts cell a h → a 2 = z ∧ h 2 = dz) :
    ∃ b N, (∀ fuel ≥ N, Fl.readVtk rnd (NumText.scan rnd) (Fl.hexOps rnd) fuel (some text) Body.empty = .ok b) ∧
      b.fields.map (fun f => (f.name, f.data)) = roundFlds rnd flds ∧
      ∀ (ops : List (Nat × Body.Call K 3)), Fl.HistOk rnd (roundPts rnd pts) ops →
      ∀ (i : Nat) (name : String) (data : List K), flds[i]? = some (name, data) → ∀ M, (∀ y ∈ data, |y| ≤ M) →
      ∀ cell ∈ cells, ∀ (a h : Fin 3 → K), CellAt hexUnit pts cell a h → ∀ v, CornerVals data cell v →
      ∀ κ, Within κ a h → 4 * u * κ ≤ 1 → ∀ c, InCell a h c → (∀ i, IsFloat rnd (c i)) →
      ∃ y, Fl.eval rnd (Fl.hexOps rnd) (Fl.evals rnd (Fl.hexOps rnd) b ops) i (.value c) = .ok y ∧
        |y - trilinear a h v c| ≤ (258 + 12 * κ) * u * M := by
  have u0 := R.u_nonneg
  have hu' : u ≤ 1 / 64 := by linarith
  obtain ⟨b, N, hN, hb, hf⟩ := Fl.reads Fl.flHex R hu' h hm hA hr
  refine ⟨b, N, hN, hf, fun ops ho i name data hi M hM cell hce a h' hah v hv κ hw hκ c hc hfc => ?_⟩
  have hr' := Fl.cellAt_round Fl.flHex R hA hah
  have hvM : ∀ j, |v j| ≤ M := fun j => by
    obtain ⟨p, _, e⟩ := hv j
    exact hM _ (List.mem_of_getElem? e)
  have hz' : ∀ cell ∈ cells, ∀ ra rh, CellAt hexUnit (roundPts rnd pts) cell ra rh → ra 2 = rnd z ∧ rh 2 = rnd (z + dz) - rnd z := by
    intro cell hce ra rh hr
    obtain ⟨a, h, hah⟩ := hm.rect cell hce
    obtain ⟨rfl, rfl⟩ := (Fl.flHex (rnd := rnd)).cell_unique hr (Fl.cellAt_round Fl.flHex R hA hah)
    obtain ⟨e1, e2⟩ := hz cell hce a h hah
    simp only [Fl.rext, e1, e2, and_self]
  obtain ⟨cell', ra, rh, g1, g2, g3, g4⟩ := C107_one_layer_partial R hu' _ cells _ (Fl.floatMesh_round Fl.flHex R hu' hm hA hr)
    (Fl.roundFlds_len (isVtk_len h)) (Fl.roundFlds_float R) b hb _ _ hz' c ⟨⟨cell, hce, _, _, hr', Fl.inCell_round R hc hfc⟩, hfc⟩
  obtain ⟨w, y, k1, k2, k3⟩ := g4 ops ho i name _ (Fl.roundFlds_get hi)
  refine ⟨y, k2, ?_⟩
  have e2 := k3 ((1 + u) * M) fun j => by
    obtain ⟨p, _, e⟩ := k1 j
    exact Fl.bound_round R hM _ (List.mem_of_getElem? e)
  rw [conforming_agree3 (Fl.conforming_round Fl.flHex R hm hA hcf) g1 hce g2 hr' k1 (Fl.cornerVals_round hv) g3 (Fl.inCell_round R hc hfc)] at e2
  have e3 := Fl.trilinear_round R hκ hah.2.1 hw hc hfc hr'.2.1 hvM
  have e4 := abs_sub_le y (trilinear (fun i => rnd (a i)) (Fl.rext rnd a h') (fun j => rnd (v j)) c) (trilinear a h' v c)
  rw [abs_sub_comm] at e3
  have M0 : 0 ≤ M := (abs_nonneg _).trans (hvM 0)
  have k : 256 * u * (u * M) ≤ 1 * (u * M) := mul_le_mul_of_nonneg_right (by linarith) (mul_nonneg u0 M0)
  linarith

namespace FileDemo
open FlDemo (r rounding)

/-- One cell, 0.1 wide and 0.3 high, in decimal numbers that are no doubles. -/
def pts : List (Fin 2 → ℚ) := [![0, 0], ![1 / 10, 0], ![1 / 10, 3 / 10], ![0, 3 / 10]]
def cells : List (List Nat) := [[0, 1, 2, 3]]
def flds : List (String × List ℚ) := [("u", [1 / 10, 2 / 10, 7 / 10, -12 / 10])]

/-- The number in the usual notation. -/
def num (x : ℚ) : List Char := NumText.print 6 x

theorem num_ok (x : ℚ) (h : nearestDecimal 6 x = x) : Denotes (NumText.scan id) (num x) x := by
  have := NumText.denotes_print (K := ℚ) id rfl (P := 6) (by decide) x
  rw [h] at this
  exact this

def rows : List (List (List Char)) := pts.map fun p => [num (p 0), num (p 1), num 0]

def fieldText : List Char :=
  "SCALARS".toList ++ ' ' :: "u".toList ++ " double 1".toList ++ ['\n'] ++ ("LOOKUP_TABLE default".toList ++ ['\n'])
    ++ Demo.lay ([1 / 10, 2 / 10, 7 / 10, -12 / 10].map num) ++ []

/-- The file. -/
def text : List Char :=
  linesText ["# vtk DataFile Version 3.0".toList, "ASCII".toList] ++ sectionLine "POINTS" 4 " double".toList ++ Demo.lay rows.flatten
    ++ sectionLine "CELLS" 1 " 5".toList ++ Demo.lay ((cells.flatMap fun c => c.length :: c).map dec)
    ++ sectionLine "CELL_TYPES" 1 [] ++ Demo.lay ([9].map dec) ++ linesText [[]] ++ sectionLine "POINT_DATA" 4 [] ++ fieldText

example : text = ("# vtk DataFile Version 3.0\nASCII\nPOINTS 4 double\n 0 0 0 0.1 0 0 0.1 0.3 0 0 0.3 0\nCELLS 1 5\n 4 0 1 2 3\n" ++
    "CELL_TYPES 1\n 9\n\nPOINT_DATA 4\nSCALARS u double 1\nLOOKUP_TABLE default\n 0.1 0.2 0.7 -1.2\n").toList := by decide +kernel

theorem row_ok (x y : ℚ) (hx : nearestDecimal 6 x = x) (hy : nearestDecimal 6 y = y) :
    PointRow (NumText.scan id) (![x, y] : Fin 2 → ℚ) [num x, num y, num 0] := by
  refine ⟨[0], rfl, ?_⟩
  simp only [List.ofFn_succ, List.ofFn_zero, List.cons_append, List.nil_append]
  exact .cons (num_ok x hx) (.cons (num_ok y hy) (.cons (num_ok 0 (by decide +kernel)) .nil))

theorem isVtk : IsVtk (NumText.scan id) pts cells flds text := by
  refine ⟨["# vtk DataFile Version 3.0".toList, "ASCII".toList], [[]], " double".toList, " 5".toList, [], [], rows, [9],
    _, _, _, _, Demo.decP _ _ (by decide), Demo.decP _ _ (by decide), ⟨by decide, Or.inr (startsBlank_space _)⟩,
    ⟨by decide, Or.inr (startsBlank_space _)⟩, ⟨by decide, Or.inl rfl⟩, ⟨by decide, Or.inl rfl⟩, ?_, Demo.layout_lay _, Demo.layout_lay _, rfl,
    by decide, Demo.layout_lay _, ?_, rfl⟩
  · refine .cons (row_ok 0 0 ?_ ?_) (.cons (row_ok (1 / 10) 0 ?_ ?_) (.cons (row_ok (1 / 10) (3 / 10) ?_ ?_) (.cons (row_ok 0 (3 / 10) ?_ ?_) .nil)))
      <;> decide +kernel
  · refine .cons "u" _ _ _ _ _ _ _ (by decide) (by decide) ⟨by decide, Or.inr (startsBlank_space _)⟩ (by decide) rfl ?_ (Demo.layout_lay _)
      (.nil [] (by simp))
    refine .cons (num_ok _ ?_) (.cons (num_ok _ ?_) (.cons (num_ok _ ?_) (.cons (num_ok _ ?_) .nil))) <;> decide +kernel

theorem cellAt : CellAt quadUnit pts [0, 1, 2, 3] ![0, 0] ![1 / 10, 3 / 10] := by
  refine ⟨rfl, by decide +kernel, ?_⟩
  intro j
  fin_cases j
  · exact ⟨0, rfl, by decide +kernel⟩
  · exact ⟨1, rfl, by decide +kernel⟩
  · exact ⟨2, rfl, by decide +kernel⟩
  · exact ⟨3, rfl, by decide +kernel⟩

theorem only (cell : List Nat) (hc : cell ∈ cells) (a h : Fin 2 → ℚ) (hah : CellAt quadUnit pts cell a h) :
    cell = [0, 1, 2, 3] ∧ a = ![0, 0] ∧ h = ![1 / 10, 3 / 10] := by
  simp only [cells, List.mem_singleton] at hc
  subst hc
  exact ⟨rfl, Mesh.cellAt_unique quadLaw hah cellAt⟩

theorem rect : RectMesh quadUnit pts cells :=
  ⟨by decide, by
    intro cell hc
    simp only [cells, List.mem_singleton] at hc
    subst hc
    exact ⟨_, _, cellAt⟩, by decide +kernel⟩

theorem conforming : Conforming quadUnit pts cells := by
  intro cell hc cell' hc' a h a' h' hah hah' _ w hw
  obtain ⟨rfl, rfl, rfl⟩ := only cell hc a h hah
  obtain ⟨rfl, rfl, rfl⟩ := only cell' hc' a' h' hah'
  have ext : ∀ x y : ℚ, w 0 = x → w 1 = y → w = ![x, y] := by
    intro x y hx hy; funext i; fin_cases i <;> simp [hx, hy]
  have h0 := hw 0
  have h1 := hw 1
  simp only [max_self, min_self, Matrix.cons_val_zero, Matrix.cons_val_one, zero_add] at h0 h1
  rcases h0 with h0 | h0 <;> rcases h1 with h1 | h1 <;> rw [ext _ _ h0 h1]
  · exact ⟨0, by decide, by decide, by decide +kernel⟩
  · exact ⟨3, by decide, by decide, by decide +kernel⟩
  · exact ⟨1, by decide, by decide, by decide +kernel⟩
  · exact ⟨2, by decide, by decide, by decide +kernel⟩

theorem resolved : Resolved (2 * (2 : ℚ) ^ (-53 : Int)) pts := by
  intro i lo hi h1 h2
  fin_cases i
  · have e1 : IsLow pts 0 0 := by unfold IsLow; decide +kernel
    have e2 : IsHigh pts 0 (1 / 10) := by unfold IsHigh; decide +kernel
    rw [Mesh.isLow_unique h1 e1, Mesh.isHigh_unique h2 e2]
    decide +kernel
  · have e1 : IsLow pts 1 0 := by unfold IsLow; decide +kernel
    have e2 : IsHigh pts 1 (3 / 10) := by unfold IsHigh; decide +kernel
    rw [Mesh.isLow_unique h1 e1, Mesh.isHigh_unique h2 e2]
    decide +kernel

/-- The file read in binary64: at the point (2^-5, 2^-2) the value computed is within 100 roundoffs of the interpolant of the numbers in the file. -/
example : ∃ b N y, (∀ fuel ≥ N, Fl.readVtk r (NumText.scan r) (Fl.quadOps r) fuel (some text) Body.empty = .ok b) ∧
    Fl.eval r (Fl.quadOps r) b 0 (.value ![1 / 32, 1 / 4]) = .ok y ∧
    |y - bilinear ![0, 0] ![1 / 10, 3 / 10] ![1 / 10, 2 / 10, 7 / 10, -12 / 10] ![1 / 32, 1 / 4]| ≤ 100 * (2 : ℚ) ^ (-53 : Int) := by
  obtain ⟨b, N, h1, _, h2⟩ := C126_file_2d rounding (by decide +kernel) pts cells flds text isVtk rect conforming
    (by unfold Apart; decide +kernel) resolved
  obtain ⟨y, e1, e2⟩ := h2 [] (fun _ h => nomatch h) 0 "u" _ rfl (12 / 10) (by decide +kernel) [0, 1, 2, 3] (by decide) _ _ cellAt
    ![1 / 10, 2 / 10, 7 / 10, -12 / 10] (by
      intro j
      fin_cases j
      · exact ⟨0, rfl, rfl⟩
      · exact ⟨1, rfl, rfl⟩
      · exact ⟨2, rfl, rfl⟩
      · exact ⟨3, rfl, rfl⟩) 1 (by unfold Within; decide +kernel) (by decide +kernel) ![1 / 32, 1 / 4] (by unfold InCell; decide +kernel)
    (by unfold IsFloat; decide +kernel)
  refine ⟨b, N, y, h1, e1, e2.trans (by decide +kernel)⟩

end FileDemo

namespace FileDemo3
open FlDemo (r rounding)
open FileDemo (num num_ok)

/-- One hexahedron, 0.1 by 0.3 by 0.7. -/
def pts : List (Fin 3 → ℚ) := [![0, 0, 0], ![1 / 10, 0, 0], ![1 / 10, 3 / 10, 0], ![0, 3 / 10, 0],
  ![0, 0, 7 / 10], ![1 / 10, 0, 7 / 10], ![1 / 10, 3 / 10, 7 / 10], ![0, 3 / 10, 7 / 10]]
def cells : List (List Nat) := [[0, 1, 2, 3, 4, 5, 6, 7]]
def vals : List ℚ := [1 / 10, 2 / 10, 7 / 10, -12 / 10, 0, 3, -5 / 10, 9 / 100]
def flds : List (String × List ℚ) := [("u", vals)]

def rows : List (List (List Char)) := pts.map fun p => [num (p 0), num (p 1), num (p 2)]

def fieldText : List Char :=
  "SCALARS".toList ++ ' ' :: "u".toList ++ " double 1".toList ++ ['\n'] ++ ("LOOKUP_TABLE default".toList ++ ['\n'])
    ++ Demo.lay (vals.map num) ++ []

/-- The file. -/
def text : List Char :=
  linesText ["# vtk DataFile Version 3.0".toList, "ASCII".toList] ++ sectionLine "POINTS" 8 " double".toList ++ Demo.lay rows.flatten
    ++ sectionLine "CELLS" 1 " 9".toList ++ Demo.lay ((cells.flatMap fun c => c.length :: c).map dec)
    ++ sectionLine "CELL_TYPES" 1 [] ++ Demo.lay ([12].map dec) ++ linesText [[]] ++ sectionLine "POINT_DATA" 8 [] ++ fieldText

theorem nums_ok (l : List ℚ) (h : ∀ x ∈ l, nearestDecimal 6 x = x) : List.Forall₂ (Denotes (NumText.scan id)) (l.map num) l := by
  induction l with
  | nil => exact .nil
  | cons a l ih => exact .cons (num_ok a (h a (by simp))) (ih fun x hx => h x (by simp [hx]))

theorem row_ok (p : Fin 3 → ℚ) (h : ∀ i, nearestDecimal 6 (p i) = p i) : PointRow (NumText.scan id) p [num (p 0), num (p 1), num (p 2)] := by
  refine ⟨[], rfl, ?_⟩
  simp only [List.ofFn_succ, List.ofFn_zero, List.append_nil]
  exact .cons (num_ok _ (h 0)) (.cons (num_ok _ (h 1)) (.cons (num_ok _ (h 2)) .nil))

theorem rows_ok (l : List (Fin 3 → ℚ)) (h : ∀ p ∈ l, ∀ i, nearestDecimal 6 (p i) = p i) :
    List.Forall₂ (PointRow (NumText.scan id)) l (l.map fun p => [num (p 0), num (p 1), num (p 2)]) := by
  induction l with
  | nil => exact .nil
  | cons a l ih => exact .cons (row_ok a (h a (by simp))) (ih fun x hx => h x (by simp [hx]))

theorem isVtk : IsVtk (NumText.scan id) pts cells flds text := by
  refine ⟨["# vtk DataFile Version 3.0".toList, "ASCII".toList], [[]], " double".toList, " 9".toList, [], [], rows, [12],
    _, _, _, _, Demo.decP _ _ (by decide), Demo.decP _ _ (by decide), ⟨by decide, Or.inr (startsBlank_space _)⟩,
    ⟨by decide, Or.inr (startsBlank_space _)⟩, ⟨by decide, Or.inl rfl⟩, ⟨by decide, Or.inl rfl⟩, ?_, Demo.layout_lay _, Demo.layout_lay _, rfl,
    by decide, Demo.layout_lay _, ?_, rfl⟩
  · exact rows_ok pts (by decide +kernel)
  · refine .cons "u" _ _ _ _ _ _ _ (by decide) (by decide) ⟨by decide, Or.inr (startsBlank_space _)⟩ (by decide) rfl
      (nums_ok vals (by decide +kernel)) (Demo.layout_lay _) (.nil [] (by simp))

theorem cellAt : CellAt hexUnit pts [0, 1, 2, 3, 4, 5, 6, 7] ![0, 0, 0] ![1 / 10, 3 / 10, 7 / 10] := by
  refine ⟨rfl, by decide +kernel, ?_⟩
  decide +kernel

theorem only (cell : List Nat) (hc : cell ∈ cells) (a h : Fin 3 → ℚ) (hah : CellAt hexUnit pts cell a h) :
    cell = [0, 1, 2, 3, 4, 5, 6, 7] ∧ a = ![0, 0, 0] ∧ h = ![1 / 10, 3 / 10, 7 / 10] := by
  simp only [cells, List.mem_singleton] at hc
  subst hc
  exact ⟨rfl, Mesh.cellAt_unique hexLaw hah cellAt⟩

theorem rect : RectMesh hexUnit pts cells :=
  ⟨by decide, by
    intro cell hc
    simp only [cells, List.mem_singleton] at hc
    subst hc
    exact ⟨_, _, cellAt⟩, by decide +kernel⟩

theorem conforming : Conforming hexUnit pts cells := by
  intro cell hc cell' hc' a h a' h' hah hah' _ w hw
  obtain ⟨rfl, rfl, rfl⟩ := only cell hc a h hah
  obtain ⟨rfl, rfl, rfl⟩ := only cell' hc' a' h' hah'
  have key : ∀ s : Fin 3 → Bool, ∃ p ∈ [0, 1, 2, 3, 4, 5, 6, 7], pts[p]? = some fun i => if s i then (![0, 0, 0] : Fin 3 → ℚ) i else
      (![0, 0, 0] : Fin 3 → ℚ) i + (![1 / 10, 3 / 10, 7 / 10] : Fin 3 → ℚ) i := by decide +kernel
  obtain ⟨p, p1, p2⟩ := key fun i => decide (w i = (![0, 0, 0] : Fin 3 → ℚ) i)
  refine ⟨p, p1, p1, p2.trans ?_⟩
  congr 1
  funext i
  have := hw i
  simp only [max_self, min_self] at this
  by_cases e : w i = (![0, 0, 0] : Fin 3 → ℚ) i
  · simp [e]
  · simp only [e, decide_false, Bool.false_eq_true, if_false]
    exact (this.resolve_left e).symm

theorem low (i : Fin 3) : IsLow pts i 0 := by revert i; unfold IsLow; decide +kernel
theorem high (i : Fin 3) : IsHigh pts i (![1 / 10, 3 / 10, 7 / 10] i) := by revert i; unfold IsHigh; decide +kernel

theorem resolved : Resolved (2 * (2 : ℚ) ^ (-53 : Int)) pts := by
  intro i lo hi h1 h2
  rw [Mesh.isLow_unique h1 (low i), Mesh.isHigh_unique h2 (high i)]
  clear h1 h2
  revert i
  decide +kernel

/-- The file read in binary64: at the point (2^-5, 2^-2, 2^-1). -/
example : ∃ b N y, (∀ fuel ≥ N, Fl.readVtk r (NumText.scan r) (Fl.hexOps r) fuel (some text) Body.empty = .ok b) ∧
    Fl.eval r (Fl.hexOps r) b 0 (.value ![1 / 32, 1 / 4, 1 / 2]) = .ok y ∧
    |y - trilinear ![0, 0, 0] ![1 / 10, 3 / 10, 7 / 10] ![1 / 10, 2 / 10, 7 / 10, -12 / 10, 0, 3, -5 / 10, 9 / 100] ![1 / 32, 1 / 4, 1 / 2]|
      ≤ 810 * (2 : ℚ) ^ (-53 : Int) := by
  obtain ⟨b, N, h1, _, h2⟩ := C126_file_3d rounding (by decide +kernel) pts cells flds text isVtk rect conforming
    (by unfold Apart; decide +kernel) resolved 0 (7 / 10) (fun cell hc a h hah => by
      obtain ⟨rfl, rfl, rfl⟩ := only cell hc a h hah; decide +kernel)
  obtain ⟨y, e1, e2⟩ := h2 [] (fun _ h => nomatch h) 0 "u" _ rfl 3 (by decide +kernel) [0, 1, 2, 3, 4, 5, 6, 7] (by decide) _ _ cellAt
    ![1 / 10, 2 / 10, 7 / 10, -12 / 10, 0, 3, -5 / 10, 9 / 100] (by unfold CornerVals; decide +kernel)
    1 (by unfold Within; decide +kernel) (by decide +kernel) ![1 / 32, 1 / 4, 1 / 2] (by unfold InCell; decide +kernel)
    (by unfold IsFloat; decide +kernel)
  exact ⟨b, N, y, h1, e1, e2.trans (by decide +kernel)⟩

end FileDemo3

end Verif
