import Verif.Props.BigMesh
import Verif.Props.RoundedFile
import Verif.Props.RoundedHex
import Verif.Props.RoundedField

/-!
# Meshes with many points, in floating-point arithmetic (C138)
-/

namespace Verif
open Spec Vtk
variable {K : Type} [Field K] [LinearOrder K] [IsStrictOrderedRing K] [FloorRing K] {d : Nat}

/-- **C138** (violated) In every arithmetic, building a body whose numbers of distinct coordinate values, each plus two, multiply to more than 2147483647 is
undefined, whatever the cells and the fields are, and so is reading a file of it. -/
theorem C138_any_arithmetic_violated (rnd : K → K) (E : ElemOps K d) (pts : List (Fin d → K)) (cells : List (List Nat)) (flds : List (String × List K))
    (hne : pts ≠ []) (hbig : 2147483647 < prod (List.ofFn fun i => (nDistinct pts i : Int) + 2)) :
    Fl.load rnd E pts cells flds = .error (.ub .overflow) ∧
      ∀ (scan : List Char → Option K × List Char) (text : List Char), IsVtk scan pts cells flds text →
        ∃ N, ∀ fuel ≥ N, Fl.readVtk rnd scan E fuel (some text) Body.empty = .error (.ub .overflow) := by
  have h1 : Fl.load rnd E pts cells flds = .error (.ub .overflow) := by
    obtain ⟨lo, hi, hg, hr⟩ := Fl.readPoints_eq (rnd := rnd) hne
    have hd : List.ofFn (Mesh.gN pts) ≠ [] := by
      intro he
      have e : (List.ofFn fun i => (nDistinct pts i : Int) + 2) = [] := he
      rw [e] at hbig
      simp [prod] at hbig
    have hv : NDArray.calcVolume (List.ofFn (Mesh.gN pts)) = .error (.ub .overflow) := by
      rw [NDArray.calcVolume, if_neg (by simpa using hd)]
      refine volLoop_over ?_ (by omega) (by unfold intMax; omega) (by rw [Int.one_mul]; exact hbig)
      intro x hx
      obtain ⟨i, rfl⟩ := List.mem_ofFn.mp hx
      simp [Mesh.gN]; omega
    have hmax := Fl.maxLoop_of (rnd := rnd) ([] : List K) ([] : List Int) (ms := List.ofFn (Fl.gMin rnd pts lo hi)) (ds := List.ofFn (Fl.gIncr rnd pts lo hi))
      (ns := List.ofFn (Mesh.gN pts)) rfl (by simp) (by simp)
    simp only [List.nil_append, List.length_nil] at hmax
    simp only [Fl.load, Fl.build, hr, Fl.mkBin, hmax, ok_bind, NDArray.ofDim, NDArray.resize, hv, err_bind]
  refine ⟨h1, fun scan text ht => ?_⟩
  obtain ⟨N, hN⟩ := C126_read_is_load rnd scan E pts cells flds text ht
  exact ⟨N, fun fuel hf => by rw [hN fuel hf, h1]⟩

variable {rnd : K → K} {u : K}

/-- **C138** (partial) In floating-point arithmetic a 2D mesh of rectangles whose points the arithmetic resolves is read exactly when its bins fit an `int`. -/
theorem C138_float_2d_partial (R : Rounding rnd u) (hu : u ≤ 1 / 64) (pts : List (Fin 2 → K)) (cells : List (List Nat)) (flds : List (String × List K))
    (hc : cells ≠ []) (hr : ∀ cell ∈ cells, ∃ a h, CellAt quadUnit pts cell a h) (hf : ∀ p ∈ pts, ∀ i, IsFloat rnd (p i)) (hs : Resolved u pts)
    (hl : ∀ fl ∈ flds, fl.2.length = pts.length) :
    (∃ b, Fl.load rnd (Fl.quadOps rnd) pts cells flds = .ok b) ↔ (nDistinct pts 0 + 2) * (nDistinct pts 1 + 2) ≤ 2147483647 := by
  have e : (nDistinct pts 0 + 2) * (nDistinct pts 1 + 2) ≤ 2147483647 ↔ prod (List.ofFn fun i => (nDistinct pts i : Int) + 2) ≤ 2147483647 := by
    simp only [List.ofFn_succ, List.ofFn_zero, prod, Int.mul_one]
    norm_cast
  rw [e]
  constructor
  · rintro ⟨b, hb⟩
    by_contra hbig
    obtain ⟨c0, hc0⟩ := List.exists_mem_of_ne_nil cells hc
    obtain ⟨a0, h0, hah0⟩ := hr c0 hc0
    have hne : pts ≠ [] := List.ne_nil_of_mem (Mesh.cellAt_mem quadLaw hah0).1
    rw [(C138_any_arithmetic_violated rnd (Fl.quadOps rnd) pts cells flds hne (by omega)).1] at hb
    simp at hb
  · intro h
    exact C94_loads R hu pts cells flds ⟨⟨hc, hr, h⟩, hf, hs⟩ hl

/-- **C138** (partial) The same in 3D. -/
theorem C138_float_3d_partial (R : Rounding rnd u) (hu : u ≤ 1 / 64) (pts : List (Fin 3 → K)) (cells : List (List Nat)) (flds : List (String × List K))
    (hc : cells ≠ []) (hr : ∀ cell ∈ cells, ∃ a h, CellAt hexUnit pts cell a h) (hf : ∀ p ∈ pts, ∀ i, IsFloat rnd (p i)) (hs : Resolved u pts)
    (hl : ∀ fl ∈ flds, fl.2.length = pts.length) :
    (∃ b, Fl.load rnd (Fl.hexOps rnd) pts cells flds = .ok b) ↔
      (nDistinct pts 0 + 2) * ((nDistinct pts 1 + 2) * (nDistinct pts 2 + 2)) ≤ 2147483647 := by
  have e : (nDistinct pts 0 + 2) * ((nDistinct pts 1 + 2) * (nDistinct pts 2 + 2)) ≤ 2147483647 ↔
      prod (List.ofFn fun i => (nDistinct pts i : Int) + 2) ≤ 2147483647 := by
    simp only [List.ofFn_succ, List.ofFn_zero, prod, Int.mul_one]
    norm_cast
  rw [e]
  constructor
  · rintro ⟨b, hb⟩
    by_contra hbig
    obtain ⟨c0, hc0⟩ := List.exists_mem_of_ne_nil cells hc
    obtain ⟨a0, h0, hah0⟩ := hr c0 hc0
    have hne : pts ≠ [] := List.ne_nil_of_mem (Mesh.cellAt_mem hexLaw hah0).1
    rw [(C138_any_arithmetic_violated rnd (Fl.hexOps rnd) pts cells flds hne (by omega)).1] at hb
    simp at hb
  · intro h
    exact C107_loads R hu pts cells flds ⟨⟨hc, hr, h⟩, hf, hs⟩ hl

/-- Non-vacuity of C138: the diagonal of 50000 squares, rounded to any precision, has bins that do not fit an `int`. -/
example (rnd : ℚ → ℚ) (flds : List (String × List ℚ)) (n : Nat) (hn : n = 50000) :
    Fl.load rnd (Fl.quadOps rnd) (BigMesh.pts n) (BigMesh.cells n) flds = .error (.ub .overflow) := by
  have hl : (BigMesh.pts n).length = 4 * n := by simp [BigMesh.pts, BigMesh.sq, List.length_flatMap]; omega
  refine (C138_any_arithmetic_violated rnd _ _ _ flds (by intro h; rw [h] at hl; simp at hl; omega) ?_).1
  have h0 := BigMesh.many n 0
  have h1 := BigMesh.many n 1
  simp only [List.ofFn_succ, List.ofFn_zero, prod]
  have e : (Fin.succ 0 : Fin 2) = 1 := rfl
  rw [e]
  generalize (nDistinct (BigMesh.pts n) 0) = a at *
  generalize (nDistinct (BigMesh.pts n) 1) = b at *
  have ha : (50000 : Int) ≤ a := by omega
  have hb : (50000 : Int) ≤ b := by omega
  nlinarith

/-- Non-vacuity of C138: the mesh of `FlDemo` is read in floating-point arithmetic. -/
example : ∃ b, Fl.load FlDemo.r (Fl.quadOps FlDemo.r) FlDemo.pts FlDemo.cells [] = .ok b :=
  (C138_float_2d_partial FlDemo.rounding (by norm_num) FlDemo.pts FlDemo.cells [] FlDemo.mesh.rect.nonempty FlDemo.mesh.rect.rect FlDemo.mesh.float
    FlDemo.mesh.resolved (by simp)).mpr (by decide +kernel)

end Verif
