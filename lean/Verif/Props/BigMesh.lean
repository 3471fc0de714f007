import Verif.Props.VtkMisfit
import Verif.Lemmas.Demo
import Mathlib.Tactic.FinCases
import Mathlib.Tactic.ByContra

/-!
# Meshes with many points (C138)

The bins of a mesh are an array with `nDistinct + 2` cells along each axis, whether or not the mesh fills its bounding box. The number of bins is an
`int`: a mesh whose bins do not fit cannot be read.
-/

namespace Verif
open Spec Vtk

/-- A product that does not fit an `int` is undefined, whatever the order of the factors. -/
theorem volLoop_over {ds : List Int} (hp : ∀ d ∈ ds, 0 < d) {acc : Int} (h0 : 0 < acc) (ha : acc ≤ intMax) (h : intMax < acc * prod ds) :
    NDArray.volLoop acc ds = .error (.ub .overflow) := by
  induction ds generalizing acc with
  | nil => simp [prod] at h; omega
  | cons d ds ih =>
    have hd := hp d (by simp)
    have h4 : 0 < acc * d := Int.mul_pos h0 hd
    simp only [NDArray.volLoop, imul, ckInt]
    by_cases hf : acc * d ≤ intMax
    · rw [if_pos ⟨by unfold intMin; omega, hf⟩, ok_bind]
      exact ih (fun x hx => hp x (by simp [hx])) h4 hf (by rw [Int.mul_assoc]; exact h)
    · rw [if_neg (fun hh => hf hh.2), err_bind]

section
variable {K : Type} [Field K] [LinearOrder K] [FloorRing K] {d : Nat}

/-- Reading the points of a mesh whose bins do not fit an `int`. -/
theorem readPoints_over (m : Mesh K d) {pts : List (Fin d → K)} (hne : pts ≠ [])
    (hbig : 2147483647 < prod (List.ofFn fun i => (nDistinct pts i : Int) + 2)) : m.readPoints pts = .error (.ub .overflow) := by
  obtain ⟨lo, hi, hg, hr⟩ := Mesh.readPoints_eq (K := K) m hne
  have hd : List.ofFn (Mesh.gN pts) ≠ [] := by
    intro he
    have e : (List.ofFn fun i => (nDistinct pts i : Int) + 2) = [] := he
    rw [e] at hbig
    simp [prod] at hbig
  have hv : NDArray.calcVolume (List.ofFn (Mesh.gN pts)) = .error (.ub .overflow) := by
    rw [NDArray.calcVolume, if_neg (by simpa using hd)]
    refine volLoop_over ?_ (by omega) (by unfold intMax; omega) (by rw [Int.one_mul]; exact hbig)
    intro x hx
    obtain ⟨i, rfl⟩ := List.mem_ofFn.mp hx
    simp [Mesh.gN]; omega
  have hmax := Bin.maxLoop_of ([] : List K) ([] : List Int) (ms := List.ofFn (Mesh.gMin pts lo hi)) (ds := List.ofFn (Mesh.gIncr pts lo hi))
    (ns := List.ofFn (Mesh.gN pts)) rfl (by simp) (by simp)
  simp only [List.nil_append, List.length_nil] at hmax
  rw [hr]
  simp only [Bin.mk', hmax, ok_bind, NDArray.ofDim, NDArray.resize, hv, err_bind]

/-- **C138** (violated) A mesh whose numbers of distinct coordinate values, each plus two, multiply to more than 2147483647: building a body from it is
undefined (the number of bins overflows an `int`), whatever the cells and the fields are, and so is reading a file of it. -/
theorem C138_size_violated (E : ElemOps K d) (pts : List (Fin d → K)) (cells : List (List Nat)) (flds : List (String × List K)) (hne : pts ≠ [])
    (hbig : 2147483647 < prod (List.ofFn fun i => (nDistinct pts i : Int) + 2)) :
    Body.load E pts cells flds = .error (.ub .overflow) ∧
      (∀ b : Body K d, b.loadInto E pts cells flds = .error (.ub .overflow)) ∧
      ∀ (scan : List Char → Option K × List Char) (text : List Char), IsVtk scan pts cells flds text →
        ∃ N, ∀ fuel ≥ N, Body.readVtk scan E fuel (some text) Body.empty = .error (.ub .overflow) := by
  have h1 : ∀ b : Body K d, b.loadInto E pts cells flds = .error (.ub .overflow) := by
    intro b
    simp only [Body.loadInto, Mesh.readInto, readPoints_over b.mesh hne hbig, err_bind]
  refine ⟨?_, h1, ?_⟩
  · simp only [Body.load, Mesh.build, readPoints_over _ hne hbig, err_bind]
  · intro scan text ht
    obtain ⟨N, hN⟩ := C35_read_into scan E pts cells flds text ht Body.empty
    exact ⟨N, fun fuel hf => by rw [hN fuel hf, h1]⟩

/-- A mesh of rectangles is read exactly when its bins fit an `int`. -/
theorem loads_iff {n : Nat} {E : ElemOps K d} {unit : Fin n → Fin d → K} {R : (a h c : Fin d → K) → Prop} [IsStrictOrderedRing K]
    (L : Mesh.ElemLaw E unit R) (pts : List (Fin d → K)) (cells : List (List Nat)) (flds : List (String × List K)) (hc : cells ≠ [])
    (hr : ∀ cell ∈ cells, ∃ a h, CellAt unit pts cell a h) :
    (∃ b, Body.load E pts cells flds = .ok b) ↔ prod (List.ofFn fun i => (nDistinct pts i : Int) + 2) ≤ 2147483647 := by
  obtain ⟨c0, hc0⟩ := List.exists_mem_of_ne_nil cells hc
  obtain ⟨a0, h0, hah0⟩ := hr c0 hc0
  have hne : pts ≠ [] := List.ne_nil_of_mem (Mesh.cellAt_mem L hah0).1
  constructor
  · rintro ⟨b, hb⟩
    by_contra hbig
    rw [(C138_size_violated E pts cells flds hne (by omega)).1] at hb
    simp at hb
  · intro hs
    obtain ⟨m, lo, hi, qs, h1, h2⟩ := Mesh.build_of L ⟨hc, hr, hs⟩
    obtain ⟨fs', h3, _⟩ := addFields_any h2 hne flds []
    exact ⟨_, by simp only [Body.load, h1, ok_bind, h3]; rfl⟩

variable [IsStrictOrderedRing K]

/-- **C138** (partial) A 2D mesh of rectangles is read, with any fields, exactly when its bins fit an `int`. -/
theorem C138_exactly_2d_partial (pts : List (Fin 2 → K)) (cells : List (List Nat)) (flds : List (String × List K)) (hc : cells ≠ [])
    (hr : ∀ cell ∈ cells, ∃ a h, CellAt quadUnit pts cell a h) :
    (∃ b, Body.load (quadOps K) pts cells flds = .ok b) ↔ (nDistinct pts 0 + 2) * (nDistinct pts 1 + 2) ≤ 2147483647 := by
  rw [loads_iff quadLaw pts cells flds hc hr]
  simp only [List.ofFn_succ, List.ofFn_zero, prod, Int.mul_one]
  norm_cast

/-- **C138** (partial) The same in 3D. -/
theorem C138_exactly_3d_partial (pts : List (Fin 3 → K)) (cells : List (List Nat)) (flds : List (String × List K)) (hc : cells ≠ [])
    (hr : ∀ cell ∈ cells, ∃ a h, CellAt hexUnit pts cell a h) :
    (∃ b, Body.load (hexOps K) pts cells flds = .ok b) ↔
      (nDistinct pts 0 + 2) * ((nDistinct pts 1 + 2) * (nDistinct pts 2 + 2)) ≤ 2147483647 := by
  rw [loads_iff hexLaw pts cells flds hc hr]
  simp only [List.ofFn_succ, List.ofFn_zero, prod, Int.mul_one]
  norm_cast

end

/-- The mesh of `Demo` is small enough. -/
example : ∃ b, Body.load (quadOps ℚ) Demo.pts Demo.cells [] = .ok b :=
  (C138_exactly_2d_partial Demo.pts Demo.cells [] Demo.rect.nonempty Demo.rect.rect).mpr (by decide +kernel)

namespace BigMesh

/-- `n` unit squares, corner to corner along the diagonal: the four corners of square number `k`. -/
def sq (k : Nat) : List (Fin 2 → ℚ) := [![k, k], ![k + 1, k], ![k + 1, k + 1], ![k, k + 1]]

/-- The points of the `n` squares. -/
def pts (n : Nat) : List (Fin 2 → ℚ) := (List.range n).flatMap sq

/-- The cells: square number `k` has the points `4k` to `4k+3`. -/
def cells (n : Nat) : List (List Nat) := (List.range n).map fun k => [4 * k, 4 * k + 1, 4 * k + 2, 4 * k + 3]

theorem pts_get {n k j : Nat} (hk : k < n) (hj : j < 4) : (pts n)[4 * k + j]? = (sq k)[j]? := by
  induction n with
  | zero => omega
  | succ n ih =>
    have hl : ∀ m, (pts m).length = 4 * m := by
      intro m; simp [pts, sq, List.length_flatMap]; omega
    have e : pts (n + 1) = pts n ++ sq n := by simp [pts, List.range_succ]
    rw [e]
    rcases Nat.lt_or_ge k n with h | h
    · rw [List.getElem?_append_left (by rw [hl]; omega)]
      exact ih h
    · have : k = n := by omega
      subst this
      rw [List.getElem?_append_right (by rw [hl]; omega), hl]
      congr 1; omega

theorem rect (n : Nat) : ∀ cell ∈ cells n, ∃ a h, CellAt quadUnit (pts n) cell a h := by
  intro cell hc
  obtain ⟨k, hk, rfl⟩ := List.mem_map.mp hc
  have hk : k < n := List.mem_range.mp hk
  refine ⟨![k, k], ![1, 1], rfl, ?_, ?_⟩
  · intro i; fin_cases i <;> simp
  · intro j
    fin_cases j
    · refine ⟨4 * k, rfl, ?_⟩
      have := pts_get hk (show 0 < 4 by omega)
      rw [Nat.add_zero] at this
      rw [this]
      simp [sq, cornerPos, quadUnit]
      ext i; fin_cases i <;> simp [cornerPos]
    · refine ⟨4 * k + 1, rfl, ?_⟩
      rw [pts_get hk (by omega)]
      simp [sq, cornerPos, quadUnit]
      ext i; fin_cases i <;> simp [cornerPos]
    · refine ⟨4 * k + 2, rfl, ?_⟩
      rw [pts_get hk (by omega)]
      simp [sq, cornerPos, quadUnit]
      ext i; fin_cases i <;> simp [cornerPos]
    · refine ⟨4 * k + 3, rfl, ?_⟩
      rw [pts_get hk (by omega)]
      simp [sq, cornerPos, quadUnit]
      ext i; fin_cases i <;> simp [cornerPos]

theorem many (n : Nat) (i : Fin 2) : n ≤ nDistinct (pts n) i := by
  have hinj : Function.Injective (fun k : Nat => (k : ℚ)) := Nat.cast_injective
  have h1 : (Finset.range n).image (fun k : Nat => (k : ℚ)) ⊆ ((pts n).map (· i)).toFinset := by
    intro x hx
    obtain ⟨k, hk, rfl⟩ := Finset.mem_image.mp hx
    rw [List.mem_toFinset]
    refine List.mem_map.mpr ⟨![k, k], ?_, by fin_cases i <;> simp⟩
    refine List.mem_flatMap.mpr ⟨k, List.mem_range.mpr (Finset.mem_range.mp hk), by simp [sq]⟩
  have h2 := Finset.card_le_card h1
  rw [Finset.card_image_of_injective _ hinj, Finset.card_range] at h2
  exact h2

end BigMesh

/-- **C138** (violated) For every `n ≥ 46340`: `n` unit squares, corner to corner along a diagonal, are a mesh of rectangles of `4n` points that cannot be
read. -/
theorem C138_diagonal_violated (n : Nat) (hn : 46340 ≤ n) (flds : List (String × List ℚ)) :
    (∀ cell ∈ BigMesh.cells n, ∃ a h, CellAt quadUnit (BigMesh.pts n) cell a h) ∧ (BigMesh.pts n).length = 4 * n ∧
      Body.load (quadOps ℚ) (BigMesh.pts n) (BigMesh.cells n) flds = .error (.ub .overflow) := by
  have hl : (BigMesh.pts n).length = 4 * n := by simp [BigMesh.pts, BigMesh.sq, List.length_flatMap]; omega
  refine ⟨BigMesh.rect n, hl, (C138_size_violated _ _ _ _ (by intro h; rw [h] at hl; simp at hl; omega) ?_).1⟩
  have h0 := BigMesh.many n 0
  have h1 := BigMesh.many n 1
  simp only [List.ofFn_succ, List.ofFn_zero, prod]
  have : (0 : Int) ≤ nDistinct (BigMesh.pts n) 0 := by omega
  have e : (Fin.succ 0 : Fin 2) = 1 := rfl
  rw [e]
  generalize (nDistinct (BigMesh.pts n) 0) = a at *
  generalize (nDistinct (BigMesh.pts n) 1) = b at *
  have ha : (46340 : Int) ≤ a := by omega
  have hb : (46340 : Int) ≤ b := by omega
  nlinarith

end Verif
