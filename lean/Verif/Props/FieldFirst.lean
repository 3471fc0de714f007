import Verif.Props.Field3D
import Verif.Lemmas.Demo

/-!
# Which cell answers at a point of several cells (C139)

On an edge or a corner, or where cells overlap, several cells contain a point. The one listed first in the file answers.
-/

namespace Verif
open Spec Bin Mesh PField Body
variable {K : Type} [Field K] [LinearOrder K] [FloorRing K] [IsStrictOrderedRing K]

omit [FloorRing K] [LinearOrder K] [IsStrictOrderedRing K] in
/-- The corner values of a cell are determined by the data. -/
theorem cornerVals_unique {n : Nat} {data : List K} {cell : List Nat} {v v' : Fin n → K} (h : CornerVals data cell v)
    (h' : CornerVals data cell v') : v = v' := by
  funext j
  obtain ⟨p, e1, e2⟩ := h j
  obtain ⟨p', e1', e2'⟩ := h' j
  rw [e1] at e1'; cases e1'
  rw [e2] at e2'; exact Option.some.inj e2'

/-- **C139** (2D) The value at a point is the bilinear interpolant of the first cell in the file that contains the point; the derivative in a direction is the
slope of this interpolant in the direction (the same for every step `t`), the second derivative the slope of the slope (the same for all steps `t`, `t'`); for every field and after every
history. -/
theorem C139_first_cell_2d (pts : List (Fin 2 → K)) (cells : List (List Nat)) (flds : List (String × List K)) (hm : RectMesh quadUnit pts cells)
    (hl : ∀ fl ∈ flds, fl.2.length = pts.length) (b : Body K 2) (hb : Body.load (quadOps K) pts cells flds = .ok b) (c : Fin 2 → K) (e : Nat)
    (cell : List Nat) (a h : Fin 2 → K) (he : cells[e]? = some cell) (hah : CellAt quadUnit pts cell a h) (hc : InCell a h c)
    (hfirst : ∀ e' < e, ∀ cell' a' h', cells[e']? = some cell' → CellAt quadUnit pts cell' a' h' → ¬ InCell a' h' c)
    (ops : List (Nat × Body.Call K 2)) (ho : HistOk pts ops) (i : Nat) (name : String) (data : List K) (hi : flds[i]? = some (name, data))
    (v : Fin 4 → K) (hv : CornerVals data cell v) :
    (b.calls (quadOps K) ops).value (quadOps K) i c = .ok (bilinear a h v c) ∧
      (∀ (di : Fin 2) (t : K), t ≠ 0 → (b.calls (quadOps K) ops).grad (quadOps K) i c di =
        .ok ((bilinear a h v (Function.update c di (c di + t)) - bilinear a h v c) / t)) ∧
      ∀ (di dj : Fin 2) (t t' : K), t ≠ 0 → t' ≠ 0 → (b.calls (quadOps K) ops).hess (quadOps K) i c di dj =
        .ok ((bilinear a h v (Function.update (Function.update c di (c di + t)) dj (Function.update c di (c di + t) dj + t')) -
          bilinear a h v (Function.update c di (c di + t)) - (bilinear a h v (Function.update c dj (c dj + t')) - bilinear a h v c)) / (t * t')) := by
  obtain ⟨e', cell', a', h', g1, g2, g3, g4, g5⟩ := quad_eval_first pts cells flds hm hl b hb c ⟨cell, List.mem_of_getElem? he, a, h, hah, hc⟩
  have hee : e' = e := by
    have k1 := g4 e cell a h he hah hc
    rcases Nat.lt_or_ge e' e with k | k
    · exact absurd g3 (hfirst e' k cell' a' h' g1 g2)
    · omega
  subst hee
  rw [he] at g1; cases g1
  obtain ⟨rfl, rfl⟩ := cellAt_unique quadLaw g2 hah
  obtain ⟨v', gv, k1, k2, k3, k4, k5, k6⟩ := g5 ops ho i name data hi
  rw [cornerVals_unique gv hv] at k1 k2 k3 k5 k6
  have n0 := (hah.2.1 0).ne'
  have n1 := (hah.2.1 1).ne'
  refine ⟨k1, ?_, ?_⟩
  · intro di t ht
    fin_cases di
    · refine k2.trans (congrArg _ ?_)
      simp [bilinear]
      field_simp
      ring
    · refine k3.trans (congrArg _ ?_)
      simp [bilinear]
      field_simp
      ring
  · intro di dj t t' ht ht'
    fin_cases di <;> fin_cases dj
    · refine (k4 0).trans (congrArg _ ?_)
      simp [bilinear]
      field_simp
      ring
    · refine k5.trans (congrArg _ ?_)
      simp [bilinear]
      field_simp
      ring
    · refine k6.trans (congrArg _ ?_)
      simp [bilinear]
      field_simp
      ring
    · refine (k4 1).trans (congrArg _ ?_)
      simp [bilinear]
      field_simp
      ring

/-- **C139** (3D) At every point of the body value and first derivatives are those of the trilinear interpolant of the first cell in the file that lies over or under
the point (or contains it) and reaches the layer of the point; the layers have the thickness of the margin. (If this cell does not contain the point, this is an
extrapolation, C28.) -/
theorem C139_first_cell_3d (pts : List (Fin 3 → K)) (cells : List (List Nat)) (flds : List (String × List K)) (hm : RectMesh hexUnit pts cells)
    (hl : ∀ fl ∈ flds, fl.2.length = pts.length) (b : Body K 3) (hb : Body.load (hexOps K) pts cells flds = .ok b) (c : Fin 3 → K)
    (hcov : Covered hexUnit pts cells c) (e : Nat)
    (cell : List Nat) (a h : Fin 3 → K) (he : cells[e]? = some cell) (hah : CellAt hexUnit pts cell a h) (hc : Reaches pts a h c)
    (hfirst : ∀ e' < e, ∀ cell' a' h', cells[e']? = some cell' → CellAt hexUnit pts cell' a' h' → ¬ Reaches pts a' h' c)
    (ops : List (Nat × Body.Call K 3)) (ho : HistOk pts ops) (i : Nat) (name : String) (data : List K) (hi : flds[i]? = some (name, data))
    (v : Fin 8 → K) (hv : CornerVals data cell v) :
    (b.calls (hexOps K) ops).value (hexOps K) i c = .ok (trilinear a h v c) ∧
      ∀ (di : Fin 3) (t : K), t ≠ 0 → (b.calls (hexOps K) ops).grad (hexOps K) i c di =
        .ok ((trilinear a h v (Function.update c di (c di + t)) - trilinear a h v c) / t) := by
  obtain ⟨e', cell', a', h', g1, g2, g3, g4, g5⟩ := hex_eval_first pts cells flds hm hl b hb c hcov
  have hee : e' = e := by
    have k1 := g4 e cell a h he hah hc
    rcases Nat.lt_or_ge e' e with k | k
    · exact absurd g3 (hfirst e' k cell' a' h' g1 g2)
    · omega
  subst hee
  rw [he] at g1; cases g1
  obtain ⟨rfl, rfl⟩ := cellAt_unique hexLaw g2 hah
  obtain ⟨v', gv, k1, k2⟩ := g5 ops ho i name data hi
  rw [cornerVals_unique gv hv] at k1 k2
  have n0 := (hah.2.1 0).ne'
  have n1 := (hah.2.1 1).ne'
  have n2 := (hah.2.1 2).ne'
  refine ⟨k1, ?_⟩
  intro di t ht
  refine (k2 di).trans (congrArg _ ?_)
  simp only [Fin.sum_univ_eight]
  fin_cases di
  · simp [trilinear, cornerPos, hexUnit, hexSign]
    field_simp
    ring
  · simp [trilinear, cornerPos, hexUnit, hexSign]
    field_simp
    ring
  · simp [trilinear, cornerPos, hexUnit, hexSign]
    field_simp
    ring

/-- A cell that contains the point reaches its layer; where every near cell over or under the point contains it, only those do. -/
theorem reaches_iff {pts : List (Fin 3 → K)} {cells : List (List Nat)} (hm : RectMesh hexUnit pts cells) {c : Fin 3 → K} (hz : NearClear pts cells c)
    {cell : List Nat} (hce : cell ∈ cells) {a h : Fin 3 → K} (hah : CellAt hexUnit pts cell a h) : Reaches pts a h c ↔ InCell a h c := by
  have hpos : ∀ lo hi, IsLow pts 2 lo → IsHigh pts 2 hi → 0 < margin pts 2 lo hi := by
    intro lo hi l1 l2
    obtain ⟨m, lo', hi', qs, _, hb⟩ := Mesh.build_of hexLaw hm
    rw [isLow_unique l1 (hb.grid.low 2), isHigh_unique l2 (hb.grid.high 2)]
    exact hb.incr_pos 2
  constructor
  · intro hr
    refine hz cell hce a h hah hr.1 ?_
    intro lo hi l1 l2
    obtain ⟨q1, q2⟩ := hr.2 lo hi l1 l2
    have r1 := floor_near (hpos lo hi l1 l2) q1
    have r2 := floor_near (hpos lo hi l1 l2) q2
    constructor <;> linarith
  · intro hin
    refine ⟨fun i _ => hin i, fun lo hi l1 l2 => ?_⟩
    have hp := hpos lo hi l1 l2
    exact ⟨floor_idx_mono hp (hin 2).1, floor_idx_mono hp (hin 2).2⟩

/-- **C139** (3D) At points such that every cell over or under the point whose vertical range comes near it contains it, this is the first cell in the file that
contains the point, as in 2D. -/
theorem C139_first_cell_3d_clear (pts : List (Fin 3 → K)) (cells : List (List Nat)) (flds : List (String × List K)) (hm : RectMesh hexUnit pts cells)
    (hl : ∀ fl ∈ flds, fl.2.length = pts.length) (b : Body K 3) (hb : Body.load (hexOps K) pts cells flds = .ok b) (c : Fin 3 → K)
    (hz : NearClear pts cells c) (e : Nat)
    (cell : List Nat) (a h : Fin 3 → K) (he : cells[e]? = some cell) (hah : CellAt hexUnit pts cell a h) (hc : InCell a h c)
    (hfirst : ∀ e' < e, ∀ cell' a' h', cells[e']? = some cell' → CellAt hexUnit pts cell' a' h' → ¬ InCell a' h' c)
    (ops : List (Nat × Body.Call K 3)) (ho : HistOk pts ops) (i : Nat) (name : String) (data : List K) (hi : flds[i]? = some (name, data))
    (v : Fin 8 → K) (hv : CornerVals data cell v) :
    (b.calls (hexOps K) ops).value (hexOps K) i c = .ok (trilinear a h v c) ∧
      ∀ (di : Fin 3) (t : K), t ≠ 0 → (b.calls (hexOps K) ops).grad (hexOps K) i c di =
        .ok ((trilinear a h v (Function.update c di (c di + t)) - trilinear a h v c) / t) := by
  have hmem := List.mem_of_getElem? he
  exact C139_first_cell_3d pts cells flds hm hl b hb c ⟨cell, hmem, a, h, hah, hc⟩ e cell a h he hah ((reaches_iff hm hz hmem hah).mpr hc)
    (fun e' h1 x a' h' h2 h3 h4 => hfirst e' h1 x a' h' h2 h3 ((reaches_iff hm hz (List.mem_of_getElem? h2) h3).mp h4)) ops ho i name data hi v hv

/-- The two cells of the demo mesh share the edge `x = 1`. At its middle the slope in `x` is that of the cell listed first, 1; with the cells listed in the other
order it is that of the other cell, 3/4. -/
example : (Body.load (quadOps ℚ) Demo.pts Demo.cells Demo.flds >>= fun b => b.grad (quadOps ℚ) 0 ![1, 1 / 2] 0) = .ok 1 ∧
    (Body.load (quadOps ℚ) Demo.pts Demo.cells.reverse Demo.flds >>= fun b => b.grad (quadOps ℚ) 0 ![1, 1 / 2] 0) = .ok (3 / 4) := by decide +kernel

/-- The hypotheses are met there: the point is in the first cell, before which there is none. -/
example (b : Body ℚ 2) (hb : Body.load (quadOps ℚ) Demo.pts Demo.cells Demo.flds = .ok b) (ops : List (Nat × Body.Call ℚ 2)) (ho : HistOk Demo.pts ops) :
    (b.calls (quadOps ℚ) ops).value (quadOps ℚ) 0 ![1, 1 / 2] = .ok (bilinear ![0, 0] ![1, 1] ![1, 2, 5, 4] ![1, 1 / 2]) :=
  (C139_first_cell_2d Demo.pts Demo.cells Demo.flds Demo.rect Demo.lens b hb ![1, 1 / 2] 0 _ _ _ rfl Demo.cell0
    (by unfold InCell; decide +kernel) (by intro e' h; omega) ops ho 0 "u" _ rfl ![1, 2, 5, 4] (by
      intro j
      fin_cases j
      · exact ⟨0, rfl, rfl⟩
      · exact ⟨1, rfl, rfl⟩
      · exact ⟨4, rfl, rfl⟩
      · exact ⟨3, rfl, rfl⟩)).1

/-- The stacked cubes of C28: the lower cube is first and reaches the layer of the point `(0.5, 0.5, 1.2)` of the upper cube, so it answers. -/
example (b : Body ℚ 3) (hb : Body.load (hexOps ℚ) Demo3.pts Demo3.cells [("u", Demo3.data)] = .ok b) (ops : List (Nat × Body.Call ℚ 3))
    (ho : HistOk Demo3.pts ops) : (b.calls (hexOps ℚ) ops).value (hexOps ℚ) 0 ![1 / 2, 1 / 2, 6 / 5] =
      .ok (trilinear ![0, 0, 0] ![1, 1, 1] (fun _ => 0) ![1 / 2, 1 / 2, 6 / 5]) :=
  (C139_first_cell_3d Demo3.pts Demo3.cells _ Demo3.rect (by decide) b hb ![1 / 2, 1 / 2, 6 / 5]
    ⟨_, by simp [Demo3.cells], _, _, Demo3.cell1, by intro i; fin_cases i <;> decide +kernel⟩ 0 _ _ _ rfl Demo3.cell0
    (by
      refine ⟨by decide +kernel, ?_⟩
      intro lo hi l1 l2
      have e1 : lo = 0 := isLow_unique l1 ⟨by decide +kernel, by decide +kernel⟩
      have e2 : hi = 2 := isHigh_unique l2 ⟨by decide +kernel, by decide +kernel⟩
      subst e1; subst e2
      decide +kernel) (by intro e' h; omega) ops ho 0 "u" _ rfl (fun _ => 0) (by
      intro j
      fin_cases j
      · exact ⟨0, rfl, rfl⟩
      · exact ⟨1, rfl, rfl⟩
      · exact ⟨2, rfl, rfl⟩
      · exact ⟨3, rfl, rfl⟩
      · exact ⟨4, rfl, rfl⟩
      · exact ⟨5, rfl, rfl⟩
      · exact ⟨6, rfl, rfl⟩
      · exact ⟨7, rfl, rfl⟩)).1

end Verif
