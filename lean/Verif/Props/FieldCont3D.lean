import Verif.Props.FieldCont
import Verif.Props.Field3DMore
import Verif.Props.FieldFirst

/-!
# Property C146: continuity of 3D fields
-/

namespace Verif
open Spec Bin Mesh PField Body

theorem trilinear_continuous (a h : Fin 3 → ℝ) (v : Fin 8 → ℝ) : Continuous (trilinear a h v) := by
  have e : trilinear a h v = fun c => trilinear a h v c := rfl
  rw [e]
  simp only [trilinear]
  fun_prop

/-- **C146** (the part that holds) On a conforming 3D mesh a field is continuous on the part of the body where every near cell over or under the point contains it
(`NearClear`). `F` is any function whose value at each such point is what an evaluation returns there, after whatever history. -/
theorem C146_clear_partial (pts : List (Fin 3 → ℝ)) (cells : List (List Nat)) (flds : List (String × List ℝ)) (hm : RectMesh hexUnit pts cells)
    (hcf : Conforming hexUnit pts cells) (hl : ∀ fl ∈ flds, fl.2.length = pts.length) (b : Body ℝ 3)
    (hb : Body.load (hexOps ℝ) pts cells flds = .ok b) (i : Nat) (hi : i < flds.length) (F : (Fin 3 → ℝ) → ℝ)
    (hF : ∀ c, Covered hexUnit pts cells c → ∃ ops, HistOk pts ops ∧ (b.calls (hexOps ℝ) ops).value (hexOps ℝ) i c = .ok (F c)) :
    ContinuousOn F {c | Covered hexUnit pts cells c ∧ NearClear pts cells c} := by
  choose a h hah using fun k : Fin cells.length => hm.rect _ (List.getElem_mem k.isLt)
  have vals : ∀ k : Fin cells.length, ∃ v : Fin 8 → ℝ, CornerVals flds[i].2 cells[k] v := by
    intro k
    refine ⟨fun j => flds[i].2.getD (cells[k].getD j 0) 0, fun j => ?_⟩
    obtain ⟨p, p1, p2⟩ := (hah k).2.2 j
    have hp : p < pts.length := (List.getElem?_eq_some_iff.mp p2).1
    refine ⟨p, p1, ?_⟩
    have hlen := hl _ (List.getElem_mem hi)
    have e : (cells[k] : List Nat).getD j 0 = p := by simp only [Fin.getElem_fin] at p1 ⊢; simp [List.getD, p1]
    show _ = some (flds[i].2.getD ((cells[k] : List Nat).getD j 0) 0)
    rw [e]
    simp [List.getD, List.getElem?_eq_getElem (show p < flds[i].2.length by omega)]
  choose v hv using vals
  have cover : {c | Covered hexUnit pts cells c ∧ NearClear pts cells c} =
      ⋃ k : Fin cells.length, {c | InCell (a k) (h k) c ∧ NearClear pts cells c} := by
    ext c
    simp only [Set.mem_setOf_eq, Set.mem_iUnion]
    constructor
    · rintro ⟨⟨cell, hc, a', h', hah', hin⟩, hn⟩
      obtain ⟨k, hk, rfl⟩ := List.mem_iff_getElem.mp hc
      obtain ⟨rfl, rfl⟩ := Mesh.cellAt_unique hexLaw hah' (hah ⟨k, hk⟩)
      exact ⟨⟨k, hk⟩, hin, hn⟩
    · rintro ⟨k, hin, hn⟩
      exact ⟨⟨_, List.getElem_mem k.isLt, _, _, hah k, hin⟩, hn⟩
  have eq : ∀ (k : Fin cells.length) c, InCell (a k) (h k) c → NearClear pts cells c → F c = trilinear (a k) (h k) (v k) c := by
    intro k c hc hn
    obtain ⟨ops, ho, e⟩ := hF c ⟨_, List.getElem_mem k.isLt, _, _, hah k, hc⟩
    have e2 := C112_single_valued_partial pts cells flds hm hcf hl b hb ops ho i flds[i].1 flds[i].2 (by simp [hi]) _ (List.getElem_mem k.isLt)
      (a k) (h k) (hah k) (v k) (hv k) c hc hn
    rw [e] at e2
    exact Except.ok.inj e2
  rw [cover]
  intro x hx
  rw [← cover] at hx
  unfold ContinuousWithinAt
  rw [nhdsWithin_iUnion, Filter.tendsto_iSup]
  intro k
  by_cases hk : InCell (a k) (h k) x
  · have hc : ContinuousWithinAt (trilinear (a k) (h k) (v k)) {c | InCell (a k) (h k) c ∧ NearClear pts cells c} x :=
      (trilinear_continuous _ _ _).continuousWithinAt
    have := hc.congr (g := F) (fun y hy => eq k y hy.1 hy.2) (eq k x hk hx.2)
    exact this
  · refine continuousWithinAt_of_notMem_closure fun hcl => hk ?_
    have : closure {c | InCell (a k) (h k) c ∧ NearClear pts cells c} ⊆ {c | InCell (a k) (h k) c} :=
      closure_minimal (fun c hc => hc.1) (inCell_closed _ _)
    exact this hcl

/-- **C146** (the part that holds) In a conforming mesh of one layer of boxes a field is continuous on the whole body. -/
theorem C146_one_layer_partial (pts : List (Fin 3 → ℝ)) (cells : List (List Nat)) (flds : List (String × List ℝ)) (hm : RectMesh hexUnit pts cells)
    (hcf : Conforming hexUnit pts cells) (hl : ∀ fl ∈ flds, fl.2.length = pts.length) (b : Body ℝ 3)
    (hb : Body.load (hexOps ℝ) pts cells flds = .ok b) (z dz : ℝ)
    (hz : ∀ cell ∈ cells, ∀ a h, CellAt hexUnit pts cell a h → a 2 = z ∧ h 2 = dz) (i : Nat) (hi : i < flds.length) (F : (Fin 3 → ℝ) → ℝ)
    (hF : ∀ c, Covered hexUnit pts cells c → ∃ ops, HistOk pts ops ∧ (b.calls (hexOps ℝ) ops).value (hexOps ℝ) i c = .ok (F c)) :
    ContinuousOn F {c | Covered hexUnit pts cells c} := by
  have e : {c | Covered hexUnit pts cells c} = {c | Covered hexUnit pts cells c ∧ NearClear pts cells c} := by
    ext c
    exact ⟨fun hc => ⟨hc, nearClear_of_layer hz hc⟩, fun hc => hc.1⟩
  rw [e]
  exact C146_clear_partial pts cells flds hm hcf hl b hb i hi F hF

/-! ### The jump -/

namespace Demo3R

/-- Two unit cubes on top of each other, over the real numbers. -/
def pts : List (Fin 3 → ℝ) := [![0, 0, 0], ![1, 0, 0], ![1, 1, 0], ![0, 1, 0], ![0, 0, 1], ![1, 0, 1], ![1, 1, 1], ![0, 1, 1],
  ![0, 0, 2], ![1, 0, 2], ![1, 1, 2], ![0, 1, 2]]
def cells : List (List Nat) := [[0, 1, 2, 3, 4, 5, 6, 7], [4, 5, 6, 7, 8, 9, 10, 11]]
/-- 0 at and below `z = 1`, 1 at `z = 2`. -/
def data : List ℝ := [0, 0, 0, 0, 0, 0, 0, 0, 1, 1, 1, 1]

theorem v2 (a b c : ℝ) : (![a, b, c] : Fin 3 → ℝ) 2 = c := rfl

theorem node {p : Nat} {x y z : ℝ} {u : Fin 3 → ℝ} (h : pts[p]? = some ![x, y, z]) (h0 : x = u 0) (h1 : y = u 1) (h2 : z = u 2) : pts[p]? = some u := by
  rw [h]
  congr 1
  funext i
  fin_cases i
  exacts [h0, h1, h2]

theorem cell0 : CellAt hexUnit pts [0, 1, 2, 3, 4, 5, 6, 7] ![0, 0, 0] ![1, 1, 1] := by
  refine ⟨rfl, by intro i; fin_cases i <;> simp, ?_⟩
  intro j
  fin_cases j
  · exact ⟨0, rfl, node rfl (by norm_num [cornerPos, hexUnit, v2]) (by norm_num [cornerPos, hexUnit, v2]) (by norm_num [cornerPos, hexUnit, v2])⟩
  · exact ⟨1, rfl, node rfl (by norm_num [cornerPos, hexUnit, v2]) (by norm_num [cornerPos, hexUnit, v2]) (by norm_num [cornerPos, hexUnit, v2])⟩
  · exact ⟨2, rfl, node rfl (by norm_num [cornerPos, hexUnit, v2]) (by norm_num [cornerPos, hexUnit, v2]) (by norm_num [cornerPos, hexUnit, v2])⟩
  · exact ⟨3, rfl, node rfl (by norm_num [cornerPos, hexUnit, v2]) (by norm_num [cornerPos, hexUnit, v2]) (by norm_num [cornerPos, hexUnit, v2])⟩
  · exact ⟨4, rfl, node rfl (by norm_num [cornerPos, hexUnit, v2]) (by norm_num [cornerPos, hexUnit, v2]) (by norm_num [cornerPos, hexUnit, v2])⟩
  · exact ⟨5, rfl, node rfl (by norm_num [cornerPos, hexUnit, v2]) (by norm_num [cornerPos, hexUnit, v2]) (by norm_num [cornerPos, hexUnit, v2])⟩
  · exact ⟨6, rfl, node rfl (by norm_num [cornerPos, hexUnit, v2]) (by norm_num [cornerPos, hexUnit, v2]) (by norm_num [cornerPos, hexUnit, v2])⟩
  · exact ⟨7, rfl, node rfl (by norm_num [cornerPos, hexUnit, v2]) (by norm_num [cornerPos, hexUnit, v2]) (by norm_num [cornerPos, hexUnit, v2])⟩

theorem cell1 : CellAt hexUnit pts [4, 5, 6, 7, 8, 9, 10, 11] ![0, 0, 1] ![1, 1, 1] := by
  refine ⟨rfl, by intro i; fin_cases i <;> simp, ?_⟩
  intro j
  fin_cases j
  · exact ⟨4, rfl, node rfl (by norm_num [cornerPos, hexUnit, v2]) (by norm_num [cornerPos, hexUnit, v2]) (by norm_num [cornerPos, hexUnit, v2])⟩
  · exact ⟨5, rfl, node rfl (by norm_num [cornerPos, hexUnit, v2]) (by norm_num [cornerPos, hexUnit, v2]) (by norm_num [cornerPos, hexUnit, v2])⟩
  · exact ⟨6, rfl, node rfl (by norm_num [cornerPos, hexUnit, v2]) (by norm_num [cornerPos, hexUnit, v2]) (by norm_num [cornerPos, hexUnit, v2])⟩
  · exact ⟨7, rfl, node rfl (by norm_num [cornerPos, hexUnit, v2]) (by norm_num [cornerPos, hexUnit, v2]) (by norm_num [cornerPos, hexUnit, v2])⟩
  · exact ⟨8, rfl, node rfl (by norm_num [cornerPos, hexUnit, v2]) (by norm_num [cornerPos, hexUnit, v2]) (by norm_num [cornerPos, hexUnit, v2])⟩
  · exact ⟨9, rfl, node rfl (by norm_num [cornerPos, hexUnit, v2]) (by norm_num [cornerPos, hexUnit, v2]) (by norm_num [cornerPos, hexUnit, v2])⟩
  · exact ⟨10, rfl, node rfl (by norm_num [cornerPos, hexUnit, v2]) (by norm_num [cornerPos, hexUnit, v2]) (by norm_num [cornerPos, hexUnit, v2])⟩
  · exact ⟨11, rfl, node rfl (by norm_num [cornerPos, hexUnit, v2]) (by norm_num [cornerPos, hexUnit, v2]) (by norm_num [cornerPos, hexUnit, v2])⟩

theorem distinct0 : nDistinct pts 0 = 2 := by
  have : (pts.map (· 0)).toFinset = {0, 1} := by ext x; simp [pts]; tauto
  rw [nDistinct, this, Finset.card_pair (by norm_num)]

theorem distinct1 : nDistinct pts 1 = 2 := by
  have : (pts.map (· 1)).toFinset = {0, 1} := by ext x; simp [pts]
  rw [nDistinct, this, Finset.card_pair (by norm_num)]

theorem distinct2 : nDistinct pts 2 = 3 := by
  have : (pts.map (· 2)).toFinset = {0, 1, 2} := by ext x; simp [pts]
  rw [nDistinct, this, Finset.card_insert_of_notMem (by norm_num), Finset.card_pair (by norm_num)]

theorem rect : RectMesh hexUnit pts cells where
  nonempty := by decide
  rect := by
    intro cell hc
    simp only [cells, List.mem_cons, List.not_mem_nil, or_false] at hc
    rcases hc with rfl | rfl
    exacts [⟨_, _, cell0⟩, ⟨_, _, cell1⟩]
  small := by
    rw [show (fun i : Fin 3 => (nDistinct pts i : Int) + 2) = ![4, 4, 5] by funext i; fin_cases i <;> simp [distinct0, distinct1, distinct2]]
    decide

theorem layers {lo hi : ℝ} (l1 : IsLow pts 2 lo) (l2 : IsHigh pts 2 hi) (z : ℝ) : layer pts lo hi z = ⌊z * (3 / 2) + 1⌋ := by
  have e1 : lo = 0 := isLow_unique l1 ⟨⟨![0, 0, 0], by simp [pts], by simp [v2]⟩, by simp [pts, v2]⟩
  have e2 : hi = 2 := isHigh_unique l2 ⟨⟨![0, 0, 2], by simp [pts], by simp [v2]⟩, by simp [pts, v2]⟩
  subst e1 e2
  rw [layer, margin, distinct2]
  congr 1
  push_cast
  field_simp
  ring

/-- The point of height `z` on the axis of the cubes. -/
noncomputable def at_ (z : ℝ) : Fin 3 → ℝ := ![1 / 2, 1 / 2, z]

/-- The lower cube answers from 1 up to `4/3`. -/
theorem low_reaches {z : ℝ} (h1 : 1 ≤ z) (h2 : z < 4 / 3) : Reaches pts ![0, 0, 0] ![1, 1, 1] (at_ z) := by
  refine ⟨?_, ?_⟩
  · intro i hi
    fin_cases i
    · simp [at_]; norm_num
    · simp [at_]; norm_num
    · exact absurd rfl hi
  · intro lo hi l1 l2
    rw [layers l1 l2, layers l1 l2, layers l1 l2]
    have e : ⌊z * (3 / 2) + 1⌋ = 2 := by rw [Int.floor_eq_iff]; constructor <;> push_cast <;> linarith
    have e0 : ⌊(![0, 0, 0] : Fin 3 → ℝ) 2 * (3 / 2) + 1⌋ = 1 := by rw [Int.floor_eq_iff]; constructor <;> norm_num [v2]
    have e1 : ⌊((![0, 0, 0] : Fin 3 → ℝ) 2 + (![1, 1, 1] : Fin 3 → ℝ) 2) * (3 / 2) + 1⌋ = 2 := by rw [Int.floor_eq_iff]; constructor <;> norm_num [v2]
    have e2 : at_ z 2 = z := rfl
    rw [e0, e1, e2, e]
    decide

/-- At `4/3` it does not. -/
theorem low_not : ¬ Reaches pts ![0, 0, 0] ![1, 1, 1] (at_ (4 / 3)) := by
  rintro ⟨_, h⟩
  have := (h 0 2 ⟨⟨![0, 0, 0], by simp [pts], by simp [v2]⟩, by simp [pts, v2]⟩ ⟨⟨![0, 0, 2], by simp [pts], by simp [v2]⟩, by simp [pts, v2]⟩).2
  rw [layers (hi := 2) ⟨⟨![0, 0, 0], by simp [pts], by simp [v2]⟩, by simp [pts, v2]⟩ ⟨⟨![0, 0, 2], by simp [pts], by simp [v2]⟩, by simp [pts, v2]⟩,
    layers (hi := 2) ⟨⟨![0, 0, 0], by simp [pts], by simp [v2]⟩, by simp [pts, v2]⟩ ⟨⟨![0, 0, 2], by simp [pts], by simp [v2]⟩, by simp [pts, v2]⟩] at this
  have e1 : ⌊((![0, 0, 0] : Fin 3 → ℝ) 2 + (![1, 1, 1] : Fin 3 → ℝ) 2) * (3 / 2) + 1⌋ = 2 := by rw [Int.floor_eq_iff]; constructor <;> norm_num [v2]
  have e2 : ⌊at_ (4 / 3) 2 * (3 / 2) + 1⌋ = 3 := by rw [Int.floor_eq_iff]; constructor <;> norm_num [at_, v2]
  rw [e1, e2] at this
  omega

theorem high_reaches : Reaches pts ![0, 0, 1] ![1, 1, 1] (at_ (4 / 3)) := by
  refine ⟨?_, ?_⟩
  · intro i hi
    fin_cases i
    · simp [at_]; norm_num
    · simp [at_]; norm_num
    · exact absurd rfl hi
  · intro lo hi l1 l2
    rw [layers l1 l2, layers l1 l2, layers l1 l2]
    have e0 : ⌊(![0, 0, 1] : Fin 3 → ℝ) 2 * (3 / 2) + 1⌋ = 2 := by rw [Int.floor_eq_iff]; constructor <;> norm_num [v2]
    have e1 : ⌊((![0, 0, 1] : Fin 3 → ℝ) 2 + (![1, 1, 1] : Fin 3 → ℝ) 2) * (3 / 2) + 1⌋ = 4 := by rw [Int.floor_eq_iff]; constructor <;> norm_num [v2]
    have e2 : ⌊at_ (4 / 3) 2 * (3 / 2) + 1⌋ = 3 := by rw [Int.floor_eq_iff]; constructor <;> norm_num [at_, v2]
    rw [e0, e1, e2]
    decide

theorem covered {z : ℝ} (h1 : 1 ≤ z) (h2 : z ≤ 2) : Covered hexUnit pts cells (at_ z) := by
  refine ⟨_, by simp [cells], _, _, cell1, ?_⟩
  intro i
  fin_cases i
  · simp [at_]; norm_num
  · simp [at_]; norm_num
  · simp [at_, v2]; exact ⟨h1, by linarith⟩

theorem conforming : Conforming hexUnit pts cells := by
  have key : ∀ cell ∈ cells, ∀ a h, CellAt hexUnit pts cell a h →
      (cell = [0, 1, 2, 3, 4, 5, 6, 7] ∧ a = ![0, 0, 0] ∧ h = ![1, 1, 1]) ∨ (cell = [4, 5, 6, 7, 8, 9, 10, 11] ∧ a = ![0, 0, 1] ∧ h = ![1, 1, 1]) := by
    intro cell hc a h hah
    simp only [cells, List.mem_cons, List.not_mem_nil, or_false] at hc
    rcases hc with rfl | rfl
    · exact Or.inl ⟨rfl, Mesh.cellAt_unique hexLaw hah cell0⟩
    · exact Or.inr ⟨rfl, Mesh.cellAt_unique hexLaw hah cell1⟩
  intro cell hc cell' hc' a h a' h' hah hah' _ u hu
  have ext : ∀ x y z : ℝ, u 0 = x → u 1 = y → u 2 = z → u = ![x, y, z] := by
    intro x y z hx hy hz; funext i; fin_cases i <;> simp [hx, hy, hz]
  have n12 : Min.min (1 : ℝ) (1 + 1) = 1 := by norm_num
  have n21 : Min.min ((1 : ℝ) + 1) 1 = 1 := by norm_num
  have e2 : (1 : ℝ) + 1 = 2 := by norm_num
  have h0 := hu 0
  have h1 := hu 1
  have h2 := hu 2
  rcases key cell hc a h hah with ⟨rfl, rfl, rfl⟩ | ⟨rfl, rfl, rfl⟩ <;>
  rcases key cell' hc' a' h' hah' with ⟨rfl, rfl, rfl⟩ | ⟨rfl, rfl, rfl⟩ <;>
  simp [v2, n12, n21, e2] at h0 h1 h2
  · rcases h0 with h0 | h0 <;> rcases h1 with h1 | h1 <;> rcases h2 with h2 | h2 <;> rw [ext _ _ _ h0 h1 h2] <;> simp [pts]
  · rcases h0 with h0 | h0 <;> rcases h1 with h1 | h1 <;> rw [ext _ _ _ h0 h1 h2] <;> simp [pts]
  · rcases h0 with h0 | h0 <;> rcases h1 with h1 | h1 <;> rw [ext _ _ _ h0 h1 h2] <;> simp [pts]
  · rcases h0 with h0 | h0 <;> rcases h1 with h1 | h1 <;> rcases h2 with h2 | h2 <;> rw [ext _ _ _ h0 h1 h2] <;> simp [pts]

end Demo3R

open Demo3R in
/-- **C146, violation** Two unit cubes on top of each other, data 0 up to `z = 1` and 1 at `z = 2`. Whatever function collects the values of the field, it is not continuous on
the body: on the axis it is 0 below the height 4/3, where a layer of bins ends, and 1/3 there. -/
theorem C146_jump_violated : ∃ b, Body.load (hexOps ℝ) pts cells [("u", Demo3R.data)] = .ok b ∧ RectMesh hexUnit pts cells ∧
    Conforming hexUnit pts cells ∧ ∀ F : (Fin 3 → ℝ) → ℝ,
      (∀ c, Covered hexUnit pts cells c → ∃ ops, HistOk pts ops ∧ (b.calls (hexOps ℝ) ops).value (hexOps ℝ) 0 c = .ok (F c)) →
      (∀ z, 1 ≤ z → z < 4 / 3 → F ![1 / 2, 1 / 2, z] = 0) ∧ F ![1 / 2, 1 / 2, 4 / 3] = 1 / 3 ∧
      ¬ ContinuousOn F {c | Covered hexUnit pts cells c} := by
  have hl : ∀ fl ∈ [("u", Demo3R.data)], fl.2.length = pts.length := by simp [Demo3R.data, pts]
  obtain ⟨b, hb, _⟩ := C31_load_3d pts cells [("u", Demo3R.data)] rect hl
  refine ⟨b, hb, rect, Demo3R.conforming, fun F hF => ?_⟩
  have low : ∀ z, 1 ≤ z → z < 4 / 3 → F (at_ z) = 0 := by
    intro z h1 h2
    have hcov := covered h1 (by linarith : z ≤ 2)
    obtain ⟨ops, ho, e⟩ := hF _ hcov
    have e2 := (C139_first_cell_3d pts cells _ rect hl b hb (at_ z) hcov 0 _ _ _ rfl cell0 (low_reaches h1 h2) (by intro e' h; omega) ops ho 0 "u" _ rfl
      (fun _ => 0) (by
        intro j
        fin_cases j
        · exact ⟨0, rfl, rfl⟩
        · exact ⟨1, rfl, rfl⟩
        · exact ⟨2, rfl, rfl⟩
        · exact ⟨3, rfl, rfl⟩
        · exact ⟨4, rfl, rfl⟩
        · exact ⟨5, rfl, rfl⟩
        · exact ⟨6, rfl, rfl⟩
        · exact ⟨7, rfl, rfl⟩)).1
    rw [e] at e2
    rw [Except.ok.inj e2]
    simp [trilinear]
  have high : F (at_ (4 / 3)) = 1 / 3 := by
    have hcov := covered (by norm_num : (1 : ℝ) ≤ 4 / 3) (by norm_num)
    obtain ⟨ops, ho, e⟩ := hF _ hcov
    have e2 := (C139_first_cell_3d pts cells _ rect hl b hb (at_ (4 / 3)) hcov 1 _ _ _ rfl cell1 high_reaches (by
        intro e' h cell' a' h' he hah
        have : e' = 0 := by omega
        subst this
        simp [cells] at he
        subst he
        obtain ⟨rfl, rfl⟩ := Mesh.cellAt_unique hexLaw hah cell0
        exact low_not) ops ho 0 "u" _ rfl
      ![0, 0, 0, 0, 1, 1, 1, 1] (by
        intro j
        fin_cases j
        · exact ⟨4, rfl, rfl⟩
        · exact ⟨5, rfl, rfl⟩
        · exact ⟨6, rfl, rfl⟩
        · exact ⟨7, rfl, rfl⟩
        · exact ⟨8, rfl, rfl⟩
        · exact ⟨9, rfl, rfl⟩
        · exact ⟨10, rfl, rfl⟩
        · exact ⟨11, rfl, rfl⟩)).1
    rw [e] at e2
    rw [Except.ok.inj e2]
    simp [trilinear, at_, v2]
    norm_num
  refine ⟨low, high, fun hc => ?_⟩
  have hcont : Continuous at_ := by
    refine continuous_pi fun i => ?_
    fin_cases i
    · exact continuous_const
    · exact continuous_const
    · exact continuous_id
  have h1 : ContinuousWithinAt (fun z => F (at_ z)) (Set.Ico 1 (4 / 3)) (4 / 3) := by
    have k := hc (at_ (4 / 3)) (covered (by norm_num) (by norm_num))
    exact k.comp hcont.continuousWithinAt fun z hz => covered hz.1 (by linarith [hz.2])
  have h2 : Filter.Tendsto (fun _ : ℝ => (0 : ℝ)) (nhdsWithin (4 / 3) (Set.Ico 1 (4 / 3))) (nhds (F (at_ (4 / 3)))) :=
    h1.congr' (by
      filter_upwards [self_mem_nhdsWithin] with z hz
      exact low z hz.1 hz.2)
  have hne : (nhdsWithin (4 / 3 : ℝ) (Set.Ico 1 (4 / 3))).NeBot := by
    rw [← mem_closure_iff_nhdsWithin_neBot, closure_Ico (by norm_num)]
    constructor <;> norm_num [v2]
  have := tendsto_nhds_unique h2 tendsto_const_nhds
  rw [high] at this
  norm_num at this

/-- The hypotheses of the first two theorems are met by the lower cube alone. -/
example : RectMesh hexUnit Demo3R.pts [[0, 1, 2, 3, 4, 5, 6, 7]] ∧ Conforming hexUnit Demo3R.pts [[0, 1, 2, 3, 4, 5, 6, 7]] ∧
    (∀ cell ∈ [[0, 1, 2, 3, 4, 5, 6, 7]], ∀ a h, CellAt hexUnit Demo3R.pts cell a h → a 2 = 0 ∧ h 2 = 1) ∧
    ∃ b, Body.load (hexOps ℝ) Demo3R.pts [[0, 1, 2, 3, 4, 5, 6, 7]] [("u", Demo3R.data)] = .ok b ∧
      ∃ F : (Fin 3 → ℝ) → ℝ, ∀ c, Covered hexUnit Demo3R.pts [[0, 1, 2, 3, 4, 5, 6, 7]] c →
        ∃ ops, HistOk Demo3R.pts ops ∧ (b.calls (hexOps ℝ) ops).value (hexOps ℝ) 0 c = .ok (F c) := by
  have hr : RectMesh hexUnit Demo3R.pts [[0, 1, 2, 3, 4, 5, 6, 7]] :=
    ⟨by simp, by intro cell hc; simp at hc; subst hc; exact ⟨_, _, Demo3R.cell0⟩, Demo3R.rect.small⟩
  have hl : ∀ fl ∈ [("u", Demo3R.data)], fl.2.length = Demo3R.pts.length := by simp [Demo3R.data, Demo3R.pts]
  have key : ∀ cell ∈ [[0, 1, 2, 3, 4, 5, 6, 7]], ∀ a h, CellAt hexUnit Demo3R.pts cell a h → cell = [0, 1, 2, 3, 4, 5, 6, 7] ∧ a = ![0, 0, 0] ∧ h = ![1, 1, 1] := by
    intro cell hc a h hah
    simp only [List.mem_cons, List.not_mem_nil, or_false] at hc
    subst hc
    exact ⟨rfl, Mesh.cellAt_unique hexLaw hah Demo3R.cell0⟩
  obtain ⟨b, hb, _⟩ := C31_load_3d Demo3R.pts [[0, 1, 2, 3, 4, 5, 6, 7]] [("u", Demo3R.data)] hr hl
  refine ⟨hr, ?_, ?_, b, hb, fun c => match (b.calls (hexOps ℝ) []).value (hexOps ℝ) 0 c with | .ok y => y | .error _ => 0, ?_⟩
  · intro cell hc cell' hc' a h a' h' hah hah' _ u hu
    obtain ⟨rfl, rfl, rfl⟩ := key cell hc a h hah
    obtain ⟨rfl, rfl, rfl⟩ := key cell' hc' a' h' hah'
    have h0 := hu 0
    have h1 := hu 1
    have h2 := hu 2
    simp [Demo3R.v2] at h0 h1 h2
    have eu : u = ![u 0, u 1, u 2] := by funext i; fin_cases i <;> rfl
    rw [eu]
    rcases h0 with h0 | h0 <;> rcases h1 with h1 | h1 <;> rcases h2 with h2 | h2 <;> rw [h0, h1, h2] <;> simp [Demo3R.pts]
  · intro cell hc a h hah
    obtain ⟨rfl, rfl, rfl⟩ := key cell hc a h hah
    simp [Demo3R.v2]
  · intro c hc
    refine ⟨[], by simp [HistOk], ?_⟩
    obtain ⟨_, _, _, _, _, _, _, _, g⟩ := hex_eval_first _ _ _ hr hl b hb c hc
    obtain ⟨v, _, e, _⟩ := g [] (by simp [HistOk]) 0 "u" _ rfl
    simp only [e]

end Verif
