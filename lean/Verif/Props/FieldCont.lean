import Verif.Props.FieldConform
import Mathlib.Topology.LocallyFinite
import Mathlib.Topology.Algebra.Field
import Mathlib.Topology.Algebra.Order.Field
import Mathlib.Topology.Instances.Real.Lemmas

/-!
# Property C111: a 2D field on a conforming mesh is continuous
-/

namespace Verif
open Spec Bin Mesh PField Body

/-- A cell is a closed set. -/
theorem inCell_closed {d : Nat} (a h : Fin d → ℝ) : IsClosed {c | InCell a h c} := by
  have : {c | InCell a h c} = ⋂ i, {c : Fin d → ℝ | a i ≤ c i} ∩ {c : Fin d → ℝ | c i ≤ a i + h i} := by
    ext c
    simp [InCell]
  rw [this]
  exact isClosed_iInter fun i => (isClosed_le continuous_const (continuous_apply i)).inter (isClosed_le (continuous_apply i) continuous_const)

theorem bilinear_continuous (a h : Fin 2 → ℝ) (v : Fin 4 → ℝ) : Continuous (bilinear a h v) := by
  have e : bilinear a h v = fun c => bilinear a h v c := rfl
  rw [e]
  simp only [bilinear]
  fun_prop

/-- **C111** On a conforming 2D mesh a field is a continuous function on the body: `F` is any function whose value at each point of the body is
what an evaluation returns there, after whatever history. -/
theorem C111_continuous (pts : List (Fin 2 → ℝ)) (cells : List (List Nat)) (flds : List (String × List ℝ)) (hm : RectMesh quadUnit pts cells)
    (hcf : Conforming quadUnit pts cells) (hl : ∀ fl ∈ flds, fl.2.length = pts.length) (b : Body ℝ 2)
    (hb : Body.load (quadOps ℝ) pts cells flds = .ok b) (i : Nat) (hi : i < flds.length) (F : (Fin 2 → ℝ) → ℝ)
    (hF : ∀ c, Covered quadUnit pts cells c → ∃ ops, HistOk pts ops ∧ (b.calls (quadOps ℝ) ops).value (quadOps ℝ) i c = .ok (F c)) :
    ContinuousOn F {c | Covered quadUnit pts cells c} := by
  choose a h hah using fun k : Fin cells.length => hm.rect _ (List.getElem_mem k.isLt)
  have vals : ∀ k : Fin cells.length, ∃ v : Fin 4 → ℝ, CornerVals flds[i].2 cells[k] v := by
    intro k
    refine ⟨fun j => flds[i].2.getD (cells[k].getD j 0) 0, fun j => ?_⟩
    obtain ⟨p, p1, p2⟩ := (hah k).2.2 j
    have hp : p < pts.length := (List.getElem?_eq_some_iff.mp p2).1
    refine ⟨p, p1, ?_⟩
    have hlen := hl _ (List.getElem_mem hi)
    have e : (cells[k] : List Nat).getD j 0 = p := by simp only [Fin.getElem_fin] at p1 ⊢; simp [List.getD, p1]
    show _ = some (flds[i].2.getD ((cells[k] : List Nat).getD j 0) 0)
    rw [e]
    simp [List.getD, List.getElem?_eq_getElem (show p < flds[i].2.length by omega)]
  choose v hv using vals
  have cover : {c | Covered quadUnit pts cells c} = ⋃ k : Fin cells.length, {c | InCell (a k) (h k) c} := by
    ext c
    simp only [Set.mem_setOf_eq, Set.mem_iUnion]
    constructor
    · rintro ⟨cell, hc, a', h', hah', hin⟩
      obtain ⟨k, hk, rfl⟩ := List.mem_iff_getElem.mp hc
      obtain ⟨rfl, rfl⟩ := Mesh.cellAt_unique quadLaw hah' (hah ⟨k, hk⟩)
      exact ⟨⟨k, hk⟩, hin⟩
    · rintro ⟨k, hin⟩
      exact ⟨_, List.getElem_mem k.isLt, _, _, hah k, hin⟩
  rw [cover]
  refine (locallyFinite_of_finite _).continuousOn_iUnion (fun k => inCell_closed _ _) fun k => ?_
  refine (bilinear_continuous (a k) (h k) (v k)).continuousOn.congr fun c hc => ?_
  obtain ⟨ops, ho, e⟩ := hF c ⟨_, List.getElem_mem k.isLt, _, _, hah k, hc⟩
  have e2 := C27_single_valued pts cells flds hm hcf hl b hb ops ho i flds[i].1 flds[i].2 (by simp [hi]) _ (List.getElem_mem k.isLt)
    (a k) (h k) (hah k) (v k) (hv k) c hc
  rw [e] at e2
  exact Except.ok.inj e2

/-! ### Non-vacuity -/

namespace DemoR

/-- Two cells side by side, over the real numbers. -/
def pts : List (Fin 2 → ℝ) := [![0, 0], ![1, 0], ![3, 0], ![0, 1], ![1, 1], ![3, 1]]
def cells : List (List Nat) := [[0, 1, 4, 3], [1, 2, 5, 4]]

theorem cell0 : CellAt quadUnit pts [0, 1, 4, 3] ![0, 0] ![1, 1] := by
  refine ⟨rfl, by intro i; fin_cases i <;> simp, ?_⟩
  intro j
  fin_cases j
  · exact ⟨0, rfl, by simp [pts]; funext i; fin_cases i <;> norm_num [cornerPos, quadUnit]⟩
  · exact ⟨1, rfl, by simp [pts]; funext i; fin_cases i <;> norm_num [cornerPos, quadUnit]⟩
  · exact ⟨4, rfl, by simp [pts]; funext i; fin_cases i <;> norm_num [cornerPos, quadUnit]⟩
  · exact ⟨3, rfl, by simp [pts]; funext i; fin_cases i <;> norm_num [cornerPos, quadUnit]⟩

theorem cell1 : CellAt quadUnit pts [1, 2, 5, 4] ![1, 0] ![2, 1] := by
  refine ⟨rfl, by intro i; fin_cases i <;> simp, ?_⟩
  intro j
  fin_cases j
  · exact ⟨1, rfl, by simp [pts]; funext i; fin_cases i <;> norm_num [cornerPos, quadUnit]⟩
  · exact ⟨2, rfl, by simp [pts]; funext i; fin_cases i <;> norm_num [cornerPos, quadUnit]⟩
  · exact ⟨5, rfl, by simp [pts]; funext i; fin_cases i <;> norm_num [cornerPos, quadUnit]⟩
  · exact ⟨4, rfl, by simp [pts]; funext i; fin_cases i <;> norm_num [cornerPos, quadUnit]⟩

theorem rect : RectMesh quadUnit pts cells where
  nonempty := by decide
  rect := by
    intro cell hc
    simp only [cells, List.mem_cons, List.not_mem_nil, or_false] at hc
    rcases hc with rfl | rfl
    exacts [⟨_, _, cell0⟩, ⟨_, _, cell1⟩]
  small := by
    have h0 : nDistinct pts 0 ≤ 6 := (List.Sublist.length_le (List.dedup_sublist _)).trans (by simp [pts])
    have h1 : nDistinct pts 1 ≤ 6 := (List.Sublist.length_le (List.dedup_sublist _)).trans (by simp [pts])
    simp [List.ofFn_succ, prod]
    nlinarith

theorem conforming : Conforming quadUnit pts cells := by
  have key : ∀ cell ∈ cells, ∀ a h, CellAt quadUnit pts cell a h →
      (cell = [0, 1, 4, 3] ∧ a = ![0, 0] ∧ h = ![1, 1]) ∨ (cell = [1, 2, 5, 4] ∧ a = ![1, 0] ∧ h = ![2, 1]) := by
    intro cell hc a h hah
    simp only [cells, List.mem_cons, List.not_mem_nil, or_false] at hc
    rcases hc with rfl | rfl
    · exact Or.inl ⟨rfl, Mesh.cellAt_unique quadLaw hah cell0⟩
    · exact Or.inr ⟨rfl, Mesh.cellAt_unique quadLaw hah cell1⟩
  intro cell hc cell' hc' a h a' h' hah hah' _ u hu
  have ext : ∀ x y : ℝ, u 0 = x → u 1 = y → u = ![x, y] := by
    intro x y hx hy; funext i; fin_cases i <;> simp [hx, hy]
  have n13 : Min.min (1 : ℝ) (1 + 2) = 1 := by norm_num
  have n31 : Min.min ((1 : ℝ) + 2) 1 = 1 := by norm_num
  have e3 : (1 : ℝ) + 2 = 3 := by norm_num
  have h0 := hu 0
  have h1 := hu 1
  rcases key cell hc a h hah with ⟨rfl, rfl, rfl⟩ | ⟨rfl, rfl, rfl⟩ <;>
  rcases key cell' hc' a' h' hah' with ⟨rfl, rfl, rfl⟩ | ⟨rfl, rfl, rfl⟩ <;>
  simp [n13, n31, e3] at h0 h1
  · rcases h0 with h0 | h0 <;> rcases h1 with h1 | h1 <;> rw [ext _ _ h0 h1] <;> simp [pts]
  · rcases h1 with h1 | h1 <;> rw [ext _ _ h0 h1] <;> simp [pts]
  · rcases h1 with h1 | h1 <;> rw [ext _ _ h0 h1] <;> simp [pts]
  · rcases h0 with h0 | h0 <;> rcases h1 with h1 | h1 <;> rw [ext _ _ h0 h1] <;> simp [pts]

end DemoR

/-- Hypotheses of C111: two cells and a field over the real numbers, and a function `F` that collects the values. -/
example : ∃ b, Body.load (quadOps ℝ) DemoR.pts DemoR.cells [("u", [1, 2, 3, 4, 5, 6])] = .ok b ∧ Conforming quadUnit DemoR.pts DemoR.cells ∧
    Covered quadUnit DemoR.pts DemoR.cells ![1, 1 / 2] ∧
    ∃ F : (Fin 2 → ℝ) → ℝ, (∀ c, Covered quadUnit DemoR.pts DemoR.cells c →
      ∃ ops, HistOk DemoR.pts ops ∧ (b.calls (quadOps ℝ) ops).value (quadOps ℝ) 0 c = .ok (F c)) := by
  obtain ⟨b, hb, _⟩ := C22_load_2d DemoR.pts DemoR.cells [("u", [1, 2, 3, 4, 5, 6])] DemoR.rect (by simp [DemoR.pts])
  refine ⟨b, hb, DemoR.conforming, ⟨_, List.mem_cons_self, _, _, DemoR.cell0, ?_⟩,
    fun c => match (b.calls (quadOps ℝ) []).value (quadOps ℝ) 0 c with | .ok y => y | .error _ => 0, ?_⟩
  · intro i; fin_cases i <;> norm_num
  · intro c hc
    refine ⟨[], by simp [HistOk], ?_⟩
    obtain ⟨_, _, _, _, _, _, g⟩ := C23_bilinear _ _ _ DemoR.rect (by simp [DemoR.pts]) b hb c hc
    obtain ⟨v, _, e⟩ := g [] (by simp [HistOk]) 0 "u" _ rfl
    simp only [e]

end Verif
