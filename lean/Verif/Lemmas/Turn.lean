import Verif.Props.FieldFirst
import Verif.Spec.Turn

/-! Cells and their interpolants in turned, mirrored and stretched coordinates. -/

namespace Verif
open Spec Mesh
variable {K : Type} [Field K] [LinearOrder K] [IsStrictOrderedRing K] {d n : Nat}

/-- Along every axis the function is affine. -/
def MultiAffine (f : (Fin d → K) → K) : Prop := ∀ c i, ∃ α β, ∀ x, f (Function.update c i x) = α + β * x

omit [LinearOrder K] [IsStrictOrderedRing K] in
/-- Functions that are affine along every axis and agree at the corners of a box agree. -/
theorem multiAffine_eq {f g : (Fin d → K) → K} (hf : MultiAffine f) (hg : MultiAffine g) {a h : Fin d → K} (hh : ∀ i, h i ≠ 0)
    (hc : ∀ u, (∀ i, u i = a i ∨ u i = a i + h i) → f u = g u) : ∀ c, f c = g c := by
  have key : ∀ S : Finset (Fin d), ∀ u, (∀ i, i ∉ S → u i = a i ∨ u i = a i + h i) → f u = g u := by
    intro S
    induction S using Finset.induction_on with
    | empty => intro u hu; exact hc u fun i => hu i (by simp)
    | insert i S hi ih =>
      intro u hu
      have e : ∀ x, (x = a i ∨ x = a i + h i) → f (Function.update u i x) = g (Function.update u i x) := by
        intro x hx
        refine ih _ fun j hj => ?_
        by_cases hji : j = i
        · subst hji; simpa using hx
        · rw [Function.update_of_ne hji]; exact hu j (by simp [hji, hj])
      obtain ⟨α, β, h1⟩ := hf u i
      obtain ⟨α', β', h2⟩ := hg u i
      have e1 := e (a i) (Or.inl rfl)
      have e2 := e (a i + h i) (Or.inr rfl)
      rw [h1, h2] at e1 e2
      have hβ : β = β' := by
        have : (β - β') * h i = 0 := by linear_combination e2 - e1
        rcases mul_eq_zero.mp this with k | k
        · exact sub_eq_zero.mp k
        · exact absurd k (hh i)
      subst hβ
      have hα : α = α' := by linear_combination e1
      have := h1 (u i)
      rw [hα, ← h2 (u i)] at this
      simpa using this
  intro c
  exact key Finset.univ c fun i hi => absurd (Finset.mem_univ i) hi

omit [LinearOrder K] [IsStrictOrderedRing K] in
theorem turn_update (π : Equiv.Perm (Fin d)) (s t c : Fin d → K) (i : Fin d) (x : K) :
    turn π s t (Function.update c (π i) x) = Function.update (turn π s t c) i (s i * x + t i) := by
  funext j
  by_cases hj : j = i
  · subst hj; simp [turn]
  · have : π j ≠ π i := fun h => hj (π.injective h)
    simp [turn, hj, this]

omit [LinearOrder K] [IsStrictOrderedRing K] in
theorem turn_step (π : Equiv.Perm (Fin d)) (s t c : Fin d → K) (i : Fin d) (x : K) :
    turn π s t (Function.update c (π i) (c (π i) + x)) = Function.update (turn π s t c) i (turn π s t c i + s i * x) := by
  rw [turn_update]; congr 1; simp [turn]; ring

omit [LinearOrder K] [IsStrictOrderedRing K] in
theorem multiAffine_turn {f : (Fin d → K) → K} (hf : MultiAffine f) (π : Equiv.Perm (Fin d)) (s t : Fin d → K) :
    MultiAffine fun c => f (turn π s t c) := by
  intro c i
  obtain ⟨α, β, h⟩ := hf (turn π s t c) (π.symm i)
  refine ⟨α + β * t (π.symm i), β * s (π.symm i), fun x => ?_⟩
  have := turn_update π s t c (π.symm i) x
  rw [Equiv.apply_symm_apply] at this
  show f (turn π s t (Function.update c i x)) = _
  rw [this, h]; ring

omit [LinearOrder K] [IsStrictOrderedRing K] in
theorem bilinear_affine (a h : Fin 2 → K) (v : Fin 4 → K) : MultiAffine (bilinear a h v) := by
  intro c i
  refine ⟨bilinear a h v (Function.update c i 0), bilinear a h v (Function.update c i 1) - bilinear a h v (Function.update c i 0), fun x => ?_⟩
  fin_cases i <;> (simp [bilinear]; ring)

omit [LinearOrder K] [IsStrictOrderedRing K] in
theorem trilinear_affine (a h : Fin 3 → K) (v : Fin 8 → K) : MultiAffine (trilinear a h v) := by
  intro c i
  refine ⟨trilinear a h v (Function.update c i 0), trilinear a h v (Function.update c i 1) - trilinear a h v (Function.update c i 0), fun x => ?_⟩
  fin_cases i <;> (simp [trilinear]; ring)

/-- What the corners of a cell are like. -/
structure Corners (unit : Fin n → Fin d → K) : Prop where
  bit : ∀ j i, unit j i = 0 ∨ unit j i = 1
  all : ∀ u : Fin d → K, (∀ i, u i = 0 ∨ u i = 1) → ∃ j, unit j = u

omit [LinearOrder K] [IsStrictOrderedRing K] in
theorem quadCorners : Corners (quadUnit (K := K)) where
  bit j i := by fin_cases j <;> fin_cases i <;> simp [quadUnit]
  all u hu := by
    have e : u = ![u 0, u 1] := by funext i; fin_cases i <;> rfl
    rcases hu 0 with h0 | h0 <;> rcases hu 1 with h1 | h1 <;> rw [e, h0, h1]
    · exact ⟨0, rfl⟩
    · exact ⟨3, rfl⟩
    · exact ⟨1, rfl⟩
    · exact ⟨2, rfl⟩

omit [LinearOrder K] [IsStrictOrderedRing K] in
theorem hexCorners : Corners (hexUnit (K := K)) where
  bit j i := by fin_cases j <;> fin_cases i <;> simp [hexUnit]
  all u hu := by
    have e : u = ![u 0, u 1, u 2] := by funext i; fin_cases i <;> rfl
    rcases hu 0 with h0 | h0 <;> rcases hu 1 with h1 | h1 <;> rcases hu 2 with h2 | h2 <;> rw [e, h0, h1, h2]
    · exact ⟨0, rfl⟩
    · exact ⟨4, rfl⟩
    · exact ⟨3, rfl⟩
    · exact ⟨7, rfl⟩
    · exact ⟨1, rfl⟩
    · exact ⟨5, rfl⟩
    · exact ⟨2, rfl⟩
    · exact ⟨6, rfl⟩

variable {unit : Fin n → Fin d → K} {pts : List (Fin d → K)} {cell cell' : List Nat} {a h a' h' : Fin d → K}

omit [LinearOrder K] [IsStrictOrderedRing K] in
/-- Every point of the box with coordinates at its ends is a corner. -/
theorem Corners.corner (C : Corners unit) (hh : ∀ i, h i ≠ 0) {u : Fin d → K} (hu : ∀ i, u i = a i ∨ u i = a i + h i) : ∃ j, cornerPos a h (unit j) = u := by
  obtain ⟨j, hj⟩ := C.all (fun i => (u i - a i) / h i) fun i => by
    rcases hu i with e | e
    · left; simp [e]
    · right; simp [e, hh i]
  refine ⟨j, ?_⟩
  funext i
  rw [hj, cornerPos, div_mul_cancel₀ _ (hh i)]; ring

/-- A cell contains a point when in every direction some node of it is not beyond and some not before the point. -/
theorem inCell_iff (C : Corners unit) (hc : CellAt unit pts cell a h) (c : Fin d → K) :
    InCell a h c ↔ ∀ i, (∃ p ∈ cell, ∃ x, pts[p]? = some x ∧ x i ≤ c i) ∧ ∃ p ∈ cell, ∃ x, pts[p]? = some x ∧ c i ≤ x i := by
  obtain ⟨hl, hh, hj⟩ := hc
  have hnode : ∀ p ∈ cell, ∀ x, pts[p]? = some x → ∀ i, a i ≤ x i ∧ x i ≤ a i + h i := by
    intro p hp x hx i
    obtain ⟨k, hk, rfl⟩ := List.mem_iff_getElem.mp hp
    obtain ⟨p', e1, e2⟩ := hj ⟨k, by omega⟩
    rw [List.getElem?_eq_getElem hk] at e1; cases e1
    rw [hx] at e2; cases e2
    have := hh i
    rcases C.bit ⟨k, by omega⟩ i with e | e
    · constructor <;> simp [cornerPos, e]; exact this.le
    · constructor <;> simp [cornerPos, e]; exact this.le
  constructor
  · intro hin i
    obtain ⟨j, e⟩ := C.corner (a := a) (fun i => (hh i).ne') (u := a) fun i => Or.inl rfl
    obtain ⟨j', e'⟩ := C.corner (a := a) (fun i => (hh i).ne') (u := fun i => a i + h i) fun i => Or.inr rfl
    obtain ⟨p, e1, e2⟩ := hj j
    obtain ⟨p', e1', e2'⟩ := hj j'
    refine ⟨⟨p, List.mem_of_getElem? e1, _, e2, ?_⟩, p', List.mem_of_getElem? e1', _, e2', ?_⟩
    · rw [e]; exact (hin i).1
    · rw [e']; exact (hin i).2
  · intro hx i
    obtain ⟨⟨p, hp, x, e1, e2⟩, p', hp', x', e1', e2'⟩ := hx i
    exact ⟨(hnode p hp x e1 i).1.trans e2, e2'.trans (hnode p' hp' x' e1' i).2⟩

/-- Turned cells contain the turned points. -/
theorem inCell_turn (C : Corners unit) {π : Equiv.Perm (Fin d)} {s t : Fin d → K} (hs : ∀ i, s i ≠ 0) (hp : cell'.Perm cell) (hc : CellAt unit pts cell a h)
    (hc' : CellAt unit (pts.map (turn π s t)) cell' a' h') (c : Fin d → K) : InCell a' h' (turn π s t c) ↔ InCell a h c := by
  rw [inCell_iff C hc, inCell_iff C hc']
  have key : ∀ i, ((∃ p ∈ cell', ∃ x, (pts.map (turn π s t))[p]? = some x ∧ x i ≤ turn π s t c i) ∧
      ∃ p ∈ cell', ∃ x, (pts.map (turn π s t))[p]? = some x ∧ turn π s t c i ≤ x i) ↔
      ((∃ p ∈ cell, ∃ x, pts[p]? = some x ∧ x (π i) ≤ c (π i)) ∧ ∃ p ∈ cell, ∃ x, pts[p]? = some x ∧ c (π i) ≤ x (π i)) := by
    intro i
    simp only [hp.mem_iff, List.getElem?_map, Option.map_eq_some_iff]
    rcases lt_or_gt_of_ne (hs i) with hneg | hpos
    · have e : ∀ x y : Fin d → K, turn π s t x i ≤ turn π s t y i ↔ y (π i) ≤ x (π i) := by
        intro x y; simp only [turn, add_le_add_iff_right]; exact mul_le_mul_left_of_neg hneg
      constructor
      · rintro ⟨⟨p, h1, _, ⟨x, h2, rfl⟩, h3⟩, p', h1', _, ⟨x', h2', rfl⟩, h3'⟩
        exact ⟨⟨p', h1', x', h2', (e _ _).mp h3'⟩, p, h1, x, h2, (e _ _).mp h3⟩
      · rintro ⟨⟨p, h1, x, h2, h3⟩, p', h1', x', h2', h3'⟩
        exact ⟨⟨p', h1', _, ⟨x', h2', rfl⟩, (e _ _).mpr h3'⟩, p, h1, _, ⟨x, h2, rfl⟩, (e _ _).mpr h3⟩
    · have e : ∀ x y : Fin d → K, turn π s t x i ≤ turn π s t y i ↔ x (π i) ≤ y (π i) := by
        intro x y; simp only [turn, add_le_add_iff_right]; exact mul_le_mul_iff_right₀ hpos
      constructor
      · rintro ⟨⟨p, h1, _, ⟨x, h2, rfl⟩, h3⟩, p', h1', _, ⟨x', h2', rfl⟩, h3'⟩
        exact ⟨⟨p, h1, x, h2, (e _ _).mp h3⟩, p', h1', x', h2', (e _ _).mp h3'⟩
      · rintro ⟨⟨p, h1, x, h2, h3⟩, p', h1', x', h2', h3'⟩
        exact ⟨⟨p, h1, _, ⟨x, h2, rfl⟩, (e _ _).mpr h3⟩, p', h1', _, ⟨x', h2', rfl⟩, (e _ _).mpr h3'⟩
  constructor
  · intro h i
    have := (key (π.symm i)).mp (h _)
    rwa [Equiv.apply_symm_apply] at this
  · intro h i
    exact (key i).mpr (h _)

omit [IsStrictOrderedRing K] in
/-- The interpolant of a turned cell is the interpolant of the cell at the point turned back. -/
theorem interp_turn (C : Corners unit) {f f' : (Fin d → K) → K} (hf : MultiAffine f) (hf' : MultiAffine f') {π : Equiv.Perm (Fin d)}
    {s t : Fin d → K} (hp : cell'.Perm cell) (hc : CellAt unit pts cell a h) (hc' : CellAt unit (pts.map (turn π s t)) cell' a' h') {data : List K}
    {v v' : Fin n → K} (hv : CornerVals data cell v) (hv' : CornerVals data cell' v') (hcor : ∀ j, f (cornerPos a h (unit j)) = v j)
    (hcor' : ∀ j, f' (cornerPos a' h' (unit j)) = v' j) (c : Fin d → K) : f' (turn π s t c) = f c := by
  have hh : ∀ i, h i ≠ 0 := fun i => (hc.2.1 i).ne'
  refine multiAffine_eq (multiAffine_turn hf' π s t) hf hh (a := a) ?_ c
  intro u hu
  obtain ⟨j, rfl⟩ := C.corner hh hu
  obtain ⟨p, e1, e2⟩ := hc.2.2 j
  obtain ⟨p2, f1, f2⟩ := hv j
  rw [e1] at f1; cases f1
  have hmem : p ∈ cell' := hp.mem_iff.mpr (List.mem_of_getElem? e1)
  obtain ⟨k, hk, hkp⟩ := List.mem_iff_getElem.mp hmem
  have hkn : k < n := by rw [← hc'.1]; exact hk
  obtain ⟨p3, g1, g2⟩ := hc'.2.2 ⟨k, hkn⟩
  obtain ⟨p4, q1, q2⟩ := hv' ⟨k, hkn⟩
  rw [List.getElem?_eq_getElem hk, hkp] at g1 q1
  cases g1; cases q1
  rw [List.getElem?_map, e2] at g2
  have g3 := Option.some.inj g2
  rw [hcor]
  show f' (turn π s t (cornerPos a h (unit j))) = _
  rw [g3, hcor']
  rw [f2] at q2; exact (Option.some.inj q2).symm

end Verif
