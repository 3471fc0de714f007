import Verif.Props.Field3D

/-!
# Property C110: fields are linear in their data
-/

namespace Verif
open Spec Bin Mesh PField Body

section
variable {K : Type} [Field K] [LinearOrder K] [FloorRing K] [IsStrictOrderedRing K] {d n : Nat}

/-- Superposition for any element class (lemma behind C110). -/
theorem superpose {E : ElemOps K d} {unit : Fin n → Fin d → K} {R : (a h c : Fin d → K) → Prop} (L : ElemLaw E unit R) (T : ElemTotal E)
    (pts : List (Fin d → K)) (cells : List (List Nat)) (flds : List (String × List K)) (hm : RectMesh unit pts cells)
    (hl : ∀ fl ∈ flds, fl.2.length = pts.length) (b : Body K d) (hb : Body.load E pts cells flds = .ok b) (p q : K)
    (i j k : Nat) (ni nj nk : String) (u w : List K) (hi : flds[i]? = some (ni, u)) (hj : flds[j]? = some (nj, w))
    (hk : flds[k]? = some (nk, List.zipWith (fun x y => p * x + q * y) u w)) (c : Fin d → K) (hc : Covered unit pts cells c)
    (h1 h2 h3 : List (Nat × Body.Call K d)) (o1 : HistOk pts h1) (o2 : HistOk pts h2) (o3 : HistOk pts h3) :
    (∃ x y, (b.calls E h1).value E i c = .ok x ∧ (b.calls E h2).value E j c = .ok y ∧
      (b.calls E h3).value E k c = .ok (p * x + q * y)) ∧
    (∀ di : Fin d, ∃ x y, (b.calls E h1).grad E i c di = .ok x ∧ (b.calls E h2).grad E j c di = .ok y ∧
      (b.calls E h3).grad E k c di = .ok (p * x + q * y)) ∧
    (∀ di dj : Fin d, ∃ x y, (b.calls E h1).hess E i c di dj = .ok x ∧ (b.calls E h2).hess E j c di dj = .ok y ∧
      (b.calls E h3).hess E k c di dj = .ok (p * x + q * y)) := by
  obtain ⟨b0, lo, hi', qs, e1, e2⟩ := load_ok L hm hl
  rw [hb] at e1; cases e1
  obtain ⟨e, cell, a, h, g1, g2, g3, _, g5⟩ := body_eval L e2.mesh hc
  obtain ⟨x, hx, x1, x2, x3⟩ := g5 flds _ (calls_ok L T e2 h1 o1) i ni u hi
  obtain ⟨y, hy, y1, y2, y3⟩ := g5 flds _ (calls_ok L T e2 h2 o2) j nj w hj
  obtain ⟨z, hz, z1, z2, z3⟩ := g5 flds _ (calls_ok L T e2 h3 o3) k nk _ hk
  have key : ∀ m, z m = p * x m + q * y m := by
    intro m
    obtain ⟨r, r1, r2⟩ := hx m
    obtain ⟨s, s1, s2⟩ := hy m
    obtain ⟨t, t1, t2⟩ := hz m
    rw [r1] at s1 t1
    cases s1; cases t1
    simp only [List.getElem?_zipWith, r2, s2, Option.some.injEq] at t2
    exact t2.symm
  have sum : ∀ f : Fin n → K, ∑ m, f m * z m = p * ∑ m, f m * x m + q * ∑ m, f m * y m := by
    intro f
    rw [Finset.mul_sum, Finset.mul_sum, ← Finset.sum_add_distrib]
    exact Finset.sum_congr rfl fun m _ => by rw [key]; ring
  refine ⟨?_, fun di => ?_, fun di dj => ?_⟩
  · obtain ⟨g, hg⟩ := T.value c
    exact ⟨_, _, x1 g hg, y1 g hg, by rw [z1 g hg, sum]⟩
  · obtain ⟨g, hg⟩ := T.grad c di
    exact ⟨_, _, x2 di g hg, y2 di g hg, by rw [z2 di g hg, sum]⟩
  · obtain ⟨g, hg⟩ := T.hess c di dj
    exact ⟨_, _, x3 di dj g hg, y3 di dj g hg, by rw [z3 di dj g hg, sum]⟩

/-- **C110** (2D) If the data of a field are `p` times those of a second plus `q` times those of a third, then at every point of the body,
whatever was evaluated before, so are its value, its gradient and its second derivatives. -/
theorem C110_linear_2d (pts : List (Fin 2 → K)) (cells : List (List Nat)) (flds : List (String × List K)) (hm : RectMesh quadUnit pts cells)
    (hl : ∀ fl ∈ flds, fl.2.length = pts.length) (b : Body K 2) (hb : Body.load (quadOps K) pts cells flds = .ok b) (p q : K)
    (i j k : Nat) (ni nj nk : String) (u w : List K) (hi : flds[i]? = some (ni, u)) (hj : flds[j]? = some (nj, w))
    (hk : flds[k]? = some (nk, List.zipWith (fun x y => p * x + q * y) u w)) (c : Fin 2 → K) (hc : Covered quadUnit pts cells c)
    (h1 h2 h3 : List (Nat × Body.Call K 2)) (o1 : HistOk pts h1) (o2 : HistOk pts h2) (o3 : HistOk pts h3) :
    (∃ x y, (b.calls (quadOps K) h1).value (quadOps K) i c = .ok x ∧ (b.calls (quadOps K) h2).value (quadOps K) j c = .ok y ∧
      (b.calls (quadOps K) h3).value (quadOps K) k c = .ok (p * x + q * y)) ∧
    (∀ di : Fin 2, ∃ x y, (b.calls (quadOps K) h1).grad (quadOps K) i c di = .ok x ∧ (b.calls (quadOps K) h2).grad (quadOps K) j c di = .ok y ∧
      (b.calls (quadOps K) h3).grad (quadOps K) k c di = .ok (p * x + q * y)) ∧
    (∀ di dj : Fin 2, ∃ x y, (b.calls (quadOps K) h1).hess (quadOps K) i c di dj = .ok x ∧
      (b.calls (quadOps K) h2).hess (quadOps K) j c di dj = .ok y ∧
      (b.calls (quadOps K) h3).hess (quadOps K) k c di dj = .ok (p * x + q * y)) :=
  superpose quadLaw quadTotal pts cells flds hm hl b hb p q i j k ni nj nk u w hi hj hk c hc h1 h2 h3 o1 o2 o3

/-- **C110** (3D) The same for 3D bodies, also where the value is not that of the containing cell (C28). -/
theorem C110_linear_3d (pts : List (Fin 3 → K)) (cells : List (List Nat)) (flds : List (String × List K)) (hm : RectMesh hexUnit pts cells)
    (hl : ∀ fl ∈ flds, fl.2.length = pts.length) (b : Body K 3) (hb : Body.load (hexOps K) pts cells flds = .ok b) (p q : K)
    (i j k : Nat) (ni nj nk : String) (u w : List K) (hi : flds[i]? = some (ni, u)) (hj : flds[j]? = some (nj, w))
    (hk : flds[k]? = some (nk, List.zipWith (fun x y => p * x + q * y) u w)) (c : Fin 3 → K) (hc : Covered hexUnit pts cells c)
    (h1 h2 h3 : List (Nat × Body.Call K 3)) (o1 : HistOk pts h1) (o2 : HistOk pts h2) (o3 : HistOk pts h3) :
    (∃ x y, (b.calls (hexOps K) h1).value (hexOps K) i c = .ok x ∧ (b.calls (hexOps K) h2).value (hexOps K) j c = .ok y ∧
      (b.calls (hexOps K) h3).value (hexOps K) k c = .ok (p * x + q * y)) ∧
    (∀ di : Fin 3, ∃ x y, (b.calls (hexOps K) h1).grad (hexOps K) i c di = .ok x ∧ (b.calls (hexOps K) h2).grad (hexOps K) j c di = .ok y ∧
      (b.calls (hexOps K) h3).grad (hexOps K) k c di = .ok (p * x + q * y)) ∧
    (∀ di dj : Fin 3, ∃ x y, (b.calls (hexOps K) h1).hess (hexOps K) i c di dj = .ok x ∧
      (b.calls (hexOps K) h2).hess (hexOps K) j c di dj = .ok y ∧
      (b.calls (hexOps K) h3).hess (hexOps K) k c di dj = .ok (p * x + q * y)) :=
  superpose hexLaw hexTotal pts cells flds hm hl b hb p q i j k ni nj nk u w hi hj hk c hc h1 h2 h3 o1 o2 o3

end

/-- Non-vacuity of C110: `2u - 3w` on the two-cell mesh, the fields being evaluated at other points before. -/
example : ∃ b, Body.load (quadOps ℚ) Demo.pts Demo.cells
      [("u", [1, 2, 3, 4, 5, 6]), ("w", [0, 1, 0, 2, 0, 3]), ("z", [2, 1, 6, 2, 10, 3])] = .ok b ∧
    ∃ x y, (b.calls (quadOps ℚ) [(1, .value ![3, 1])]).value (quadOps ℚ) 0 ![1 / 2, 1 / 3] = .ok x ∧
      (b.calls (quadOps ℚ) []).value (quadOps ℚ) 1 ![1 / 2, 1 / 3] = .ok y ∧
      (b.calls (quadOps ℚ) []).value (quadOps ℚ) 2 ![1 / 2, 1 / 3] = .ok (2 * x + -3 * y) := by
  obtain ⟨b, hb, _⟩ := C22_load_2d Demo.pts Demo.cells
    [("u", [1, 2, 3, 4, 5, 6]), ("w", [0, 1, 0, 2, 0, 3]), ("z", [2, 1, 6, 2, 10, 3])] Demo.rect (by decide)
  refine ⟨b, hb, ?_⟩
  have l0 : IsLow Demo.pts 0 0 := by unfold IsLow; decide +kernel
  have h0 : IsHigh Demo.pts 0 3 := by unfold IsHigh; decide +kernel
  have l1 : IsLow Demo.pts 1 0 := by unfold IsLow; decide +kernel
  have h1 : IsHigh Demo.pts 1 1 := by unfold IsHigh; decide +kernel
  refine (C110_linear_2d _ _ _ Demo.rect (by decide) b hb 2 (-3) 0 1 2 "u" "w" "z" _ _ rfl rfl
    (by simp; norm_num) ![1 / 2, 1 / 3] ⟨_, List.mem_cons_self, _, _, Demo.cell0, by unfold InCell; decide +kernel⟩ _ _ _ ?_ ?_ ?_).1
  · intro o ho
    simp only [List.mem_singleton] at ho
    subst ho
    left
    intro i lo hi hl hh
    fin_cases i
    · rw [Mesh.isLow_unique hl l0, Mesh.isHigh_unique hh h0]; decide +kernel
    · rw [Mesh.isLow_unique hl l1, Mesh.isHigh_unique hh h1]; decide +kernel
  · simp [HistOk]
  · simp [HistOk]

end Verif
