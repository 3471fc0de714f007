import Verif.Lemmas.SmoothCell
import Verif.Props.Field3DMore
import Verif.Props.RoundedField
import Verif.Props.RoundedHex
import Verif.Props.FieldCont
import Verif.Lemmas.Binary64

/-!
# Property C129: fields sampled from functions

A field whose nodal data are the values of a function approximates the function: to second order in the widths of the cells if the function
has bounded second derivatives, and its gradient approximates the gradient of the function.
-/

namespace Verif
open Spec

section
variable {K : Type} [Field K] [LinearOrder K] {d n : Nat}

/-- The corner values of sampled data are the values of the function at the corners. -/
theorem sampled {unit : Fin n → Fin d → K} {pts : List (Fin d → K)} {cell : List Nat} {a h : Fin d → K} (hah : CellAt unit pts cell a h)
    {f : (Fin d → K) → K} {v : Fin n → K} (hv : CornerVals (pts.map f) cell v) (j : Fin n) : v j = f (cornerPos a h (unit j)) := by
  obtain ⟨p, e1, e2⟩ := hah.2.2 j
  obtain ⟨p', f1, f2⟩ := hv j
  rw [e1] at f1; cases f1
  rw [List.getElem?_map, e2] at f2
  simpa using f2.symm

end

section
variable (pts : List (Fin 2 → ℝ)) (cells : List (List Nat)) (flds : List (String × List ℝ))

/-- **C129** (2D) The value of the field differs from the function sampled by at most (M₀H₀² + M₁H₁²)/8, where the `Mᵢ` bound its second
derivatives on the body and the `Hᵢ` the widths of the cells. -/
theorem C129_value_2d (hm : RectMesh quadUnit pts cells) (hl : ∀ fl ∈ flds, fl.2.length = pts.length) (b : Body ℝ 2)
    (hb : Body.load (quadOps ℝ) pts cells flds = .ok b) (ops : List (Nat × Body.Call ℝ 2)) (ho : HistOk pts ops) (i : Nat) (name : String)
    (f : (Fin 2 → ℝ) → ℝ) (hi : flds[i]? = some (name, pts.map f)) (M H : Fin 2 → ℝ) (hM : ∀ j, CurvatureLe (Covered quadUnit pts cells) f j (M j))
    (hH : ∀ cell ∈ cells, ∀ a h, CellAt quadUnit pts cell a h → ∀ j, h j ≤ H j) (c : Fin 2 → ℝ) (hc : Covered quadUnit pts cells c) :
    ∃ y, (b.calls (quadOps ℝ) ops).value (quadOps ℝ) i c = .ok y ∧ |y - f c| ≤ (M 0 * H 0 ^ 2 + M 1 * H 1 ^ 2) / 8 := by
  obtain ⟨cell, a, h, g1, g2, g3, k⟩ := C23_bilinear pts cells flds hm hl b hb c hc
  obtain ⟨v, g4, g5⟩ := k ops ho i name _ hi
  refine ⟨_, g5, ?_⟩
  have e := Smooth.bilinear_error hM g2.2.1 g3 (fun p hp => ⟨cell, g1, a, h, g2, hp⟩) v fun j => sampled g2 g4 j
  rw [abs_sub_comm]
  refine e.trans ?_
  have s : ∀ j, M j * h j ^ 2 ≤ M j * H j ^ 2 := fun j =>
    mul_le_mul_of_nonneg_left (pow_le_pow_left₀ (g2.2.1 j).le (hH cell g1 a h g2 j) 2) (Smooth.CurvatureLe.nonneg (hM j) hc)
  linarith [s 0, s 1]

/-- **C129** (2D) A component of the gradient differs from the derivative of the function sampled by at most the oscillation of that
derivative over a cell. -/
theorem C129_gradient_2d (hm : RectMesh quadUnit pts cells) (hl : ∀ fl ∈ flds, fl.2.length = pts.length) (b : Body ℝ 2)
    (hb : Body.load (quadOps ℝ) pts cells flds = .ok b) (ops : List (Nat × Body.Call ℝ 2)) (ho : HistOk pts ops) (i : Nat) (name : String)
    (f f' : (Fin 2 → ℝ) → ℝ) (hi : flds[i]? = some (name, pts.map f)) (di : Fin 2) (hf : HasSlope (Covered quadUnit pts cells) f f' di) (ε : ℝ)
    (hε : ∀ cell ∈ cells, ∀ a h, CellAt quadUnit pts cell a h → ∀ p q, InCell a h p → InCell a h q → |f' p - f' q| ≤ ε) (c : Fin 2 → ℝ)
    (hc : Covered quadUnit pts cells c) :
    ∃ g, (b.calls (quadOps ℝ) ops).grad (quadOps ℝ) i c di = .ok g ∧ |g - f' c| ≤ ε := by
  obtain ⟨cell, a, h, g1, g2, g3, g4⟩ := quad_eval pts cells flds hm hl b hb c hc
  obtain ⟨v, gv, _, k2, k3, _⟩ := g4 ops ho i name _ hi
  have hv := fun j => sampled g2 gv j
  have hS : ∀ p, InCell a h p → Covered quadUnit pts cells p := fun p hp => ⟨cell, g1, a, h, g2, hp⟩
  have ha : ∀ i, a i ≤ a i + h i := fun i => by linarith [g2.2.1 i]
  have osc := fun p hp => hε cell g1 a h g2 p c hp g3
  have two : di = 0 ∨ di = 1 := by fin_cases di <;> simp
  rcases two with rfl | rfl
  · refine ⟨_, k2, ?_⟩
    have q0 := Smooth.upd_in g3 1 (le_refl _) (ha 1)
    have q1 := Smooth.upd_in g3 1 (ha 1) (le_refl _)
    obtain ⟨p0, i0, e0⟩ := Smooth.quotient hf (a := a) (h := h) (g2.2.1 0) (fun t h1 h2 => Smooth.upd_in q0 0 h1 h2) hS
    obtain ⟨p1, i1, e1⟩ := Smooth.quotient hf (a := a) (h := h) (g2.2.1 0) (fun t h1 h2 => Smooth.upd_in q1 0 h1 h2) hS
    have v0 : f (Function.update (Function.update c 1 (a 1)) 0 (a 0)) = v 0 := by
      rw [hv]; congr 1; ext j; fin_cases j <;> simp [cornerPos, quadUnit]
    have v1 : f (Function.update (Function.update c 1 (a 1)) 0 (a 0 + h 0)) = v 1 := by
      rw [hv]; congr 1; ext j; fin_cases j <;> simp [cornerPos, quadUnit]
    have v3 : f (Function.update (Function.update c 1 (a 1 + h 1)) 0 (a 0)) = v 3 := by
      rw [hv]; congr 1; ext j; fin_cases j <;> simp [cornerPos, quadUnit]
    have v2 : f (Function.update (Function.update c 1 (a 1 + h 1)) 0 (a 0 + h 0)) = v 2 := by
      rw [hv]; congr 1; ext j; fin_cases j <;> simp [cornerPos, quadUnit]
    rw [v0, v1] at e0
    rw [v2, v3] at e1
    obtain ⟨y0, y1⟩ := Smooth.loc01 (g2.2.1 1) (g3 1).1 (g3 1).2
    have m := Smooth.mix y0 y1 (osc p0 i0) (osc p1 i1)
    rw [← e0, ← e1] at m
    refine le_trans (le_of_eq ?_) m
    congr 1; ring
  · refine ⟨_, k3, ?_⟩
    have q0 := Smooth.upd_in g3 0 (le_refl _) (ha 0)
    have q1 := Smooth.upd_in g3 0 (ha 0) (le_refl _)
    obtain ⟨p0, i0, e0⟩ := Smooth.quotient hf (a := a) (h := h) (g2.2.1 1) (fun t h1 h2 => Smooth.upd_in q0 1 h1 h2) hS
    obtain ⟨p1, i1, e1⟩ := Smooth.quotient hf (a := a) (h := h) (g2.2.1 1) (fun t h1 h2 => Smooth.upd_in q1 1 h1 h2) hS
    have v0 : f (Function.update (Function.update c 0 (a 0)) 1 (a 1)) = v 0 := by
      rw [hv]; congr 1; ext j; fin_cases j <;> simp [cornerPos, quadUnit]
    have v3 : f (Function.update (Function.update c 0 (a 0)) 1 (a 1 + h 1)) = v 3 := by
      rw [hv]; congr 1; ext j; fin_cases j <;> simp [cornerPos, quadUnit]
    have v1 : f (Function.update (Function.update c 0 (a 0 + h 0)) 1 (a 1)) = v 1 := by
      rw [hv]; congr 1; ext j; fin_cases j <;> simp [cornerPos, quadUnit]
    have v2 : f (Function.update (Function.update c 0 (a 0 + h 0)) 1 (a 1 + h 1)) = v 2 := by
      rw [hv]; congr 1; ext j; fin_cases j <;> simp [cornerPos, quadUnit]
    rw [v0, v3] at e0
    rw [v1, v2] at e1
    obtain ⟨x0, x1⟩ := Smooth.loc01 (g2.2.1 0) (g3 0).1 (g3 0).2
    have m := Smooth.mix x0 x1 (osc p0 i0) (osc p1 i1)
    rw [← e0, ← e1] at m
    refine le_trans (le_of_eq ?_) m
    congr 1; ring

end

section
variable (pts : List (Fin 3 → ℝ)) (cells : List (List Nat)) (flds : List (String × List ℝ))

/-- **C129** (3D, any mesh, also stacked layers, where C28 fails) The value differs from the function sampled by at most
(M₀H₀² + M₁H₁²)/8 + M₂(H₂²/8 + m(H₂ + m)/2), where `m` is the height of the body divided by the number of its levels. -/
theorem C129_value_3d (hm : RectMesh hexUnit pts cells) (hl : ∀ fl ∈ flds, fl.2.length = pts.length) (b : Body ℝ 3)
    (hb : Body.load (hexOps ℝ) pts cells flds = .ok b) (ops : List (Nat × Body.Call ℝ 3)) (ho : HistOk pts ops) (i : Nat) (name : String)
    (f : (Fin 3 → ℝ) → ℝ) (hi : flds[i]? = some (name, pts.map f)) (M H : Fin 3 → ℝ) (hM : ∀ j, CurvatureLe (BoundingBox pts) f j (M j))
    (hH : ∀ cell ∈ cells, ∀ a h, CellAt hexUnit pts cell a h → ∀ j, h j ≤ H j) (lo hi' : ℝ) (hlo : IsLow pts 2 lo) (hhi : IsHigh pts 2 hi')
    (c : Fin 3 → ℝ) (hc : Covered hexUnit pts cells c) :
    ∃ y, (b.calls (hexOps ℝ) ops).value (hexOps ℝ) i c = .ok y ∧ |y - f c| ≤ (M 0 * H 0 ^ 2 + M 1 * H 1 ^ 2) / 8 +
      M 2 * (H 2 ^ 2 / 8 + margin pts 2 lo hi' * (H 2 + margin pts 2 lo hi') / 2) := by
  obtain ⟨cell, a, h, g1, g2, g3, g4, k⟩ := hex_eval pts cells flds hm hl b hb c hc
  obtain ⟨v, gv, g5, _⟩ := k ops ho i name _ hi
  refine ⟨_, g5, ?_⟩
  obtain ⟨z1, z2⟩ := g4 lo hi' hlo hhi
  have corner : ∀ {cell' : List Nat} {a' h' : Fin 3 → ℝ}, CellAt hexUnit pts cell' a' h' → ∀ j, ∀ l u, IsLow pts j l → IsHigh pts j u →
      l ≤ a' j ∧ a' j + h' j ≤ u := by
    intro cell' a' h' hc' j l u h1 h2
    obtain ⟨p, _, e⟩ := hc'.2.2 0
    obtain ⟨q, _, e'⟩ := hc'.2.2 6
    have k1 := h1.2 _ (List.mem_of_getElem? e)
    have k2 := h2.2 _ (List.mem_of_getElem? e')
    fin_cases j <;> simp [cornerPos, hexUnit] at k1 k2 ⊢ <;> exact ⟨k1, k2⟩
  have hcb : BoundingBox pts c := by
    obtain ⟨cell', _, a', h', k1, k2⟩ := hc
    intro j l u h1 h2
    obtain ⟨e1, e2⟩ := corner k1 j l u h1 h2
    exact ⟨e1.trans (k2 j).1, (k2 j).2.trans e2⟩
  obtain ⟨b1, b2⟩ := corner g2 2 lo hi' hlo hhi
  obtain ⟨c1, c2⟩ := hcb 2 lo hi' hlo hhi
  have e := Smooth.trilinear_error hM g2.2.1 (fun j hj => by
    fin_cases j
    exacts [g3.1, g3.2, absurd rfl hj]) b1 b2 c1 c2 (by
    intro p hp p1 p2 j l u h1 h2
    by_cases hj : j = 2
    · subst hj
      have f1 : l = lo := le_antisymm (by obtain ⟨x, hx, ex⟩ := hlo.1; rw [← ex]; exact h1.2 x hx) (by obtain ⟨x, hx, ex⟩ := h1.1; rw [← ex]; exact hlo.2 x hx)
      have f2 : u = hi' := le_antisymm (by obtain ⟨x, hx, ex⟩ := h2.1; rw [← ex]; exact hhi.2 x hx) (by obtain ⟨x, hx, ex⟩ := hhi.1; rw [← ex]; exact h2.2 x hx)
      rw [f1, f2]; exact ⟨p1, p2⟩
    · obtain ⟨e1, e2⟩ := corner g2 j l u h1 h2
      exact ⟨e1.trans (hp j hj).1, (hp j hj).2.trans e2⟩) v fun j => sampled g2 gv j
  rw [abs_sub_comm]
  refine e.trans ?_
  have nn := fun j => Smooth.CurvatureLe.nonneg (hM j) hcb
  have hH' := fun j => hH cell g1 a h g2 j
  have s : ∀ j, M j * h j ^ 2 ≤ M j * H j ^ 2 := fun j =>
    mul_le_mul_of_nonneg_left (pow_le_pow_left₀ (g2.2.1 j).le (hH' j) 2) (nn j)
  obtain ⟨m, hmm⟩ : ∃ m, m = margin pts 2 lo hi' := ⟨_, rfl⟩
  rw [← hmm] at z1 z2 ⊢
  have m0 : 0 ≤ m := by
    rw [hmm]; exact div_nonneg (by linarith) (Nat.cast_nonneg _)
  have hz : |(c 2 - a 2) * (a 2 + h 2 - c 2)| ≤ H 2 ^ 2 / 4 + m * (H 2 + m) := by
    have h2 := g2.2.1 2
    have q : |(c 2 - a 2) * (a 2 + h 2 - c 2)| ≤ h 2 ^ 2 / 4 + m * (h 2 + m) := by
      rw [abs_le]
      constructor
      · nlinarith [sq_nonneg (h 2)]
      · nlinarith [sq_nonneg (2 * c 2 - 2 * a 2 - h 2), mul_nonneg m0 h2.le, sq_nonneg m]
    have t := hH' 2
    nlinarith [mul_le_mul_of_nonneg_left t m0]
  have := mul_le_mul_of_nonneg_left hz (by linarith [nn 2] : 0 ≤ M 2 / 2)
  nlinarith [s 0, s 1]

/-- **C129** (3D) At a point that C28 covers (for instance anywhere in a body of one layer), the error is at most (M₀H₀² + M₁H₁² + M₂H₂²)/8. -/
theorem C129_value_3d_clear (hm : RectMesh hexUnit pts cells) (hl : ∀ fl ∈ flds, fl.2.length = pts.length) (b : Body ℝ 3)
    (hb : Body.load (hexOps ℝ) pts cells flds = .ok b) (ops : List (Nat × Body.Call ℝ 3)) (ho : HistOk pts ops) (i : Nat) (name : String)
    (f : (Fin 3 → ℝ) → ℝ) (hi : flds[i]? = some (name, pts.map f)) (M H : Fin 3 → ℝ) (hM : ∀ j, CurvatureLe (Covered hexUnit pts cells) f j (M j))
    (hH : ∀ cell ∈ cells, ∀ a h, CellAt hexUnit pts cell a h → ∀ j, h j ≤ H j) (c : Fin 3 → ℝ) (hc : Covered hexUnit pts cells c)
    (hcl : NearClear pts cells c) :
    ∃ y, (b.calls (hexOps ℝ) ops).value (hexOps ℝ) i c = .ok y ∧ |y - f c| ≤ (M 0 * H 0 ^ 2 + M 1 * H 1 ^ 2 + M 2 * H 2 ^ 2) / 8 := by
  obtain ⟨cell, a, h, g1, g2, g3, k⟩ := C28_trilinear_partial pts cells flds hm hl b hb c hc hcl
  obtain ⟨v, gv, g5⟩ := k ops ho i name _ hi
  refine ⟨_, g5, ?_⟩
  have e := Smooth.trilinear_error hM g2.2.1 (fun j _ => g3 j) (le_refl _) (le_refl _) (g3 2).1 (g3 2).2
    (fun p hp p1 p2 => ⟨cell, g1, a, h, g2, fun j => if hj : j = 2 then by subst hj; exact ⟨p1, p2⟩ else hp j hj⟩) v fun j => sampled g2 gv j
  rw [abs_sub_comm]
  refine e.trans ?_
  have nn := fun j => Smooth.CurvatureLe.nonneg (hM j) hc
  have s : ∀ j, M j * h j ^ 2 ≤ M j * H j ^ 2 := fun j =>
    mul_le_mul_of_nonneg_left (pow_le_pow_left₀ (g2.2.1 j).le (hH cell g1 a h g2 j) 2) (nn j)
  have := mul_le_mul_of_nonneg_left (Smooth.quarter (g3 2).1 (g3 2).2) (by linarith [nn 2] : 0 ≤ M 2 / 2)
  linarith [s 0, s 1, s 2]

/-- The difference quotient along the edge from corner `j` to corner `k`. -/
theorem Smooth.edge {S : (Fin 3 → ℝ) → Prop} {f f' : (Fin 3 → ℝ) → ℝ} {di : Fin 3} (hf : HasSlope S f f' di) {a h : Fin 3 → ℝ} (hh : ∀ i, 0 < h i)
    (hS : ∀ p, InCell a h p → S p) (j k : Fin 8) (hj : hexUnit (K := ℝ) j di = 0) (hk : hexUnit (K := ℝ) k di = 1)
    (hjk : ∀ i, i ≠ di → hexUnit (K := ℝ) j i = hexUnit k i) :
    ∃ p, InCell a h p ∧ (f (cornerPos a h (hexUnit k)) - f (cornerPos a h (hexUnit j))) / h di = f' p := by
  have hq : InCell a h (cornerPos a h (hexUnit j)) := by
    intro i
    have : hexUnit (K := ℝ) j i = 0 ∨ hexUnit (K := ℝ) j i = 1 := by fin_cases j <;> fin_cases i <;> simp [hexUnit]
    have hi := hh i
    rcases this with e | e <;> simp [cornerPos, e, hi.le]
  obtain ⟨p, h1, h2⟩ := Smooth.quotient hf (a := a) (h := h) (hh di) (fun t t1 t2 => Smooth.upd_in hq di t1 t2) hS
  refine ⟨p, h1, ?_⟩
  rw [← h2]
  congr 3
  · ext i
    by_cases e : i = di
    · subst e; simp [cornerPos, hk]
    · simp [e, cornerPos, hjk i e]
  · ext i
    by_cases e : i = di
    · subst e; simp [cornerPos, hj]
    · simp [e]

/-- **C129** (3D) At a point that C28 covers, a component of the gradient differs from the derivative of the function sampled by at most the
oscillation of that derivative over a cell. -/
theorem C129_gradient_3d (hm : RectMesh hexUnit pts cells) (hl : ∀ fl ∈ flds, fl.2.length = pts.length) (b : Body ℝ 3)
    (hb : Body.load (hexOps ℝ) pts cells flds = .ok b) (ops : List (Nat × Body.Call ℝ 3)) (ho : HistOk pts ops) (i : Nat) (name : String)
    (f f' : (Fin 3 → ℝ) → ℝ) (hi : flds[i]? = some (name, pts.map f)) (di : Fin 3) (hf : HasSlope (Covered hexUnit pts cells) f f' di) (ε : ℝ)
    (hε : ∀ cell ∈ cells, ∀ a h, CellAt hexUnit pts cell a h → ∀ p q, InCell a h p → InCell a h q → |f' p - f' q| ≤ ε) (c : Fin 3 → ℝ)
    (hc : Covered hexUnit pts cells c) (hcl : NearClear pts cells c) :
    ∃ g, (b.calls (hexOps ℝ) ops).grad (hexOps ℝ) i c di = .ok g ∧ |g - f' c| ≤ ε := by
  obtain ⟨cell, a, h, g1, g2, g3, g4, k⟩ := hex_eval pts cells flds hm hl b hb c hc
  obtain ⟨v, gv, _, k2⟩ := k ops ho i name _ hi
  have hin : InCell a h c := hcl cell g1 a h g2 (by
    intro j hj
    fin_cases j
    exacts [g3.1, g3.2, absurd rfl hj]) g4
  have hv := fun j => sampled g2 gv j
  have hS : ∀ p, InCell a h p → Covered hexUnit pts cells p := fun p hp => ⟨cell, g1, a, h, g2, hp⟩
  have osc := fun p hp => hε cell g1 a h g2 p c hp hin
  have edge : ∀ j k : Fin 8, hexUnit (K := ℝ) j di = 0 → hexUnit (K := ℝ) k di = 1 → (∀ i, i ≠ di → hexUnit (K := ℝ) j i = hexUnit k i) →
      |(v k - v j) / h di - f' c| ≤ ε := by
    intro j k h1 h2 h3
    obtain ⟨p, p1, p2⟩ := Smooth.edge hf g2.2.1 hS j k h1 h2 h3
    rw [hv, hv, p2]
    exact osc p p1
  refine ⟨_, k2 di, ?_⟩
  have n0 := (g2.2.1 0).ne'
  have n1 := (g2.2.1 1).ne'
  have n2 := (g2.2.1 2).ne'
  obtain ⟨x0, x1⟩ := Smooth.loc01 (g2.2.1 0) (hin 0).1 (hin 0).2
  obtain ⟨y0, y1⟩ := Smooth.loc01 (g2.2.1 1) (hin 1).1 (hin 1).2
  obtain ⟨z0, z1⟩ := Smooth.loc01 (g2.2.1 2) (hin 2).1 (hin 2).2
  have three : di = 0 ∨ di = 1 ∨ di = 2 := by fin_cases di <;> simp
  have u3 : ∀ {P : Fin 3 → Prop}, P 0 → P 1 → P 2 → ∀ i, P i := fun h0 h1 h2 i => by fin_cases i <;> assumption
  rcases three with rfl | rfl | rfl
  · have m := Smooth.mix z0 z1
      (Smooth.mix y0 y1 (edge 0 1 (by simp [hexUnit]) (by simp [hexUnit]) (u3 (by simp) (by simp [hexUnit]) (by simp [hexUnit])))
        (edge 3 2 (by simp [hexUnit]) (by simp [hexUnit]) (u3 (by simp) (by simp [hexUnit]) (by simp [hexUnit]))))
      (Smooth.mix y0 y1 (edge 4 5 (by simp [hexUnit]) (by simp [hexUnit]) (u3 (by simp) (by simp [hexUnit]) (by simp [hexUnit])))
        (edge 7 6 (by simp [hexUnit]) (by simp [hexUnit]) (u3 (by simp) (by simp [hexUnit]) (by simp [hexUnit]))))
    refine le_trans (le_of_eq ?_) m
    congr 1
    simp only [Fin.sum_univ_eight]
    simp [cornerPos, hexUnit, hexSign]
    field_simp
    ring
  · have m := Smooth.mix z0 z1
      (Smooth.mix x0 x1 (edge 0 3 (by simp [hexUnit]) (by simp [hexUnit]) (u3 (by simp [hexUnit]) (by simp) (by simp [hexUnit])))
        (edge 1 2 (by simp [hexUnit]) (by simp [hexUnit]) (u3 (by simp [hexUnit]) (by simp) (by simp [hexUnit]))))
      (Smooth.mix x0 x1 (edge 4 7 (by simp [hexUnit]) (by simp [hexUnit]) (u3 (by simp [hexUnit]) (by simp) (by simp [hexUnit])))
        (edge 5 6 (by simp [hexUnit]) (by simp [hexUnit]) (u3 (by simp [hexUnit]) (by simp) (by simp [hexUnit]))))
    refine le_trans (le_of_eq ?_) m
    congr 1
    simp only [Fin.sum_univ_eight]
    simp [cornerPos, hexUnit, hexSign]
    field_simp
    ring
  · have m := Smooth.mix y0 y1
      (Smooth.mix x0 x1 (edge 0 4 (by simp [hexUnit]) (by simp [hexUnit]) (u3 (by simp [hexUnit]) (by simp [hexUnit]) (by simp)))
        (edge 1 5 (by simp [hexUnit]) (by simp [hexUnit]) (u3 (by simp [hexUnit]) (by simp [hexUnit]) (by simp))))
      (Smooth.mix x0 x1 (edge 3 7 (by simp [hexUnit]) (by simp [hexUnit]) (u3 (by simp [hexUnit]) (by simp [hexUnit]) (by simp)))
        (edge 2 6 (by simp [hexUnit]) (by simp [hexUnit]) (u3 (by simp [hexUnit]) (by simp [hexUnit]) (by simp))))
    refine le_trans (le_of_eq ?_) m
    congr 1
    simp only [Fin.sum_univ_eight]
    simp [cornerPos, hexUnit, hexSign]
    field_simp
    ring

end

section
variable {K : Type} [Field K] [LinearOrder K] [IsStrictOrderedRing K] [FloorRing K]

theorem bilinear_range {a h c : Fin 2 → K} (hh : ∀ i, 0 < h i) (hc : InCell a h c) {v : Fin 4 → K} {lo up : K}
    (hv : ∀ j, lo ≤ v j ∧ v j ≤ up) : lo ≤ bilinear a h v c ∧ bilinear a h v c ≤ up := by
  have x0 := (loc_nonneg_iff (a := a 0) (hh 0)).mpr (hc 0).1
  have x1 := (loc_le_one_iff (a := a 0) (hh 0)).mpr (hc 0).2
  have y0 := (loc_nonneg_iff (a := a 1) (hh 1)).mpr (hc 1).1
  have y1 := (loc_le_one_iff (a := a 1) (hh 1)).mpr (hc 1).2
  simp only [loc] at x0 x1 y0 y1
  simp only [bilinear]
  generalize (c 0 - a 0) / h 0 = x at *
  generalize (c 1 - a 1) / h 1 = y at *
  have w0 : 0 ≤ (1 - x) * (1 - y) := mul_nonneg (by linarith) (by linarith)
  have w1 : 0 ≤ x * (1 - y) := mul_nonneg (by linarith) (by linarith)
  have w2 : 0 ≤ x * y := mul_nonneg (by linarith) (by linarith)
  have w3 : 0 ≤ (1 - x) * y := mul_nonneg (by linarith) (by linarith)
  constructor
  · nlinarith [mul_le_mul_of_nonneg_left (hv 0).1 w0, mul_le_mul_of_nonneg_left (hv 1).1 w1,
      mul_le_mul_of_nonneg_left (hv 2).1 w2, mul_le_mul_of_nonneg_left (hv 3).1 w3]
  · nlinarith [mul_le_mul_of_nonneg_left (hv 0).2 w0, mul_le_mul_of_nonneg_left (hv 1).2 w1,
      mul_le_mul_of_nonneg_left (hv 2).2 w2, mul_le_mul_of_nonneg_left (hv 3).2 w3]

/-- **C129** (2D, any function) The value differs from the function sampled by at most the oscillation of the function over a cell. -/
theorem C129_continuous_2d (pts : List (Fin 2 → K)) (cells : List (List Nat)) (flds : List (String × List K))
    (hm : RectMesh quadUnit pts cells) (hl : ∀ fl ∈ flds, fl.2.length = pts.length) (b : Body K 2)
    (hb : Body.load (quadOps K) pts cells flds = .ok b) (ops : List (Nat × Body.Call K 2)) (ho : HistOk pts ops) (i : Nat) (name : String)
    (f : (Fin 2 → K) → K) (hi : flds[i]? = some (name, pts.map f)) (ε : K)
    (hε : ∀ cell ∈ cells, ∀ a h, CellAt quadUnit pts cell a h → ∀ p q, InCell a h p → InCell a h q → |f p - f q| ≤ ε) (c : Fin 2 → K)
    (hc : Covered quadUnit pts cells c) :
    ∃ y, (b.calls (quadOps K) ops).value (quadOps K) i c = .ok y ∧ |y - f c| ≤ ε := by
  obtain ⟨cell, a, h, g1, g2, g3, k⟩ := C23_bilinear pts cells flds hm hl b hb c hc
  obtain ⟨v, g4, g5⟩ := k ops ho i name _ hi
  refine ⟨_, g5, ?_⟩
  have hv : ∀ j, |v j - f c| ≤ ε := by
    intro j
    rw [sampled g2 g4 j]
    refine hε cell g1 a h g2 _ _ (fun i => ?_) g3
    have : quadUnit (K := K) j i = 0 ∨ quadUnit (K := K) j i = 1 := by fin_cases j <;> fin_cases i <;> simp [quadUnit]
    have hi := (g2.2.1 i).le
    rcases this with e | e <;> simp [cornerPos, e, hi]
  have b1 := bilinear_range g2.2.1 g3 (v := v) (lo := f c - ε) (up := f c + ε) fun j => by
    have := abs_le.mp (hv j)
    exact ⟨by linarith [this.1], by linarith [this.2]⟩
  rw [abs_le]
  exact ⟨by linarith [b1.1], by linarith [b1.2]⟩

/-- **C129** (3D, any function, at a point that C28 covers). -/
theorem C129_continuous_3d (pts : List (Fin 3 → K)) (cells : List (List Nat)) (flds : List (String × List K))
    (hm : RectMesh hexUnit pts cells) (hl : ∀ fl ∈ flds, fl.2.length = pts.length) (b : Body K 3)
    (hb : Body.load (hexOps K) pts cells flds = .ok b) (ops : List (Nat × Body.Call K 3)) (ho : HistOk pts ops) (i : Nat) (name : String)
    (f : (Fin 3 → K) → K) (hi : flds[i]? = some (name, pts.map f)) (ε : K)
    (hε : ∀ cell ∈ cells, ∀ a h, CellAt hexUnit pts cell a h → ∀ p q, InCell a h p → InCell a h q → |f p - f q| ≤ ε) (c : Fin 3 → K)
    (hc : Covered hexUnit pts cells c) (hcl : NearClear pts cells c) :
    ∃ y, (b.calls (hexOps K) ops).value (hexOps K) i c = .ok y ∧ |y - f c| ≤ ε := by
  obtain ⟨cell, a, h, g1, g2, g3, k⟩ := C28_trilinear_partial pts cells flds hm hl b hb c hc hcl
  obtain ⟨v, g4, g5⟩ := k ops ho i name _ hi
  refine ⟨_, g5, ?_⟩
  have hv : ∀ j, |v j - f c| ≤ ε := by
    intro j
    rw [sampled g2 g4 j]
    refine hε cell g1 a h g2 _ _ (fun i => ?_) g3
    have : hexUnit (K := K) j i = 0 ∨ hexUnit (K := K) j i = 1 := by fin_cases j <;> fin_cases i <;> simp [hexUnit]
    have hi := (g2.2.1 i).le
    rcases this with e | e <;> simp [cornerPos, e, hi]
  have b1 := trilinear_bounds g2.2.1 g3 (v := v) (lo := f c - ε) (hi := f c + ε) fun j => by
    have := abs_le.mp (hv j)
    exact ⟨by linarith [this.1], by linarith [this.2]⟩
  rw [abs_le]
  exact ⟨by linarith [b1.1], by linarith [b1.2]⟩
end

/-- **C129** (2D, in floating-point arithmetic) The data are the values of the function rounded to doubles, the mesh and the point are doubles,
every operation is rounded: the value computed differs from the function by at most the interpolation error and 66 roundoffs. -/
theorem C129_doubles_2d {rnd : ℝ → ℝ} {u : ℝ} (R : Rounding rnd u) (hu : u ≤ 1 / 64) (pts : List (Fin 2 → ℝ)) (cells : List (List Nat))
    (flds : List (String × List ℝ)) (hm : FloatMesh quadUnit rnd u pts cells) (hl : ∀ fl ∈ flds, fl.2.length = pts.length)
    (hfl : ∀ fl ∈ flds, ∀ y ∈ fl.2, IsFloat rnd y) (b : Body ℝ 2) (hb : Fl.load rnd (Fl.quadOps rnd) pts cells flds = .ok b)
    (ops : List (Nat × Body.Call ℝ 2)) (ho : Fl.HistOk rnd pts ops) (i : Nat) (name : String) (f : (Fin 2 → ℝ) → ℝ)
    (hi : flds[i]? = some (name, pts.map fun p => rnd (f p))) (B : ℝ) (hB : ∀ p ∈ pts, |f p| ≤ B) (M H : Fin 2 → ℝ)
    (hM : ∀ j, CurvatureLe (Covered quadUnit pts cells) f j (M j))
    (hH : ∀ cell ∈ cells, ∀ a h, CellAt quadUnit pts cell a h → ∀ j, h j ≤ H j) (c : Fin 2 → ℝ) (hc : FloatPoint quadUnit rnd pts cells c) :
    ∃ y, Fl.eval rnd (Fl.quadOps rnd) (Fl.evals rnd (Fl.quadOps rnd) b ops) i (.value c) = .ok y ∧
      |y - f c| ≤ (M 0 * H 0 ^ 2 + M 1 * H 1 ^ 2) / 8 + 66 * u * B := by
  obtain ⟨cell, a, h, g1, g2, g3, k⟩ := C94_value_error R hu pts cells flds hm hl hfl b hb c hc
  obtain ⟨v, y, gv, g5, g6⟩ := k ops ho i name _ hi
  refine ⟨y, g5, ?_⟩
  have u0 := R.u_nonneg
  have hv : ∀ j, v j = rnd (f (cornerPos a h (quadUnit j))) := fun j => sampled g2 gv j
  have hcB : ∀ j, |f (cornerPos a h (quadUnit j))| ≤ B := fun j => by
    obtain ⟨p, _, e⟩ := g2.2.2 j
    exact hB _ (List.mem_of_getElem? e)
  have B0 : 0 ≤ B := (abs_nonneg _).trans (hcB 0)
  have herr : ∀ j, |v j - f (cornerPos a h (quadUnit j))| ≤ u * B := fun j => by
    rw [hv]; exact (R.err _).trans (mul_le_mul_of_nonneg_left (hcB j) u0)
  have k1 := g6 ((1 + u) * B) fun j => by
    have := abs_add_le (v j - f (cornerPos a h (quadUnit j))) (f (cornerPos a h (quadUnit j)))
    rw [sub_add_cancel] at this
    linarith [herr j, hcB j]
  have e := Smooth.bilinear_error hM g2.2.1 g3 (fun p hp => ⟨cell, g1, a, h, g2, hp⟩) (fun j => f (cornerPos a h (quadUnit j))) fun j => rfl
  have k2 : |bilinear a h v c - bilinear a h (fun j => f (cornerPos a h (quadUnit j))) c| ≤ u * B := by
    obtain ⟨x0, x1⟩ := Smooth.loc01 (g2.2.1 0) (g3 0).1 (g3 0).2
    obtain ⟨y0, y1⟩ := Smooth.loc01 (g2.2.1 1) (g3 1).1 (g3 1).2
    refine le_trans (le_of_eq ?_) (Smooth.mix y0 y1 (Smooth.mix x0 x1 (herr 0) (herr 1)) (Smooth.mix x0 x1 (herr 3) (herr 2)))
    congr 1
    simp only [bilinear]; ring
  have s : ∀ j, M j * h j ^ 2 ≤ M j * H j ^ 2 := fun j =>
    mul_le_mul_of_nonneg_left (pow_le_pow_left₀ (g2.2.1 j).le (hH cell g1 a h g2 j) 2) (Smooth.CurvatureLe.nonneg (hM j) hc.1)
  rw [abs_sub_comm] at e
  have t1 := abs_sub_le y (bilinear a h v c) (bilinear a h (fun j => f (cornerPos a h (quadUnit j))) c)
  have t2 := abs_sub_le y (bilinear a h (fun j => f (cornerPos a h (quadUnit j))) c) (f c)
  have q : 64 * u * (u * B) ≤ 1 * (u * B) := mul_le_mul_of_nonneg_right (by linarith) (mul_nonneg u0 B0)
  nlinarith [s 0, s 1]

/-- **C129** (3D, in floating-point arithmetic, at a vertically clear point: C107) As in 2D, with 261 roundoffs. -/
theorem C129_doubles_3d {rnd : ℝ → ℝ} {u : ℝ} (R : Rounding rnd u) (hu : u ≤ 1 / 64) (pts : List (Fin 3 → ℝ)) (cells : List (List Nat))
    (flds : List (String × List ℝ)) (hm : FloatMesh hexUnit rnd u pts cells) (hl : ∀ fl ∈ flds, fl.2.length = pts.length)
    (hfl : ∀ fl ∈ flds, ∀ y ∈ fl.2, IsFloat rnd y) (b : Body ℝ 3) (hb : Fl.load rnd (Fl.hexOps rnd) pts cells flds = .ok b)
    (ops : List (Nat × Body.Call ℝ 3)) (ho : Fl.HistOk rnd pts ops) (i : Nat) (name : String) (f : (Fin 3 → ℝ) → ℝ)
    (hi : flds[i]? = some (name, pts.map fun p => rnd (f p))) (B : ℝ) (hB : ∀ p ∈ pts, |f p| ≤ B) (M H : Fin 3 → ℝ)
    (hM : ∀ j, CurvatureLe (Covered hexUnit pts cells) f j (M j))
    (hH : ∀ cell ∈ cells, ∀ a h, CellAt hexUnit pts cell a h → ∀ j, h j ≤ H j) (c : Fin 3 → ℝ) (hc : FloatPoint hexUnit rnd pts cells c)
    (hcl : VerticallyClear pts cells c) :
    ∃ y, Fl.eval rnd (Fl.hexOps rnd) (Fl.evals rnd (Fl.hexOps rnd) b ops) i (.value c) = .ok y ∧
      |y - f c| ≤ (M 0 * H 0 ^ 2 + M 1 * H 1 ^ 2 + M 2 * H 2 ^ 2) / 8 + 261 * u * B := by
  obtain ⟨cell, a, h, g1, g2, g3, k⟩ := C107_value_error_partial R hu pts cells flds hm hl hfl b hb c hc hcl
  obtain ⟨v, y, gv, g5, g6⟩ := k ops ho i name _ hi
  refine ⟨y, g5, ?_⟩
  have u0 := R.u_nonneg
  have hv : ∀ j, v j = rnd (f (cornerPos a h (hexUnit j))) := fun j => sampled g2 gv j
  have hcB : ∀ j, |f (cornerPos a h (hexUnit j))| ≤ B := fun j => by
    obtain ⟨p, _, e⟩ := g2.2.2 j
    exact hB _ (List.mem_of_getElem? e)
  have B0 : 0 ≤ B := (abs_nonneg _).trans (hcB 0)
  have herr : ∀ j, |v j - f (cornerPos a h (hexUnit j))| ≤ u * B := fun j => by
    rw [hv]; exact (R.err _).trans (mul_le_mul_of_nonneg_left (hcB j) u0)
  have k1 := g6 ((1 + u) * B) fun j => by
    have := abs_add_le (v j - f (cornerPos a h (hexUnit j))) (f (cornerPos a h (hexUnit j)))
    rw [sub_add_cancel] at this
    linarith [herr j, hcB j]
  have e := Smooth.trilinear_error hM g2.2.1 (fun j _ => g3 j) (le_refl _) (le_refl _) (g3 2).1 (g3 2).2
    (fun p hp p1 p2 => ⟨cell, g1, a, h, g2, fun j => if hj : j = 2 then by subst hj; exact ⟨p1, p2⟩ else hp j hj⟩)
    (fun j => f (cornerPos a h (hexUnit j))) fun j => rfl
  have k2 : |trilinear a h v c - trilinear a h (fun j => f (cornerPos a h (hexUnit j))) c| ≤ u * B := by
    obtain ⟨x0, x1⟩ := Smooth.loc01 (g2.2.1 0) (g3 0).1 (g3 0).2
    obtain ⟨y0, y1⟩ := Smooth.loc01 (g2.2.1 1) (g3 1).1 (g3 1).2
    obtain ⟨z0, z1⟩ := Smooth.loc01 (g2.2.1 2) (g3 2).1 (g3 2).2
    refine le_trans (le_of_eq ?_) (Smooth.mix z0 z1 (Smooth.mix y0 y1 (Smooth.mix x0 x1 (herr 0) (herr 1)) (Smooth.mix x0 x1 (herr 3) (herr 2)))
      (Smooth.mix y0 y1 (Smooth.mix x0 x1 (herr 4) (herr 5)) (Smooth.mix x0 x1 (herr 7) (herr 6))))
    congr 1
    simp only [trilinear]; ring
  have nn := fun j => Smooth.CurvatureLe.nonneg (hM j) hc.1
  have s : ∀ j, M j * h j ^ 2 ≤ M j * H j ^ 2 := fun j =>
    mul_le_mul_of_nonneg_left (pow_le_pow_left₀ (g2.2.1 j).le (hH cell g1 a h g2 j) 2) (nn j)
  rw [abs_sub_comm] at e
  have t1 := abs_sub_le y (trilinear a h v c) (trilinear a h (fun j => f (cornerPos a h (hexUnit j))) c)
  have t2 := abs_sub_le y (trilinear a h (fun j => f (cornerPos a h (hexUnit j))) c) (f c)
  have q : 256 * u * (u * B) ≤ 4 * (u * B) := mul_le_mul_of_nonneg_right (by linarith) (mul_nonneg u0 B0)
  have hz : |(c 2 - a 2) * (a 2 + h 2 - c 2)| ≤ h 2 ^ 2 / 4 := by
    have a1 := (g3 2).1
    have a2 := (g3 2).2
    rw [abs_of_nonneg (mul_nonneg (by linarith) (by linarith))]
    nlinarith [sq_nonneg (2 * (c 2 - a 2) - h 2)]
  have := mul_le_mul_of_nonneg_left hz (by linarith [nn 2] : 0 ≤ M 2 / 2)
  nlinarith [s 0, s 1, s 2]

namespace SmoothDemo
open DemoR (pts cells rect cell0 cell1)

/-- `x² + y²` has second derivatives 2. -/
def f (p : Fin 2 → ℝ) : ℝ := p 0 ^ 2 + p 1 ^ 2

theorem slope (S : (Fin 2 → ℝ) → Prop) (i : Fin 2) : HasSlope S f (fun p => 2 * p i) i := by
  intro p _
  have h : (fun t => f (Function.update p i t)) = fun t => t ^ 2 + p (1 - i) ^ 2 := by
    funext t; fin_cases i <;> simp [f, add_comm]
  rw [h]
  have := ((hasDerivAt_id (p i)).pow 2).add_const (p (1 - i) ^ 2)
  simpa using this

theorem curvature (S : (Fin 2 → ℝ) → Prop) (i : Fin 2) : CurvatureLe S f i 2 := by
  refine ⟨fun p => 2 * p i, fun _ => 2, slope S i, fun p _ => ?_, fun _ _ => by norm_num⟩
  have h : (fun t => 2 * Function.update p i t i) = fun t => 2 * t := by funext t; simp
  rw [h]
  simpa using (hasDerivAt_id (p i)).const_mul 2

theorem only (cell : List Nat) (hc : cell ∈ cells) (a h : Fin 2 → ℝ) (hah : CellAt quadUnit pts cell a h) :
    (a = ![0, 0] ∧ h = ![1, 1]) ∨ (a = ![1, 0] ∧ h = ![2, 1]) := by
  simp only [cells, List.mem_cons, List.not_mem_nil, or_false] at hc
  rcases hc with rfl | rfl
  · exact Or.inl (Mesh.cellAt_unique quadLaw hah cell0)
  · exact Or.inr (Mesh.cellAt_unique quadLaw hah cell1)

theorem width (cell : List Nat) (hc : cell ∈ cells) (a h : Fin 2 → ℝ) (hah : CellAt quadUnit pts cell a h) (j : Fin 2) : h j ≤ ![2, 1] j := by
  rcases only cell hc a h hah with ⟨_, rfl⟩ | ⟨_, rfl⟩ <;> fin_cases j <;> norm_num

theorem covered : Covered quadUnit pts cells ![2, 1 / 2] :=
  ⟨_, by simp [cells], _, _, cell1, by intro i; fin_cases i <;> norm_num⟩

/-- At (2, 1/2) the value is within (2·4 + 2·1)/8 = 5/4 of 4.25 (it is 5.5: the bound is attained), and the gradient within 4 of (4, 1). -/
example : ∃ b, Body.load (quadOps ℝ) pts cells [("u", pts.map f)] = .ok b ∧
    (∃ y, (b.calls (quadOps ℝ) []).value (quadOps ℝ) 0 ![2, 1 / 2] = .ok y ∧ |y - 17 / 4| ≤ 5 / 4) ∧
    ∃ g, (b.calls (quadOps ℝ) []).grad (quadOps ℝ) 0 ![2, 1 / 2] 0 = .ok g ∧ |g - 4| ≤ 4 := by
  have hl : ∀ fl ∈ [("u", pts.map f)], fl.2.length = pts.length := by simp
  obtain ⟨b, hb, _⟩ := C22_load_2d pts cells [("u", pts.map f)] rect hl
  refine ⟨b, hb, ?_, ?_⟩
  · obtain ⟨y, e, k⟩ := C129_value_2d pts cells _ rect hl b hb [] (by simp [HistOk]) 0 "u" f rfl (fun _ => 2) ![2, 1]
      (curvature _) width _ covered
    refine ⟨y, e, ?_⟩
    norm_num [f] at k
    exact k
  · obtain ⟨g, e, k⟩ := C129_gradient_2d pts cells _ rect hl b hb [] (by simp [HistOk]) 0 "u" f (fun p => 2 * p 0) rfl 0 (slope _ 0) 4 (by
      intro cell hc a h hah p q hp hq
      have w := width cell hc a h hah 0
      have p0 := hp 0
      have q0 := hq 0
      simp at w
      rw [abs_le]; constructor <;> linarith [p0.1, p0.2, q0.1, q0.2]) _ covered
    refine ⟨g, e, ?_⟩
    norm_num at k
    exact k

/-- In binary64. -/
example : ∃ b, Fl.load (nearestEven 53) (Fl.quadOps (nearestEven 53)) pts cells [("u", pts.map fun p => nearestEven 53 (f p))] = .ok b ∧
    ∃ y, Fl.eval (nearestEven 53) (Fl.quadOps (nearestEven 53)) (Fl.evals (nearestEven 53) (Fl.quadOps (nearestEven 53)) b []) 0
      (.value ![2, 1 / 2]) = .ok y ∧ |y - 17 / 4| ≤ 5 / 4 + 66 * 2 ^ (-53 : Int) * 10 := by
  have hu : (2 : ℝ) ^ (-(53 : Int)) ≤ 1 / 64 := by rw [zpow_neg]; norm_num
  have flt : ∀ (k : Int), |k| ≤ 2 ^ 53 → IsFloat (nearestEven 53) (k : ℝ) := fun k hk => by
    simpa using B64.float_int (K := ℝ) k 0 hk
  have hm : FloatMesh quadUnit (nearestEven 53) ((2 : ℝ) ^ (-(53 : Int))) pts cells := by
    refine ⟨rect, ?_, ?_⟩
    · intro p hp i
      have f0 := flt 0 (by norm_num)
      have f1 := flt 1 (by norm_num)
      have f3 := flt 3 (by norm_num)
      norm_num at f0 f1 f3
      simp only [pts, List.mem_cons, List.not_mem_nil, or_false] at hp
      rcases hp with rfl | rfl | rfl | rfl | rfl | rfl <;> fin_cases i <;> simp [f0, f1, f3]
    · intro i lo hi h1 h2
      have n6 : nDistinct pts i ≤ 6 := (List.Sublist.length_le (List.dedup_sublist _)).trans (by simp [pts])
      have l0 : lo = 0 := by
        have a := h1.2 ![0, 0] (by simp [pts])
        obtain ⟨p, hp, e⟩ := h1.1
        have : 0 ≤ p i := by
          simp only [pts, List.mem_cons, List.not_mem_nil, or_false] at hp
          rcases hp with rfl | rfl | rfl | rfl | rfl | rfl <;> fin_cases i <;> norm_num
        rw [e] at this
        refine le_antisymm (a.trans ?_) this
        fin_cases i <;> simp
      have hi1 : 1 ≤ hi ∧ hi ≤ 3 := by
        have a := h2.2 ![3, 1] (by simp [pts])
        obtain ⟨p, hp, e⟩ := h2.1
        have : p i ≤ 3 := by
          simp only [pts, List.mem_cons, List.not_mem_nil, or_false] at hp
          rcases hp with rfl | rfl | rfl | rfl | rfl | rfl <;> fin_cases i <;> norm_num
        rw [e] at this
        refine ⟨le_trans ?_ a, this⟩
        fin_cases i <;> norm_num
      have n1 : 1 ≤ nDistinct pts i := Finset.card_pos.mpr ⟨(![0, 0] : Fin 2 → ℝ) i, by simp [pts]⟩
      have n6' : (nDistinct pts i : ℝ) ≤ 6 := by exact_mod_cast n6
      have n1' : (1 : ℝ) ≤ nDistinct pts i := by exact_mod_cast n1
      rw [l0, abs_zero, zero_add, sub_zero, margin, sub_zero, le_div_iff₀ (by linarith)]
      have hsm : 16 * (2 : ℝ) ^ (-(53 : Int)) ≤ 1 / 6 := by rw [zpow_neg]; norm_num
      have h0 : 0 ≤ hi := by linarith [hi1.1]
      have h1' := mul_le_mul_of_nonneg_right hsm h0
      have h2' := mul_le_mul_of_nonneg_left n6' (by positivity : 0 ≤ 16 * (2 : ℝ) ^ (-(53 : Int)) * hi)
      generalize 16 * (2 : ℝ) ^ (-(53 : Int)) = w at h1' h2' ⊢
      linarith
  have hfl : ∀ fl ∈ [("u", pts.map fun p => nearestEven 53 (f p))], ∀ y ∈ fl.2, IsFloat (nearestEven 53) y := by
    intro fl hfl y hy
    simp only [List.mem_singleton] at hfl
    subst hfl
    obtain ⟨p, _, rfl⟩ := List.mem_map.mp hy
    exact (B64.R (K := ℝ)).idem _
  have hl : ∀ fl ∈ [("u", pts.map fun p => nearestEven 53 (f p))], fl.2.length = pts.length := by simp
  obtain ⟨b, hb⟩ := C94_loads (B64.R (K := ℝ)) hu pts cells _ hm hl
  refine ⟨b, hb, ?_⟩
  obtain ⟨y, e, k⟩ := C129_doubles_2d (B64.R (K := ℝ)) hu pts cells _ hm hl hfl b hb [] (by simp [Fl.HistOk]) 0 "u" f rfl 10 (by
    intro p hp
    simp only [pts, List.mem_cons, List.not_mem_nil, or_false] at hp
    rcases hp with rfl | rfl | rfl | rfl | rfl | rfl <;> norm_num [f]) (fun _ => 2) ![2, 1] (curvature _) width ![2, 1 / 2] ⟨covered, by
      intro i
      have f2 := B64.float_int (K := ℝ) 1 1 (by norm_num)
      have fh := B64.float_int (K := ℝ) 1 (-1) (by norm_num)
      norm_num at f2 fh
      fin_cases i
      · simpa using f2
      · simpa using fh⟩
  refine ⟨y, e, ?_⟩
  norm_num [f] at k ⊢
  exact k

end SmoothDemo

namespace SmoothDemo3

/-- Two unit cubes on top of each other, over the real numbers. -/
def pts : List (Fin 3 → ℝ) := [![0, 0, 0], ![1, 0, 0], ![1, 1, 0], ![0, 1, 0], ![0, 0, 1], ![1, 0, 1], ![1, 1, 1], ![0, 1, 1],
  ![0, 0, 2], ![1, 0, 2], ![1, 1, 2], ![0, 1, 2]]
def cells : List (List Nat) := [[0, 1, 2, 3, 4, 5, 6, 7], [4, 5, 6, 7, 8, 9, 10, 11]]

theorem v2 (x y z : ℝ) : (![x, y, z] : Fin 3 → ℝ) 2 = z := rfl

theorem corner (k : ℕ) (z : ℝ) (hk : ∀ j : Fin 8, pts[k + j]? = some (cornerPos ![0, 0, z] ![1, 1, 1] (hexUnit j))) :
    CellAt hexUnit pts ((List.range 8).map (k + ·)) ![0, 0, z] ![1, 1, 1] := by
  refine ⟨rfl, by intro i; fin_cases i <;> simp, fun j => ⟨k + j, ?_, hk j⟩⟩
  fin_cases j <;> rfl

theorem cell0 : CellAt hexUnit pts [0, 1, 2, 3, 4, 5, 6, 7] ![0, 0, 0] ![1, 1, 1] := by
  refine corner 0 0 fun j => ?_
  fin_cases j <;> simp [pts] <;> (funext i; fin_cases i <;> norm_num [cornerPos, hexUnit])

theorem cell1 : CellAt hexUnit pts [4, 5, 6, 7, 8, 9, 10, 11] ![0, 0, 1] ![1, 1, 1] := by
  refine corner 4 1 fun j => ?_
  fin_cases j <;> simp [pts] <;> (funext i; fin_cases i <;> norm_num [cornerPos, hexUnit])

theorem small_of (n : Fin 3 → ℕ) (h : ∀ i, n i ≤ 12) : prod (List.ofFn fun i => (n i : Int) + 2) ≤ 2147483647 := by
  have h0 := h 0
  have h1 := h 1
  have h2 := h 2
  have e : prod (List.ofFn fun i => (n i : Int) + 2) = ((n 0 : Int) + 2) * (((n 1 : Int) + 2) * ((n 2 : Int) + 2)) := by
    simp [List.ofFn_succ, prod]; try ring
  rw [e]
  have a : ((n 1 : Int) + 2) * ((n 2 : Int) + 2) ≤ 14 * 14 := mul_le_mul (by omega) (by omega) (by omega) (by omega)
  have b : ((n 0 : Int) + 2) * (((n 1 : Int) + 2) * ((n 2 : Int) + 2)) ≤ 14 * (14 * 14) :=
    mul_le_mul (by omega) a (by positivity) (by omega)
  linarith

theorem levels_le (i : Fin 3) : nDistinct pts i ≤ 12 := by
  rw [nDistinct]
  exact (List.toFinset_card_le _).trans (by rw [List.length_map]; exact le_of_eq rfl)

theorem rect : RectMesh hexUnit pts cells := by
  refine ⟨by decide, ?_, small_of _ levels_le⟩
  intro cell hc
  simp only [cells, List.mem_cons, List.not_mem_nil, or_false] at hc
  rcases hc with h | h
  · rw [h]; exact ⟨_, _, cell0⟩
  · rw [h]; exact ⟨_, _, cell1⟩

theorem only (cell : List Nat) (hc : cell ∈ cells) (a h : Fin 3 → ℝ) (hah : CellAt hexUnit pts cell a h) :
    (a = ![0, 0, 0] ∧ h = ![1, 1, 1]) ∨ (a = ![0, 0, 1] ∧ h = ![1, 1, 1]) := by
  simp only [cells, List.mem_cons, List.not_mem_nil, or_false] at hc
  rcases hc with rfl | rfl
  · exact Or.inl (Mesh.cellAt_unique hexLaw hah cell0)
  · exact Or.inr (Mesh.cellAt_unique hexLaw hah cell1)

theorem width (cell : List Nat) (hc : cell ∈ cells) (a h : Fin 3 → ℝ) (hah : CellAt hexUnit pts cell a h) (j : Fin 3) : h j ≤ 1 := by
  rcases only cell hc a h hah with ⟨_, rfl⟩ | ⟨_, rfl⟩ <;> fin_cases j <;> norm_num

theorem low : IsLow pts 2 0 := by
  refine ⟨⟨![0, 0, 0], by simp [pts], rfl⟩, fun p hp => ?_⟩
  simp only [pts, List.mem_cons, List.not_mem_nil, or_false] at hp
  rcases hp with rfl | rfl | rfl | rfl | rfl | rfl | rfl | rfl | rfl | rfl | rfl | rfl <;> norm_num [v2]

theorem high : IsHigh pts 2 2 := by
  refine ⟨⟨![0, 0, 2], by simp [pts], rfl⟩, fun p hp => ?_⟩
  simp only [pts, List.mem_cons, List.not_mem_nil, or_false] at hp
  rcases hp with rfl | rfl | rfl | rfl | rfl | rfl | rfl | rfl | rfl | rfl | rfl | rfl <;> norm_num [v2]

theorem levels : nDistinct pts 2 = 3 := by
  have : (pts.map (· 2)).toFinset = {0, 1, 2} := by
    ext x; simp [pts, v2]; try tauto
  rw [nDistinct, this]
  norm_num

theorem margin_eq : margin pts 2 0 2 = 2 / 3 := by rw [margin, levels]; norm_num

theorem covered (z : ℝ) (h0 : 0 ≤ z) (h1 : z ≤ 1) : Covered hexUnit pts cells ![1 / 2, 1 / 2, z] :=
  ⟨_, List.mem_cons_self, _, _, cell0, by intro i; fin_cases i <;> norm_num [h0, h1]⟩

theorem clear : NearClear pts cells ![1 / 2, 1 / 2, 1 / 4] := by
  intro cell hc a h hah _ h2
  have h3 := h2 0 2 low high
  rw [margin_eq] at h3
  rcases only cell hc a h hah with ⟨rfl, rfl⟩ | ⟨rfl, rfl⟩
  · intro i; fin_cases i <;> norm_num
  · exfalso; have := h3.1; norm_num [v2] at this

/-- `x² + y² + z²`. -/
def f (p : Fin 3 → ℝ) : ℝ := p 0 ^ 2 + p 1 ^ 2 + p 2 ^ 2

theorem slope (S : (Fin 3 → ℝ) → Prop) (i : Fin 3) : HasSlope S f (fun p => 2 * p i) i := by
  intro p _
  have h : (fun t => f (Function.update p i t)) = fun t => t ^ 2 + (f p - p i ^ 2) := by
    funext t; fin_cases i <;> simp [f] <;> ring
  rw [h]
  have := ((hasDerivAt_id (p i)).pow 2).add_const (f p - p i ^ 2)
  simpa using this

theorem curvature (S : (Fin 3 → ℝ) → Prop) (i : Fin 3) : CurvatureLe S f i 2 := by
  refine ⟨fun p => 2 * p i, fun _ => 2, slope S i, fun p _ => ?_, fun _ _ => by norm_num⟩
  have h : (fun t => 2 * Function.update p i t i) = fun t => 2 * t := by funext t; simp
  rw [h]
  simpa using (hasDerivAt_id (p i)).const_mul 2

/-- Anywhere in the lower cube the value is within 67/36 of the function (C28 does not hold there: the upper cube may be used); at height 1/4
within 3/4, and the gradient within 2. -/
example : ∃ b, Body.load (hexOps ℝ) pts cells [("u", pts.map f)] = .ok b ∧
    (∀ z, 0 ≤ z → z ≤ 1 → ∃ y, (b.calls (hexOps ℝ) []).value (hexOps ℝ) 0 ![1 / 2, 1 / 2, z] = .ok y ∧ |y - f ![1 / 2, 1 / 2, z]| ≤ 67 / 36) ∧
    (∃ y, (b.calls (hexOps ℝ) []).value (hexOps ℝ) 0 ![1 / 2, 1 / 2, 1 / 4] = .ok y ∧ |y - f ![1 / 2, 1 / 2, 1 / 4]| ≤ 3 / 4) ∧
    ∃ g, (b.calls (hexOps ℝ) []).grad (hexOps ℝ) 0 ![1 / 2, 1 / 2, 1 / 4] 2 = .ok g ∧ |g - 1 / 2| ≤ 2 := by
  have hl : ∀ fl ∈ [("u", pts.map f)], fl.2.length = pts.length := by simp
  obtain ⟨b, hb, _⟩ := C31_load_3d pts cells [("u", pts.map f)] rect hl
  refine ⟨b, hb, fun z h0 h1 => ?_, ?_, ?_⟩
  · obtain ⟨y, e, k⟩ := C129_value_3d pts cells _ rect hl b hb [] (by simp [HistOk]) 0 "u" f rfl (fun _ => 2) (fun _ => 1)
      (curvature _) width 0 2 low high _ (covered z h0 h1)
    refine ⟨y, e, ?_⟩
    rw [margin_eq] at k
    norm_num at k
    exact k
  · obtain ⟨y, e, k⟩ := C129_value_3d_clear pts cells _ rect hl b hb [] (by simp [HistOk]) 0 "u" f rfl (fun _ => 2) (fun _ => 1)
      (curvature _) width _ (covered (1 / 4) (by norm_num) (by norm_num)) clear
    refine ⟨y, e, ?_⟩
    norm_num at k ⊢
    exact k
  · obtain ⟨g, e, k⟩ := C129_gradient_3d pts cells _ rect hl b hb [] (by simp [HistOk]) 0 "u" f (fun p => 2 * p 2) rfl 2 (slope _ 2) 2 (by
      intro cell hc a h hah p q hp hq
      have w := width cell hc a h hah 2
      have p0 := hp 2
      have q0 := hq 2
      rw [abs_le]; constructor <;> linarith [p0.1, p0.2, q0.1, q0.2]) _ (covered (1 / 4) (by norm_num) (by norm_num)) clear
    refine ⟨g, e, ?_⟩
    norm_num [v2] at k ⊢
    exact k

/-- A function of which only the oscillation is known. -/
example (b : Body ℝ 3) (hb : Body.load (hexOps ℝ) pts cells [("u", pts.map fun p => |p 2 - 1|)] = .ok b) :
    ∃ y, (b.calls (hexOps ℝ) []).value (hexOps ℝ) 0 ![1 / 2, 1 / 2, 1 / 4] = .ok y ∧ |y - 3 / 4| ≤ 1 := by
  obtain ⟨y, e, k⟩ := C129_continuous_3d pts cells _ rect (by simp) b hb [] (by simp [HistOk]) 0 "u" (fun p => |p 2 - 1|) rfl 1 (by
      intro cell hc a h hah p q hp hq
      have w := width cell hc a h hah 2
      have p0 := hp 2
      have q0 := hq 2
      refine (abs_abs_sub_abs_le _ _).trans ?_
      rw [abs_le]; constructor <;> linarith [p0.1, p0.2, q0.1, q0.2]) _ (covered (1 / 4) (by norm_num) (by norm_num)) clear
  refine ⟨y, e, ?_⟩
  have : |(![1 / 2, 1 / 2, 1 / 4] : Fin 3 → ℝ) 2 - 1| = 3 / 4 := by
    rw [v2, abs_of_nonpos] <;> norm_num
  rwa [this] at k

/-- One unit cube. -/
def pts1 : List (Fin 3 → ℝ) := pts.take 8

theorem only1 : CellAt hexUnit pts1 [0, 1, 2, 3, 4, 5, 6, 7] ![0, 0, 0] ![1, 1, 1] := by
  refine ⟨rfl, by intro i; fin_cases i <;> simp, fun j => ⟨j, ?_, ?_⟩⟩
  · fin_cases j <;> rfl
  · fin_cases j <;> simp [pts1, pts] <;> (funext i; fin_cases i <;> norm_num [cornerPos, hexUnit])

theorem mem1 {p : Fin 3 → ℝ} (hp : p ∈ pts1) (i : Fin 3) : p i = 0 ∨ p i = 1 := by
  simp only [pts1, pts, List.take_succ_cons, List.take_zero, List.mem_cons, List.not_mem_nil, or_false] at hp
  rcases hp with rfl | rfl | rfl | rfl | rfl | rfl | rfl | rfl <;> fin_cases i <;> simp

theorem mesh1 : FloatMesh hexUnit (nearestEven 53) ((2 : ℝ) ^ (-(53 : Int))) pts1 [[0, 1, 2, 3, 4, 5, 6, 7]] := by
  have n8 : ∀ i, nDistinct pts1 i ≤ 8 := fun i => by
    rw [nDistinct]
    exact (List.toFinset_card_le _).trans (by rw [List.length_map]; exact le_of_eq rfl)
  refine ⟨⟨by decide, ?_, small_of _ fun i => (n8 i).trans (by norm_num)⟩, ?_, ?_⟩
  · intro cell hc
    rw [List.mem_singleton] at hc
    rw [hc]; exact ⟨_, _, only1⟩
  · intro p hp i
    have f0 := B64.float_int (K := ℝ) 0 0 (by norm_num)
    have f1 := B64.float_int (K := ℝ) 1 0 (by norm_num)
    norm_num at f0 f1
    rcases mem1 hp i with h | h <;> rw [h] <;> assumption
  · intro i lo hi h1 h2
    have z : (![0, 0, 0] : Fin 3 → ℝ) ∈ pts1 := by simp [pts1, pts]
    have o : (![1, 1, 1] : Fin 3 → ℝ) ∈ pts1 := by simp [pts1, pts]
    have zi : (![0, 0, 0] : Fin 3 → ℝ) i = 0 := by fin_cases i <;> rfl
    have oi : (![1, 1, 1] : Fin 3 → ℝ) i = 1 := by fin_cases i <;> rfl
    have l0 : lo = 0 := by
      have a := h1.2 _ z
      obtain ⟨p, hp, e⟩ := h1.1
      rcases mem1 hp i with h | h
      · rw [← e, h]
      · rw [zi] at a; linarith
    have h1' : hi = 1 := by
      have a := h2.2 _ o
      obtain ⟨p, hp, e⟩ := h2.1
      rcases mem1 hp i with h | h
      · rw [oi] at a; linarith
      · rw [← e, h]
    have n1 : 1 ≤ nDistinct pts1 i := Finset.card_pos.mpr ⟨_, List.mem_toFinset.mpr (List.mem_map_of_mem z)⟩
    have n8' : (nDistinct pts1 i : ℝ) ≤ 8 := by exact_mod_cast n8 i
    have n1' : (1 : ℝ) ≤ nDistinct pts1 i := by exact_mod_cast n1
    rw [l0, h1', abs_zero, zero_add, sub_zero, margin, sub_zero, le_div_iff₀ (by linarith)]
    have hsm : 16 * (2 : ℝ) ^ (-(53 : Int)) ≤ 1 / 8 := by rw [zpow_neg]; norm_num
    have : 0 ≤ 16 * (2 : ℝ) ^ (-(53 : Int)) := by positivity
    generalize 16 * (2 : ℝ) ^ (-(53 : Int)) = w at hsm this ⊢
    nlinarith

/-- In binary64: in the middle of a unit cube, 3/4 off the function. -/
example : ∃ b, Fl.load (nearestEven 53) (Fl.hexOps (nearestEven 53)) pts1 [[0, 1, 2, 3, 4, 5, 6, 7]]
      [("u", pts1.map fun p => nearestEven 53 (f p))] = .ok b ∧
    ∃ y, Fl.eval (nearestEven 53) (Fl.hexOps (nearestEven 53)) (Fl.evals (nearestEven 53) (Fl.hexOps (nearestEven 53)) b []) 0
      (.value ![1 / 2, 1 / 2, 1 / 2]) = .ok y ∧ |y - f ![1 / 2, 1 / 2, 1 / 2]| ≤ 3 / 4 + 261 * 2 ^ (-(53 : Int)) * 3 := by
  have hu : (2 : ℝ) ^ (-(53 : Int)) ≤ 1 / 64 := by rw [zpow_neg]; norm_num
  have hfl : ∀ fl ∈ [("u", pts1.map fun p => nearestEven 53 (f p))], ∀ y ∈ fl.2, IsFloat (nearestEven 53) y := by
    intro fl hfl y hy
    simp only [List.mem_singleton] at hfl
    subst hfl
    obtain ⟨p, _, rfl⟩ := List.mem_map.mp hy
    exact (B64.R (K := ℝ)).idem _
  have hl : ∀ fl ∈ [("u", pts1.map fun p => nearestEven 53 (f p))], fl.2.length = pts1.length := by simp
  obtain ⟨b, hb⟩ := C107_loads (B64.R (K := ℝ)) hu pts1 _ _ mesh1 hl
  refine ⟨b, hb, ?_⟩
  have on : ∀ cell ∈ [[0, 1, 2, 3, 4, 5, 6, 7]], ∀ a h, CellAt hexUnit pts1 cell a h → a = ![0, 0, 0] ∧ h = ![1, 1, 1] := by
    intro cell hc a h hah
    rw [List.mem_singleton] at hc
    rw [hc] at hah
    exact Mesh.cellAt_unique hexLaw hah only1
  have hin : InCell (![0, 0, 0] : Fin 3 → ℝ) ![1, 1, 1] ![1 / 2, 1 / 2, 1 / 2] := by intro i; fin_cases i <;> norm_num
  obtain ⟨y, e, k⟩ := C129_doubles_3d (B64.R (K := ℝ)) hu pts1 _ _ mesh1 hl hfl b hb [] (by simp [Fl.HistOk]) 0 "u" f rfl 3 (by
      intro p hp
      have s : ∀ i, 0 ≤ p i ^ 2 ∧ p i ^ 2 ≤ 1 := fun i => by rcases mem1 hp i with h | h <;> rw [h] <;> norm_num
      rw [abs_le, f]
      constructor <;> linarith [(s 0).1, (s 0).2, (s 1).1, (s 1).2, (s 2).1, (s 2).2]) (fun _ => 2) (fun _ => 1) (curvature _)
    (by intro cell hc a h hah j; rw [(on cell hc a h hah).2]; fin_cases j <;> norm_num) ![1 / 2, 1 / 2, 1 / 2]
    ⟨⟨_, List.mem_singleton.mpr rfl, _, _, only1, hin⟩, by
      intro i
      have fh := B64.float_int (K := ℝ) 1 (-1) (by norm_num)
      norm_num at fh
      fin_cases i <;> simpa using fh⟩
    (by
      intro cell hc a h hah _ _
      obtain ⟨r1, r2⟩ := on cell hc a h hah
      rw [r1, r2]; exact hin)
  refine ⟨y, e, k.trans (le_of_eq ?_)⟩
  norm_num

end SmoothDemo3
end Verif
