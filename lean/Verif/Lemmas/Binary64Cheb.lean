import Verif.Lemmas.Binary64Series

/-! # Binary64: sums of products stay in the range of normal doubles (sums of numbers on a grid are on the grid) -/

namespace Verif
open Spec
namespace B64
variable {K : Type} [Field K] [LinearOrder K] [IsStrictOrderedRing K] [FloorRing K] {f : K → K}

/-- Exponents `(n, p, g, q)`: the value is a multiple of `2^-(n a + g)`, and 0 or between `2^-(n a + p)` and `2^(n a + q)`, when the variables are
between `2^-a` and `2^a`. Powers do not occur (lemma-side). -/
def sg : Ast → Option (Nat × Nat × Nat × Nat)
  | .num q => if q.den = 1 then some (0, 0, 0, q.num.natAbs.log2 + 1) else none
  | .var _ => some (1, 0, 52, 0)
  | .add a b => do let x ← sg a; let y ← sg b; some (max x.1 y.1, max x.2.2.1 y.2.2.1, max x.2.2.1 y.2.2.1, max x.2.2.2 y.2.2.2 + 1)
  | .sub a b => do let x ← sg a; let y ← sg b; some (max x.1 y.1, max x.2.2.1 y.2.2.1, max x.2.2.1 y.2.2.1, max x.2.2.2 y.2.2.2 + 1)
  | .mul a b => do let x ← sg a; let y ← sg b; some (x.1 + y.1, x.2.1 + y.2.1, x.2.1 + y.2.1 + 52, x.2.2.2 + y.2.2.2)
  | .neg a => sg a
  | .pow _ _ => none

/-- What is known of a computed value (lemma-side). -/
structure Placed (f : K → K) (v : Nat → K) (a : Ast) (p g q : Nat) : Prop where
  same : flEval f v a = flEval r v a
  float : IsFloat (r : K → K) (flEval r v a)
  grid : OnGrid g (flEval r v a)
  sized : Sized p q (flEval r v a)

theorem grid_flEval (hB : IsBinary64 f) {A : Nat} {v : Nat → K} (hv : ∀ i, Mod A (v i)) : ∀ (a : Ast) (n p g q : Nat), sg a = some (n, p, g, q) →
    n * A + p ≤ 1022 → n * A + g ≤ 1022 → n * A + q ≤ 1023 → Placed f v a (n * A + p) (n * A + g) (n * A + q)
  | .num x, n, p, g, q, h, h1, h3, h2 => by
    simp only [sg] at h
    split at h
    · next hd =>
      simp only [Option.some.injEq, Prod.mk.injEq] at h
      obtain ⟨rfl, rfl, rfl, rfl⟩ := h
      obtain ⟨e1, e2, e3⟩ := flEval_same hB hv (.num x) 0 0 (x.num.natAbs.log2 + 1) (by simp [sz, hd]) h1 h2
      refine ⟨e1, e2, ?_, e3⟩
      have hx : (x : K) = (x.num : K) := by
        conv_lhs => rw [← Rat.num_div_den x, hd]
        simp
      rw [Nat.zero_mul, Nat.zero_add]
      show OnGrid 0 (r (x : K))
      exact grid_round ⟨x.num, by rw [hx]; simp⟩
    · cases h
  | .var i, n, p, g, q, h, h1, h3, h2 => by
    simp only [sg, Option.some.injEq, Prod.mk.injEq] at h
    obtain ⟨rfl, rfl, rfl, rfl⟩ := h
    have := hv i
    refine ⟨rfl, this.1, ?_, ?_⟩
    · rw [Nat.one_mul]; exact float_grid this.1 this.2
    · rw [Nat.one_mul, Nat.add_zero]; exact this.2
  | .add a b, n, p, g, q, h, h1, h3, h2 => by
    simp only [sg, Option.bind_eq_bind, Option.bind_eq_some_iff, Option.some.injEq, Prod.mk.injEq] at h
    obtain ⟨⟨n1, p1, g1, q1⟩, hx, ⟨n2, p2, g2, q2⟩, hy, rfl, rfl, rfl, rfl⟩ := h
    simp only at h1 h2 h3 ⊢
    have m1 : n1 * A ≤ max n1 n2 * A := Nat.mul_le_mul_right _ (le_max_left _ _)
    have m2 : n2 * A ≤ max n1 n2 * A := Nat.mul_le_mul_right _ (le_max_right _ _)
    have i1 := sg_le a hx
    have i2 := sg_le b hy
    simp only at i1 i2
    obtain ⟨a1, a2, a4, a3⟩ := grid_flEval hB hv a n1 p1 g1 q1 hx (by omega) (by omega) (by omega)
    obtain ⟨b1, b2, b4, b3⟩ := grid_flEval hB hv b n2 p2 g2 q2 hy (by omega) (by omega) (by omega)
    have hg : OnGrid (max n1 n2 * A + max g1 g2) (flEval r v a + flEval r v b) :=
      grid_add (grid_up (by omega) a4) (grid_up (by omega) b4)
    have hs := grid_sized hg (abs_add_le_pow (k := max n1 n2 * A + max q1 q2) ((sized_le a3).trans (p_mono (by omega))) ((sized_le b3).trans (p_mono (by omega))))
    have e1 := agree hB hs h1 h2
    refine ⟨?_, R.idem _, grid_round hg, sized_round hs⟩
    show f (flEval f v a + flEval f v b) = r (flEval r v a + flEval r v b)
    rw [a1, b1, e1]
  | .sub a b, n, p, g, q, h, h1, h3, h2 => by
    simp only [sg, Option.bind_eq_bind, Option.bind_eq_some_iff, Option.some.injEq, Prod.mk.injEq] at h
    obtain ⟨⟨n1, p1, g1, q1⟩, hx, ⟨n2, p2, g2, q2⟩, hy, rfl, rfl, rfl, rfl⟩ := h
    simp only at h1 h2 h3 ⊢
    have m1 : n1 * A ≤ max n1 n2 * A := Nat.mul_le_mul_right _ (le_max_left _ _)
    have m2 : n2 * A ≤ max n1 n2 * A := Nat.mul_le_mul_right _ (le_max_right _ _)
    have i1 := sg_le a hx
    have i2 := sg_le b hy
    simp only at i1 i2
    obtain ⟨a1, a2, a4, a3⟩ := grid_flEval hB hv a n1 p1 g1 q1 hx (by omega) (by omega) (by omega)
    obtain ⟨b1, b2, b4, b3⟩ := grid_flEval hB hv b n2 p2 g2 q2 hy (by omega) (by omega) (by omega)
    have hg : OnGrid (max n1 n2 * A + max g1 g2) (flEval r v a - flEval r v b) :=
      grid_sub (grid_up (by omega) a4) (grid_up (by omega) b4)
    have hs := grid_sized hg (by
      rw [sub_eq_add_neg]
      exact abs_add_le_pow (k := max n1 n2 * A + max q1 q2) ((sized_le a3).trans (p_mono (by omega)))
        ((sized_le (sized_neg b3)).trans (p_mono (by omega))))
    have e1 := agree hB hs h1 h2
    refine ⟨?_, R.idem _, grid_round hg, sized_round hs⟩
    show f (flEval f v a - flEval f v b) = r (flEval r v a - flEval r v b)
    rw [a1, b1, e1]
  | .mul a b, n, p, g, q, h, h1, h3, h2 => by
    simp only [sg, Option.bind_eq_bind, Option.bind_eq_some_iff, Option.some.injEq, Prod.mk.injEq] at h
    obtain ⟨⟨n1, p1, g1, q1⟩, hx, ⟨n2, p2, g2, q2⟩, hy, rfl, rfl, rfl, rfl⟩ := h
    simp only at h1 h2 h3 ⊢
    rw [Nat.add_mul] at h1 h2 h3 ⊢
    have i1 := sg_le a hx
    have i2 := sg_le b hy
    simp only at i1 i2
    obtain ⟨a1, a2, a4, a3⟩ := grid_flEval hB hv a n1 p1 g1 q1 hx (by omega) (by omega) (by omega)
    obtain ⟨b1, b2, b4, b3⟩ := grid_flEval hB hv b n2 p2 g2 q2 hy (by omega) (by omega) (by omega)
    have hs := sized_mono (a' := n1 * A + n2 * A + (p1 + p2)) (b' := n1 * A + n2 * A + (q1 + q2)) (by omega) (by omega) (sized_mul a3 b3)
    have e1 := agree hB hs h1 h2
    refine ⟨?_, R.idem _, ?_, sized_round hs⟩
    · show f (flEval f v a * flEval f v b) = r (flEval r v a * flEval r v b)
      rw [a1, b1, e1]
    · have := float_grid (R.idem (flEval r v a * flEval r v b)) (sized_round hs)
      rw [Nat.add_assoc] at this
      exact this
  | .neg a, n, p, g, q, h, h1, h3, h2 => by
    simp only [sg] at h
    obtain ⟨a1, a2, a4, a3⟩ := grid_flEval hB hv a n p g q h h1 h3 h2
    refine ⟨?_, float_neg a2, grid_neg a4, sized_neg a3⟩
    show -flEval f v a = -flEval r v a
    rw [a1]
  | .pow a k, n, p, g, q, h, _, _, _ => by simp [sg] at h
where
  sg_le : ∀ (a : Ast) {t}, sg a = some t → t.2.1 ≤ t.2.2.1 ∧ t.2.2.1 ≤ t.2.1 + 52
  | .num x, t, h => by
    simp only [sg] at h
    split at h
    · cases h; simp
    · cases h
  | .var i, t, h => by cases h; simp
  | .add a b, t, h => by
    simp only [sg, Option.bind_eq_bind, Option.bind_eq_some_iff, Option.some.injEq] at h
    obtain ⟨x, hx, y, hy, rfl⟩ := h
    simp
  | .sub a b, t, h => by
    simp only [sg, Option.bind_eq_bind, Option.bind_eq_some_iff, Option.some.injEq] at h
    obtain ⟨x, hx, y, hy, rfl⟩ := h
    simp
  | .mul a b, t, h => by
    simp only [sg, Option.bind_eq_bind, Option.bind_eq_some_iff, Option.some.injEq] at h
    obtain ⟨x, hx, y, hy, rfl⟩ := h
    simp
  | .neg a, t, h => by simp only [sg] at h; exact sg_le a h
  | .pow a k, t, h => by cases h

end B64
end Verif
