import Verif.Spec.Series
import Mathlib.Algebra.BigOperators.Fin
import Mathlib.Data.Fintype.BigOperators

/-! # Tensor sums as sums over all index tuples, and their invariance -/

namespace Verif
open Spec
variable {K : Type} [CommRing K]

/-- A tensor sum is the sum over all tuples of indices. -/
theorem tensorSum_flat : ∀ {n : Nat} (N : Fin n → Nat) (f : Fin n → Nat → K) (c : List Int → K),
    tensorSum (List.ofFn fun i => (N i, f i)) c = ∑ t : (i : Fin n) → Fin (N i), (∏ i, f i (t i)) * c (List.ofFn fun i => ((t i : Nat) : Int))
  | 0, N, f, c => by simp [tensorSum]
  | n + 1, N, f, c => by
    rw [List.ofFn_succ, tensorSum, ← Fintype.sum_equiv (Fin.consEquiv fun i => Fin (N i)) _ _ (fun _ => rfl), Fintype.sum_prod_type,
      Finset.sum_range]
    refine Finset.sum_congr rfl fun k _ => ?_
    rw [tensorSum_flat (fun i => N i.succ) (fun i => f i.succ), Finset.mul_sum]
    refine Finset.sum_congr rfl fun t _ => ?_
    simp [Fin.prod_univ_succ, List.ofFn_succ, mul_assoc]

/-- Factors in another order. -/
theorem tensorSum_perm {n : Nat} (N : Fin n → Nat) (f : Fin n → Nat → K) (σ : Equiv.Perm (Fin n)) (c c' : List Int → K)
    (h : ∀ t : Fin n → Nat, (∀ i, t i < N i) → c' (List.ofFn fun i => (t (σ i) : Int)) = c (List.ofFn fun i => (t i : Int))) :
    tensorSum (List.ofFn fun i => (N (σ i), f (σ i))) c' = tensorSum (List.ofFn fun i => (N i, f i)) c := by
  rw [tensorSum_flat (fun i => N (σ i)) (fun i => f (σ i)), tensorSum_flat N f]
  refine Fintype.sum_equiv (Equiv.piCongrLeft (fun i => Fin (N i)) σ) _ _ fun t => ?_
  have e : ∀ i, Equiv.piCongrLeft (fun i => Fin (N i)) σ t (σ i) = t i := fun i => Equiv.piCongrLeft_apply_apply _ _ _ _
  rw [← h (fun i => (Equiv.piCongrLeft (fun i => Fin (N i)) σ t i : Nat)) (fun i => Fin.isLt _),
    ← Equiv.prod_comp σ fun i => f i (Equiv.piCongrLeft (fun i => Fin (N i)) σ t i)]
  simp only [e]

/-- More terms with coefficient 0. -/
theorem tensorSum_pad : ∀ {l l' : List (Nat × (Nat → K))} (_ : List.Forall₂ (fun p p' => p.1 ≤ p'.1 ∧ ∀ k < p.1, p.2 k = p'.2 k) l l') (c c' : List Int → K)
    (_ : ∀ t : List Nat, List.Forall₂ (fun k p => k < p.1) t l → c' (t.map Int.ofNat) = c (t.map Int.ofNat))
    (_ : ∀ t : List Nat, List.Forall₂ (fun k p => k < p.1) t l' → ¬ List.Forall₂ (fun k p => k < p.1) t l → c' (t.map Int.ofNat) = 0),
    tensorSum l' c' = tensorSum l c
  | _, _, .nil, c, c', h1, _ => h1 [] .nil
  | p :: l, p' :: l', .cons hp hl, c, c', h1, h2 => by
    rw [tensorSum, tensorSum, ← Finset.sum_subset (Finset.range_subset_range.mpr hp.1)]
    · refine Finset.sum_congr rfl fun k hk => ?_
      have hk := Finset.mem_range.mp hk
      rw [hp.2 k hk]
      congr 1
      refine tensorSum_pad hl _ _ (fun t ht => h1 (k :: t) (.cons hk ht)) fun t ht hn => h2 (k :: t) (.cons (hk.trans_le hp.1) ht) fun h => ?_
      cases h with | cons _ h => exact hn h
    · intro k hk hn
      have hk := Finset.mem_range.mp hk
      have hn : ¬ k < p.1 := fun h => hn (Finset.mem_range.mpr h)
      have z : ∀ (m : List (Nat × (Nat → K))) (c : List Int → K), (∀ t : List Nat, List.Forall₂ (fun k p => k < p.1) t m → c (t.map Int.ofNat) = 0) → tensorSum m c = 0 := by
        intro m
        induction m with
        | nil => exact fun c h => h [] .nil
        | cons q m ih =>
          intro c h
          rw [tensorSum]
          refine Finset.sum_eq_zero fun j hj => ?_
          rw [ih _ fun t ht => h (j :: t) (.cons (Finset.mem_range.mp hj) ht), mul_zero]
      rw [z l' _ fun t ht => h2 (k :: t) (.cons hk ht) fun h => by cases h with | cons h _ => exact hn h, mul_zero]

end Verif
