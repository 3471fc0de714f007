import Verif.Lemmas.Basis
import Mathlib.Tactic.Ring
import Mathlib.Algebra.BigOperators.Intervals

/-! Helper lemmas: sums over a row-major enumeration are nested sums. -/

namespace Verif
open Spec
variable {K : Type} [CommRing K]

/-- Extents of a list of factors. -/
def dimsOf (fs : List (Nat × (Nat → K))) : List Int := fs.map fun p => (p.1 : Int)

/-- The product of the factors at index tuple `t`. -/
def facProd : List (Nat × (Nat → K)) → List Int → K
  | [], _ => 1
  | (_, f) :: fs, t => f (t.headD 0).toNat * facProd fs t.tail

theorem tensorSum_congr {fs : List (Nat × (Nat → K))} : ∀ {c d : List Int → K}, (∀ t, InBox (dimsOf fs) t → c t = d t) →
    tensorSum fs c = tensorSum fs d := by
  induction fs with
  | nil => intro c d h; exact h [] trivial
  | cons p fs ih =>
    obtain ⟨n, f⟩ := p
    intro c d h
    refine Finset.sum_congr rfl fun k hk => ?_
    rw [ih fun t ht => h ((k : Int) :: t) ⟨⟨by omega, by simpa using hk⟩, ht⟩]

theorem sum_range_mul (d p : Nat) (g : Nat → K) :
    ∑ l ∈ Finset.range (d * p), g l = ∑ k ∈ Finset.range d, ∑ m ∈ Finset.range p, g (k * p + m) := by
  induction d with
  | zero => simp
  | succ d ih => rw [Nat.succ_mul, Finset.sum_range_add, ih, Finset.sum_range_succ]

theorem prod_natCast_nonneg (fs : List (Nat × (Nat → K))) : 0 ≤ prod (dimsOf fs) := by
  refine Verif.prod_nonneg ?_
  intro d hd
  simp only [dimsOf, List.mem_map] at hd
  obtain ⟨p, _, rfl⟩ := hd
  omega

theorem tensorSum_eq (fs : List (Nat × (Nat → K))) (hp : ∀ d ∈ dimsOf fs, 0 < d) : ∀ h : Nat → K,
    ∑ l ∈ Finset.range (prod (dimsOf fs)).toNat, h l * facProd fs (digits (dimsOf fs) l) =
      tensorSum fs fun t => h (dot (dimsOf fs) t).toNat := by
  induction fs with
  | nil => intro h; simp [dimsOf, prod, facProd, tensorSum, dot]
  | cons p fs ih =>
    obtain ⟨n, f⟩ := p
    intro h
    have hp' : ∀ d ∈ dimsOf fs, 0 < d := fun d hd => hp d (by simp [dimsOf] at hd ⊢; exact Or.inr hd)
    have hpos := Verif.prod_pos hp'
    have e : (prod (dimsOf ((n, f) :: fs))).toNat = n * (prod (dimsOf fs)).toNat := by
      simp only [dimsOf, List.map_cons, prod]
      rw [Int.toNat_mul (by omega) (by simpa [dimsOf] using hpos.le)]
      simp
    rw [e, sum_range_mul]
    simp only [tensorSum]
    refine Finset.sum_congr rfl fun k hk => ?_
    have hih := ih hp' (fun m => h (k * (prod (dimsOf fs)).toNat + m))
    have hc : tensorSum fs (fun t => h (dot (dimsOf ((n, f) :: fs)) ((k : Int) :: t)).toNat) =
        tensorSum fs fun t => h (k * (prod (dimsOf fs)).toNat + (dot (dimsOf fs) t).toNat) := by
      refine tensorSum_congr fun t ht => ?_
      have h0 := Verif.dot_nonneg hp' ht
      congr 1
      simp only [dimsOf, List.map_cons, dot] at h0 ⊢
      zify
      rw [Int.toNat_of_nonneg (by have : 0 ≤ (k:Int) * prod (List.map (fun p => (p.1:Int)) fs) := Int.mul_nonneg (by omega) (by simpa [dimsOf] using hpos.le); omega),
        Int.toNat_of_nonneg (by simpa [dimsOf] using hpos.le), Int.toNat_of_nonneg h0]
    rw [hc, ← hih, Finset.mul_sum]
    refine Finset.sum_congr rfl fun m hm => ?_
    have hm' : (m : Int) < prod (dimsOf fs) := by
      have := Finset.mem_range.mp hm; omega
    have hq : ((k * (prod (dimsOf fs)).toNat + m : Nat) : Int) = m + prod (dimsOf fs) * k := by
      push_cast; rw [Int.toNat_of_nonneg hpos.le]; ring
    have hd : digits (dimsOf ((n, f) :: fs)) ((k * (prod (dimsOf fs)).toNat + m : Nat) : Int) = (k : Int) :: digits (dimsOf fs) m := by
      rw [hq]
      simp only [dimsOf, List.map_cons, digits] at hm' hpos ⊢
      rw [Int.add_mul_ediv_left _ _ (by omega), Int.add_mul_emod_self_left, Int.ediv_eq_zero_of_lt (by omega) hm',
        Int.emod_eq_of_lt (by omega) hm']
      simp
    rw [hd]
    simp only [facProd, List.headD_cons, List.tail_cons, Int.toNat_natCast]
    ring

end Verif
