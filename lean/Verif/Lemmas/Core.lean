import Verif.Model.Core

/-! Helper lemmas about the C++ semantics of `Model/Core.lean`. -/

namespace Verif
variable {α β : Type}

@[simp] theorem ok_bind (a : α) (f : α → Res β) : (Except.ok a >>= f : Res β) = f a := rfl
@[simp] theorem err_bind (e : Err) (f : α → Res β) : ((Except.error e : Res α) >>= f) = .error e := rfl

theorem bind_eq_ok {x : Res α} {f : α → Res β} {b : β} :
    (x >>= f) = .ok b ↔ ∃ a, x = .ok a ∧ f a = .ok b := by
  cases x <;> simp

theorem vget_nat (v : List α) (i : Nat) (h : i < v.length) : vget v (i : Int) = .ok v[i] := by
  simp [vget, h]

theorem vget_ok {v : List α} {i : Int} {a : α} :
    vget v i = .ok a ↔ 0 ≤ i ∧ v[i.toNat]? = some a := by
  unfold vget
  by_cases h : 0 ≤ i <;> simp [h]
  cases v[i.toNat]? <;> simp

theorem vget_of_lt (v : List α) (i : Int) (h0 : 0 ≤ i) (h : i < v.length) :
    ∃ a, vget v i = .ok a ∧ v[i.toNat]? = some a := by
  have hl : i.toNat < v.length := by omega
  exact ⟨v[i.toNat], by simp [vget, h0, hl], by simp [hl]⟩

theorem vget_err {v : List α} {i : Int} (h : ¬ (0 ≤ i ∧ i < v.length)) :
    vget v i = .error (.ub .oob) := by
  unfold vget
  by_cases h0 : 0 ≤ i
  · have : v[i.toNat]? = none := by
      rw [List.getElem?_eq_none_iff]; omega
    simp [h0, this]
  · simp [h0]

theorem vset_nat (v : List α) (i : Nat) (a : α) (h : i < v.length) :
    vset v (i : Int) a = .ok (v.set i a) := by
  simp [vset, h]

theorem vset_ok {v : List α} {i : Int} {a : α} {w : List α} :
    vset v i a = .ok w ↔ 0 ≤ i ∧ i.toNat < v.length ∧ w = v.set i.toNat a := by
  unfold vset
  by_cases h : 0 ≤ i ∧ i.toNat < v.length
  · simp only [if_pos h, Except.ok.injEq]; constructor
    · intro e; exact ⟨h.1, h.2, e.symm⟩
    · intro e; exact e.2.2.symm
  · simp only [if_neg h]; constructor
    · intro e; cases e
    · intro e; exact absurd ⟨e.1, e.2.1⟩ h

theorem ckInt_of (x : Int) (h0 : intMin ≤ x) (h1 : x ≤ intMax) : ckInt x = .ok x := by
  simp [ckInt, h0, h1]

theorem ckInt_nonneg (x : Int) (h0 : 0 ≤ x) (h1 : x ≤ intMax) : ckInt x = .ok x :=
  ckInt_of x (by unfold intMin; omega) h1

theorem ckInt_ok {x y : Int} : ckInt x = .ok y ↔ (intMin ≤ x ∧ x ≤ intMax) ∧ y = x := by
  unfold ckInt
  by_cases h : intMin ≤ x ∧ x ≤ intMax
  · simp [h, eq_comm]
  · simp only [if_neg h]; constructor
    · intro e; cases e
    · intro e; exact absurd e.1 h

theorem vget_error {v : List α} {i : Int} {e : Err} (h : vget v i = .error e) : e = .ub .oob := by
  unfold vget at h
  split at h
  · split at h <;> cases h; rfl
  · cases h; rfl

theorem vset_error {v : List α} {i : Int} {a : α} {e : Err} (h : vset v i a = .error e) : e = .ub .oob := by
  unfold vset at h
  split at h <;> cases h; rfl

theorem ckInt_error {x : Int} {e : Err} (h : ckInt x = .error e) : e = .ub .overflow := by
  unfold ckInt at h
  split at h <;> cases h; rfl

@[simp] theorem vresize_length (v : List α) (n : Nat) (d : α) : (vresize v n d).length = n := by
  simp [vresize]; omega

theorem vresize_getElem? (v : List α) (n : Nat) (d : α) (i : Nat) (h : i < n) :
    (vresize v n d)[i]? = some (v[i]?.getD d) := by
  unfold vresize
  by_cases hi : i < v.length
  · have h1 : i < (v.take n).length := by simp; omega
    rw [List.getElem?_append_left h1, List.getElem?_take]
    simp [h, hi]
  · have h1 : (v.take n).length ≤ i := by simp; omega
    rw [List.getElem?_append_right h1, List.getElem?_replicate]
    have : i - (v.take n).length < n - v.length := by simp; omega
    rw [if_pos this]; simp [hi]

theorem vresize_same (v : List α) (d : α) : vresize v v.length d = v := by
  simp [vresize]

end Verif
