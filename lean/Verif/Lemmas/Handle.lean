import Verif.Model.Handle
import Verif.Lemmas.Core
import Mathlib.Tactic.SplitIfs
import Mathlib.Data.List.Basic

/-!
# Handles: the memory implements the value semantics
-/

namespace Verif.Mem
open Spec
variable {Obj Call Out : Type}

/-- One handle: pointer against value. -/
def HRel (heap : List (Option Obj)) : Option (Option Nat) → Option (Option Obj) → Prop
  | none, none => True
  | some none, some none => True
  | some (some a), some (some o) => heap[a]? = some (some o)
  | _, _ => False

theorem HRel.mono {heap heap' : List (Option Obj)} {x : Option (Option Nat)} {y : Option (Option Obj)} (h : HRel heap x y)
    (hk : ∀ (a : Nat) o, x = some (some a) → heap[a]? = some (some o) → heap'[a]? = some (some o)) : HRel heap' x y := by
  cases x with
  | none => cases y with
    | none => trivial
    | some y => simp [HRel] at h
  | some x => cases x with
    | none => cases y with
      | none => simp [HRel] at h
      | some y => cases y with
        | none => trivial
        | some o => simp [HRel] at h
    | some b => cases y with
      | none => simp [HRel] at h
      | some y => cases y with
        | none => simp [HRel] at h
        | some o => exact hk b o rfl h

/-- Who owns an address: a handle, or the client through a pointer it has not given away. -/
def Owns (m : Mem Obj) (s : Vals Obj) : Sum Nat Nat → Nat → Prop
  | .inl i, a => m.handles[i]? = some (some (some a))
  | .inr j, a => m.raws[j]? = some a ∧ ∃ o, s.raws[j]? = some (some o)

/-- Memory against values. -/
structure Rel (m : Mem Obj) (s : Vals Obj) : Prop where
  hlen : m.handles.length = s.handles.length
  rlen : m.raws.length = s.raws.length
  hrel : ∀ (i : Nat) x y, m.handles[i]? = some x → s.handles[i]? = some y → HRel m.heap x y
  rrel : ∀ (j a : Nat) o, m.raws[j]? = some a → s.raws[j]? = some (some o) → m.heap[a]? = some (some o)
  inj : ∀ w w' a, Owns m s w a → Owns m s w' a → w = w'
  live : ∀ (a : Nat) o, m.heap[a]? = some (some o) → ∃ w, Owns m s w a

theorem rel_start : Rel (start : Mem Obj) Vals.start where
  hlen := rfl
  rlen := rfl
  hrel := by simp [start]
  rrel := by simp [start]
  inj := by
    intro w w' a h h'
    cases w <;> simp [Owns, start] at h
  live := by simp [start]

/-- The concrete side of a handle. -/
theorem Rel.handle {m : Mem Obj} {s : Vals Obj} (R : Rel m s) {i : Nat} {v : Option Obj} (h : s.handles[i]? = some (some v)) :
    ∃ p, m.handles[i]? = some (some p) ∧ (v = none → p = none) ∧
      (∀ o, v = some o → ∃ a, p = some a ∧ m.heap[a]? = some (some o)) := by
  obtain ⟨hl, _⟩ := List.getElem?_eq_some_iff.mp h
  have hl' : i < m.handles.length := by rw [R.hlen]; exact hl
  have hr := R.hrel i _ _ (List.getElem?_eq_getElem hl') h
  rw [List.getElem?_eq_getElem hl']
  cases hx : m.handles[i] with
  | none => rw [hx] at hr; cases v <;> simp [HRel] at hr
  | some p =>
    rw [hx] at hr
    cases p with
    | none => cases v with
      | none => exact ⟨none, rfl, fun _ => rfl, fun o h => by simp at h⟩
      | some o => simp [HRel] at hr
    | some a => cases v with
      | none => simp [HRel] at hr
      | some o => exact ⟨some a, rfl, fun h => by simp at h, fun o' h => ⟨a, rfl, by simp at h; subst h; exact hr⟩⟩

theorem owned_live {m : Mem Obj} {s : Vals Obj} (R : Rel m s) {w : Sum Nat Nat} {a : Nat} (h : Owns m s w a) :
    ∃ o, m.heap[a]? = some (some o) := by
  cases w with
  | inl i =>
    simp only [Owns] at h
    have hl : i < s.handles.length := by rw [← R.hlen]; exact (List.getElem?_eq_some_iff.mp h).1
    have := R.hrel i _ _ h (List.getElem?_eq_getElem hl)
    cases hs : s.handles[i] with
    | none => rw [hs] at this; simp [HRel] at this
    | some v => cases v with
      | none => rw [hs] at this; simp [HRel] at this
      | some o => rw [hs] at this; exact ⟨o, this⟩
  | inr j => obtain ⟨h1, o, h2⟩ := h; exact ⟨o, R.rrel j a o h1 h2⟩

/-- Deleting the function of a handle, which becomes empty (`v = some none`) or is gone (`v = none`). -/
theorem rel_del {m : Mem Obj} {s : Vals Obj} (R : Rel m s) {i a : Nat} (h : m.handles[i]? = some (some (some a)))
    (p : Option (Option Nat)) (v : Option (Option Obj)) (hv : (p = none ∧ v = none) ∨ (p = some none ∧ v = some none)) :
    Rel (setPtr { m with heap := m.heap.set a none } i p) { s with handles := s.handles.set i v } where
  hlen := by simp [setPtr, R.hlen]
  rlen := by simp [setPtr, R.rlen]
  hrel := by
    intro k x y hx hy
    simp only [setPtr, List.getElem?_set] at hx hy
    split_ifs at hx hy with h1 h2 h3 h4
    · simp only [Option.some.injEq] at hx hy
      subst hx hy
      rcases hv with ⟨rfl, rfl⟩ | ⟨rfl, rfl⟩ <;> trivial
    · refine (R.hrel k x y hx hy).mono fun b o' hb ho' => ?_
      subst hb
      simp only [setPtr]
      rw [List.getElem?_set, if_neg]
      · exact ho'
      · rintro rfl
        have := R.inj (.inl i) (.inl k) a h hx
        simp at this
        exact h1 this
  rrel := by
    intro j b o hj ho
    simp only [setPtr] at hj ho ⊢
    rw [List.getElem?_set, if_neg]
    · exact R.rrel j b o hj ho
    · rintro rfl
      have := R.inj (.inl i) (.inr j) a h ⟨hj, o, ho⟩
      simp at this
  inj := by
    intro w w' b hw hw'
    have key : ∀ w, Owns (setPtr { m with heap := m.heap.set a none } i p) { s with handles := s.handles.set i v } w b → Owns m s w b := by
      intro w hw
      cases w with
      | inr j => exact hw
      | inl k =>
        simp only [Owns, setPtr, List.getElem?_set] at hw ⊢
        split_ifs at hw with h1 h2
        · exact absurd (Option.some.inj hw) (by rcases hv with ⟨e, _⟩ | ⟨e, _⟩ <;> simp [e])
        · exact hw
    exact R.inj w w' b (key w hw) (key w' hw')
  live := by
    intro b o hb
    simp only [setPtr, List.getElem?_set] at hb
    split_ifs at hb with h1 h2
    · simp at hb
    obtain ⟨w, hw⟩ := R.live b o hb
    refine ⟨w, ?_⟩
    cases w with
    | inr j => exact hw
    | inl k =>
      simp only [Owns, setPtr, List.getElem?_set] at hw ⊢
      rw [if_neg]
      · exact hw
      · rintro rfl
        rw [h] at hw
        simp at hw
        exact h1 hw

/-- A handle without function becomes empty or is gone. -/
theorem rel_set_empty {m : Mem Obj} {s : Vals Obj} (R : Rel m s) {i : Nat} (h : m.handles[i]? = some (some none))
    (p : Option (Option Nat)) (v : Option (Option Obj)) (hv : (p = none ∧ v = none) ∨ (p = some none ∧ v = some none)) :
    Rel (setPtr m i p) { s with handles := s.handles.set i v } where
  hlen := by simp [setPtr, R.hlen]
  rlen := by simp [setPtr, R.rlen]
  hrel := by
    intro k x y hx hy
    simp only [setPtr, List.getElem?_set] at hx hy
    split_ifs at hx hy with h1 h2 h3 h4
    · simp only [Option.some.injEq] at hx hy
      subst hx hy
      rcases hv with ⟨rfl, rfl⟩ | ⟨rfl, rfl⟩ <;> trivial
    · exact R.hrel k x y hx hy
  rrel := R.rrel
  inj := by
    intro w w' b hw hw'
    have key : ∀ w, Owns (setPtr m i p) { s with handles := s.handles.set i v } w b → Owns m s w b := by
      intro w hw
      cases w with
      | inr j => exact hw
      | inl k =>
        simp only [Owns, setPtr, List.getElem?_set] at hw ⊢
        split_ifs at hw with h1 h2
        · exact absurd (Option.some.inj hw) (by rcases hv with ⟨e, _⟩ | ⟨e, _⟩ <;> simp [e])
        · exact hw
    exact R.inj w w' b (key w hw) (key w' hw')
  live := by
    intro b o hb
    obtain ⟨w, hw⟩ := R.live b o hb
    refine ⟨w, ?_⟩
    cases w with
    | inr j => exact hw
    | inl k =>
      simp only [Owns, setPtr, List.getElem?_set] at hw ⊢
      rw [if_neg]
      · exact hw
      · rintro rfl
        rw [h] at hw
        simp at hw

/-- An empty handle gets a new function. -/
theorem rel_put {m : Mem Obj} {s : Vals Obj} (R : Rel m s) {i : Nat} (h : m.handles[i]? = some (some none)) (o : Obj) :
    Rel (setPtr { m with heap := m.heap ++ [some o] } i (some (some m.heap.length)))
      { s with handles := s.handles.set i (some (some o)) } where
  hlen := by simp [setPtr, R.hlen]
  rlen := by simp [setPtr, R.rlen]
  hrel := by
    intro k x y hx hy
    simp only [setPtr, List.getElem?_set] at hx hy
    split_ifs at hx hy with h1 h2 h3 h4
    · simp only [Option.some.injEq] at hx hy
      subst hx hy
      simp [HRel, setPtr]
    · refine (R.hrel k x y hx hy).mono fun b o' hb ho' => ?_
      simp only [setPtr]
      rw [List.getElem?_append_left (List.getElem?_eq_some_iff.mp ho').1]
      exact ho'
  rrel := by
    intro j b o' hj ho
    have := R.rrel j b o' hj ho
    simp only [setPtr]
    rw [List.getElem?_append_left (List.getElem?_eq_some_iff.mp this).1]
    exact this
  inj := by
    have key : ∀ w b, Owns (setPtr { m with heap := m.heap ++ [some o] } i (some (some m.heap.length)))
        { s with handles := s.handles.set i (some (some o)) } w b →
        (w = .inl i ∧ b = m.heap.length) ∨ (Owns m s w b ∧ b < m.heap.length) := by
      intro w b hw
      cases w with
      | inr j =>
        have hw' : Owns m s (.inr j) b := hw
        obtain ⟨o', ho'⟩ := owned_live R hw'
        exact Or.inr ⟨hw', (List.getElem?_eq_some_iff.mp ho').1⟩
      | inl k =>
        simp only [Owns, setPtr, List.getElem?_set] at hw ⊢
        split_ifs at hw with h1 h2
        · simp at hw; exact Or.inl ⟨by rw [h1], hw.symm⟩
        · have hw' : Owns m s (.inl k) b := hw
          obtain ⟨o', ho'⟩ := owned_live R hw'
          exact Or.inr ⟨hw, (List.getElem?_eq_some_iff.mp ho').1⟩
    intro w w' b hw hw'
    rcases key w b hw with ⟨h1, h2⟩ | ⟨h1, h2⟩ <;> rcases key w' b hw' with ⟨h3, h4⟩ | ⟨h3, h4⟩
    · rw [h1, h3]
    · omega
    · omega
    · exact R.inj w w' b h1 h3
  live := by
    intro b o' hb
    simp only [setPtr] at hb
    by_cases hlt : b < m.heap.length
    · rw [List.getElem?_append_left hlt] at hb
      obtain ⟨w, hw⟩ := R.live b o' hb
      refine ⟨w, ?_⟩
      cases w with
      | inr j => exact hw
      | inl k =>
        simp only [Owns, setPtr, List.getElem?_set] at hw ⊢
        rw [if_neg]
        · exact hw
        · rintro rfl
          rw [h] at hw
          simp at hw
    · refine ⟨.inl i, ?_⟩
      have hb' : b = m.heap.length := by
        have := (List.getElem?_eq_some_iff.mp hb).1
        simp at this
        omega
      simp [Owns, setPtr, List.getElem?_set, (List.getElem?_eq_some_iff.mp h).1, hb']

/-- An empty handle takes over a pointer of the client. -/
theorem rel_take {m : Mem Obj} {s : Vals Obj} (R : Rel m s) {i j a : Nat} {o : Obj} (h : m.handles[i]? = some (some none))
    (hj : m.raws[j]? = some a) (ho : s.raws[j]? = some (some o)) :
    Rel (setPtr m i (some (some a))) ⟨s.handles.set i (some (some o)), s.raws.set j none⟩ where
  hlen := by simp [setPtr, R.hlen]
  rlen := by simp [setPtr, R.rlen]
  hrel := by
    intro k x y hx hy
    simp only [setPtr, List.getElem?_set] at hx hy
    split_ifs at hx hy with h1 h2 h3 h4
    · simp only [Option.some.injEq] at hx hy
      subst hx hy
      exact R.rrel j a o hj ho
    · exact R.hrel k x y hx hy
  rrel := by
    intro k b o' hk ho'
    simp only [List.getElem?_set] at ho'
    split_ifs at ho' with h1 h2
    · simp at ho'
    · exact R.rrel k b o' hk ho'
  inj := by
    have key : ∀ w b, Owns (setPtr m i (some (some a))) ⟨s.handles.set i (some (some o)), s.raws.set j none⟩ w b →
        (w = .inl i ∧ b = a) ∨ (Owns m s w b ∧ w ≠ .inr j) := by
      intro w b hw
      cases w with
      | inr k =>
        obtain ⟨h1, o', h2⟩ := hw
        simp only [List.getElem?_set] at h2
        split_ifs at h2 with h3 h4
        · simp at h2
        · exact Or.inr ⟨⟨h1, o', h2⟩, by simpa using fun e => h3 e.symm⟩
      | inl k =>
        simp only [Owns, setPtr, List.getElem?_set] at hw ⊢
        split_ifs at hw with h1 h2
        · simp at hw; exact Or.inl ⟨by rw [h1], hw.symm⟩
        · exact Or.inr ⟨hw, by simp⟩
    have hown : Owns m s (.inr j) a := ⟨hj, o, ho⟩
    intro w w' b hw hw'
    rcases key w b hw with ⟨h1, h2⟩ | ⟨h1, h2⟩ <;> rcases key w' b hw' with ⟨h3, h4⟩ | ⟨h3, h4⟩
    · rw [h1, h3]
    · subst h2; exact absurd (R.inj w' (.inr j) b h3 hown) h4
    · subst h4; exact absurd (R.inj w (.inr j) b h1 hown) h2
    · exact R.inj w w' b h1 h3
  live := by
    intro b o' hb
    obtain ⟨w, hw⟩ := R.live b o' hb
    by_cases hwj : w = .inr j
    · refine ⟨.inl i, ?_⟩
      subst hwj
      have : b = a := by have := hw.1; rw [hj] at this; simpa using this.symm
      simp [Owns, setPtr, List.getElem?_set, (List.getElem?_eq_some_iff.mp h).1, this]
    · refine ⟨w, ?_⟩
      cases w with
      | inr k =>
        obtain ⟨h1, o'', h2⟩ := hw
        refine ⟨h1, o'', ?_⟩
        rw [List.getElem?_set, if_neg]
        · exact h2
        · rintro rfl; exact hwj rfl
      | inl k =>
        simp only [Owns, setPtr, List.getElem?_set] at hw ⊢
        rw [if_neg]
        · exact hw
        · rintro rfl
          rw [h] at hw
          simp at hw

/-- A function changes in place. -/
theorem rel_update {m : Mem Obj} {s : Vals Obj} (R : Rel m s) {i a : Nat} (h : m.handles[i]? = some (some (some a))) (o : Obj) :
    Rel { m with heap := m.heap.set a (some o) } { s with handles := s.handles.set i (some (some o)) } where
  hlen := by simp [R.hlen]
  rlen := R.rlen
  hrel := by
    intro k x y hx hy
    obtain ⟨o0, ho0⟩ := owned_live R (w := .inl i) h
    simp only [List.getElem?_set] at hy
    split_ifs at hy with h1 h2
    · subst h1
      simp only [Option.some.injEq] at hy
      subst hy
      simp only at hx
      rw [h] at hx
      simp only [Option.some.injEq] at hx
      subst hx
      simp only [HRel]
      rw [List.getElem?_set, if_pos rfl, if_pos (List.getElem?_eq_some_iff.mp ho0).1]
    · refine (R.hrel k x y hx hy).mono fun b o' hb ho' => ?_
      subst hb
      simp only [setPtr]
      rw [List.getElem?_set, if_neg]
      · exact ho'
      · rintro rfl
        have := R.inj (.inl i) (.inl k) a h hx
        simp at this
        exact h1 this
  rrel := by
    intro j b o' hj ho
    simp only at hj ho ⊢
    rw [List.getElem?_set, if_neg]
    · exact R.rrel j b o' hj ho
    · rintro rfl
      have := R.inj (.inl i) (.inr j) a h ⟨hj, o', ho⟩
      simp at this
  inj := R.inj
  live := by
    intro b o' hb
    simp only [List.getElem?_set] at hb
    split_ifs at hb with h1 h2
    · subst h1
      exact ⟨.inl i, h⟩
    · exact R.live b o' hb

/-- A new empty handle. -/
theorem rel_push {m : Mem Obj} {s : Vals Obj} (R : Rel m s) :
    Rel (push m none) { s with handles := s.handles ++ [some none] } where
  hlen := by simp [push, R.hlen]
  rlen := R.rlen
  hrel := by
    intro k x y hx hy
    simp only [push] at hx ⊢
    by_cases hk : k < m.handles.length
    · rw [List.getElem?_append_left hk] at hx
      rw [List.getElem?_append_left (by rw [← R.hlen]; exact hk)] at hy
      exact R.hrel k x y hx hy
    · have hk' : k = m.handles.length := by
        have := (List.getElem?_eq_some_iff.mp hx).1
        simp at this
        omega
      subst hk'
      rw [List.getElem?_append_right (Nat.le_refl _)] at hx
      rw [R.hlen, List.getElem?_append_right (Nat.le_refl _)] at hy
      simp at hx hy
      subst hx hy
      trivial
  rrel := R.rrel
  inj := by
    have key : ∀ w b, Owns (push m none) { s with handles := s.handles ++ [some none] } w b → Owns m s w b := by
      intro w b hw
      cases w with
      | inr j => exact hw
      | inl k =>
        simp only [Owns, push] at hw ⊢
        by_cases hk : k < m.handles.length
        · rwa [List.getElem?_append_left hk] at hw
        · have := (List.getElem?_eq_some_iff.mp hw).1
          simp at this
          have hk' : k = m.handles.length := by omega
          subst hk'
          rw [List.getElem?_append_right (Nat.le_refl _)] at hw
          simp at hw
    intro w w' b hw hw'
    exact R.inj w w' b (key w b hw) (key w' b hw')
  live := by
    intro b o' hb
    obtain ⟨w, hw⟩ := R.live b o' hb
    refine ⟨w, ?_⟩
    cases w with
    | inr j => exact hw
    | inl k =>
      simp only [Owns, push] at hw ⊢
      rw [List.getElem?_append_left (List.getElem?_eq_some_iff.mp hw).1]
      exact hw

/-- The client allocates. -/
theorem rel_new {m : Mem Obj} {s : Vals Obj} (R : Rel m s) (o : Obj) :
    Rel { m with heap := m.heap ++ [some o], raws := m.raws ++ [m.heap.length] } { s with raws := s.raws ++ [some o] } where
  hlen := R.hlen
  rlen := by simp [R.rlen]
  hrel := by
    intro k x y hx hy
    refine (R.hrel k x y hx hy).mono fun b o' hb ho' => ?_
    simp only [setPtr]
    rw [List.getElem?_append_left (List.getElem?_eq_some_iff.mp ho').1]
    exact ho'
  rrel := by
    intro j b o' hj ho
    simp only at hj ho ⊢
    by_cases hk : j < m.raws.length
    · rw [List.getElem?_append_left hk] at hj
      rw [List.getElem?_append_left (by rw [← R.rlen]; exact hk)] at ho
      have := R.rrel j b o' hj ho
      rw [List.getElem?_append_left (List.getElem?_eq_some_iff.mp this).1]
      exact this
    · have hk' : j = m.raws.length := by
        have := (List.getElem?_eq_some_iff.mp hj).1
        simp at this
        omega
      subst hk'
      rw [List.getElem?_append_right (Nat.le_refl _)] at hj
      rw [R.rlen, List.getElem?_append_right (Nat.le_refl _)] at ho
      simp at hj ho
      subst hj ho
      simp
  inj := by
    have key : ∀ w b, Owns { m with heap := m.heap ++ [some o], raws := m.raws ++ [m.heap.length] }
        { s with raws := s.raws ++ [some o] } w b →
        (w = .inr m.raws.length ∧ b = m.heap.length) ∨ (Owns m s w b ∧ b < m.heap.length) := by
      intro w b hw
      cases w with
      | inl k =>
        have hw' : Owns m s (.inl k) b := hw
        obtain ⟨o', ho'⟩ := owned_live R hw'
        exact Or.inr ⟨hw', (List.getElem?_eq_some_iff.mp ho').1⟩
      | inr j =>
        obtain ⟨h1, o', h2⟩ := hw
        simp only at h1 h2
        by_cases hk : j < m.raws.length
        · rw [List.getElem?_append_left hk] at h1
          rw [List.getElem?_append_left (by rw [← R.rlen]; exact hk)] at h2
          have hw' : Owns m s (.inr j) b := ⟨h1, o', h2⟩
          obtain ⟨o', ho'⟩ := owned_live R hw'
          exact Or.inr ⟨hw', (List.getElem?_eq_some_iff.mp ho').1⟩
        · have hk' : j = m.raws.length := by
            have := (List.getElem?_eq_some_iff.mp h1).1
            simp at this
            omega
          subst hk'
          rw [List.getElem?_append_right (Nat.le_refl _)] at h1
          simp at h1
          exact Or.inl ⟨rfl, h1.symm⟩
    intro w w' b hw hw'
    rcases key w b hw with ⟨h1, h2⟩ | ⟨h1, h2⟩ <;> rcases key w' b hw' with ⟨h3, h4⟩ | ⟨h3, h4⟩
    · rw [h1, h3]
    · omega
    · omega
    · exact R.inj w w' b h1 h3
  live := by
    intro b o' hb
    simp only at hb
    by_cases hlt : b < m.heap.length
    · rw [List.getElem?_append_left hlt] at hb
      obtain ⟨w, hw⟩ := R.live b o' hb
      refine ⟨w, ?_⟩
      cases w with
      | inl k => exact hw
      | inr j =>
        obtain ⟨h1, o'', h2⟩ := hw
        refine ⟨?_, o'', ?_⟩
        · simp only
          rw [List.getElem?_append_left (List.getElem?_eq_some_iff.mp h1).1]; exact h1
        · simp only
          rw [List.getElem?_append_left (List.getElem?_eq_some_iff.mp h2).1]; exact h2
    · refine ⟨.inr m.raws.length, ?_⟩
      have hb' : b = m.heap.length := by
        have := (List.getElem?_eq_some_iff.mp hb).1
        simp at this
        omega
      exact ⟨by simp [hb'], o, by simp [R.rlen]⟩

/-- Deleting through the member pointer of a handle, which is then empty. -/
theorem rel_delPtr {m : Mem Obj} {s : Vals Obj} (R : Rel m s) {i : Nat} {p : Option Nat} (h : m.handles[i]? = some (some p)) :
    ∃ m1, m.delPtr p = .ok m1 ∧ m1.handles = m.handles ∧ m1.raws = m.raws ∧
      Rel (setPtr m1 i (some none)) { s with handles := s.handles.set i (some none) } ∧
      Rel (setPtr m1 i none) { s with handles := s.handles.set i none } := by
  cases p with
  | none => exact ⟨m, rfl, rfl, rfl, rel_set_empty R h _ _ (Or.inr ⟨rfl, rfl⟩), rel_set_empty R h _ _ (Or.inl ⟨rfl, rfl⟩)⟩
  | some a =>
    obtain ⟨o, ho⟩ := owned_live R (w := .inl i) h
    exact ⟨{ m with heap := m.heap.set a none }, by simp [delPtr, del, ho], rfl, rfl,
      rel_del R h _ _ (Or.inr ⟨rfl, rfl⟩), rel_del R h _ _ (Or.inl ⟨rfl, rfl⟩)⟩

theorem ptr_eq {m : Mem Obj} {i : Nat} {p : Option Nat} (h : m.handles[i]? = some (some p)) : m.ptr i = .ok p := by
  simp [ptr, h]

theorem deref_eq {m : Mem Obj} {a : Nat} {o : Obj} (h : m.heap[a]? = some (some o)) : m.deref (some a) = .ok o := by
  simp [deref, h]

theorem setPtr_setPtr (m : Mem Obj) (i : Nat) (p q : Option (Option Nat)) : (m.setPtr i p).setPtr i q = m.setPtr i q := by
  simp [setPtr]

/-- A legal operation: the same observable result, and memory and values still agree. -/
theorem step_rel (sem : Call → Obj → Res Out × Obj) {m : Mem Obj} {s : Vals Obj} (R : Rel m s) (op : HOp Obj Call)
    (hl : s.Legal op) : (m.step sem op).1 = (s.step sem op).1 ∧ Rel (m.step sem op).2 (s.step sem op).2 := by
  have hlast : ∀ {m : Mem Obj} {s : Vals Obj}, Rel m s → ∀ o,
      Rel (({ m with heap := m.heap ++ [some o] } : Mem Obj).push (some m.heap.length))
        { s with handles := s.handles ++ [some (some o)] } := by
    intro m s R o
    have R1 := rel_push R
    have R2 := rel_put R1 (i := m.handles.length) (by simp [push]) o
    simpa [push, setPtr, R.hlen] using R2
  cases op with
  | default => exact ⟨rfl, rel_push R⟩
  | copy g =>
    obtain ⟨v, hv⟩ := hl
    obtain ⟨p, hp, h1, h2⟩ := R.handle hv
    have hfn : s.fn g = v := by simp [Vals.fn, hv]
    cases v with
    | none =>
      obtain rfl := h1 rfl
      have e : m.copyCtor g = .ok (m.push none) := by simp [copyCtor, ptr_eq hp, ok_bind]
      simp only [step, done, e, Vals.step, hfn]
      exact ⟨trivial, rel_push R⟩
    | some o =>
      obtain ⟨a, rfl, ha⟩ := h2 o rfl
      have e : m.copyCtor g = .ok (({ m with heap := m.heap ++ [some o] } : Mem Obj).push (some m.heap.length)) := by
        simp [copyCtor, ptr_eq hp, ok_bind, deref_eq ha, alloc]
      simp only [step, done, e, Vals.step, hfn]
      exact ⟨trivial, hlast R o⟩
  | ofObj o => exact ⟨rfl, hlast R o⟩
  | assign h g =>
    obtain ⟨hne, ⟨v, hv⟩, o, ho⟩ := hl
    obtain ⟨p, hp, _, _⟩ := R.handle hv
    obtain ⟨m1, e1, e2, e3, R1, _⟩ := rel_delPtr R hp
    have ho' : ({ s with handles := s.handles.set h (some none) } : Vals Obj).handles[g]? = some (some (some o)) := by
      simp [List.getElem?_set, hne, ho]
    obtain ⟨q, hq, _, hq2⟩ := R1.handle ho'
    obtain ⟨a, rfl, ha⟩ := hq2 o rfl
    have hq' : m1.handles[g]? = some (some (some a)) := by
      simpa [setPtr, List.getElem?_set, hne] using hq
    have hh : (m1.setPtr h (some none)).handles[h]? = some (some none) := by
      have := (List.getElem?_eq_some_iff.mp hp).1
      simp [setPtr, List.getElem?_set, e2, this]
    have R2 := rel_put R1 hh o
    have e : m.assign h g = .ok (setPtr { m1 with heap := m1.heap ++ [some o] } h (some (some m1.heap.length))) := by
      have ha' : m1.heap[a]? = some (some o) := ha
      simp [assign, ptr_eq hp, ok_bind, e1, ptr_eq hq', deref_eq ha', alloc]
    have hfn : s.fn g = some o := by simp [Vals.fn, ho]
    simp only [step, done, e, Vals.step, hfn]
    refine ⟨trivial, ?_⟩
    simpa [setPtr] using R2
  | assignObj h o =>
    obtain ⟨v, hv⟩ := hl
    obtain ⟨p, hp, _, _⟩ := R.handle hv
    obtain ⟨m1, e1, e2, e3, R1, _⟩ := rel_delPtr R hp
    have hh : (m1.setPtr h (some none)).handles[h]? = some (some none) := by
      have := (List.getElem?_eq_some_iff.mp hp).1
      simp [setPtr, List.getElem?_set, e2, this]
    have R2 := rel_put R1 hh o
    have e : m.assignObj h o = .ok (setPtr { m1 with heap := m1.heap ++ [some o] } h (some (some m1.heap.length))) := by
      simp [assignObj, ptr_eq hp, ok_bind, e1, alloc]
    simp only [step, done, e, Vals.step]
    refine ⟨trivial, ?_⟩
    simpa [setPtr] using R2
  | new o => exact ⟨rfl, rel_new R o⟩
  | set h p =>
    obtain ⟨⟨v, hv⟩, j, o, rfl, ho⟩ := hl
    obtain ⟨p, hp, _, _⟩ := R.handle hv
    obtain ⟨m1, e1, e2, e3, R1, _⟩ := rel_delPtr R hp
    have hjl : j < m.raws.length := by rw [R.rlen]; exact (List.getElem?_eq_some_iff.mp ho).1
    have hj : m.raws[j]? = some m.raws[j] := List.getElem?_eq_getElem hjl
    have hh : (m1.setPtr h (some none)).handles[h]? = some (some none) := by
      have := (List.getElem?_eq_some_iff.mp hp).1
      simp [setPtr, List.getElem?_set, e2, this]
    have R2 := rel_take R1 hh (j := j) (a := m.raws[j]) (o := o) (by simp [setPtr, e3, hj]) ho
    have e : m.setRaw h (some j) = .ok (m1.setPtr h (some (some m.raws[j]))) := by
      have hget : vget m.raws (j : Int) = .ok m.raws[j] := by simp [vget, hj]
      simp only [setRaw, hget, ptr_eq hp, ok_bind, e1]
    simp only [step, done, e, Vals.step, ho, Option.join_some]
    refine ⟨trivial, ?_⟩
    simpa [setPtr] using R2
  | call h c =>
    obtain ⟨o, ho⟩ := hl
    obtain ⟨p, hp, _, h2⟩ := R.handle ho
    obtain ⟨a, rfl, ha⟩ := h2 o rfl
    have hfn : s.fn h = some o := by simp [Vals.fn, ho]
    simp only [step, forward, ptr_eq hp, deref_eq ha, Vals.step, hfn]
    exact ⟨trivial, rel_update R hp _⟩
  | destroy h =>
    obtain ⟨v, hv⟩ := hl
    obtain ⟨p, hp, _, _⟩ := R.handle hv
    obtain ⟨m1, e1, e2, e3, _, R1⟩ := rel_delPtr R hp
    have e : m.dtor h = .ok (m1.setPtr h none) := by
      simp [dtor, ptr_eq hp, ok_bind, e1]
    simp only [step, done, e, Vals.step]
    exact ⟨trivial, R1⟩

theorem run_rel (sem : Call → Obj → Res Out × Obj) (ops : List (HOp Obj Call)) : ∀ {m : Mem Obj} {s : Vals Obj}, Rel m s →
    Vals.LegalRun sem ops s → (m.run sem ops).1 = (s.run sem ops).1 ∧ Rel (m.run sem ops).2 (s.run sem ops).2 := by
  induction ops with
  | nil => intro m s R _; exact ⟨rfl, R⟩
  | cons op ops ih =>
    intro m s R hl
    obtain ⟨h1, h2⟩ := step_rel sem R op hl.1
    obtain ⟨h3, h4⟩ := ih h2 hl.2
    simp only [run, Vals.run]
    exact ⟨by rw [h1, h3], h4⟩

end Verif.Mem
