import Verif.Model.BodyExtern
import Verif.Lemmas.Extern

/-!
# Bodies and fields behind pointers: the memory implements the variables
-/

namespace Verif.FieldMem
open Spec Mem
variable {K : Type} {d : Nat} {Call Out File : Type}

/-- One field pointer against one field variable. -/
def PRel (hs : List (Option (Option Nat))) (cl : List (Option (Nat × PField K))) (sb : Slots (Body K d)) :
    Option FPtr → FVar (PField K) → Prop
  | none, .empty => True
  | some (.inBody a i), .view h j => i = j ∧ hs[h]? = some (some (some a)) ∧ ∃ b, sb[h]? = some (some b) ∧ i < b.fields.length
  | some (.own k), .copy h f => ∃ a, cl[k]? = some (some (a, f)) ∧ hs[h]? = some (some (some a))
  | _, _ => False

theorem PRel.mono {hs hs' : List (Option (Option Nat))} {cl cl' : List (Option (Nat × PField K))} {sb sb' : Slots (Body K d)}
    {p : Option FPtr} {x : FVar (PField K)} (h : PRel hs cl sb p x)
    (hh : ∀ h a, x.body = some h → hs[h]? = some (some (some a)) → hs'[h]? = some (some (some a)))
    (hb : ∀ h b, x.body = some h → sb[h]? = some (some b) → ∃ b', sb'[h]? = some (some b') ∧ b'.fields.length = b.fields.length)
    (hc : ∀ k v, p = some (.own k) → cl[k]? = some (some v) → cl'[k]? = some (some v)) : PRel hs' cl' sb' p x := by
  rcases p with _ | ⟨a, i⟩ | k
  · cases x with
    | empty => trivial
    | view => exact h.elim
    | copy => exact h.elim
  · cases x with
    | empty => exact h.elim
    | view g j =>
      obtain ⟨h1, h2, b, h3, h4⟩ := h
      obtain ⟨b', h5, h6⟩ := hb g b rfl h3
      exact ⟨h1, hh g a rfl h2, b', h5, by omega⟩
    | copy => exact h.elim
  · cases x with
    | empty => exact h.elim
    | view => exact h.elim
    | copy g f =>
      obtain ⟨a, h1, h2⟩ := h
      exact ⟨a, hc k _ rfl h1, hh g a rfl h2⟩

/-- Memory against variables. -/
structure FRel (m : FieldMem K d) (s : BVars (Body K d) (PField K)) : Prop where
  bodies : Ext.Rel m.bodies s.bodies
  len : m.ptrs.length = s.fields.length
  ptr : ∀ (g : Nat) p x, m.ptrs[g]? = some p → s.fields[g]? = some x → PRel m.bodies.handles m.clones s.bodies p x
  inj : ∀ g g' k : Nat, m.ptrs[g]? = some (some (.own k)) → m.ptrs[g']? = some (some (.own k)) → g = g'
  live : ∀ (k : Nat) v, m.clones[k]? = some (some v) → ∃ g : Nat, m.ptrs[g]? = some (some (.own k))

theorem rel_start : FRel (start : FieldMem K d) ⟨[], []⟩ where
  bodies := Ext.rel_start
  len := rfl
  ptr := by simp [start]
  inj := by simp [start]
  live := by simp [start]

theorem FRel.get {m : FieldMem K d} {s : BVars (Body K d) (PField K)} (R : FRel m s) {g : Nat} {x : FVar (PField K)}
    (h : s.fields[g]? = some x) : ∃ p, m.ptrs[g]? = some p ∧ PRel m.bodies.handles m.clones s.bodies p x := by
  have hl : g < m.ptrs.length := by rw [R.len]; exact (List.getElem?_eq_some_iff.mp h).1
  exact ⟨_, List.getElem?_eq_getElem hl, R.ptr g _ _ (List.getElem?_eq_getElem hl) h⟩

/-- The object behind a handle. -/
theorem FRel.obj {m : FieldMem K d} {s : BVars (Body K d) (PField K)} (R : FRel m s) {h a : Nat}
    (hp : m.bodies.handles[h]? = some (some (some a))) : ∃ b, s.bodies[h]? = some (some b) ∧ m.bodies.heap[a]? = some (some b) := by
  obtain ⟨b, hb⟩ := Mem.owned_live R.bodies (w := .inl h) hp
  obtain ⟨i, h1, h2⟩ := (R.bodies.owners.1 a b).mp hb
  have := R.bodies.owners.2 _ _ _ hp h1
  subst this
  exact ⟨b, h2, hb⟩

/-- The variable of a body that is there. -/
theorem FRel.handle {m : FieldMem K d} {s : BVars (Body K d) (PField K)} (R : FRel m s) {h : Nat} {b : Body K d}
    (hb : s.bodies[h]? = some (some b)) : ∃ a, m.bodies.handles[h]? = some (some (some a)) ∧ m.bodies.heap[a]? = some (some b) := by
  obtain ⟨p, hp, _, h2⟩ := Mem.Rel.handle R.bodies (Ext.vals_get hb)
  obtain ⟨a, rfl, ha⟩ := h2 b rfl
  exact ⟨a, hp, ha⟩

theorem vget_of_get {α : Type} {l : List α} {i : Nat} {a : α} (h : l[i]? = some a) : vget l (i : Int) = .ok a := by
  simp [vget, h]

theorem vset_of_get {α : Type} {l : List α} {i : Nat} {a b : α} (h : l[i]? = some a) : vset l (i : Int) b = .ok (l.set i b) :=
  vset_nat l i b (List.getElem?_eq_some_iff.mp h).1

theorem find_eq (name : String) : ∀ (fs : List (PField K)) (n : Nat), Body.findLoop name fs n =
    match fs.findIdx? (fun f => f.name == name) with
    | some i => .ok (i + n)
    | none => .error .invalidArgument := by
  intro fs
  induction fs with
  | nil => intro n; rfl
  | cons f fs ih =>
    intro n
    simp only [Body.findLoop, List.findIdx?_cons]
    by_cases h : f.name = name
    · simp [h]
    · simp only [if_neg h, ih, beq_iff_eq, h, Bool.false_eq_true, if_false]
      cases fs.findIdx? (fun f => f.name == name) with
      | none => rfl
      | some i => simp; omega

/-- A pointer variable that does not own anything is given another pointer. -/
theorem FRel.setPtr {m : FieldMem K d} {s : BVars (Body K d) (PField K)} (R : FRel m s) {g : Nat} {x : FVar (PField K)}
    (hx : s.fields[g]? = some x) (hn : ∀ h f, x ≠ .copy h f) {p : Option FPtr} {y : FVar (PField K)}
    (hr : PRel m.bodies.handles m.clones s.bodies p y) (hp : ∀ k, p ≠ some (.own k)) :
    FRel { m with ptrs := m.ptrs.set g p } { s with fields := s.fields.set g y } := by
  obtain ⟨q, hq, hqr⟩ := R.get hx
  have hqn : ∀ k, q ≠ some (.own k) := by
    rintro k rfl
    cases x with
    | empty => exact hqr
    | view => exact hqr
    | copy h f => exact hn h f rfl
  have hl := (List.getElem?_eq_some_iff.mp hq).1
  have hl' := (List.getElem?_eq_some_iff.mp hx).1
  have key : ∀ (g' k : Nat), (m.ptrs.set g p)[g']? = some (some (.own k)) → m.ptrs[g']? = some (some (.own k)) := by
    intro g' k h
    rw [List.getElem?_set] at h
    split at h
    · exact absurd (Option.some.inj h) (hp k)
    · exact h
  refine ⟨R.bodies, by simp [R.len], ?_, ?_, ?_⟩
  · intro g' p' x' h1 h2
    simp only at h1 h2
    rw [List.getElem?_set] at h1 h2
    by_cases e : g = g'
    · rw [if_pos e, if_pos hl] at h1; rw [if_pos e, if_pos hl'] at h2
      cases h1; cases h2; exact hr
    · rw [if_neg e] at h1 h2
      exact R.ptr _ _ _ h1 h2
  · intro g1 g2 k h1 h2
    exact R.inj _ _ _ (key _ _ h1) (key _ _ h2)
  · intro k v h
    obtain ⟨g', h'⟩ := R.live k v h
    refine ⟨g', ?_⟩
    show (m.ptrs.set g p)[g']? = _
    rw [List.getElem?_set, if_neg]
    · exact h'
    · rintro rfl
      rw [hq] at h'
      exact hqn k (Option.some.inj h')

/-- A pointer variable that does not own anything is given a new clone. -/
theorem FRel.setClone {m : FieldMem K d} {s : BVars (Body K d) (PField K)} (R : FRel m s) {g : Nat} {x : FVar (PField K)}
    (hx : s.fields[g]? = some x) (hn : ∀ h f, x ≠ .copy h f) {h a : Nat} {f : PField K}
    (hr : m.bodies.handles[h]? = some (some (some a))) :
    FRel { m with clones := m.clones ++ [some (a, f)], ptrs := m.ptrs.set g (some (.own m.clones.length)) }
      { s with fields := s.fields.set g (.copy h f) } := by
  obtain ⟨q, hq, hqr⟩ := R.get hx
  have hqn : ∀ k, q ≠ some (.own k) := by
    rintro k rfl
    cases x with
    | empty => exact hqr
    | view => exact hqr
    | copy h f => exact hn h f rfl
  have hl := (List.getElem?_eq_some_iff.mp hq).1
  have hl' := (List.getElem?_eq_some_iff.mp hx).1
  have old : ∀ (g' k : Nat), m.ptrs[g']? = some (some (.own k)) → k < m.clones.length := by
    intro g' k h'
    have hg : g' < s.fields.length := by rw [← R.len]; exact (List.getElem?_eq_some_iff.mp h').1
    have := R.ptr g' _ _ h' (List.getElem?_eq_getElem hg)
    cases hs : s.fields[g'] with
    | empty => rw [hs] at this; exact this.elim
    | view => rw [hs] at this; exact this.elim
    | copy u v =>
      rw [hs] at this
      obtain ⟨_, h1, _⟩ := this
      exact (List.getElem?_eq_some_iff.mp h1).1
  have key : ∀ (g' k : Nat), (m.ptrs.set g (some (.own m.clones.length)))[g']? = some (some (.own k)) →
      (g' = g ∧ k = m.clones.length) ∨ (m.ptrs[g']? = some (some (.own k)) ∧ k < m.clones.length) := by
    intro g' k h
    rw [List.getElem?_set] at h
    by_cases e : g = g'
    · rw [if_pos e, if_pos hl] at h
      cases h
      exact Or.inl ⟨e.symm, rfl⟩
    · rw [if_neg e] at h
      exact Or.inr ⟨h, old _ _ h⟩
  refine ⟨R.bodies, by simp [R.len], ?_, ?_, ?_⟩
  · intro g' p' x' h1 h2
    simp only at h1 h2
    rw [List.getElem?_set] at h1 h2
    by_cases e : g = g'
    · rw [if_pos e, if_pos hl] at h1; rw [if_pos e, if_pos hl'] at h2
      cases h1; cases h2
      exact ⟨a, by simp, hr⟩
    · rw [if_neg e] at h1 h2
      refine (R.ptr _ _ _ h1 h2).mono (fun _ _ _ h => h) (fun _ b _ h => ⟨b, h, rfl⟩) ?_
      intro k v hk hv
      rw [List.getElem?_append_left (List.getElem?_eq_some_iff.mp hv).1]
      exact hv
  · intro g1 g2 k h1 h2
    rcases key _ _ h1 with ⟨e1, e2⟩ | ⟨e1, e2⟩ <;> rcases key _ _ h2 with ⟨e3, e4⟩ | ⟨e3, e4⟩
    · rw [e1, e3]
    · omega
    · omega
    · exact R.inj _ _ _ e1 e3
  · intro k v h
    simp only at h
    by_cases hk : k < m.clones.length
    · rw [List.getElem?_append_left hk] at h
      obtain ⟨g', h'⟩ := R.live k v h
      refine ⟨g', ?_⟩
      show (m.ptrs.set g _)[g']? = _
      rw [List.getElem?_set, if_neg]
      · exact h'
      · rintro rfl
        rw [hq] at h'
        exact hqn k (Option.some.inj h')
    · have : k = m.clones.length := by
        have := (List.getElem?_eq_some_iff.mp h).1
        simp at this; omega
      subst this
      exact ⟨g, by simp [hl]⟩

/-- A body is changed in place; the number of its fields stays. -/
theorem FRel.setBody {m : FieldMem K d} {s : BVars (Body K d) (PField K)} (R : FRel m s) {h a : Nat}
    (hp : m.bodies.handles[h]? = some (some (some a))) {b b' : Body K d} (hb : s.bodies[h]? = some (some b))
    (hlen : b'.fields.length = b.fields.length) :
    FRel { m with bodies := { m.bodies with heap := m.bodies.heap.set a (some b') } } { s with bodies := s.bodies.set h (some b') } := by
  have hl := (List.getElem?_eq_some_iff.mp hb).1
  refine ⟨?_, R.len, ?_, R.inj, R.live⟩
  · have := Mem.rel_update R.bodies hp b'
    rw [Ext.vals_set] at this
    exact this
  · intro g p x h1 h2
    refine (R.ptr g p x h1 h2).mono (fun _ _ _ h => h) ?_ (fun _ _ _ h => h)
    intro k c _ hc
    show ∃ b', (s.bodies.set h _)[k]? = _ ∧ _
    rw [List.getElem?_set]
    by_cases e : h = k
    · subst e
      rw [hb] at hc; cases hc
      exact ⟨b', by simp [hl], hlen⟩
    · exact ⟨c, by simp [e, hc], rfl⟩

/-- A clone is changed in place. -/
theorem FRel.putClone {m : FieldMem K d} {s : BVars (Body K d) (PField K)} (R : FRel m s) {g k h a : Nat} {f f' : PField K}
    (hp : m.ptrs[g]? = some (some (.own k))) (hx : s.fields[g]? = some (.copy h f)) (hc : m.clones[k]? = some (some (a, f)))
    (hh : m.bodies.handles[h]? = some (some (some a))) :
    FRel { m with clones := m.clones.set k (some (a, f')) } { s with fields := s.fields.set g (.copy h f') } := by
  have hl := (List.getElem?_eq_some_iff.mp hp).1
  have hl' := (List.getElem?_eq_some_iff.mp hx).1
  have hk := (List.getElem?_eq_some_iff.mp hc).1
  refine ⟨R.bodies, by simp [R.len], ?_, R.inj, ?_⟩
  · intro g' p' x' h1 h2
    simp only at h1 h2
    rw [List.getElem?_set] at h2
    by_cases e : g = g'
    · subst e
      rw [hp] at h1; rw [if_pos rfl, if_pos hl'] at h2
      cases h1; cases h2
      exact ⟨a, by simp [hk], hh⟩
    · rw [if_neg e] at h2
      refine (R.ptr _ _ _ h1 h2).mono (fun _ _ _ h => h) (fun _ b _ h => ⟨b, h, rfl⟩) ?_
      rintro j v rfl hv
      show (m.clones.set k _)[j]? = _
      rw [List.getElem?_set, if_neg]
      · exact hv
      · rintro rfl
        exact e (R.inj _ _ _ hp h1)
  · intro j v hv
    have hv' : (m.clones.set k (some (a, f')))[j]? = some (some v) := hv
    rw [List.getElem?_set] at hv'
    by_cases e : k = j
    · subst e; exact ⟨g, hp⟩
    · rw [if_neg e] at hv'
      exact R.live j v hv'

/-- A legal operation. -/
theorem step_rel (make : File → Res (Body K d)) (sem : Call → Mesh K d × PField K → Res Out × Mesh K d × PField K)
    {m : FieldMem K d} {s : BVars (Body K d) (PField K)} (R : FRel m s) (op : BOp File Call) (hl : s.Legal (bsem make sem) op) :
    (m.step make sem op).1 = (s.step (bsem make sem) op).1 ∧ FRel (m.step make sem op).2 (s.step (bsem make sem) op).2 := by
  cases op with
  | declBody =>
    refine ⟨rfl, ?_, R.len, ?_, R.inj, R.live⟩
    · exact (Ext.step_rel (Arg := File) (Call := Call) make (fun _ o => (.error .diverge, o) : Call → _ → Res Out × _) R.bodies .decl trivial).2
    · intro g p x h1 h2
      refine (R.ptr g p x h1 h2).mono ?_ ?_ (fun _ _ _ h => h)
      · intro h a _ e
        show (m.bodies.handles ++ _)[h]? = _
        rw [List.getElem?_append_left (List.getElem?_eq_some_iff.mp e).1]; exact e
      · intro h b _ e
        refine ⟨b, ?_, rfl⟩
        show (s.bodies ++ _)[h]? = _
        rw [List.getElem?_append_left (List.getElem?_eq_some_iff.mp e).1]; exact e
  | declField =>
    refine ⟨rfl, R.bodies, by simp [step, BVars.step, R.len], ?_, ?_, ?_⟩
    · intro g p x h1 h2
      simp only [step, BVars.step] at h1 h2
      by_cases hg : g < m.ptrs.length
      · rw [List.getElem?_append_left hg] at h1
        rw [List.getElem?_append_left (by rw [← R.len]; exact hg)] at h2
        exact R.ptr g p x h1 h2
      · have e1 := (List.getElem?_eq_some_iff.mp h1).1
        simp at e1
        have : g = m.ptrs.length := by omega
        subst this
        rw [R.len] at h2
        simp at h1 h2
        subst h1 h2; trivial
    · intro g g' k h1 h2
      have key : ∀ g : Nat, (m.ptrs ++ [none])[g]? = some (some (.own k)) → m.ptrs[g]? = some (some (.own k)) := by
        intro g h
        by_cases hg : g < m.ptrs.length
        · rwa [List.getElem?_append_left hg] at h
        · rw [List.getElem?_append_right (by omega)] at h
          rw [List.getElem?_singleton] at h
          split at h <;> simp at h
      exact R.inj _ _ _ (key _ h1) (key _ h2)
    · intro k v h
      obtain ⟨g, hg⟩ := R.live k v h
      refine ⟨g, ?_⟩
      show (m.ptrs ++ _)[g]? = _
      rw [List.getElem?_append_left (List.getElem?_eq_some_iff.mp hg).1]; exact hg
  | newBody h file =>
    have hl' : s.bodies[h]? = some none := hl
    have hE := Ext.step_rel (Call := Call) make (fun _ o => (.error .diverge, o) : Call → _ → Res Out × _) R.bodies (.new h file) hl'
    obtain ⟨p, hp, h1, _⟩ := Mem.Rel.handle R.bodies (Ext.vals_get hl')
    obtain rfl := h1 rfl
    have hlh := (List.getElem?_eq_some_iff.mp hp).1
    cases hm : make file with
    | error e =>
      have e1 : Ext.new make m.bodies h file = .error e := by simp [Ext.new, ptr_eq hp, ok_bind, err_bind, hm]
      simp [step, e1, err_bind, FieldMem.done, BVars.step, bsem, hm, R]
    | ok b =>
      have e1 : Ext.new make m.bodies h file =
          .ok (Mem.setPtr { m.bodies with heap := m.bodies.heap ++ [some b] } h (some (some m.bodies.heap.length))) := by
        simp [Ext.new, ptr_eq hp, ok_bind, hm, alloc]
      simp only [Ext.step, Slots.step, e1, Mem.done, hm] at hE
      simp only [step, e1, ok_bind, FieldMem.done, BVars.step, bsem, hm]
      refine ⟨trivial, hE.2, R.len, ?_, R.inj, R.live⟩
      intro g q x h2 h3
      refine (R.ptr g q x h2 h3).mono ?_ ?_ (fun _ _ _ h => h)
      · intro k a _ e
        show (m.bodies.handles.set h _)[k]? = _
        rw [List.getElem?_set, if_neg]
        · exact e
        · rintro rfl; rw [hp] at e; cases e
      · intro k c _ e
        refine ⟨c, ?_, rfl⟩
        show (s.bodies.set h _)[k]? = _
        rw [List.getElem?_set, if_neg]
        · exact e
        · rintro rfl; rw [hl'] at e; cases e
  | deleteBody h =>
    rcases hl with hl | ⟨⟨b, hb, hbare⟩, hf⟩
    · obtain ⟨p, hp, h1, _⟩ := Mem.Rel.handle R.bodies (Ext.vals_get hl)
      obtain rfl := h1 rfl
      have e1 : m.deleteBody h = .ok m := by simp [deleteBody, ptr_eq hp, ok_bind]
      have e2 : s.bodies.set h none = s.bodies := by
        apply List.ext_getElem? ; intro k
        rw [List.getElem?_set]
        split
        · rename_i e; subst e
          split
          · exact hl.symm
          · rename_i hx; exact absurd (List.getElem?_eq_some_iff.mp hl).1 hx
        · rfl
      simp only [step, e1, FieldMem.done, BVars.step, e2]
      exact ⟨trivial, R⟩
    · obtain ⟨a, hp, ha⟩ := R.handle hb
      have hbare' : b.mesh.interp.isEmpty = true := hbare
      have e1 : m.deleteBody h =
          .ok { m with bodies := ({ m.bodies with heap := m.bodies.heap.set a none } : Mem (Body K d)).setPtr h (some none) } := by
        simp only [deleteBody, ptr_eq hp, ok_bind, ha, hbare', if_true]
      simp only [step, e1, FieldMem.done, BVars.step]
      refine ⟨trivial, ?_, R.len, ?_, R.inj, R.live⟩
      · have := Mem.rel_del R.bodies hp (some none) (some none) (Or.inr ⟨rfl, rfl⟩)
        rw [Ext.vals_set] at this
        exact this
      · intro g q x h2 h3
        have hxb : x.body ≠ some h := hf x (List.mem_of_getElem? h3)
        refine (R.ptr g q x h2 h3).mono ?_ ?_ (fun _ _ _ h => h)
        · intro k c hk e
          show (m.bodies.handles.set h _)[k]? = _
          rw [List.getElem?_set, if_neg]
          · exact e
          · rintro rfl; exact hxb hk
        · intro k c hk e
          refine ⟨c, ?_, rfl⟩
          show (s.bodies.set h _)[k]? = _
          rw [List.getElem?_set, if_neg]
          · exact e
          · rintro rfl; exact hxb hk
  | field g h name =>
    obtain ⟨⟨b, hb⟩, x, hx, hn⟩ := hl
    obtain ⟨a, hp, ha⟩ := R.handle hb
    obtain ⟨q, hq, _⟩ := R.get hx
    have hfd := find_eq name b.fields 0
    simp only [BVars.step, hb, Option.join_some, BVars.find]
    show _ = (match b.fields.findIdx? (fun f => f.name == name) with | some i => _ | none => _ : Res (Option Out) × BVars (Body K d) (PField K)).1 ∧
      FRel _ (match b.fields.findIdx? (fun f => f.name == name) with | some i => _ | none => _ : Res (Option Out) × BVars (Body K d) (PField K)).2
    cases hi : b.fields.findIdx? (fun f => f.name == name) with
    | none =>
      rw [hi] at hfd
      have e1 : m.field g h name = .error .invalidArgument := by
        simp [FieldMem.field, ptr_eq hp, ok_bind, err_bind, deref_eq ha, Body.findScalarField, hfd]
      simp only [step, e1, FieldMem.done]
      exact ⟨trivial, R⟩
    | some i =>
      rw [hi] at hfd
      have hil : i < b.fields.length := by
        rw [List.findIdx?_eq_some_iff_getElem] at hi
        exact hi.1
      have e1 : m.field g h name = .ok { m with ptrs := m.ptrs.set g (some (.inBody a i)) } := by
        simp [FieldMem.field, ptr_eq hp, ok_bind, deref_eq ha, Body.findScalarField, hfd, vset_of_get hq]
      simp only [step, e1, FieldMem.done]
      exact ⟨trivial, R.setPtr hx hn ⟨rfl, hp, b, hb, hil⟩ (by simp)⟩
  | clone g k =>
    obtain ⟨⟨x, hx, hn⟩, y, hy, hne⟩ := hl
    obtain ⟨q, hq, _⟩ := R.get hx
    obtain ⟨p, hp, hr⟩ := R.get hy
    cases y with
    | empty => exact absurd rfl hne
    | view h i =>
      rcases p with _ | ⟨a, j⟩ | k'
      · exact hr.elim
      · obtain ⟨rfl, h2, b, h3, h4⟩ := hr
        obtain ⟨b', h5, h6⟩ := R.obj h2
        rw [h3] at h5; cases h5
        have e1 : m.clone g k = .ok { m with clones := m.clones ++ [some (a, b.fields[j])], ptrs := m.ptrs.set g (some (.own m.clones.length)) } := by
          simp [FieldMem.clone, vget_of_get hp, ok_bind, deref_eq h6, vget_nat _ _ h4, vset_of_get hq]
        have e2 : ((s.bodies[h]?).join.map (bsem (Out := Out) make sem).fields).bind (·[j]?) = some b.fields[j] := by
          simp [h3, bsem, h4]
        simp only [step, e1, FieldMem.done, BVars.step, hy, e2]
        exact ⟨trivial, R.setClone hx hn h2⟩
      · exact hr.elim
    | copy h f =>
      rcases p with _ | ⟨a, j⟩ | k'
      · exact hr.elim
      · exact hr.elim
      · obtain ⟨a, h1, h2⟩ := hr
        have e1 : m.clone g k = .ok { m with clones := m.clones ++ [some (a, f)], ptrs := m.ptrs.set g (some (.own m.clones.length)) } := by
          simp [FieldMem.clone, vget_of_get hp, ok_bind, h1, vset_of_get hq]
        simp only [step, e1, FieldMem.done, BVars.step, hy]
        exact ⟨trivial, R.setClone hx hn h2⟩
  | call g c =>
    obtain ⟨x, hx, hne⟩ := hl
    obtain ⟨p, hp, hr⟩ := R.get hx
    cases x with
    | empty => exact absurd rfl hne
    | view h i =>
      rcases p with _ | ⟨a, j⟩ | k'
      · exact hr.elim
      · obtain ⟨rfl, h2, b, h3, h4⟩ := hr
        obtain ⟨b', h5, h6⟩ := R.obj h2
        rw [h3] at h5; cases h5
        simp only [step, FieldMem.call, vget_of_get hp, deref_eq h6, BVars.step, hx, h3, Option.join_some, bsem]
        refine ⟨trivial, R.setBody h2 h3 ?_⟩
        simp [Body.callIn, h4]
      · exact hr.elim
    | copy h f =>
      rcases p with _ | ⟨a, j⟩ | k'
      · exact hr.elim
      · exact hr.elim
      · obtain ⟨a, h1, h2⟩ := hr
        obtain ⟨b, h5, h6⟩ := R.obj h2
        simp only [step, FieldMem.call, vget_of_get hp, h1, deref_eq h6, BVars.step, hx, h5, Option.join_some, bsem]
        refine ⟨trivial, ?_⟩
        have R1 := R.putClone (f' := (Body.callCopy sem c b f).2.2) hp hx h1 h2
        exact R1.setBody h2 h5 (b' := (Body.callCopy sem c b f).2.1) (by simp [Body.callCopy])
  | deleteField g =>
    rcases hl with hx | ⟨h, f, hx⟩
    · obtain ⟨p, hp, hr⟩ := R.get hx
      rcases p with _ | ⟨a, j⟩ | k'
      · have e1 : m.deleteField g = .ok m := by simp [deleteField, vget_of_get hp, ok_bind]
        simp only [step, e1, FieldMem.done, BVars.step]
        refine ⟨trivial, ?_⟩
        have e2 : s.fields.set g .empty = s.fields := by
          apply List.ext_getElem?; intro k
          rw [List.getElem?_set]
          split
          · rename_i e; subst e
            rw [if_pos (List.getElem?_eq_some_iff.mp hx).1, hx]
          · rfl
        rw [e2]; exact R
      · exact hr.elim
      · exact hr.elim
    · obtain ⟨p, hp, hr⟩ := R.get hx
      rcases p with _ | ⟨a, j⟩ | k
      · exact hr.elim
      · exact hr.elim
      · obtain ⟨a, h1, h2⟩ := hr
        have hlp := (List.getElem?_eq_some_iff.mp hp).1
        have hlx := (List.getElem?_eq_some_iff.mp hx).1
        have hk := (List.getElem?_eq_some_iff.mp h1).1
        have e1 : m.deleteField g = .ok { m with clones := m.clones.set k none, ptrs := m.ptrs.set g none } := by
          simp [deleteField, vget_of_get hp, ok_bind, h1]
        simp only [step, e1, FieldMem.done, BVars.step]
        have key : ∀ (g' j : Nat), (m.ptrs.set g none)[g']? = some (some (.own j)) → g' ≠ g ∧ m.ptrs[g']? = some (some (.own j)) := by
          intro g' j h
          rw [List.getElem?_set] at h
          by_cases e : g = g'
          · rw [if_pos e, if_pos hlp] at h; cases h
          · rw [if_neg e] at h; exact ⟨fun e' => e e'.symm, h⟩
        refine ⟨trivial, R.bodies, by simp [R.len], ?_, ?_, ?_⟩
        · intro g' p' x' h3 h4
          simp only at h3 h4
          rw [List.getElem?_set] at h3 h4
          by_cases e : g = g'
          · rw [if_pos e, if_pos hlp] at h3; rw [if_pos e, if_pos hlx] at h4
            cases h3; cases h4; trivial
          · rw [if_neg e] at h3 h4
            refine (R.ptr _ _ _ h3 h4).mono (fun _ _ _ h => h) (fun _ b _ h => ⟨b, h, rfl⟩) ?_
            rintro j v rfl hv
            show (m.clones.set k _)[j]? = _
            rw [List.getElem?_set, if_neg]
            · exact hv
            · rintro rfl
              exact e (R.inj _ _ _ hp h3)
        · intro g1 g2 j h3 h4
          exact R.inj _ _ _ (key _ _ h3).2 (key _ _ h4).2
        · intro j v hv
          have hv' : (m.clones.set k none)[j]? = some (some v) := hv
          rw [List.getElem?_set] at hv'
          by_cases e : k = j
          · rw [if_pos e, if_pos (e ▸ hk)] at hv'; cases hv'
          · rw [if_neg e] at hv'
            obtain ⟨g', hg'⟩ := R.live j v hv'
            refine ⟨g', ?_⟩
            show (m.ptrs.set g _)[g']? = _
            rw [List.getElem?_set, if_neg]
            · exact hg'
            · rintro rfl
              rw [hp] at hg'; cases hg'
              exact e rfl

theorem run_rel (make : File → Res (Body K d)) (sem : Call → Mesh K d × PField K → Res Out × Mesh K d × PField K)
    (ops : List (BOp File Call)) : ∀ {m : FieldMem K d} {s : BVars (Body K d) (PField K)}, FRel m s →
      BVars.LegalRun (bsem make sem) ops s →
      (run make sem ops m).1 = (BVars.run (bsem make sem) ops s).1 ∧ FRel (run make sem ops m).2 (BVars.run (bsem make sem) ops s).2 := by
  induction ops with
  | nil => intro m s R _; exact ⟨rfl, R⟩
  | cons op ops ih =>
    intro m s R hl
    obtain ⟨h1, h2⟩ := step_rel make sem R op hl.1
    obtain ⟨h3, h4⟩ := ih h2 hl.2
    simp only [run, BVars.run]
    exact ⟨by rw [h1, h3], h4⟩

end Verif.FieldMem
