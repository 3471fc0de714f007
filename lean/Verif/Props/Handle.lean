import Verif.Lemmas.Handle
import Verif.Model.Simple

/-!
# Function handles (C38, C39, C40, C41)
-/

namespace Verif
open Spec
variable {Obj Call Out : Type}

namespace Spec.Vals

theorem run_append (sem : Call → Obj → Res Out × Obj) (xs ys : List (HOp Obj Call)) : ∀ s : Vals Obj,
    (run sem (xs ++ ys) s) = ((run sem xs s).1 ++ (run sem ys (run sem xs s).2).1, (run sem ys (run sem xs s).2).2) := by
  induction xs with
  | nil => intro s; rfl
  | cons x xs ih => intro s; simp only [List.cons_append, run, ih]

theorem legal_append (sem : Call → Obj → Res Out × Obj) (xs ys : List (HOp Obj Call)) : ∀ s : Vals Obj,
    LegalRun sem (xs ++ ys) s ↔ LegalRun sem xs s ∧ LegalRun sem ys (run sem xs s).2 := by
  induction xs with
  | nil => intro s; simp [LegalRun, run]
  | cons x xs ih => intro s; simp only [List.cons_append, LegalRun, run, ih]; tauto

/-- An operation that does not concern handle `g` leaves the value of `g` alone. -/
theorem step_other (sem : Call → Obj → Res Out × Obj) (s : Vals Obj) (op : HOp Obj Call) (g : Nat) (x : Option (Option Obj))
    (hg : s.handles[g]? = some x) (ht : op.target ≠ some g) : (s.step sem op).2.handles[g]? = some x := by
  have hlt := (List.getElem?_eq_some_iff.mp hg).1
  cases op with
  | default => simp [step, List.getElem?_append_left hlt, hg]
  | copy g' => simp [step, List.getElem?_append_left hlt, hg]
  | ofObj o => simp [step, List.getElem?_append_left hlt, hg]
  | assign h g' => simp only [HOp.target, ne_eq, Option.some.injEq] at ht; simp [step, List.getElem?_set, ht, hg]
  | assignObj h o => simp only [HOp.target, ne_eq, Option.some.injEq] at ht; simp [step, List.getElem?_set, ht, hg]
  | new o => simpa [step] using hg
  | set h p =>
    simp only [HOp.target, ne_eq, Option.some.injEq] at ht
    cases p <;> simp [step, List.getElem?_set, ht, hg]
  | call h c =>
    simp only [HOp.target, ne_eq, Option.some.injEq] at ht
    simp only [step]
    cases s.fn h <;> simp [List.getElem?_set, ht, hg]
  | destroy h => simp only [HOp.target, ne_eq, Option.some.injEq] at ht; simp [step, List.getElem?_set, ht, hg]

theorem run_other (sem : Call → Obj → Res Out × Obj) (g : Nat) (x : Option (Option Obj)) (ops : List (HOp Obj Call)) :
    ∀ s : Vals Obj, s.handles[g]? = some x → (∀ op ∈ ops, op.target ≠ some g) → (run sem ops s).2.handles[g]? = some x := by
  induction ops with
  | nil => intro s h _; exact h
  | cons op ops ih =>
    intro s h ht
    exact ih _ (step_other sem s op g x h (ht op (by simp))) fun o ho => ht o (by simp [ho])

theorem run_call (sem : Call → Obj → Res Out × Obj) (s : Vals Obj) (g : Nat) (c : Call) (o : Obj)
    (h : s.handles[g]? = some (some (some o))) : (run sem [.call g c] s).1 = [(sem c o).1.map some] := by
  simp [run, step, fn, h]

/-- Outputs of legal operations come from the functions themselves. -/
theorem step_error (sem : Call → Obj → Res Out × Obj) (s : Vals Obj) (op : HOp Obj Call) (hl : s.Legal op) (e : Err)
    (he : (s.step sem op).1 = .error e) : ∃ c o, (sem c o).1 = .error e := by
  cases op with
  | set h p => obtain ⟨_, j, o, rfl, _⟩ := hl; simp [step] at he
  | call h c =>
    obtain ⟨o, ho⟩ := hl
    refine ⟨c, o, ?_⟩
    simp only [step, fn, ho, Option.join_some] at he
    cases h1 : (sem c o).1 with
    | error e' => rw [h1] at he; simpa [Except.map] using he
    | ok y => rw [h1] at he; simp [Except.map] at he
  | _ => simp [step] at he

end Spec.Vals

/-- **C38** In every legal history of construction, copy, assignment, `set`, calls and destruction over any number of handles, every
operation returns exactly what it would if each handle were a value of its own. -/
theorem C38_handles_are_values (sem : Call → Obj → Res Out × Obj) (ops : List (HOp Obj Call))
    (hl : Vals.LegalRun sem ops Vals.start) : (Mem.start.run sem ops).1 = (Vals.start.run sem ops).1 :=
  (Mem.run_rel sem ops Mem.rel_start hl).1

/-- **C38** What is done to other handles does not change what a handle returns: inserting any operations `mid` that do not have `g`
as their target does not change the result of a call on `g`. -/
theorem C38_independent (sem : Call → Obj → Res Out × Obj) (ops mid : List (HOp Obj Call)) (g : Nat) (c : Call)
    (hl : Vals.LegalRun sem (ops ++ mid ++ [.call g c]) Vals.start) (hl' : Vals.LegalRun sem (ops ++ [.call g c]) Vals.start)
    (ht : ∀ op ∈ mid, op.target ≠ some g) :
    (Mem.start.run sem (ops ++ mid ++ [.call g c])).1.getLast? = (Mem.start.run sem (ops ++ [.call g c])).1.getLast? := by
  rw [C38_handles_are_values sem _ hl, C38_handles_are_values sem _ hl']
  obtain ⟨_, ⟨o, ho⟩, _⟩ := (Vals.legal_append sem ops [.call g c] Vals.start).mp hl'
  rw [Vals.run_append, Vals.run_append, Vals.run_append]
  have ho' := Vals.run_other sem g _ mid _ ho ht
  rw [Vals.run_call sem _ g c o ho, Vals.run_call sem _ g c o ho']
  simp

/-- Accumulators as functions: a call adds its argument. -/
def Demo.accSem (c : Nat) (o : Nat) : Res Nat × Nat := (.ok (o + c), o + c)

/-- The copy still answers 5 after the original was changed and destroyed. -/
example : let ops : List (HOp Nat Nat) := [.ofObj 5, .copy 0]
    let mid : List (HOp Nat Nat) := [.call 0 3, .new 8, .set 0 (some 0), .destroy 0, .ofObj 1]
    (Mem.start.run Demo.accSem (ops ++ mid ++ [.call 1 0])).1.getLast? = some (.ok (some 5)) := by
  intro ops mid
  rw [C38_independent Demo.accSem ops mid 1 0]
  · rfl
  · simp [ops, mid, Vals.LegalRun, Vals.Legal, Vals.start, Vals.step, Vals.fn]
  · simp [ops, Vals.LegalRun, Vals.Legal, Vals.start, Vals.step, Vals.fn]
  · simp [mid, HOp.target]

/-- **C39** A legal history never uses a NULL pointer, a freed object or frees an object twice: the only errors are those the
functions themselves report. -/
theorem C39_no_memory_error (sem : Call → Obj → Res Out × Obj) (ops : List (HOp Obj Call))
    (hl : Vals.LegalRun sem ops Vals.start) (e : Err) (he : .error e ∈ (Mem.start.run sem ops).1) :
    ∃ c o, (sem c o).1 = .error e := by
  rw [C38_handles_are_values sem ops hl] at he
  have key : ∀ (ops : List (HOp Obj Call)) (s : Vals Obj), Vals.LegalRun sem ops s → .error e ∈ (s.run sem ops).1 →
      ∃ c o, (sem c o).1 = .error e := by
    intro ops
    induction ops with
    | nil => intro s _ h; simp [Vals.run] at h
    | cons op ops ih =>
      intro s hl h
      simp only [Vals.run, List.mem_cons] at h
      rcases h with h | h
      · exact Vals.step_error sem s op hl.1 e h.symm
      · exact ih _ hl.2 h
  exact key ops _ hl he

/-- **C39** `set(NULL)` does not put NULL into a handle: whatever happened before, the program ends with status 1. -/
theorem C39_set_null_exits (sem : Call → Obj → Res Out × Obj) (ops : List (HOp Obj Call)) (h : Nat) :
    ((Mem.start.run sem ops).2.step sem (.set h none)).1 = .error (.exit 1) := rfl

/-- **C39** No leak: after a legal history, every object still allocated is the function of a handle that is not destroyed, or an
object of the client that it has not given to a handle. -/
theorem C39_no_leak (sem : Call → Obj → Res Out × Obj) (ops : List (HOp Obj Call))
    (hl : Vals.LegalRun sem ops Vals.start) (a : Nat) (o : Obj)
    (ha : (Mem.start.run sem ops).2.heap[a]? = some (some o)) :
    (∃ i : Nat, (Mem.start.run sem ops).2.handles[i]? = some (some (some a)) ∧
      (Vals.start.run sem ops).2.handles[i]? = some (some (some o))) ∨
    ∃ j : Nat, (Mem.start.run sem ops).2.raws[j]? = some a ∧ (Vals.start.run sem ops).2.raws[j]? = some (some o) := by
  have R := (Mem.run_rel sem ops Mem.rel_start hl).2
  obtain ⟨w, hw⟩ := R.live a o ha
  cases w with
  | inl i =>
    left
    have hlt : i < (Vals.start.run sem ops).2.handles.length := by
      rw [← R.hlen]; exact (List.getElem?_eq_some_iff.mp hw).1
    have := R.hrel i _ _ hw (List.getElem?_eq_getElem hlt)
    refine ⟨i, hw, ?_⟩
    rw [List.getElem?_eq_getElem hlt]
    cases hx : (Vals.start.run sem ops).2.handles[i] with
    | none => rw [hx] at this; simp [Mem.HRel] at this
    | some v => cases v with
      | none => rw [hx] at this; simp [Mem.HRel] at this
      | some o' =>
        rw [hx] at this
        simp only [Mem.HRel] at this
        rw [ha] at this
        simp at this
        rw [this]
  | inr j =>
    right
    obtain ⟨h1, o', h2⟩ := hw
    have := R.rrel j a o' h1 h2
    rw [ha] at this
    simp at this
    subst this
    exact ⟨j, h1, h2⟩

/-- **C39** In particular, when every handle has been destroyed and every pointer given away, everything has been freed. -/
theorem C39_all_freed (sem : Call → Obj → Res Out × Obj) (ops : List (HOp Obj Call))
    (hl : Vals.LegalRun sem ops Vals.start) (hh : ∀ v ∈ (Vals.start.run sem ops).2.handles, v = none)
    (hr : ∀ v ∈ (Vals.start.run sem ops).2.raws, v = none) : ∀ x ∈ (Mem.start.run sem ops).2.heap, x = none := by
  intro x hx
  obtain ⟨a, ha, hax⟩ := List.mem_iff_getElem.mp hx
  cases x with
  | none => rfl
  | some o =>
    rcases C39_no_leak sem ops hl a o (by rw [List.getElem?_eq_getElem ha, hax]) with ⟨i, _, h⟩ | ⟨j, _, h⟩
    · simpa using hh _ (List.mem_of_getElem? h)
    · simpa using hr _ (List.mem_of_getElem? h)

/-- A history with copies, `set` and destruction meets the hypotheses, and three objects were allocated and freed. -/
example : let ops : List (HOp Nat Nat) := [.ofObj 5, .copy 0, .call 0 3, .new 8, .set 0 (some 0), .destroy 0, .destroy 1]
    Vals.LegalRun Demo.accSem ops Vals.start ∧ (Mem.start.run Demo.accSem ops).2.heap = [none, none, none] := by
  intro ops
  exact ⟨by simp [ops, Vals.LegalRun, Vals.Legal, Vals.start, Vals.step, Vals.fn], rfl⟩

/-- **C40** (violated) `h = h` uses the function it has just deleted, for every handle that has a function. -/
theorem C40_self_assign_violated (sem : Call → Obj → Res Out × Obj) (m : Mem Obj) (h a : Nat) (o : Obj)
    (hh : m.handles[h]? = some (some (some a))) (ha : m.heap[a]? = some (some o)) :
    (m.step sem (.assign h h)).1 = .error (.ub .useAfterFree) := by
  have hlt := (List.getElem?_eq_some_iff.mp ha).1
  have h1 : ({ m with heap := m.heap.set a none } : Mem Obj).ptr h = .ok (some a) := by simp [Mem.ptr, hh]
  have h2 : ({ m with heap := m.heap.set a none } : Mem Obj).deref (some a) = .error (.ub .useAfterFree) := by
    simp [Mem.deref, List.getElem?_set, hlt]
  simp [Mem.step, Mem.assign, Mem.ptr_eq hh, Mem.delPtr, Mem.del, ha, h1, h2, Mem.done, bind, Except.bind]

/-- **C40** (violated) `h = g` with an empty `g` uses a NULL pointer, for every handle `h` (also `h = g`). -/
theorem C40_empty_assign_violated (sem : Call → Obj → Res Out × Obj) (m : Mem Obj) (h g : Nat) (p : Option Nat)
    (hh : m.handles[h]? = some (some p)) (hp : ∀ a, p = some a → ∃ o, m.heap[a]? = some (some o))
    (hg : m.handles[g]? = some (some none)) : (m.step sem (.assign h g)).1 = .error (.ub .nullDeref) := by
  cases p with
  | none => simp [Mem.step, Mem.assign, Mem.ptr_eq hh, Mem.delPtr, Mem.ptr_eq hg, Mem.deref, Mem.done, bind, Except.bind]
  | some a =>
    obtain ⟨o, ho⟩ := hp a rfl
    have h1 : ({ m with heap := m.heap.set a none } : Mem Obj).ptr g = .ok none := by simp [Mem.ptr, hg]
    simp [Mem.step, Mem.assign, Mem.ptr_eq hh, Mem.delPtr, Mem.del, ho, h1, Mem.deref, Mem.done, bind, Except.bind]

/-- **C40** (the part that holds) Assignment from another handle that has a function makes the target behave like it from then on:
the next call on the target returns what the call on the source would have returned. -/
theorem C40_assign_partial (sem : Call → Obj → Res Out × Obj) (ops : List (HOp Obj Call)) (h g : Nat) (c : Call)
    (hl : Vals.LegalRun sem (ops ++ [.assign h g, .call h c]) Vals.start) :
    (Mem.start.run sem (ops ++ [.assign h g, .call h c])).1.getLast? = (Mem.start.run sem (ops ++ [.call g c])).1.getLast? := by
  obtain ⟨h0, ⟨h1, h2⟩⟩ := (Vals.legal_append sem ops _ Vals.start).mp hl
  obtain ⟨hne, ⟨v, hv⟩, o, ho⟩ := h1
  have hl' : Vals.LegalRun sem (ops ++ [.call g c]) Vals.start :=
    (Vals.legal_append sem ops _ Vals.start).mpr ⟨h0, ⟨o, ho⟩, trivial⟩
  rw [C38_handles_are_values sem _ hl, C38_handles_are_values sem _ hl']
  have e : ops ++ [.assign h g, .call h c] = (ops ++ [.assign h g]) ++ [HOp.call h c] := by simp
  rw [e, Vals.run_append, Vals.run_append, Vals.run_append]
  have hlt := (List.getElem?_eq_some_iff.mp hv).1
  rw [Vals.run_call sem _ g c o ho, Vals.run_call sem _ h c o (by simp [Vals.run, Vals.step, Vals.fn, ho, hlt])]
  simp

/-- Self-assignment of a one-function handle really occurs in the memory left by a legal history. -/
example : ((Mem.start.run Demo.accSem [.ofObj 5]).2.step Demo.accSem (.assign 0 0)).1 = .error (.ub .useAfterFree) :=
  C40_self_assign_violated Demo.accSem _ 0 0 5 rfl rfl

/-! ### C41 -/

section
variable {V O : Type}

/-- A call that evaluates. -/
def SCall.evaluates : SCall V → Prop
  | .evalAt _ | .eval _ => True
  | _ => False

theorem SObj.sem_keeps (c : SCall V) (o : SObj V O) (hc : ¬ c.evaluates) : (SObj.sem c o).2 = o := by
  cases c <;> simp_all [SObj.sem, SCall.evaluates]

/-- Operations that do not evaluate handle `h` and do not replace its function leave it alone. -/
theorem Spec.Vals.run_keeps (h : Nat) (o : SObj V O) (ops : List (HOp (SObj V O) (SCall V))) :
    ∀ s : Vals (SObj V O), s.handles[h]? = some (some (some o)) →
      (∀ op ∈ ops, op.target ≠ some h ∨ ∃ c, op = .call h c ∧ ¬ c.evaluates) →
      (run SObj.sem ops s).2.handles[h]? = some (some (some o)) := by
  induction ops with
  | nil => intro s hs _; exact hs
  | cons op ops ih =>
    intro s hs hop
    refine ih _ ?_ fun o' ho' => hop o' (by simp [ho'])
    rcases hop op (by simp) with ht | ⟨c, rfl, hc⟩
    · exact step_other SObj.sem s op h _ hs ht
    · have hlt := (List.getElem?_eq_some_iff.mp hs).1
      simp only [step, fn, hs, Option.join_some]
      rw [SObj.sem_keeps c o hc]
      simp [hlt]

/-- **C41** The getter returns the value of the last evaluation: if evaluating handle `h` at `v` gives `y`, then after
`operator()(v)` or `eval(v)`, and any further operations `mid` that neither evaluate `h` nor replace its function, `operator()()`
returns `y`. -/
theorem C41_getter (ops mid : List (HOp (SObj V O) (SCall V))) (h : Nat) (v : V) (y : O) (ev : SCall V)
    (hev : ev = .evalAt v ∨ ev = .eval v)
    (hl : Vals.LegalRun SObj.sem (ops ++ .call h ev :: mid ++ [.call h .get]) Vals.start)
    (hy : (Mem.start.run SObj.sem (ops ++ [.call h (.evalAt v)])).1.getLast? = some (.ok (some (.num y))))
    (hmid : ∀ op ∈ mid, op.target ≠ some h ∨ ∃ c, op = .call h c ∧ ¬ c.evaluates) :
    (Mem.start.run SObj.sem (ops ++ .call h ev :: mid ++ [.call h .get])).1.getLast? = some (.ok (some (.num y))) := by
  rw [C38_handles_are_values SObj.sem _ hl]
  rw [List.append_assoc] at hl
  obtain ⟨h0, hrest⟩ := (Vals.legal_append SObj.sem ops _ Vals.start).mp hl
  obtain ⟨⟨o, ho⟩, _⟩ := hrest
  have hl1 : Vals.LegalRun SObj.sem (ops ++ [.call h (.evalAt v)]) Vals.start :=
    (Vals.legal_append SObj.sem ops _ Vals.start).mpr ⟨h0, ⟨o, ho⟩, trivial⟩
  rw [C38_handles_are_values SObj.sem _ hl1, Vals.run_append, Vals.run_call SObj.sem _ h _ o ho] at hy
  simp only [List.getLast?_append, List.getLast?_singleton, Option.some_or, Option.some.injEq] at hy
  have hval : (SObj.sem ev o).2.val = some y := by
    have he : o.evalFn v = .ok y := by
      simp only [SObj.sem, SObj.evalAt] at hy
      cases hx : o.evalFn v with
      | error e => rw [hx] at hy; simp [Except.map] at hy
      | ok z => rw [hx] at hy; simp [Except.map] at hy; rw [hy]
    rcases hev with rfl | rfl <;> simp [SObj.sem, SObj.evalAt, he]
  have e : ops ++ .call h ev :: mid ++ [.call h .get] = (ops ++ ([.call h ev] ++ mid)) ++ [HOp.call h SCall.get] := by simp
  have hlt := (List.getElem?_eq_some_iff.mp ho).1
  have hs1 : (Vals.run SObj.sem [.call h ev] (Vals.run SObj.sem ops Vals.start).2).2.handles[h]?
      = some (some (some (SObj.sem ev o).2)) := by
    simp only [Vals.run, Vals.step, Vals.fn, ho, Option.join_some]
    rw [List.getElem?_set_self hlt]
  have hs2 := Vals.run_keeps h _ mid _ hs1 hmid
  rw [e, Vals.run_append, Vals.run_append, Vals.run_append, Vals.run_call SObj.sem _ h .get _ hs2]
  have hget : (SObj.sem .get (SObj.sem ev o).2).1 = .ok (.num y) := by
    generalize (SObj.sem ev o).2 = o' at hval
    simp only [SObj.sem, SObj.get, hval, Except.map]
  rw [hget]
  simp [Except.map]

/-- **C41** Reading a function that was never evaluated reads an uninitialised value. -/
theorem C41_uninitialised (o : SObj V O) (ho : o.val = none) (mid : List (HOp (SObj V O) (SCall V)))
    (hl : Vals.LegalRun SObj.sem (.ofObj o :: mid ++ [.call 0 .get]) Vals.start)
    (hmid : ∀ op ∈ mid, op.target ≠ some 0 ∨ ∃ c, op = .call 0 c ∧ ¬ c.evaluates) :
    (Mem.start.run SObj.sem (.ofObj o :: mid ++ [.call 0 .get])).1.getLast? = some (.error (.ub .uninit)) := by
  rw [C38_handles_are_values SObj.sem _ hl]
  have e : HOp.ofObj o :: mid ++ [.call 0 .get] = ([HOp.ofObj o] ++ mid) ++ [HOp.call 0 SCall.get] := by simp
  have hs1 : (Vals.run SObj.sem [.ofObj o] Vals.start).2.handles[0]? = some (some (some o)) := by
    simp [Vals.run, Vals.step, Vals.start]
  have hs2 := Vals.run_keeps 0 _ mid _ hs1 hmid
  rw [e, Vals.run_append, Vals.run_append, Vals.run_call SObj.sem _ 0 .get _ hs2]
  simp [SObj.sem, SObj.get, ho, Except.map]

/-- The square function. -/
def Demo.square : SObj Int Int := ⟨"square", some fun x => .ok (x * x), none, some (.ok "x^2"), none, none⟩

/-- Evaluate at 3, copy, evaluate the copy at 5, print: the getter of the original still gives 9. -/
example : (Mem.start.run SObj.sem ([.ofObj Demo.square] ++ .call 0 (.eval 3) :: [.copy 0, .call 1 (.evalAt 5), .call 0 .sym] ++
    [.call 0 .get])).1.getLast? = some (.ok (some (.num 9))) := by
  refine C41_getter _ _ 0 3 9 (.eval 3) (Or.inr rfl) ?_ rfl ?_
  · simp [Vals.LegalRun, Vals.Legal, Vals.start, Vals.step, Vals.fn]
  · simp [HOp.target, SCall.evaluates]

end
end Verif
