import Verif.Props.Threads
import Verif.Props.FieldMove

/-!
# C122: evaluations by several threads, one at a time on each body
-/

namespace Verif
open Spec Mesh PField Body
namespace Par
variable {K : Type} {d : Nat} [Field K] [LinearOrder K] [FloorRing K]

/-- A step goes on with the evaluation, or ends it. -/
theorem step_cases (E : ElemOps K d) (x : Thread K d × Body K d) (hne : x.1.todo ≠ []) :
    ((pair E x).1.todo = x.1.todo ∧ (pair E x).1.results = x.1.results ∧ (pair E x).1.pc ≠ .index 0) ∨
    ((pair E x).1.pc = .index 0 ∧ (pair E x).1.todo = x.1.todo.tail ∧ ∃ r, (pair E x).1.results = x.1.results ++ [r]) := by
  obtain ⟨⟨todo, pc, res⟩, b⟩ := x
  cases todo with
  | nil => exact absurd rfl hne
  | cons iq rest =>
    obtain ⟨i, q⟩ := iq
    unfold pair step
    simp only
    cases b.fields[i]? with
    | none => exact Or.inr ⟨rfl, rfl, _, rfl⟩
    | some f =>
      simp only
      cases pc with
      | index k =>
        simp only
        split
        · split
          · exact Or.inr ⟨rfl, rfl, _, rfl⟩
          · exact Or.inl ⟨rfl, rfl, by simp⟩
        · exact Or.inl ⟨rfl, rfl, by simp⟩
      | locate k l =>
        simp only
        split
        · split
          · exact Or.inr ⟨rfl, rfl, _, rfl⟩
          · exact Or.inl ⟨rfl, rfl, by simp⟩
        · split
          · exact Or.inr ⟨rfl, rfl, _, rfl⟩
          · exact Or.inl ⟨rfl, rfl, by simp⟩
      | found content => exact Or.inr ⟨rfl, rfl, _, rfl⟩

theorem pair_idle (E : ElemOps K d) (x : Thread K d × Body K d) (h : x.1.todo = []) : pair E x = x := by
  obtain ⟨⟨todo, pc, res⟩, b⟩ := x
  cases h
  rfl

theorem count_const (E : ElemOps K d) (n : Nat) : ∀ x : Thread K d × Body K d,
    ((pair E)^[n] x).1.todo.length + ((pair E)^[n] x).1.results.length = x.1.todo.length + x.1.results.length := by
  induction n with
  | zero => intro x; rfl
  | succ n ih =>
    intro x
    rw [Function.iterate_succ_apply, ih]
    by_cases h : x.1.todo = []
    · rw [pair_idle E x h]
    · rcases step_cases E x h with ⟨h1, h2, _⟩ | ⟨_, h1, r, h2⟩
      · rw [h1, h2]
      · rw [h1, h2]
        have := List.length_pos_iff.mpr h
        simp
        omega

/-- A thread that is between two evaluations before and after some steps, and has no new result, has done nothing. -/
theorem stay (E : ElemOps K d) (n : Nat) (x : Thread K d × Body K d) (h1 : ((pair E)^[n] x).1.results.length = x.1.results.length)
    (h2 : ((pair E)^[n] x).1.pc = .index 0) : (pair E)^[n] x = x := by
  by_cases h : x.1.todo = []
  · obtain ⟨⟨todo, pc, res⟩, b⟩ := x
    cases h
    exact idle E _ _ _ _
  · cases n with
    | zero => rfl
    | succ n =>
      exfalso
      rw [Function.iterate_succ_apply'] at h1 h2
      have hc := count_const E n x
      have hg := (results_grow_iter E n x).length_le
      have hg2 := (results_grow E ((pair E)^[n] x)).length_le
      have hz : ((pair E)^[n] x).1.todo ≠ [] := by
        intro e
        rw [e] at hc
        have := List.length_pos_iff.mpr h
        simp at hc
        omega
      rcases step_cases E _ hz with ⟨_, _, h3⟩ | ⟨_, _, r, h3⟩
      · exact h3 h2
      · rw [h3] at h1
        simp at h1
        omega

/-- From `x`, the evaluation under way ends in `y`. -/
inductive Will (E : ElemOps K d) : Thread K d × Body K d → Thread K d × Body K d → Prop
  | last (x y) : pair E x = y → Will E x y
  | more (x x' y) : pair E x = x' → x'.1.todo = x.1.todo → x'.1.results = x.1.results → x'.1.pc ≠ .index 0 → Will E x' y → Will E x y

theorem will_of_iter (E : ElemOps K d) (n : Nat) : ∀ x y : Thread K d × Body K d, x.1.todo ≠ [] → (pair E)^[n] x = y →
    y.1.results.length = x.1.results.length + 1 → y.1.pc = .index 0 → Will E x y := by
  induction n with
  | zero => intro x y _ h hl _; rw [Function.iterate_zero, id] at h; subst h; omega
  | succ n ih =>
    intro x y hne h hl hp
    rw [Function.iterate_succ_apply] at h
    rcases step_cases E x hne with ⟨h1, h2, h3⟩ | ⟨h1, h2, r, h3⟩
    · exact Will.more x _ y rfl h1 h2 h3 (ih _ y (by rw [h1]; exact hne) h (by rw [h2]; exact hl) hp)
    · refine Will.last x y ?_
      have := stay E n (pair E x) (by rw [h, hl, h3]; simp) (by rw [h]; exact hp)
      rw [← this, h]

theorem one_will (E : ElemOps K d) (i : Nat) (q : Query K d) (rest : List (Nat × Query K d)) (res : List (Res K)) (b : Body K d) :
    Will E (⟨(i, q) :: rest, .index 0, res⟩, b) (⟨rest, .index 0, res ++ [ask E b i q]⟩, b.call E i q.call) := by
  obtain ⟨N, h⟩ := one_run E i q rest res b
  exact will_of_iter E N _ _ (by simp) h (by simp) rfl

/-- The state between and during evaluations, one at a time on each body. `V n` are the evaluations that are made on body `n`. -/
structure Orderly (E : ElemOps K d) (V : Nat → Nat × Query K d → Prop) (s0 s : Sys K d) (todo : Nat → List (Nat × Query K d)) : Prop where
  on : s.on = s0.on
  thread : ∀ t, ∃ past, todo t = past ++ (s.threads t).todo ∧
    (s.threads t).results = past.map fun x => ask E (s0.bodies (s0.on t)) x.1 x.2
  body : ∀ n, ∃ ops : List (Nat × Query K d), (∀ o ∈ ops, V n o) ∧
    (((∀ t, s0.on t = n → (s.threads t).pc = .index 0) ∧ s.bodies n = (s0.bodies n).calls E (ops.map fun o => (o.1, o.2.call))) ∨
    ∃ t i q rest, s0.on t = n ∧ (s.threads t).todo = (i, q) :: rest ∧ (s.threads t).pc ≠ .index 0 ∧
      Will E (s.threads t, s.bodies n) (⟨rest, .index 0, (s.threads t).results ++
        [ask E ((s0.bodies n).calls E (ops.map fun o => (o.1, o.2.call))) i q]⟩,
        ((s0.bodies n).calls E (ops.map fun o => (o.1, o.2.call))).call E i q.call))

theorem calls_append (E : ElemOps K d) (ops ops' : List (Nat × Body.Call K d)) : ∀ b : Body K d,
    b.calls E (ops ++ ops') = (b.calls E ops).calls E ops' := by
  induction ops with
  | nil => intro b; rfl
  | cons o ops ih => intro b; exact ih _

theorem Orderly.step {E : ElemOps K d} {V : Nat → Nat × Query K d → Prop} {s0 s : Sys K d} {todo : Nat → List (Nat × Query K d)}
    (H : ∀ n (ops : List (Nat × Query K d)), (∀ o ∈ ops, V n o) → ∀ x, V n x →
      ask E ((s0.bodies n).calls E (ops.map fun o => (o.1, o.2.call))) x.1 x.2 = ask E (s0.bodies n) x.1 x.2)
    (hV : ∀ t, ∀ x ∈ todo t, V (s0.on t) x) (h : Orderly E V s0 s todo) (t : Nat)
    (hl : ∀ u, u ≠ t → s.on u = s.on t → (s.threads u).pc = .index 0) : Orderly E V s0 (s.step E t) todo := by
  have hon := h.on
  by_cases hne : (s.threads t).todo = []
  · -- nothing to do
    have e : Par.step E (s.threads t) (s.bodies (s.on t)) = (s.threads t, s.bodies (s.on t)) := pair_idle E (s.threads t, s.bodies (s.on t)) hne
    have : s.step E t = s := by
      obtain ⟨on, threads, bodies⟩ := s
      simp only [Sys.step] at e ⊢
      rw [e]
      congr 1
      · funext u; split
        · subst_vars; rfl
        · rfl
      · funext u; split
        · subst_vars; rfl
        · rfl
    rw [this]; exact h
  obtain ⟨⟨i, q⟩, rest, hto⟩ := List.exists_cons_of_ne_nil hne
  obtain ⟨ops, ho, hb⟩ := h.body (s0.on t)
  obtain ⟨past, p1, p2⟩ := h.thread t
  have hVt : V (s0.on t) (i, q) := hV t _ (by rw [p1, hto]; simp)
  -- the evaluation of thread `t` is under way, or starts
  have hW : Will E (s.threads t, s.bodies (s0.on t)) (⟨rest, .index 0, (s.threads t).results ++
        [ask E ((s0.bodies (s0.on t)).calls E (ops.map fun o => (o.1, o.2.call))) i q]⟩,
        ((s0.bodies (s0.on t)).calls E (ops.map fun o => (o.1, o.2.call))).call E i q.call) := by
    rcases hb with ⟨g1, g2⟩ | ⟨t', i', q', rest', g1, g2, g3, g4⟩
    · have := one_will E i q rest (s.threads t).results ((s0.bodies (s0.on t)).calls E (ops.map fun o => (o.1, o.2.call)))
      have e : s.threads t = ⟨(i, q) :: rest, .index 0, (s.threads t).results⟩ := by
        have := g1 t rfl
        revert this hto
        cases s.threads t
        rintro hto this
        simp only at this hto
        rw [this, hto]
      rw [← e] at this
      rw [g2]
      exact this
    · have : t' = t := by
        by_contra hn
        exact g3 (hl t' hn (by rw [hon, g1]))
      subst this
      rw [hto] at g2
      cases g2
      exact g4
  have hask := H (s0.on t) ops ho (i, q) hVt
  have hothers : ∀ u, u ≠ t → s0.on u = s0.on t → (s.threads u).pc = .index 0 := fun u hu e => hl u hu (by rw [hon]; exact e)
  have e1 : ∀ u, (s.step E t).threads u = if u = t then (pair E (s.threads t, s.bodies (s0.on t))).1 else s.threads u := by
    intro u; simp only [Sys.step, hon, pair]
  have e2 : ∀ n, (s.step E t).bodies n = if n = s0.on t then (pair E (s.threads t, s.bodies (s0.on t))).2 else s.bodies n := by
    intro n; simp only [Sys.step, hon, pair]
  have bodyOther : ∀ n, n ≠ s0.on t → ∃ ops : List (Nat × Query K d), (∀ o ∈ ops, V n o) ∧
      (((∀ u, s0.on u = n → ((s.step E t).threads u).pc = .index 0) ∧
        (s.step E t).bodies n = (s0.bodies n).calls E (ops.map fun o => (o.1, o.2.call))) ∨
      ∃ u i q rest, s0.on u = n ∧ ((s.step E t).threads u).todo = (i, q) :: rest ∧ ((s.step E t).threads u).pc ≠ .index 0 ∧
        Will E ((s.step E t).threads u, (s.step E t).bodies n) (⟨rest, .index 0, ((s.step E t).threads u).results ++
          [ask E ((s0.bodies n).calls E (ops.map fun o => (o.1, o.2.call))) i q]⟩,
          ((s0.bodies n).calls E (ops.map fun o => (o.1, o.2.call))).call E i q.call)) := by
    intro n hn
    obtain ⟨ops', ho', hb'⟩ := h.body n
    refine ⟨ops', ho', ?_⟩
    rw [e2, if_neg hn]
    rcases hb' with ⟨g1, g2⟩ | ⟨t', i', q', rest', g1, g2, g3, g4⟩
    · refine Or.inl ⟨fun u hu => ?_, g2⟩
      rw [e1, if_neg (by rintro rfl; exact hn hu.symm)]
      exact g1 u hu
    · have hne' : t' ≠ t := by rintro rfl; exact hn g1.symm
      refine Or.inr ⟨t', i', q', rest', g1, ?_⟩
      rw [e1, if_neg hne']
      exact ⟨g2, g3, g4⟩
  cases hW with
  | last _ _ hp =>
    refine ⟨hon, fun u => ?_, fun n => ?_⟩
    · rw [e1]
      by_cases hu : u = t
      · subst hu
        rw [if_pos rfl, hp]
        refine ⟨past ++ [(i, q)], by rw [p1, hto]; simp, ?_⟩
        simp only [p2, List.map_append, List.map_cons, List.map_nil, hask]
      · rw [if_neg hu]; exact h.thread u
    · by_cases hn : n = s0.on t
      · subst hn
        refine ⟨ops ++ [(i, q)], ?_, Or.inl ⟨fun u hu => ?_, ?_⟩⟩
        · intro o hm
          rcases List.mem_append.mp hm with hm | hm
          · exact ho o hm
          · rw [List.mem_singleton.mp hm]; exact hVt
        · rw [e1]
          by_cases hut : u = t
          · rw [if_pos hut, hp]
          · rw [if_neg hut]; exact hothers u hut hu
        · rw [e2, if_pos rfl, hp, List.map_append, calls_append]
          rfl
      · exact bodyOther n hn
  | more _ x' _ hp h1 h2 h3 h4 =>
    subst hp
    refine ⟨hon, fun u => ?_, fun n => ?_⟩
    · rw [e1]
      by_cases hu : u = t
      · subst hu
        rw [if_pos rfl]
        exact ⟨past, by rw [h1]; exact p1, by rw [h2]; exact p2⟩
      · rw [if_neg hu]; exact h.thread u
    · by_cases hn : n = s0.on t
      · subst hn
        refine ⟨ops, ho, Or.inr ⟨t, i, q, rest, rfl, ?_⟩⟩
        rw [e1, e2, if_pos rfl, if_pos rfl]
        refine ⟨by rw [h1]; exact hto, h3, ?_⟩
        rw [h2]
        exact h4
      · exact bodyOther n hn

theorem Orderly.run {E : ElemOps K d} {V : Nat → Nat × Query K d → Prop} {s0 : Sys K d} {todo : Nat → List (Nat × Query K d)}
    (H : ∀ n (ops : List (Nat × Query K d)), (∀ o ∈ ops, V n o) → ∀ x, V n x →
      ask E ((s0.bodies n).calls E (ops.map fun o => (o.1, o.2.call))) x.1 x.2 = ask E (s0.bodies n) x.1 x.2)
    (hV : ∀ t, ∀ x ∈ todo t, V (s0.on t) x) (sched : List Nat) : ∀ s : Sys K d, Orderly E V s0 s todo → s.Locked E sched →
    Orderly E V s0 (s.run E sched) todo := by
  induction sched with
  | nil => intro s h _; exact h
  | cons t ts ih => intro s h hl; exact ih _ (h.step H hV t hl.1) hl.2

theorem orderly_start {E : ElemOps K d} {V : Nat → Nat × Query K d → Prop} {s0 : Sys K d} {todo : Nat → List (Nat × Query K d)}
    (ht : ∀ t, s0.threads t = Thread.start (todo t)) : Orderly E V s0 s0 todo where
  on := rfl
  thread t := ⟨[], by simp [ht, Thread.start], by simp [ht, Thread.start]⟩
  body n := ⟨[], by simp, Or.inl ⟨fun t _ => by simp [ht, Thread.start], rfl⟩⟩

/-- C122 for any element class. -/
theorem locked {E : ElemOps K d} [IsStrictOrderedRing K] {m : Nat} {unit : Fin m → Fin d → K} {R : (a h c : Fin d → K) → Prop} (L : ElemLaw E unit R) (T : ElemTotal E)
    (pts : Nat → List (Fin d → K)) (cells : Nat → List (List Nat)) (flds : Nat → List (String × List K)) (hm : ∀ n, RectMesh unit (pts n) (cells n))
    (hl : ∀ n, ∀ fl ∈ flds n, fl.2.length = (pts n).length) (s : Sys K d) (hb : ∀ n, Body.load E (pts n) (cells n) (flds n) = .ok (s.bodies n))
    (todo : Nat → List (Nat × Query K d)) (ht : ∀ t, s.threads t = Thread.start (todo t))
    (hq : ∀ t, ∀ x ∈ todo t, x.1 < (flds (s.on t)).length ∧ Covered unit (pts (s.on t)) (cells (s.on t)) x.2.coord) (sched : List Nat)
    (hk : s.Locked E sched) (t : Nat) :
    ((s.run E sched).threads t).results <+: (todo t).map (fun x => ask E (s.bodies (s.on t)) x.1 x.2) ∧
    (((s.run E sched).threads t).todo = [] →
      ((s.run E sched).threads t).results = (todo t).map fun x => ask E (s.bodies (s.on t)) x.1 x.2) := by
  have bins : ∀ n c, Covered unit (pts n) (cells n) c → InBins (pts n) c := by
    intro n c hc
    obtain ⟨m, lo, hi, qs, _, hbt⟩ := build_of L (hm n)
    obtain ⟨cell, _, a, h, h2, h3⟩ := hc
    exact hbt.inBins_of_inCell L h2 h3
  have := Orderly.run (E := E) (V := fun n x => x.1 < (flds n).length ∧ Covered unit (pts n) (cells n) x.2.coord) (s0 := s) (todo := todo) (by
    intro n ops ho x hx
    have hist : HistOk (pts n) (ops.map fun o => (o.1, o.2.call)) := by
      intro o hmem
      obtain ⟨o', h1, rfl⟩ := List.mem_map.mp hmem
      have := bins n _ (ho o' h1).2
      left
      obtain ⟨i, q⟩ := o'
      cases q <;> exact this
    obtain ⟨h1, h2, h3⟩ := history_free L T (hm n) (hl n) (hb n) hx.2 hist x.1 hx.1
    obtain ⟨i, q⟩ := x
    cases q with
    | value c => exact h1
    | grad c di => exact h2 di
    | hess c di dj => exact h3 di dj) hq sched s (orderly_start ht) hk
  obtain ⟨past, p1, p2⟩ := this.thread t
  refine ⟨?_, fun h => ?_⟩
  · rw [p2]
    conv_rhs => rw [p1, List.map_append]
    exact List.prefix_append _ _
  · rw [p2]
    rw [h, List.append_nil] at p1
    rw [p1]

end Par

open Par
variable {K : Type} [Field K] [LinearOrder K] [FloorRing K] [IsStrictOrderedRing K]

/-- **C122** (2D) Any number of threads evaluate fields of shared bodies at points of the bodies, one at a time on each body (a lock around each evaluation). Then under every such
schedule, whatever the order in which they get the lock, the results of each thread are those each evaluation alone gives on the body as it was read. -/
theorem C122_locked_2d (pts : Nat → List (Fin 2 → K)) (cells : Nat → List (List Nat)) (flds : Nat → List (String × List K))
    (hm : ∀ n, RectMesh quadUnit (pts n) (cells n)) (hl : ∀ n, ∀ fl ∈ flds n, fl.2.length = (pts n).length) (s : Sys K 2)
    (hb : ∀ n, Body.load (quadOps K) (pts n) (cells n) (flds n) = .ok (s.bodies n)) (todo : Nat → List (Nat × Query K 2))
    (ht : ∀ t, s.threads t = Thread.start (todo t))
    (hq : ∀ t, ∀ x ∈ todo t, x.1 < (flds (s.on t)).length ∧ Covered quadUnit (pts (s.on t)) (cells (s.on t)) x.2.coord) (sched : List Nat)
    (hk : s.Locked (quadOps K) sched) (t : Nat) :
    ((s.run (quadOps K) sched).threads t).results <+: (todo t).map (fun x => ask (quadOps K) (s.bodies (s.on t)) x.1 x.2) ∧
    (((s.run (quadOps K) sched).threads t).todo = [] →
      ((s.run (quadOps K) sched).threads t).results = (todo t).map fun x => ask (quadOps K) (s.bodies (s.on t)) x.1 x.2) :=
  locked quadLaw quadTotal pts cells flds hm hl s hb todo ht hq sched hk t

/-- **C122** (3D) The same. -/
theorem C122_locked_3d (pts : Nat → List (Fin 3 → K)) (cells : Nat → List (List Nat)) (flds : Nat → List (String × List K))
    (hm : ∀ n, RectMesh hexUnit (pts n) (cells n)) (hl : ∀ n, ∀ fl ∈ flds n, fl.2.length = (pts n).length) (s : Sys K 3)
    (hb : ∀ n, Body.load (hexOps K) (pts n) (cells n) (flds n) = .ok (s.bodies n)) (todo : Nat → List (Nat × Query K 3))
    (ht : ∀ t, s.threads t = Thread.start (todo t))
    (hq : ∀ t, ∀ x ∈ todo t, x.1 < (flds (s.on t)).length ∧ Covered hexUnit (pts (s.on t)) (cells (s.on t)) x.2.coord) (sched : List Nat)
    (hk : s.Locked (hexOps K) sched) (t : Nat) :
    ((s.run (hexOps K) sched).threads t).results <+: (todo t).map (fun x => ask (hexOps K) (s.bodies (s.on t)) x.1 x.2) ∧
    (((s.run (hexOps K) sched).threads t).todo = [] →
      ((s.run (hexOps K) sched).threads t).results = (todo t).map fun x => ask (hexOps K) (s.bodies (s.on t)) x.1 x.2) :=
  locked hexLaw hexTotal pts cells flds hm hl s hb todo ht hq sched hk t

/-! ### Non-vacuity -/

omit [IsStrictOrderedRing K] in
/-- A thread may take several steps in a row if the others are between two evaluations. -/
theorem locked_block {d : Nat} (E : ElemOps K d) (t : Nat) (sched : List Nat) (k : Nat) : ∀ s : Sys K d, (∀ u, u ≠ t → (s.threads u).pc = .index 0) →
    (s.run E (List.replicate k t)).Locked E sched → s.Locked E (List.replicate k t ++ sched) := by
  induction k with
  | zero => intro s _ h; exact h
  | succ k ih =>
    intro s hs h
    refine ⟨fun u hu _ => hs u hu, ih _ (fun u hu => ?_) h⟩
    simp only [Sys.step, if_neg hu]
    exact hs u hu

/-- A thread between two evaluations. -/
def atStart {d : Nat} : Pc K d → Bool
  | .index 0 => true
  | _ => false

omit [Field K] [LinearOrder K] [FloorRing K] [IsStrictOrderedRing K] in
theorem atStart_eq {d : Nat} {pc : Pc K d} (h : atStart pc = true) : pc = .index 0 := by
  unfold atStart at h
  split at h
  · rfl
  · simp at h

open ThreadsDemo in
/-- Two threads on one body; the first holds the lock for its evaluation, then the second. (Without the lock, `C115_shared_violated`: 0 instead of 3.) -/
example : ∃ b, Body.load (quadOps ℚ) Demo.pts Demo.cells Demo.flds = .ok b ∧
    (sys b fun _ => 0).Locked (quadOps ℚ) (List.replicate 7 0 ++ (List.replicate 7 1 ++ [])) ∧
    (∀ t, ∀ x ∈ (if t = 0 then [(0, .value ![1 / 2, 1 / 2])] else if t = 1 then [(1, .value ![5 / 2, 1 / 2])] else [] : List (Nat × Query ℚ 2)),
      x.1 < Demo.flds.length ∧ Covered quadUnit Demo.pts Demo.cells x.2.coord) ∧
    (((sys b fun _ => 0).run (quadOps ℚ) (List.replicate 7 0 ++ (List.replicate 7 1 ++ []))).threads 0).results = [.ok 3] := by
  obtain ⟨b, hb, _⟩ := C22_load_2d Demo.pts Demo.cells Demo.flds Demo.rect Demo.lens
  refine ⟨b, hb, ?_, ?_, ?_⟩
  · refine locked_block _ 0 _ 7 _ (fun u hu => ?_) (locked_block _ 1 _ 7 _ (fun u hu => ?_) trivial)
    · simp only [sys, if_neg hu]; split <;> rfl
    · by_cases h0 : u = 0
      · subst h0
        have : (Body.load (quadOps ℚ) Demo.pts Demo.cells Demo.flds).map (fun b =>
            atStart (((sys b fun _ => 0).run (quadOps ℚ) (List.replicate 7 0)).threads 0).pc) = .ok true := by
          decide +kernel
        rw [hb] at this
        exact atStart_eq (Except.ok.inj this)
      · simp [List.replicate, Sys.run, Sys.step, h0, sys, hu, Thread.start]
  · intro t x hx
    split at hx
    · rw [List.mem_singleton.mp hx]
      exact ⟨by decide, _, by simp [Demo.cells], _, _, Demo.cell0, by intro i; fin_cases i <;> decide +kernel⟩
    · split at hx
      · rw [List.mem_singleton.mp hx]
        exact ⟨by decide, [1, 2, 5, 4], by simp [Demo.cells], _, _, Demo.cell1, by intro i; fin_cases i <;> decide +kernel⟩
      · simp at hx
  · have : (Body.load (quadOps ℚ) Demo.pts Demo.cells Demo.flds).map (fun b =>
        (((sys b fun _ => 0).run (quadOps ℚ) (List.replicate 7 0 ++ (List.replicate 7 1 ++ []))).threads 0).results) = .ok [.ok 3] := by
      decide +kernel
    rw [hb] at this
    exact Except.ok.inj this

end Verif
