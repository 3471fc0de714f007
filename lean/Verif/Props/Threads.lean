import Verif.Model.Threads
import Verif.Lemmas.Demo
import Mathlib.Logic.Function.Iterate

/-!
# C115: evaluations by several threads
-/

namespace Verif
open Spec Mesh PField Body
namespace Par
variable {K : Type} {d : Nat} [Field K] [LinearOrder K] [FloorRing K]

/-- A step of a thread and its body. -/
def pair (E : ElemOps K d) (x : Thread K d × Body K d) : Thread K d × Body K d := step E x.1 x.2

/-! ### A thread by itself -/

/-- The body with other contents of the bin's `_indices`. -/
def withIdx (b : Body K d) (idx : List Int) : Body K d := { b with mesh := { b.mesh with bin := { b.mesh.bin with indices := idx } } }

theorem index_run (E : ElemOps K d) (i : Nat) (q : Query K d) (rest : List (Nat × Query K d)) (res : List (Res K)) (f : PField K) (n : Nat) :
    ∀ (k : Nat) (b : Body K d), b.fields[i]? = some f → k + n = b.mesh.bin.item.order.toNat →
    ∃ N, (pair E)^[N] (⟨(i, q) :: rest, .index k, res⟩, b) =
      match Bin.idxLoop b.mesh.bin.min b.mesh.bin.max b.mesh.bin.incr (List.ofFn q.coord) n k b.mesh.bin.indices with
      | (.error e, idx) => (⟨rest, .index 0, res ++ [.error e]⟩, withIdx b idx)
      | (.ok _, idx) => (⟨(i, q) :: rest, .locate 0 0, res⟩, withIdx b idx) := by
  induction n with
  | zero =>
    intro k b hf hk
    refine ⟨1, ?_⟩
    have : ¬ k < b.mesh.bin.item.order.toNat := by omega
    simp only [Function.iterate_one, pair, step, hf, this, if_false, Bin.idxLoop]
    rfl
  | succ n ih =>
    intro k b hf hk
    have hlt : k < b.mesh.bin.item.order.toNat := by omega
    unfold Bin.idxLoop
    cases h1 : Bin.idxAt b.mesh.bin.min b.mesh.bin.max b.mesh.bin.incr (List.ofFn q.coord) k with
    | error e =>
      refine ⟨1, ?_⟩
      simp only [Function.iterate_one, pair, step, hf, hlt, if_true, h1, err_bind]
      rfl
    | ok v =>
      simp only
      cases h2 : vset b.mesh.bin.indices (k : Nat) v with
      | error e =>
        refine ⟨1, ?_⟩
        simp only [Function.iterate_one, pair, step, hf, hlt, if_true, h1, ok_bind, h2]
        rfl
      | ok idx =>
        simp only
        obtain ⟨N, hN⟩ := ih (k + 1) (withIdx b idx) hf (by show _ = b.mesh.bin.item.order.toNat; omega)
        refine ⟨N + 1, ?_⟩
        rw [Function.iterate_succ_apply]
        have : pair E (⟨(i, q) :: rest, .index k, res⟩, b) = (⟨(i, q) :: rest, .index (k + 1), res⟩, withIdx b idx) := by
          simp only [pair, step, hf, hlt, if_true, h1, ok_bind, h2]
          rfl
        rw [this, hN]
        rfl

theorem locate_run (E : ElemOps K d) (i : Nat) (q : Query K d) (rest : List (Nat × Query K d)) (res : List (Res K)) (f : PField K) (b : Body K d)
    (hf : b.fields[i]? = some f) (us : List Int) : ∀ (k : Nat) (l : Int), b.mesh.bin.item.unroll.drop k = us →
    ∃ N, (pair E)^[N] (⟨(i, q) :: rest, .locate k l, res⟩, b) =
      match (NDArray.linLoop b.mesh.bin.indices us k l >>= fun l => b.mesh.bin.item.getLin l) with
      | .error e => (⟨rest, .index 0, res ++ [.error e]⟩, b)
      | .ok content => (⟨(i, q) :: rest, .found content, res⟩, b) := by
  induction us with
  | nil =>
    intro k l hk
    refine ⟨1, ?_⟩
    have hn : b.mesh.bin.item.unroll[k]? = none := by
      rw [List.getElem?_eq_none_iff]
      have := congrArg List.length hk
      simp at this
      omega
    simp only [Function.iterate_one, pair, step, hf, hn, NDArray.linLoop, ok_bind]
    cases b.mesh.bin.item.getLin l <;> rfl
  | cons u us ih =>
    intro k l hk
    have hs : b.mesh.bin.item.unroll[k]? = some u := by
      have := congrArg (fun x => x[0]?) hk
      simpa using this
    have hd : b.mesh.bin.item.unroll.drop (k + 1) = us := by
      have := congrArg (List.drop 1) hk
      simpa [List.drop_drop] using this
    simp only [NDArray.linLoop]
    cases h1 : (do let x ← vget b.mesh.bin.indices (k : Nat); let p ← imul x u; iadd l p : Res Int) with
    | error e =>
      refine ⟨1, ?_⟩
      have : (do
          let t ← vget b.mesh.bin.indices (k : Nat)
          let p ← imul t u
          let l ← iadd l p
          NDArray.linLoop b.mesh.bin.indices us (k + 1) l : Res Int) = .error e := by
        have : (do
          let t ← vget b.mesh.bin.indices (k : Nat)
          let p ← imul t u
          let l ← iadd l p
          NDArray.linLoop b.mesh.bin.indices us (k + 1) l : Res Int) = ((do
            let x ← vget b.mesh.bin.indices (k : Nat); let p ← imul x u; iadd l p : Res Int) >>= fun l =>
              NDArray.linLoop b.mesh.bin.indices us (k + 1) l) := by
          simp only [bind_assoc]
        rw [this, h1]; rfl
      simp only [Function.iterate_one, pair, step, hf, hs, h1, this, err_bind]
      rfl
    | ok l' =>
      have : (do
          let t ← vget b.mesh.bin.indices (k : Nat)
          let p ← imul t u
          let l ← iadd l p
          NDArray.linLoop b.mesh.bin.indices us (k + 1) l : Res Int) = NDArray.linLoop b.mesh.bin.indices us (k + 1) l' := by
        have : (do
          let t ← vget b.mesh.bin.indices (k : Nat)
          let p ← imul t u
          let l ← iadd l p
          NDArray.linLoop b.mesh.bin.indices us (k + 1) l : Res Int) = ((do
            let x ← vget b.mesh.bin.indices (k : Nat); let p ← imul x u; iadd l p : Res Int) >>= fun l =>
              NDArray.linLoop b.mesh.bin.indices us (k + 1) l) := by
          simp only [bind_assoc]
        rw [this, h1]; rfl
      obtain ⟨N, hN⟩ := ih (k + 1) l' hd
      refine ⟨N + 1, ?_⟩
      rw [Function.iterate_succ_apply]
      have e1 : pair E (⟨(i, q) :: rest, .locate k l, res⟩, b) = (⟨(i, q) :: rest, .locate (k + 1) l', res⟩, b) := by
        simp only [pair, step, hf, hs, h1]
      rw [e1, hN, this]

/-- An evaluation of the sequential model, in terms of the bin it finds. -/
theorem ask_eq (E : ElemOps K d) (b : Body K d) (i : Nat) (q : Query K d) (f : PField K) (hf : b.fields[i]? = some f) :
    ask E b i q = (match b.mesh.bin.contents (List.ofFn q.coord) with
      | (.error e, _) => .error e
      | (.ok content, _) => (finish E q f content).1) ∧
    b.call E i q.call = (match b.mesh.bin.contents (List.ofFn q.coord) with
      | (.error _, bin) => ⟨{ b.mesh with bin := bin }, b.fields⟩
      | (.ok content, bin) => ⟨{ b.mesh with bin := bin }, b.fields.set i (finish E q f content).2⟩) := by
  have same : b.fields.set i f = b.fields := by
    apply List.ext_getElem?
    intro j
    rw [List.getElem?_set]
    split
    · subst_vars
      split
      · exact hf.symm
      · rename_i h; rw [List.getElem?_eq_none (by omega)]
    · rfl
  cases q with
  | value c =>
    simp only [ask, Body.value, Query.call, Body.call, hf, callField, PField.value, basisFunctions, fill, Query.coord]
    rcases b.mesh.bin.contents (List.ofFn c) with ⟨_ | content, bin⟩
    · exact ⟨rfl, by simp [same]⟩
    · simp only [finish, Query.coord, Query.weight, Query.store]
      cases firstInRange E c content with
      | none =>
        simp only
        cases sumLoop f.data f.buf content.length 0 f.zero <;> exact ⟨rfl, rfl⟩
      | some p =>
        simp only
        rcases fillLoop (fun q => E.value q c) p.element content 0 f.buf with ⟨_ | _, bf⟩
        · exact ⟨rfl, rfl⟩
        · simp only
          cases sumLoop f.data bf content.length 0 f.zero <;> exact ⟨rfl, rfl⟩
  | grad c di =>
    simp only [ask, Body.grad, Query.call, Body.call, hf, callField, PField.gradAt, gradBasisFunctions, fill, Query.coord]
    rcases b.mesh.bin.contents (List.ofFn c) with ⟨_ | content, bin⟩
    · exact ⟨rfl, by simp [same]⟩
    · simp only [finish, Query.coord, Query.weight, Query.store]
      cases firstInRange E c content with
      | none =>
        simp only
        cases sumLoop f.data f.buf content.length 0 f.zero with
        | error e => exact ⟨rfl, rfl⟩
        | ok v => simp only; cases vset f.grad ((di : Nat) : Nat) v <;> exact ⟨rfl, rfl⟩
      | some p =>
        simp only
        rcases fillLoop (fun q => E.grad q c di) p.element content 0 f.buf with ⟨_ | _, bf⟩
        · exact ⟨rfl, rfl⟩
        · simp only
          cases sumLoop f.data bf content.length 0 f.zero with
          | error e => exact ⟨rfl, rfl⟩
          | ok v => simp only; cases vset f.grad ((di : Nat) : Nat) v <;> exact ⟨rfl, rfl⟩
  | hess c di dj =>
    simp only [ask, Body.hess, Query.call, Body.call, hf, callField, PField.hessAt, hessBasisFunctions, fill, Query.coord]
    rcases b.mesh.bin.contents (List.ofFn c) with ⟨_ | content, bin⟩
    · exact ⟨rfl, by simp [same]⟩
    · simp only [finish, Query.coord, Query.weight, Query.store]
      cases firstInRange E c content with
      | none =>
        simp only
        cases sumLoop f.data f.buf content.length 0 f.zero with
        | error e => exact ⟨rfl, rfl⟩
        | ok v =>
          simp only
          cases vget f.hess ((di : Nat) : Nat) with
          | error e => exact ⟨rfl, rfl⟩
          | ok row =>
            simp only [ok_bind]
            cases vset row ((dj : Nat) : Nat) v with
            | error e => exact ⟨rfl, rfl⟩
            | ok row' => simp only [ok_bind]; cases vset f.hess ((di : Nat) : Nat) row' <;> exact ⟨rfl, rfl⟩
      | some p =>
        simp only
        rcases fillLoop (fun q => E.hess q c di dj) p.element content 0 f.buf with ⟨_ | _, bf⟩
        · exact ⟨rfl, rfl⟩
        · simp only
          cases sumLoop f.data bf content.length 0 f.zero with
          | error e => exact ⟨rfl, rfl⟩
          | ok v =>
            simp only
            cases vget f.hess ((di : Nat) : Nat) with
            | error e => exact ⟨rfl, rfl⟩
            | ok row =>
              simp only [ok_bind]
              cases vset row ((dj : Nat) : Nat) v with
              | error e => exact ⟨rfl, rfl⟩
              | ok row' => simp only [ok_bind]; cases vset f.hess ((di : Nat) : Nat) row' <;> exact ⟨rfl, rfl⟩

/-- A thread by itself makes one evaluation as in the sequential model. -/
theorem one_run (E : ElemOps K d) (i : Nat) (q : Query K d) (rest : List (Nat × Query K d)) (res : List (Res K)) (b : Body K d) :
    ∃ N, (pair E)^[N] (⟨(i, q) :: rest, .index 0, res⟩, b) = (⟨rest, .index 0, res ++ [ask E b i q]⟩, b.call E i q.call) := by
  cases hf : b.fields[i]? with
  | none =>
    refine ⟨1, ?_⟩
    simp only [Function.iterate_one, pair, step, hf, Body.call]
    cases q <;> simp only [ask, Body.value, Body.grad, Body.hess, hf] <;> rfl
  | some f =>
    obtain ⟨e1, e2⟩ := ask_eq E b i q f hf
    obtain ⟨N1, h1⟩ := index_run E i q rest res f _ 0 b hf (Nat.zero_add _)
    simp only [Bin.contents, Bin.indicesOf] at e1 e2
    rcases hi : Bin.idxLoop b.mesh.bin.min b.mesh.bin.max b.mesh.bin.incr (List.ofFn q.coord) b.mesh.bin.item.order.toNat 0 b.mesh.bin.indices with ⟨_ | _, idx⟩
    · rename_i e
      rw [hi] at h1 e1 e2
      refine ⟨N1, ?_⟩
      rw [h1, e1, e2]
      rfl
    · rw [hi] at h1 e1 e2
      simp only [NDArray.get, NDArray.linearIndex] at e1 e2
      obtain ⟨N2, h2⟩ := locate_run E i q rest res f (withIdx b idx) hf _ 0 0 rfl
      simp only [withIdx, List.drop_zero] at h2
      cases hc : (NDArray.linLoop idx b.mesh.bin.item.unroll 0 0 >>= fun l => b.mesh.bin.item.getLin l) with
      | error e =>
        rw [hc] at h2 e1 e2
        refine ⟨N2 + N1, ?_⟩
        rw [Function.iterate_add_apply, h1]
        simp only [withIdx]
        rw [h2, e1, e2]
      | ok content =>
        rw [hc] at h2 e1 e2
        refine ⟨1 + (N2 + N1), ?_⟩
        rw [Function.iterate_add_apply, Function.iterate_add_apply, h1]
        simp only [withIdx]
        rw [h2, e1, e2]
        simp only [Function.iterate_one, pair, step, hf]
        rfl

theorem serial_run (E : ElemOps K d) (todo : List (Nat × Query K d)) : ∀ (res : List (Res K)) (b : Body K d),
    ∃ N b', (pair E)^[N] (⟨todo, .index 0, res⟩, b) = (⟨[], .index 0, res ++ serial E b todo⟩, b') := by
  induction todo with
  | nil => intro res b; exact ⟨0, b, by simp [serial]⟩
  | cons x todo ih =>
    obtain ⟨i, q⟩ := x
    intro res b
    obtain ⟨N1, h1⟩ := one_run E i q todo res b
    obtain ⟨N2, b', h2⟩ := ih (res ++ [ask E b i q]) (b.call E i q.call)
    refine ⟨N2 + N1, b', ?_⟩
    rw [Function.iterate_add_apply, h1, h2, serial, List.append_assoc]
    rfl

/-- Results are only added. -/
theorem results_grow (E : ElemOps K d) (x : Thread K d × Body K d) : x.1.results <+: (pair E x).1.results := by
  obtain ⟨⟨todo, pc, res⟩, b⟩ := x
  unfold pair step
  simp only
  split
  · exact List.prefix_rfl
  · split
    · exact List.prefix_append _ _
    · split
      · split
        · split
          · exact List.prefix_append _ _
          · exact List.prefix_rfl
        · exact List.prefix_rfl
      · split
        · split
          · exact List.prefix_append _ _
          · exact List.prefix_rfl
        · split
          · exact List.prefix_append _ _
          · exact List.prefix_rfl
      · exact List.prefix_append _ _

theorem results_grow_iter (E : ElemOps K d) (n : Nat) : ∀ x : Thread K d × Body K d, x.1.results <+: ((pair E)^[n] x).1.results := by
  induction n with
  | zero => intro x; exact List.prefix_rfl
  | succ n ih => intro x; rw [Function.iterate_succ_apply]; exact (results_grow E x).trans (ih _)

theorem idle (E : ElemOps K d) (pc : Pc K d) (res : List (Res K)) (b : Body K d) (n : Nat) :
    (pair E)^[n] (⟨[], pc, res⟩, b) = (⟨[], pc, res⟩, b) := by
  induction n with
  | zero => rfl
  | succ n ih => rw [Function.iterate_succ_apply]; exact ih

/-! ### Threads on different bodies -/

theorem run_on (E : ElemOps K d) (sched : List Nat) : ∀ s : Sys K d, (s.run E sched).on = s.on := by
  induction sched with
  | nil => intro s; rfl
  | cons t ts ih => intro s; rw [Sys.run, ih]; rfl

/-- A thread whose body no other scheduled thread uses makes its own steps. -/
theorem run_proj (E : ElemOps K d) (t : Nat) (sched : List Nat) : ∀ s : Sys K d, (∀ u ∈ sched, u ≠ t → s.on u ≠ s.on t) →
    ((s.run E sched).threads t, (s.run E sched).bodies (s.on t)) = (pair E)^[sched.count t] (s.threads t, s.bodies (s.on t)) := by
  induction sched with
  | nil => intro s _; rfl
  | cons u us ih =>
    intro s hs
    rw [Sys.run]
    have := ih (s.step E u) (fun v hv hne => hs v (by simp [hv]) hne)
    have e : (s.step E u).on = s.on := rfl
    rw [e] at this
    rw [this]
    by_cases h : u = t
    · subst h
      rw [List.count_cons_self, Function.iterate_succ_apply]
      simp [Sys.step, pair]
    · rw [List.count_cons_of_ne h]
      congr 1
      have h2 := hs u (by simp) h
      simp [Sys.step, Ne.symm h, Ne.symm h2]

end Par

open Par
section
variable {K : Type} {d : Nat} [Field K] [LinearOrder K] [FloorRing K]

/-- **C115** (part) Threads that evaluate fields of different bodies do not disturb each other, for any number of threads, any evaluations, any bodies in any
state, and any schedule: at every moment the results a thread has so far are the first of those it gets when it is the only one (`serial`: the evaluations
one after the other), and once it has been scheduled often enough it has all of them. -/
theorem C115_separate_partial (E : ElemOps K d) (s : Sys K d) (t : Nat) (todo : List (Nat × Query K d)) (ht : s.threads t = Thread.start todo) :
    (∀ sched, (∀ u ∈ sched, u ≠ t → s.on u ≠ s.on t) →
      ((s.run E sched).threads t).results <+: serial E (s.bodies (s.on t)) todo) ∧
    ∃ N, ∀ sched, (∀ u ∈ sched, u ≠ t → s.on u ≠ s.on t) → N ≤ sched.count t →
      ((s.run E sched).threads t).results = serial E (s.bodies (s.on t)) todo := by
  obtain ⟨N, b', hN⟩ := serial_run E todo [] (s.bodies (s.on t))
  rw [List.nil_append] at hN
  have enough : ∀ n, N ≤ n → ((pair E)^[n] (s.threads t, s.bodies (s.on t))) = (⟨[], .index 0, serial E (s.bodies (s.on t)) todo⟩, b') := by
    intro n hn
    obtain ⟨k, rfl⟩ := Nat.exists_eq_add_of_le' hn
    rw [Function.iterate_add_apply, ht, Thread.start, hN, idle]
  refine ⟨fun sched hs => ?_, N, fun sched hs hc => ?_⟩
  · have h := congrArg (fun x => x.1.results) (run_proj E t sched s hs)
    simp only at h
    rw [h]
    have h2 := results_grow_iter E N ((pair E)^[sched.count t] (s.threads t, s.bodies (s.on t)))
    rw [← Function.iterate_add_apply, enough _ (Nat.le_add_right _ _)] at h2
    exact h2
  · have h := congrArg (fun x => x.1.results) (run_proj E t sched s hs)
    simp only at h
    rw [h, enough _ hc]

end

/-! ### Threads on the same body -/

namespace ThreadsDemo

/-- Two threads, each with an evaluation of one of the two fields of the example, on bodies `on`. -/
def sys (b : Body ℚ 2) (on : Nat → Nat) : Sys ℚ 2 :=
  ⟨on, fun t => if t = 0 then .start [(0, .value ![1 / 2, 1 / 2])] else if t = 1 then .start [(1, .value ![5 / 2, 1 / 2])] else .start [], fun _ => b⟩

end ThreadsDemo

open ThreadsDemo in
/-- **C115** is false for two threads on one body, even with different fields: with this schedule the first gets 0 instead of 3. -/
theorem C115_shared_violated : ∃ b sched, Body.load (quadOps ℚ) Demo.pts Demo.cells Demo.flds = .ok b ∧
    serial (quadOps ℚ) b [(0, .value ![1 / 2, 1 / 2])] = [.ok 3] ∧
    (((sys b fun _ => 0).run (quadOps ℚ) sched).threads 0).results = [.ok 0] := by
  obtain ⟨b, hb, _⟩ := C22_load_2d Demo.pts Demo.cells Demo.flds Demo.rect Demo.lens
  refine ⟨b, [0, 0, 0, 1, 0, 0, 0, 0], hb, ?_, ?_⟩
  · have : (Body.load (quadOps ℚ) Demo.pts Demo.cells Demo.flds).map (fun b => serial (quadOps ℚ) b [(0, .value ![1 / 2, 1 / 2])]) = .ok [.ok 3] := by
      decide +kernel
    rw [hb] at this
    exact Except.ok.inj this
  · have : (Body.load (quadOps ℚ) Demo.pts Demo.cells Demo.flds).map (fun b =>
        (((sys b fun _ => 0).run (quadOps ℚ) [0, 0, 0, 1, 0, 0, 0, 0]).threads 0).results) = .ok [.ok 0] := by
      decide +kernel
    rw [hb] at this
    exact Except.ok.inj this

open ThreadsDemo in
/-- Non-vacuity of C115: with a body of its own for each thread, the same schedule gives 3. -/
example : ∃ b, Body.load (quadOps ℚ) Demo.pts Demo.cells Demo.flds = .ok b ∧
    (∀ u ∈ [0, 0, 0, 1, 0, 0, 0, 0], u ≠ 0 → (sys b id).on u ≠ (sys b id).on 0) ∧
    (((sys b id).run (quadOps ℚ) [0, 0, 0, 1, 0, 0, 0, 0]).threads 0).results = [.ok 3] := by
  obtain ⟨b, hb, _⟩ := C22_load_2d Demo.pts Demo.cells Demo.flds Demo.rect Demo.lens
  refine ⟨b, hb, by simp [sys], ?_⟩
  have : (Body.load (quadOps ℚ) Demo.pts Demo.cells Demo.flds).map (fun b =>
      (((sys b id).run (quadOps ℚ) [0, 0, 0, 1, 0, 0, 0, 0]).threads 0).results) = .ok [.ok 3] := by
    decide +kernel
  rw [hb] at this
  exact Except.ok.inj this

end Verif
