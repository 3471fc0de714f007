import Verif.Lemmas.ThreadsPiecewise
import Mathlib.Data.Rat.Defs

/-!
# C143: evaluations of piecewise functions by several threads
-/

namespace Verif
open Spec
variable {V O : Type}

/-- **C143** (part) With one evaluation of a function at a time, every thread gets, for each of its queries, what the pieces give at its point, whatever was
stored in the function before. -/
theorem C143_locked_partial (p : Nat → PWSimple V O) (on : Nat → Nat) (todo : Nat → List (PQuery V)) (mem : Nat → Conc.Mem (PWPar.Val O)) (sched : List Nat)
    (hk : (PWPar.start p on todo mem).Locked sched) (t : Nat) :
    let th := ((PWPar.start p on todo mem).run sched).threads t
    let meant := (todo t).map fun q => q.meant (PWPar.parts (p (on t)))
    th.results <+: meant ∧ (th.Finished → th.results = meant) :=
  Conc.locked_results (meant := fun m q => q.meant (PWPar.parts (p m))) (PWPar.start p on todo mem)
    (fun m q => by
      have := PWPar.prog_sound (p m) q (fun _ _ => False) (by simp) (fun _ => none)
      rw [PWPar.alone_meant] at this
      exact Conc.sound_mono (fun _ _ _ => trivial) (fun _ _ h => h) this)
    todo (fun _ => rfl) sched hk t

/-- **C143** (part) Without locks: the threads that evaluate one function get, under every schedule, what the pieces give at their points, if no two of them use
points that are on different sides of a condition or at which they ask for different values. So they do if they use the same points. -/
theorem C143_shared_partial (p : Nat → PWSimple V O) (on : Nat → Nat) (todo : Nat → List (PQuery V)) (mem : Nat → Conc.Mem (PWPar.Val O)) (t : Nat)
    (ha : ∀ u v, on u = on t → on v = on t → u ≠ v → ∀ q ∈ todo u, ∀ r ∈ todo v, q.Agree (PWPar.parts (p (on t))) r) (sched : List Nat) :
    let th := ((PWPar.start p on todo mem).run sched).threads t
    let meant := (todo t).map fun q => q.meant (PWPar.parts (p (on t)))
    th.results <+: meant ∧ (th.Finished → th.results = meant) := by
  refine Conc.shared_results (G := PWPar.Writes (p (on t))) (meant := fun q => q.meant (PWPar.parts (p (on t)))) (PWPar.start p on todo mem) t todo (fun _ _ => rfl)
    (fun q W hW => ?_) (fun u v hu hv huv q hq r hr c a b h1 h2 => ?_) sched
  · have := PWPar.prog_sound (p (on t)) q W hW (fun _ => none)
    rw [PWPar.alone_meant] at this
    exact this
  · obtain ⟨k1, k2⟩ := ha u v hu hv huv q hq r hr
    have hval : ∀ (a b : O), (∃ v, q = .value v ∧ PWSimple.eval (p (on t)).pieces v = .ok a) → (∃ v, r = .value v ∧ PWSimple.eval (p (on t)).pieces v = .ok b) → a = b := by
      rintro a b ⟨x, rfl, hx⟩ ⟨y, rfl, hy⟩
      refine k2 x y rfl rfl a b ?_ ?_
      · rw [PWPar.parts, ← PWPar.alone_meant]; simp only [PWPar.alone, hx]; rfl
      · rw [PWPar.parts, ← PWPar.alone_meant]; simp only [PWPar.alone, hy]; rfl
    cases c with
    | whole => exact hval a b h1 h2
    | piece k => exact hval a b h1 h2
    | expr k => exact hval a b h1 h2
    | cond k i =>
      obtain ⟨pc, cn, e1, e2, e3⟩ := h1
      obtain ⟨pc', cn', f1, f2, f3⟩ := h2
      obtain rfl : pc = pc' := by rw [e1] at f1; exact Option.some.inj f1
      obtain rfl : cn = cn' := by rw [e2] at f2; exact Option.some.inj f2
      exact k1 (PWPar.part pc) (List.mem_map_of_mem (List.mem_of_getElem? e1)) (condAt cn) (List.mem_map_of_mem (List.mem_of_getElem? e2)) a b e3 f3

/-- **C143** (part) A thread that has a function of its own gets what its pieces give, whatever the other threads do with other functions, with no locks, under
every schedule. -/
theorem C143_separate_partial (p : Nat → PWSimple V O) (on : Nat → Nat) (todo : Nat → List (PQuery V)) (mem : Nat → Conc.Mem (PWPar.Val O)) (t : Nat)
    (hs : ∀ u, u ≠ t → on u ≠ on t) (sched : List Nat) :
    let th := ((PWPar.start p on todo mem).run sched).threads t
    let meant := (todo t).map fun q => q.meant (PWPar.parts (p (on t)))
    th.results <+: meant ∧ (th.Finished → th.results = meant) := by
  have hu : ∀ u, on u = on t → u = t := fun u hu => Classical.byContradiction fun hne => hs u hne hu
  exact C143_shared_partial p on todo mem t (fun u v h1 h2 huv => absurd ((hu u h1).trans (hu v h2).symm) huv) sched

/-- **C143** Every thread finishes, with a result for every query, once it has made a number of steps that depends only on its function and on how many queries
it has: whatever the other threads do, with or without locks. -/
theorem C143_progress (p : Nat → PWSimple V O) (on : Nat → Nat) (todo : Nat → List (PQuery V)) (mem : Nat → Conc.Mem (PWPar.Val O)) (t : Nat) (sched : List Nat)
    (hn : (8 + ((PWPar.parts (p (on t))).map fun q => 2 * q.conds.length).sum) * (todo t).length ≤ sched.count t) :
    let th := ((PWPar.start p on todo mem).run sched).threads t
    th.Finished ∧ th.results.length = (todo t).length := by
  refine Conc.finishes (PWPar.start p on todo mem) t (6 + PWPar.bound (p (on t)).pieces) (fun q => PWPar.prog_within _ q) (todo t) rfl sched ?_
  have : ((PWPar.parts (p (on t))).map fun q => 2 * q.conds.length) = (p (on t)).pieces.map fun q => 2 * q.conds.length := by
    simp [PWPar.parts, PWPar.part, Function.comp_def]
  rw [this] at hn
  simp only [PWPar.bound]
  calc _ = _ := by congr 1; omega
    _ ≤ _ := hn

/-- **C143** What the threads should get is what a program with one thread gets from the same object. -/
theorem C143_alone (p : PWSimple V O) (v : V) :
    PWSimple.eval p.pieces v = ((PQuery.value v).meant (PWPar.parts p)).bind (fun o => match o with | .num y => .ok y | _ => .error (.ub .badCall)) ∧
    ((PQuery.inPiece v).meant (PWPar.parts p) = (PWSimple.inPiece p.pieces v).map .bool) ∧
    ((PQuery.piece v).meant (PWPar.parts p) = (PWSimple.piece p.pieces 0 v).map .index) := by
  simp only [PWPar.parts, ← PWPar.alone_meant, PWPar.alone, and_self, and_true]
  cases PWSimple.eval p.pieces v <;> rfl

/-! ### Threads on the same function -/

namespace PieceThreadsDemo

/-- A condition or an expression. -/
def obj {O : Type} (fn : ℚ → Res O) : SFun ℚ O := some ⟨"", some fn, none, none, none, none⟩

/-- `-1` where `x < 0`, `1` where `x ≥ 0`; at 7 the second condition throws. -/
def sign : PWSimple ℚ ℚ := ⟨[⟨"", obj fun _ => .ok (-1), [obj fun x => .ok (decide (x < 0))]⟩,
  ⟨"", obj fun _ => .ok 1, [obj fun x => if x = 7 then .error .runtimeError else .ok (decide (0 ≤ x))]⟩]⟩

/-- Two threads on one function: these queries. -/
def sys (q r : PQuery ℚ) : Conc.Sys (PQuery ℚ) (PWPar.Val ℚ) (POut ℚ) :=
  PWPar.start (fun _ => sign) (fun _ => 0) (fun t => if t = 0 then [q] else if t = 1 then [r] else []) (fun _ _ => none)

/-- Thread 0 writes what its condition gives, then thread 1 does; then thread 0 goes on, and then thread 1. -/
def sched : List Nat := [0, 0, 1, 1] ++ List.replicate 12 0 ++ List.replicate 12 1

end PieceThreadsDemo

open PieceThreadsDemo in
/-- **C143** is false for two threads that evaluate one function on different sides of a condition: with this schedule the thread at 1 gets -1, the value at
negative numbers; the thread at -1 gets `std::domain_error`, although every number is in a piece, and is told the same if it asks whether it is. -/
theorem C143_shared_violated :
    (((sys (.value 1) (.value (-1))).run sched).threads 0).results = [.ok (.num (-1))] ∧ (PQuery.value 1).meant (PWPar.parts sign) = .ok (.num 1) ∧
    (((sys (.value (-1)) (.value 1)).run sched).threads 0).results = [.error .domainError] ∧ (PQuery.value (-1)).meant (PWPar.parts sign) = .ok (.num (-1)) ∧
    (((sys (.inPiece (-1)) (.value 1)).run sched).threads 0).results = [.ok (.bool false)] ∧
    (PQuery.inPiece (-1)).meant (PWPar.parts sign) = .ok (.bool true) := by
  refine ⟨?_, ?_, ?_, ?_, ?_, ?_⟩ <;> decide +kernel

open PieceThreadsDemo in
/-- Non-vacuity of C143: two threads on the same side of the conditions, at different points, without locks. -/
example : (((sys (.value 1) (.value 2)).run sched).threads 0).results = [.ok (.num 1)] := by
  have h := C143_shared_partial (fun _ => sign) (fun _ => 0) (fun t => if t = 0 then [.value 1] else if t = 1 then [.value 2] else []) (fun _ _ => none) 0
    (fun u v _ _ _ q hq r hr => by
      have hm : ∀ (w : Nat) (q : PQuery ℚ), q ∈ (if w = 0 then [PQuery.value (1 : ℚ)] else if w = 1 then [.value 2] else []) → q = .value 1 ∨ q = .value 2 := by
        intro w q hq
        split at hq
        · simp at hq; exact .inl hq
        · split at hq
          · simp at hq; exact .inr hq
          · simp at hq
      have e1 : (PQuery.value 1).meant (PWPar.parts sign) = .ok (.num 1) := by decide +kernel
      have e2 : (PQuery.value 2).meant (PWPar.parts sign) = .ok (.num 1) := by decide +kernel
      refine ⟨fun p hp c hc a b ea eb => ?_, fun x y ex ey a b ea eb => ?_⟩
      · simp only [PWPar.parts, sign, List.map_cons, List.map_nil, List.mem_cons, List.not_mem_nil, or_false] at hp
        rcases hp with rfl | rfl <;> simp only [PWPar.part, List.map_cons, List.map_nil, List.mem_singleton] at hc <;> subst hc <;>
          rcases hm u q hq with rfl | rfl <;> rcases hm v r hr with rfl | rfl <;>
          simp [condAt, obj, SObj.evalFn, PQuery.point] at ea eb <;> rw [← ea, ← eb] <;> decide +kernel
      · rcases hm u q hq with rfl | rfl <;> rcases hm v r hr with rfl | rfl <;> simp_all) sched
  have hf : (((sys (.value 1) (.value 2)).run sched).threads 0).Finished := by
    have h1 : (((sys (.value 1) (.value 2)).run sched).threads 0).todo.length = 0 ∧
        (((sys (.value 1) (.value 2)).run sched).threads 0).cur.isNone = true := by decide +kernel
    exact ⟨Option.isNone_iff_eq_none.mp h1.2, List.length_eq_zero_iff.mp h1.1⟩
  refine (h.2 hf).trans ?_
  decide +kernel

open PieceThreadsDemo in
/-- Non-vacuity of C143: an exception of a condition, `std::domain_error` where there is no piece, and the index of a piece. -/
example : (PQuery.value 7).meant (PWPar.parts sign) = .error .runtimeError ∧ (PQuery.piece 3).meant (PWPar.parts sign) = .ok (.index 1) ∧
    (PQuery.piece 3).meant (PWPar.parts (⟨[]⟩ : PWSimple ℚ ℚ)) = .error .domainError := by
  refine ⟨?_, ?_, ?_⟩ <;> decide +kernel

open PieceThreadsDemo in
/-- Non-vacuity of C143: with a lock both get what they asked for, on different sides of a condition. -/
example : (sys (.value (-1)) (.value 1)).Locked (List.replicate 12 0 ++ List.replicate 14 1) ∧
    (((sys (.value (-1)) (.value 1)).run (List.replicate 12 0 ++ List.replicate 14 1)).threads 0).results = [.ok (.num (-1))] ∧
    (((sys (.value (-1)) (.value 1)).run (List.replicate 12 0 ++ List.replicate 14 1)).threads 1).results = [.ok (.num 1)] := by
  refine ⟨?_, by decide +kernel, by decide +kernel⟩
  have hstep : ∀ (s : Conc.Sys (PQuery ℚ) (PWPar.Val ℚ) (POut ℚ)) (t u : Nat), u ≠ t → (s.step t).threads u = s.threads u :=
    fun s t u h => by simp [Conc.Sys.step, h]
  have hrep : ∀ (n t : Nat) (rest : List Nat) (s : Conc.Sys (PQuery ℚ) (PWPar.Val ℚ) (POut ℚ)), (∀ u, u ≠ t → (s.threads u).cur = none) →
      ((s.run (List.replicate n t)).Locked rest) → s.Locked (List.replicate n t ++ rest) := by
    intro n t rest
    induction n with
    | zero => intro s _ h; exact h
    | succ n ih => exact fun s h1 h2 => ⟨fun u hu _ => h1 u hu, ih _ (fun u hu => by rw [hstep _ _ _ hu]; exact h1 u hu) h2⟩
  have hrun : ∀ (n t : Nat) (s : Conc.Sys (PQuery ℚ) (PWPar.Val ℚ) (POut ℚ)) (u : Nat), u ≠ t → (s.run (List.replicate n t)).threads u = s.threads u := by
    intro n t
    induction n with
    | zero => intro s u _; rfl
    | succ n ih => exact fun s u hu => (ih _ u hu).trans (hstep s t u hu)
  have h0 : ∀ u, ((sys (.value (-1)) (.value 1)).threads u).cur = none := fun u => rfl
  refine hrep 12 0 _ _ (fun u _ => h0 u) ?_
  rw [← List.append_nil (List.replicate 14 1)]
  refine hrep 14 1 _ _ (fun u hu => ?_) trivial
  by_cases h : u = 0
  · subst h
    have : (((sys (.value (-1)) (.value 1)).run (List.replicate 12 0)).threads 0).cur.isNone = true := by decide +kernel
    exact Option.isNone_iff_eq_none.mp this
  · rw [hrun _ _ _ _ h]; exact h0 u

end Verif
