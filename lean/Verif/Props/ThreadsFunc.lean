import Verif.Lemmas.ThreadsFunc
import Verif.Props.Func
import Mathlib.Data.Rat.Defs

/-!
# C142: evaluations of functions by several threads
-/

namespace Verif
open Spec
namespace FPar
variable {V O : Type}

/-- What a function is constructed from: name and variables; value, gradient and Hessian functions. -/
structure Parts (V O : Type) where
  base : FBase
  f : SObj V O
  g : List (SObj V O)
  h : List (List (SObj V O))

/-- The number of variables. -/
def Parts.n (a : Parts V O) : Nat := a.base.varName.length

/-- The component functions. -/
def Parts.F (a : Parts V O) : Comp → V → Res O := compFn a.f.evalFn (a.g.map SObj.evalFn) (a.h.map fun r => r.map SObj.evalFn)

/-- The constructor, given the parts, made the function `p`. -/
def Parts.Makes (a : Parts V O) (p : Flex V O) : Prop := Flex.make a.base (some a.f) (hs a.g) (a.h.map hs) = .ok p

theorem Parts.Makes.rep {a : Parts V O} {p : Flex V O} (hp : a.Makes p) : ∃ st, FlexRep a.n a.F st p := by
  have hck := check_eq (⟨a.base, some a.f, hs a.g, a.h.map hs⟩ : Flex V O)
  have hs' : sizesOk a.base (hs a.g) (a.h.map hs) ∧ p = ⟨a.base, some a.f, hs a.g, a.h.map hs⟩ := by
    by_cases hs' : sizesOk a.base (hs a.g) (a.h.map hs)
    · simp only [Parts.Makes, Flex.make, hck.1 hs'] at hp; cases hp; exact ⟨hs', rfl⟩
    · simp only [Parts.Makes, Flex.make, hck.2 hs'] at hp; cases hp
  obtain ⟨⟨_, h2, h3, h4⟩, rfl⟩ := hs'
  exact ⟨_, flexRep_mk a.base a.f a.g a.h (by simpa [hs, Parts.n] using h2) (by simpa [Parts.n] using h3)
    fun r hr => by simpa [hs, Parts.n] using h4 (hs r) (List.mem_map_of_mem hr)⟩

/-! ### One thread -/

/-- The thread's evaluation under way will end with the right result, and its results will be `all`; others write only `W`. -/
def Good (n : Nat) (F : Comp → V → Res O) (W : Comp → O → Prop) (all : List (Res O)) (t : Thread V O) (st : Comp → Option O) : Prop :=
  (t.cur = none ∧ t.results ++ t.todo.map (fun q => q.meant n F) = all) ∨
  ∃ p res D, t.cur = some p ∧ Sound n W res p D ∧ (∀ c y, D c = some y → st c = some y ∧ ∀ z, W c z → z = y) ∧
    t.results ++ res :: t.todo.map (fun q => q.meant n F) = all

/-- The thread's queries are among `todo0`, and so is what it writes. -/
def Tame (n : Nat) (F : Comp → V → Res O) (todo0 : List (FQuery V)) (t : Thread V O) : Prop :=
  (∀ q ∈ t.todo, q ∈ todo0) ∧ ∀ p, t.cur = some p → Writes n (fun c y => ∃ q ∈ todo0, c ∈ q.computes n ∧ F c q.point = .ok y) p

theorem tame_step {n : Nat} {F : Comp → V → Res O} {st : Comp → Option O} {m : Flex V O} {todo0 : List (FQuery V)} {t : Thread V O}
    (hf : ∀ q ∈ todo0, q.Fits n) (hr : FlexRep n F st m) (h : Tame n F todo0 t) :
    Tame n F todo0 (step t m).1 ∧ ((FlexRep n F st (step t m).2) ∨
      ∃ c y, (∃ q ∈ todo0, c ∈ q.computes n ∧ F c q.point = .ok y) ∧ FlexRep n F (put st c y) (step t m).2) := by
  obtain ⟨todo, cur, res⟩ := t
  obtain ⟨h1, h2⟩ := h
  simp only at h1 h2
  cases cur with
  | none =>
    cases todo with
    | nil => exact ⟨⟨by simp [step], by simp [step]⟩, .inl hr⟩
    | cons q rest =>
      refine ⟨⟨fun r hr => h1 r (by simp only [step] at hr; simp [hr]), fun p hp => ?_⟩, .inl hr⟩
      simp only [step, Option.some.injEq] at hp
      subst hp
      have hq := h1 q (by simp)
      rw [prog_of hr (hf q hq)]
      exact writes_mono (fun c y h => ⟨q, hq, h⟩) (progF_writes F (hf q hq))
  | some p =>
    have hp := h2 p rfl
    cases p with
    | done r => exact ⟨⟨h1, by simp [step]⟩, .inl hr⟩
    | read c k =>
      simp only [step]
      split
      · exact ⟨⟨h1, by rintro _ ⟨⟩; trivial⟩, .inl hr⟩
      · exact ⟨⟨h1, by rintro _ ⟨⟩; exact hp.2 _⟩, .inl hr⟩
    | write c y next =>
      obtain ⟨m', e1, e2⟩ := wr_of hr hp.1 y
      simp only [step, e1]
      exact ⟨⟨h1, by rintro _ ⟨⟩; exact hp.2.2⟩, .inr ⟨c, y, hp.2.1, e2⟩⟩

theorem good_step {n : Nat} {F : Comp → V → Res O} {W : Comp → O → Prop} {all : List (Res O)} {st : Comp → Option O} {m : Flex V O} {t : Thread V O}
    (hf : ∀ q ∈ t.todo, q.Fits n ∧ ∀ d ∈ q.computes n, ∀ y z, F d q.point = .ok y → W d z → z = y) (hr : FlexRep n F st m)
    (h : Good n F W all t st) : ∃ st', FlexRep n F st' (step t m).2 ∧ Good n F W all (step t m).1 st' := by
  obtain ⟨todo, cur, res⟩ := t
  obtain ⟨h1, h2⟩ | ⟨p, r, D, h1, h2, h3, h4⟩ := h
  · simp only at h1 h2 hf
    subst h1
    cases todo with
    | nil => exact ⟨st, hr, .inl ⟨rfl, h2⟩⟩
    | cons q rest =>
      obtain ⟨hq, hW⟩ := hf q (by simp)
      refine ⟨st, hr, .inr ⟨progF n F q, q.meant n F, fun _ => none, ?_, progF_sound F hq W hW _, by simp, ?_⟩⟩
      · simp only [step]; rw [prog_of hr hq]
      · simpa [step] using h2
  · simp only at h1 h4 hf
    subst h1
    cases p with
    | done r' =>
      simp only [Sound] at h2
      subst h2
      exact ⟨st, hr, .inl ⟨rfl, by simpa [step] using h4⟩⟩
    | read c k =>
      obtain ⟨hc, y, hy, h5⟩ := h2
      have e := rd_of hr hc (h3 c y hy).1
      simp only [step, e]
      exact ⟨st, hr, .inr ⟨_, r, D, rfl, h5, h3, h4⟩⟩
    | write c y next =>
      obtain ⟨hc, hW, h5⟩ := h2
      obtain ⟨m', e1, e2⟩ := wr_of hr hc y
      simp only [step, e1]
      refine ⟨_, e2, .inr ⟨_, r, put D c y, rfl, h5, fun d z hz => ?_, h4⟩⟩
      by_cases hd : d = c
      · subst hd
        rw [put_self] at hz ⊢
        cases hz
        exact ⟨rfl, hW⟩
      · rw [put_ne hd] at hz ⊢
        exact h3 d z hz

/-- Writes of others that are allowed do no harm. -/
theorem good_put {n : Nat} {F : Comp → V → Res O} {W : Comp → O → Prop} {all : List (Res O)} {st : Comp → Option O} {t : Thread V O} {c : Comp} {y : O}
    (h : Good n F W all t st) (hw : t.cur = none ∨ W c y) : Good n F W all t (put st c y) := by
  obtain h | ⟨p, r, D, h1, h2, h3, h4⟩ := h
  · exact .inl h
  · refine .inr ⟨p, r, D, h1, h2, fun d z hz => ?_, h4⟩
    obtain ⟨g1, g2⟩ := h3 d z hz
    refine ⟨?_, g2⟩
    by_cases hd : d = c
    · subst hd
      rw [put_self]
      rcases hw with hw | hw
      · rw [hw] at h1; simp at h1
      · rw [g2 y hw]
    · rw [put_ne hd]; exact g1

theorem good_prefix {n : Nat} {F : Comp → V → Res O} {W : Comp → O → Prop} {all : List (Res O)} {st : Comp → Option O} {t : Thread V O}
    (h : Good n F W all t st) : t.results <+: all ∧ (t.Finished → t.results = all) := by
  obtain ⟨h1, h2⟩ | ⟨p, r, D, h1, h2, h3, h4⟩ := h
  · exact ⟨⟨_, h2⟩, fun hf => by rw [← h2, hf.2]; simp⟩
  · exact ⟨⟨_, h4⟩, fun hf => by rw [hf.1] at h1; simp at h1⟩

/-! ### Schedules -/

/-- The state, seen from thread `t`, which evaluates a function with the component functions `F`. -/
def Inv (n : Nat) (F : Comp → V → Res O) (W : Comp → O → Prop) (todo : Nat → List (FQuery V)) (t : Nat) (s : Sys V O) : Prop :=
  ∃ st, FlexRep n F st (s.funcs (s.on t)) ∧ Good n F W ((todo t).map fun q => q.meant n F) (s.threads t) st ∧
    ∀ u, s.on u = s.on t → Tame n F (todo u) (s.threads u)

theorem inv_step {n : Nat} {F : Comp → V → Res O} {W : Comp → O → Prop} {todo : Nat → List (FQuery V)} {t : Nat} {s : Sys V O}
    (hf : ∀ u, s.on u = s.on t → ∀ q ∈ todo u, q.Fits n) (hW : ∀ q ∈ todo t, ∀ d ∈ q.computes n, ∀ y z, F d q.point = .ok y → W d z → z = y)
    (h : Inv n F W todo t s) (u : Nat)
    (hu : u ≠ t → s.on u = s.on t → (s.threads t).cur = none ∨ ∀ c y, (∃ q ∈ todo u, c ∈ q.computes n ∧ F c q.point = .ok y) → W c y) :
    Inv n F W todo t (s.step u) := by
  obtain ⟨st, hr, hg, ht⟩ := h
  have e1 : (s.step u).threads u = (step (s.threads u) (s.funcs (s.on u))).1 := by simp [Sys.step]
  have e2 : ∀ v, v ≠ u → (s.step u).threads v = s.threads v := fun v hv => by simp [Sys.step, hv]
  have e3 : (s.step u).funcs (s.on u) = (step (s.threads u) (s.funcs (s.on u))).2 := by simp [Sys.step]
  have e4 : ∀ m, m ≠ s.on u → (s.step u).funcs m = s.funcs m := fun m hm => by simp [Sys.step, hm]
  show ∃ st, FlexRep n F st ((s.step u).funcs (s.on t)) ∧ Good n F W ((todo t).map fun q => q.meant n F) ((s.step u).threads t) st ∧
    ∀ v, s.on v = s.on t → Tame n F (todo v) ((s.step u).threads v)
  by_cases ho : s.on u = s.on t
  · have hr' : FlexRep n F st (s.funcs (s.on u)) := by rw [ho]; exact hr
    obtain ⟨k1, k2⟩ := tame_step (hf u ho) hr' (ht u ho)
    have hT : ∀ v, s.on v = s.on t → Tame n F (todo v) ((s.step u).threads v) := by
      intro v hv
      by_cases hvu : v = u
      · subst hvu; rw [e1]; exact k1
      · rw [e2 v hvu]; exact ht v hv
    rw [← ho, e3]
    by_cases hut : u = t
    · subst hut
      obtain ⟨st', g1, g2⟩ := good_step (fun q hq => ⟨hf u ho q ((ht u ho).1 q hq), hW q ((ht u ho).1 q hq)⟩) hr' hg
      exact ⟨st', g1, by rw [e1]; exact g2, hT⟩
    · rcases k2 with k2 | ⟨c, y, k3, k4⟩
      · exact ⟨st, k2, by rw [e2 t (Ne.symm hut)]; exact hg, fun v hv => hT v (hv.trans ho)⟩
      · refine ⟨_, k4, ?_, fun v hv => hT v (hv.trans ho)⟩
        rw [e2 t (Ne.symm hut)]
        refine good_put hg ?_
        rcases hu hut ho with h | h
        · exact .inl h
        · exact .inr (h c y k3)
  · have hne : t ≠ u := by rintro rfl; exact ho rfl
    rw [e4 _ (Ne.symm ho), e2 t hne]
    refine ⟨st, hr, hg, fun v hv => ?_⟩
    rw [e2 v (by rintro rfl; exact ho hv)]
    exact ht v hv

theorem inv_start {a : Parts V O} {W : Comp → O → Prop} {todo : Nat → List (FQuery V)} {t : Nat} {s : Sys V O} (ha : a.Makes (s.funcs (s.on t)))
    (ht : ∀ u, s.on u = s.on t → s.threads u = .start (todo u)) : Inv a.n a.F W todo t s := by
  obtain ⟨st, hr⟩ := ha.rep
  refine ⟨st, hr, ?_, fun u hu => ?_⟩
  · rw [ht t rfl]; exact .inl ⟨rfl, rfl⟩
  · rw [ht u hu]; exact ⟨fun q hq => hq, by simp [Thread.start]⟩

/-! ### Every evaluation ends, whatever the others do -/

/-- The evaluation ends within `n` steps, whatever is read. -/
inductive Within : Nat → Prog O → Prop where
  | done (n r) : Within n (.done r)
  | read (n c k) : (∀ y, Within n (k y)) → Within (n + 1) (.read c k)
  | write (n c y p) : Within n p → Within (n + 1) (.write c y p)

theorem evalP_within (p : Flex V O) (v : V) (c : Comp) {k : O → Prog O} {N : Nat} (h : ∀ y, Within N (k y)) : Within (N + 1 + 1) (evalP p v c k) := by
  simp only [evalP]
  split
  · exact .done _ _
  · split
    · exact .done _ _
    · exact .write _ _ _ _ (.read _ _ _ h)

theorem loopP_within (p : Flex V O) (v : V) (cs : List Comp) {next : Prog O} {N : Nat} (h : Within N next) : Within (2 * cs.length + N) (loopP p v cs next) := by
  induction cs with
  | nil => simpa [loopP] using h
  | cons c cs ih =>
    rw [List.length_cons, show 2 * (cs.length + 1) + N = 2 * cs.length + N + 1 + 1 by omega]
    exact evalP_within p v c fun _ => ih

/-- The sizes of a function. -/
def shape (p : Flex V O) : Nat × List Nat := (p.grad.length, p.hess.map List.length)

theorem family_shape {p p' : Flex V O} (h : shape p' = shape p) (c : Comp) : family p' c = family p c := by
  simp only [shape, Prod.mk.injEq] at h
  obtain ⟨h1, h2⟩ := h
  have hl : p'.hess.length = p.hess.length := by simpa using congrArg List.length h2
  cases c with
  | f => rfl
  | g i => simp only [family, h1]
  | h i j =>
    simp only [family, hl]
    congr 1
    funext i
    have := congrArg (fun l : List Nat => l[i]?) h2
    simp only [List.getElem?_map] at this
    cases e : p.hess[i]? <;> cases e' : p'.hess[i]? <;> rw [e, e'] at this <;> simp at this ⊢
    rw [this]

theorem prog_within {p p' : Flex V O} (h : shape p' = shape p) (q : FQuery V) : Within (2 * (family p q.comp).length + 2) (prog p' q) := by
  cases q with
  | one c v =>
    have := evalP_within p' v c (k := fun y => .done (.ok y)) (N := 2 * (family p c).length) fun _ => .done _ _
    exact this
  | kept c v =>
    simp only [prog]
    rw [family_shape h]
    exact loopP_within p' v _ (.read _ _ _ fun y => .done _ _)

theorem wr_shape {p p' : Flex V O} {c : Comp} {y : O} (h : wr p c y = .ok p') : shape p' = shape p := by
  simp only [wr, bind_eq_ok] at h
  obtain ⟨o, h1, h2⟩ := h
  cases h2
  cases c with
  | f => rfl
  | g i => simp [shape]
  | h i j =>
    simp only [shape, Prod.mk.injEq, true_and]
    rw [List.map_set]
    apply List.ext_getElem?
    intro k
    rw [List.getElem?_set]
    split
    · rename_i hik
      subst hik
      cases e : p.hess[i]? with
      | none => simp [e]; simpa using e
      | some r =>
        obtain ⟨hl, he⟩ := List.getElem?_eq_some_iff.mp e
        simp [e, hl, he]
    · rfl

theorem step_shape (t : Thread V O) (m : Flex V O) : shape (step t m).2 = shape m := by
  obtain ⟨todo, cur, res⟩ := t
  cases cur with
  | none => cases todo <;> rfl
  | some p =>
    cases p with
    | done r => rfl
    | read c k => simp only [step]; split <;> rfl
    | write c y p =>
      simp only [step]
      split
      · rfl
      · rename_i h; exact wr_shape h

/-- How many more steps the thread takes, at most. -/
inductive Left (p : Flex V O) : Nat → Thread V O → Prop where
  | idle (n : Nat) (todo : List (FQuery V)) (res : List (Res O)) : n ≥ (todo.map fun q => 2 * (family p q.comp).length + 4).sum → Left p n ⟨todo, none, res⟩
  | busy (n N : Nat) (P : Prog O) (todo : List (FQuery V)) (res : List (Res O)) : Within N P → n ≥ N + 1 + (todo.map fun q => 2 * (family p q.comp).length + 4).sum → Left p n ⟨todo, some P, res⟩

theorem left_step {p m : Flex V O} {n : Nat} {t : Thread V O} (h : Left p (n + 1) t) (hs : shape m = shape p) : Left p n (step t m).1 := by
  generalize hk : n + 1 = k at h
  cases h with
  | idle todo res h1 =>
    cases todo with
    | nil => exact .idle _ _ _ (by simp)
    | cons q rest =>
      simp only [step]
      refine .busy _ _ _ _ _ (prog_within hs q) ?_
      simp only [List.map_cons, List.sum_cons] at h1
      omega
  | busy N P todo res h1 h2 =>
    cases h1 with
    | done _ r => exact .idle n todo _ (by omega)
    | read N' c k h3 =>
      simp only [step]
      split
      · exact .busy _ N' _ _ _ (.done _ _) (by omega)
      · exact .busy _ N' _ _ _ (h3 _) (by omega)
    | write N' c y P h3 =>
      simp only [step]
      split
      · exact .busy _ N' _ _ _ (.done _ _) (by omega)
      · exact .busy _ N' _ _ _ h3 (by omega)

theorem left_zero {p : Flex V O} {t : Thread V O} (h : Left p 0 t) : t.Finished := by
  generalize hk : 0 = k at h
  cases h with
  | idle todo res h1 =>
    cases todo with
    | nil => exact ⟨rfl, rfl⟩
    | cons q rest => simp only [List.map_cons, List.sum_cons] at h1; omega
  | busy => omega

theorem run_left (f0 : Nat → Flex V O) (t : Nat) (sched : List Nat) : ∀ (s : Sys V O) (n : Nat), (∀ i, shape (s.funcs i) = shape (f0 i)) →
    Left (f0 (s.on t)) n (s.threads t) → n ≤ sched.count t → ((s.run sched).threads t).Finished := by
  induction sched with
  | nil =>
    intro s n _ h hn
    obtain rfl : n = 0 := by simpa using hn
    exact left_zero h
  | cons u us ih =>
    intro s n hs h hn
    rw [Sys.run]
    have hs' : ∀ i, shape ((s.step u).funcs i) = shape (f0 i) := by
      intro i
      simp only [Sys.step]
      split
      · subst_vars; exact (step_shape _ _).trans (hs _)
      · exact hs i
    by_cases hu : u = t
    · subst hu
      rw [List.count_cons_self] at hn
      have ht : (s.step u).threads u = (step (s.threads u) (s.funcs (s.on u))).1 := by simp [Sys.step]
      cases n with
      | zero =>
        refine ih (s.step u) 0 hs' ?_ (by omega)
        have hf := left_zero h
        rw [ht]
        generalize s.threads u = t at hf
        obtain ⟨todo, cur, res⟩ := t
        obtain ⟨h1, h2⟩ := hf
        simp only at h1 h2
        subst h1 h2
        exact .idle _ _ _ (by simp)
      | succ n =>
        refine ih (s.step u) n hs' ?_ (by omega)
        rw [ht]
        exact left_step h (hs _)
    · rw [List.count_cons_of_ne hu] at hn
      refine ih (s.step u) n hs' ?_ hn
      have : (s.step u).threads t = s.threads t := by simp [Sys.step, Ne.symm hu]
      rw [this]
      exact h

/-- The number of results is the number of evaluations begun and ended. -/
theorem run_count (t : Nat) (sched : List Nat) : ∀ (s : Sys V O) (n : Nat),
    (s.threads t).results.length + ((s.threads t).cur.toList.length + (s.threads t).todo.length) = n →
    ((s.run sched).threads t).results.length + (((s.run sched).threads t).cur.toList.length + ((s.run sched).threads t).todo.length) = n := by
  induction sched with
  | nil => intro s n h; exact h
  | cons u us ih =>
    intro s n h
    rw [Sys.run]
    apply ih
    by_cases hu : u = t
    · subst hu
      have ht : (s.step u).threads u = (step (s.threads u) (s.funcs (s.on u))).1 := by simp [Sys.step]
      rw [ht]
      generalize s.threads u = t at h
      generalize s.funcs (s.on u) = m
      obtain ⟨todo, cur, res⟩ := t
      simp only at h
      cases cur with
      | none => cases todo <;> simp [step] at h ⊢ <;> omega
      | some p =>
        cases p with
        | done r => simp [step] at h ⊢; omega
        | read a k => simp only [step]; split <;> simpa using h
        | write a y p => simp only [step]; split <;> simpa using h
    · have : (s.step u).threads t = s.threads t := by simp [Sys.step, Ne.symm hu]
      rw [this]
      exact h

end FPar

open FPar
variable {V O : Type}

/-- **C142** (part) Any number of threads evaluate values, gradients and Hessians of shared functions, one at a time on each function (a lock around each
evaluation and the getter after it). Under every such schedule each thread has as results what the component functions give at its points, in its order; all
of them when it has finished. -/
theorem C142_locked_partial (a : Nat → Parts V O) (s : FPar.Sys V O) (ha : ∀ m, (a m).Makes (s.funcs m)) (todo : Nat → List (FQuery V))
    (ht : ∀ t, s.threads t = .start (todo t)) (hq : ∀ t, ∀ q ∈ todo t, q.Fits (a (s.on t)).n) (sched : List Nat) (hk : s.Locked sched) (t : Nat) :
    let meant := (todo t).map fun q => q.meant (a (s.on t)).n (a (s.on t)).F
    ((s.run sched).threads t).results <+: meant ∧ (((s.run sched).threads t).Finished → ((s.run sched).threads t).results = meant) := by
  have key : ∀ (sched : List Nat) (s' : FPar.Sys V O), s'.on = s.on → s'.Locked sched →
      FPar.Inv (a (s.on t)).n (a (s.on t)).F (fun _ _ => False) todo t s' → FPar.Inv (a (s.on t)).n (a (s.on t)).F (fun _ _ => False) todo t (s'.run sched) := by
    intro sched
    induction sched with
    | nil => intro s' _ _ h; exact h
    | cons u us ih =>
      intro s' hon hl h
      refine ih (s'.step u) hon hl.2 (inv_step ?_ (by simp) h u fun hut ho => .inl (hl.1 t (Ne.symm hut) ho.symm))
      intro v hv q hqv
      rw [hon] at hv
      rw [← hv]
      exact hq v q hqv
  obtain ⟨st, _, hg, _⟩ := key sched s rfl hk (inv_start (ha _) fun u _ => ht u)
  exact good_prefix hg

/-- **C142** (part) Without locks: a thread gets what the component functions give at its points, under every schedule, if the other threads that evaluate the
same function compute its components only where they have the same value (or throw). So it does if they compute other components, or the same ones at the same
points, or no other thread evaluates the function. -/
theorem C142_shared_partial (a : Parts V O) (s : FPar.Sys V O) (t : Nat) (ha : a.Makes (s.funcs (s.on t))) (todo : Nat → List (FQuery V))
    (ht : ∀ u, s.on u = s.on t → s.threads u = .start (todo u)) (hq : ∀ u, s.on u = s.on t → ∀ q ∈ todo u, q.Fits a.n)
    (hs : ∀ u, u ≠ t → s.on u = s.on t → ∀ q ∈ todo t, ∀ r ∈ todo u, q.Agree a.n a.F r) (sched : List Nat) :
    let meant := (todo t).map fun q => q.meant a.n a.F
    ((s.run sched).threads t).results <+: meant ∧ (((s.run sched).threads t).Finished → ((s.run sched).threads t).results = meant) := by
  have key : ∀ (sched : List Nat) (s' : FPar.Sys V O), s'.on = s.on →
      FPar.Inv a.n a.F (fun c y => ∃ u, u ≠ t ∧ s.on u = s.on t ∧ ∃ q ∈ todo u, c ∈ q.computes a.n ∧ a.F c q.point = .ok y) todo t s' →
      FPar.Inv a.n a.F (fun c y => ∃ u, u ≠ t ∧ s.on u = s.on t ∧ ∃ q ∈ todo u, c ∈ q.computes a.n ∧ a.F c q.point = .ok y) todo t (s'.run sched) := by
    intro sched
    induction sched with
    | nil => intro s' _ h; exact h
    | cons u us ih =>
      intro s' hon h
      refine ih (s'.step u) hon (inv_step (by rw [hon]; exact hq) ?_ h u fun hut ho => .inr fun c y hcy => ⟨u, hut, by rwa [hon] at ho, hcy⟩)
      rintro q hqt d hd y z hy ⟨v, hv, hov, r, hr, hdr, hz⟩
      exact (hs v hv hov q hqt r hr d hd hdr y z hy hz).symm
  obtain ⟨st, _, hg, _⟩ := key sched s rfl (inv_start ha ht)
  exact good_prefix hg

/-- **C142** (part) A thread that has a function of its own gets what the component functions give at its points, whatever the other threads do with other
functions, with no locks, under every schedule. -/
theorem C142_separate_partial (a : Parts V O) (s : FPar.Sys V O) (t : Nat) (ha : a.Makes (s.funcs (s.on t))) (todo : List (FQuery V))
    (ht : s.threads t = .start todo) (hq : ∀ q ∈ todo, q.Fits a.n) (hs : ∀ u, u ≠ t → s.on u ≠ s.on t) (sched : List Nat) :
    let meant := todo.map fun q => q.meant a.n a.F
    ((s.run sched).threads t).results <+: meant ∧ (((s.run sched).threads t).Finished → ((s.run sched).threads t).results = meant) := by
  have hu : ∀ u, s.on u = s.on t → u = t := fun u hu => Classical.byContradiction fun hne => hs u hne hu
  exact C142_shared_partial a s t ha (fun _ => todo) (fun u h => by rw [hu u h]; exact ht) (fun u _ => hq) (fun u hne h => absurd h (hs u hne)) sched

/-- **C142** Every thread finishes, with a result for every evaluation, once it has made a number of steps that does not depend on the schedule: whatever the
other threads do, with or without locks, on any functions in any state. -/
theorem C142_progress (s : FPar.Sys V O) (t : Nat) (todo : List (FQuery V)) (ht : s.threads t = .start todo) :
    ∃ N, ∀ sched : List Nat, N ≤ sched.count t → ((s.run sched).threads t).Finished ∧ ((s.run sched).threads t).results.length = todo.length := by
  refine ⟨(todo.map fun q => 2 * (family (s.funcs (s.on t)) q.comp).length + 4).sum, fun sched hn => ?_⟩
  have hf := run_left s.funcs t sched s _ (fun i => rfl) (by rw [ht]; exact .idle _ _ _ (Nat.le_refl _)) hn
  refine ⟨hf, ?_⟩
  have := run_count t sched s todo.length (by rw [ht]; simp [Thread.start])
  rw [hf.1, hf.2] at this
  simpa using this

/-- **C142** What the threads get is what a program with one thread gets: `meant` is the outcome of the calls on the function, after any history of calls. -/
theorem C142_alone (a : Parts V O) (p : Flex V O) (ha : a.Makes p) (calls : List (FCall V)) (hc : ∀ c ∈ calls, c.InRange a.n) (q : FQuery V)
    (hq : q.Fits a.n) (y : O) (hy : q.meant a.n a.F = .ok y) :
    match q with
    | .one c v => (Flex.sem (single v c) (runCalls Flex.sem calls p).2).1 = .ok (.num y)
    | .kept c v => (runCalls Flex.sem (calls ++ [whole v c, getter c]) p).1.getLast? =
        some (.ok (.num y)) := by
  have hall : ∀ (l : List Comp) (v : V) (r : Res O), (do for c in l do { let _ ← a.F c v }; r) = .ok y → (∀ c ∈ l, isValue (a.F c v) = true) ∧ r = .ok y := by
    intro l v r
    induction l with
    | nil => intro h; exact ⟨by simp, by simpa using h⟩
    | cons c l ih =>
      intro h
      cases e : a.F c v with
      | error er => simp [e] at h
      | ok z =>
        obtain ⟨h1, h2⟩ := ih (by simpa [e] using h)
        refine ⟨fun d hd => ?_, h2⟩
        rcases List.mem_cons.mp hd with rfl | hd
        · rw [e]; rfl
        · exact h1 d hd
  obtain ⟨h1, h2⟩ := hall _ _ _ hy
  have hget : (getter q.comp : FCall V).InRange a.n := by
    cases q with
    | one c v => cases c <;> simp only [getter, FCall.InRange, FQuery.comp] <;> simp only [FQuery.Fits, FQuery.comp] at hq <;> omega
    | kept c v => cases c <;> simp only [getter, FCall.InRange, FQuery.comp] <;> simp only [FQuery.Fits, FQuery.comp] at hq <;> omega
  cases q with
  | one c v =>
    have := C42_components a.base a.f a.g a.h p ha calls hc v c hget
    simp only
    rw [this]
    show (a.F c v).map FOut.num = _
    simp only [FQuery.comp, FQuery.point] at h2
    rw [h2]; rfl
  | kept c v =>
    have hm := comp_mem hq
    obtain ⟨st, hr⟩ := ha.rep
    have hcall : ∀ (call : FCall V), call.InRange a.n → call.evaluates a.n = some (v, (FQuery.kept c v).computes a.n) →
        (runCalls Flex.sem ((calls ++ [call]) ++ [getter c]) p).1.getLast? = some (.ok (.num y)) := by
      intro call hin hev
      rw [run_snoc]
      have hr' := hr.run (calls ++ [call]) (fun d hd => by
        rcases List.mem_append.mp hd with hd | hd
        · exact hc d hd
        · simp only [List.mem_singleton] at hd; subst hd; exact hin)
      rw [hr'.getter c hget]
      have : List.foldl (fun st c => callUpd a.n a.F c st) st (calls ++ [call]) c = some y := by
        rw [List.foldl_append]
        simp only [List.foldl_cons, List.foldl_nil, callUpd, hev, upd]
        have htw : ((FQuery.kept c v).computes a.n).takeWhile (fun c' => isValue (a.F c' v)) = (FQuery.kept c v).computes a.n :=
          by
            have := List.takeWhile_append_of_pos (l₂ := []) (p := fun c' => isValue (a.F c' v)) h1
            simpa using this
        rw [htw, if_pos (show c ∈ _ from hm)]
        simp only [FQuery.comp, FQuery.point] at h2
        rw [h2]
      rw [this]
      rfl
    have := hcall (whole v c)
      (by cases c <;> trivial) (by cases c <;> rfl)
    simpa using this

/-! ### Threads on the same function -/

namespace FuncThreadsDemo

/-- A component function. -/
def obj (fn : ℚ → ℚ) : SObj ℚ ℚ := ⟨"", some fun x => .ok (fn x), none, none, none, none⟩

/-- `x^2`, `2x`, 2. -/
def parts : Parts ℚ ℚ := ⟨⟨"square", ["x"], [""]⟩, obj fun x => x ^ 2, [obj fun x => 2 * x], [[obj fun _ => 2]]⟩

/-- The function. -/
def func : Flex ℚ ℚ := ⟨parts.base, some parts.f, hs parts.g, parts.h.map hs⟩

theorem makes : parts.Makes func := rfl

/-- Two threads on one function: these queries. -/
def sys (q r : FQuery ℚ) : FPar.Sys ℚ ℚ := ⟨fun _ => 0, fun t => if t = 0 then .start [q] else if t = 1 then .start [r] else .start [], fun _ => func⟩

/-- The second thread evaluates between the first one's write and its read. -/
def sched : List Nat := [0, 0, 1, 1, 1, 1, 0, 0]

end FuncThreadsDemo

open FuncThreadsDemo in
/-- **C142** is false for two threads that compute the same component of one function at different points: with this schedule the thread that asked for the
square of 3 gets 25, the square of the other thread's 5. -/
theorem C142_shared_violated : (((sys (.one .f 3) (.one .f 5)).run sched).threads 0).results = [.ok 25] ∧
    (((sys (.one .f 3) (.one .f 5)).run sched).threads 1).results = [.ok 25] ∧ (FQuery.one .f 3).meant 1 parts.F = .ok 9 := by
  refine ⟨?_, ?_, ?_⟩ <;> decide +kernel

open FuncThreadsDemo in
/-- Non-vacuity of C142: value and derivative of one function, at different points, without locks, under the same schedule. -/
example : (((sys (.one .f 3) (.kept (.g 0) 5)).run sched).threads 0).results = [.ok 9] ∧ (((sys (.one .f 3) (.kept (.g 0) 5)).run (sched ++ [1])).threads 1).results = [.ok 10] := by
  have h := C142_shared_partial parts (sys (.one .f 3) (.kept (.g 0) 5)) 0 makes (fun t => if t = 0 then [.one .f 3] else if t = 1 then [.kept (.g 0) 5] else [])
    (fun u _ => by simp only [sys]; split <;> [rfl; (split <;> rfl)])
    (fun u _ q hq => by
      split at hq
      · simp only [List.mem_singleton] at hq; subst hq; trivial
      · split at hq
        · simp only [List.mem_singleton] at hq; subst hq; show 0 < 1; omega
        · simp at hq)
    (fun u hu _ q hq r hr => by
      simp only [if_true, List.mem_singleton] at hq
      rw [if_neg hu] at hr
      split at hr
      · simp only [List.mem_singleton] at hr; subst hq hr
        intro c h1 h2
        simp only [FQuery.computes, List.mem_singleton] at h1
        subst h1
        simp [FQuery.computes] at h2
      · simp at hr) sched
  have hf : (((sys (.one .f 3) (.kept (.g 0) 5)).run sched).threads 0).Finished := by
    have h1 : (((sys (.one .f 3) (.kept (.g 0) 5)).run sched).threads 0).todo.length = 0 ∧
        (((sys (.one .f 3) (.kept (.g 0) 5)).run sched).threads 0).cur.isNone = true := by decide +kernel
    exact ⟨Option.isNone_iff_eq_none.mp h1.2, List.length_eq_zero_iff.mp h1.1⟩
  refine ⟨?_, by decide +kernel⟩
  rw [h.2 hf]
  decide +kernel

open FuncThreadsDemo in
/-- Non-vacuity of C142: with a lock both get what they asked for, though they compute the same component at different points. -/
example : (sys (.one .f 3) (.one .f 5)).Locked [0, 0, 0, 0, 1, 1, 1, 1] ∧
    (((sys (.one .f 3) (.one .f 5)).run [0, 0, 0, 0, 1, 1, 1, 1]).threads 0).results = [.ok 9] ∧
    (((sys (.one .f 3) (.one .f 5)).run [0, 0, 0, 0, 1, 1, 1, 1]).threads 1).results = [.ok 25] := by
  refine ⟨?_, by decide +kernel, by decide +kernel⟩
  have hstep : ∀ (s : FPar.Sys ℚ ℚ) (t u : Nat), u ≠ t → (s.step t).threads u = s.threads u := fun s t u h => by simp [FPar.Sys.step, h]
  have h0 : ∀ u, u ≠ 0 → ((sys (.one .f 3) (.one .f 5)).threads u).cur = none := by
    intro u hu
    simp only [sys, if_neg hu]
    split <;> rfl
  have h1 : ∀ u, u ≠ 1 → (((((sys (.one .f 3) (.one .f 5)).step 0).step 0).step 0).step 0 |>.threads u).cur = none := by
    intro u hu
    by_cases h : u = 0
    · subst h
      have : ((((((sys (.one .f 3) (.one .f 5)).step 0).step 0).step 0).step 0).threads 0).cur.isNone = true := by decide +kernel
      exact Option.isNone_iff_eq_none.mp this
    · simp only [hstep _ _ _ h]; exact h0 u h
  simp only [FPar.Sys.Locked]
  refine ⟨fun u hu _ => h0 u hu, fun u hu _ => ?_, fun u hu _ => ?_, fun u hu _ => ?_, fun u hu _ => h1 u hu, fun u hu _ => ?_, fun u hu _ => ?_, fun u hu _ => ?_, trivial⟩ <;>
    simp only [hstep _ _ _ hu]
  iterate 3 exact h0 u hu
  iterate 3 exact h1 u hu

open FuncThreadsDemo in
/-- Non-vacuity of C142: after any number of other calls, `eval_grad(5)` and then `grad(0)` gives 10. -/
example : (runCalls Flex.sem ([.evalAt 7, .evalGrad 1] ++ [.evalGrad 5, .getGrad 0]) func).1.getLast? = some (.ok (.num 10)) :=
  C142_alone parts func makes [.evalAt 7, .evalGrad 1] (by simp [FCall.InRange]) (.kept (.g 0) 5) (by show 0 < 1; omega) 10 (by decide +kernel)

end Verif
