import Verif.Lemmas.ThreadsSeries
import Verif.Props.Series
import Mathlib.Logic.Function.Iterate

/-!
# C136: evaluations of series by several threads
-/

namespace Verif
open Spec
namespace SPar
section
variable {K : Type} [Field K] [LinearOrder K] [FloorRing K]

/-- What a query means: the value or derivative of the series with coefficients `c` over the families `fs`. -/
def Query.meant (fs : List (Family K)) (c : List Int → K) : Query K → K
  | .value x => Spec.series fs (Spec.value fs.length) c x
  | .grad x di => Spec.series fs (gradient fs.length di.toNat) c x
  | .hess x di dj => Spec.series fs (hessian fs.length di.toNat dj.toNat) c x

/-- A point with `n` coordinates, and directions among the first `n`. -/
def Query.Fits (n : Nat) : Query K → Prop
  | .value x => x.length = n
  | .grad x di => x.length = n ∧ 0 ≤ di ∧ di < n
  | .hess x di dj => x.length = n ∧ (0 ≤ di ∧ di < n) ∧ 0 ≤ dj ∧ dj < n

/-- The thread has made all its evaluations. -/
def Thread.Finished (t : Thread K) : Prop := t.todo = [] ∧ t.cur = none

/-! ### One evaluation, whatever the state -/

/-- A series over `fs` with the coefficients of `s0`. -/
def Inv (fs : List (Family K)) (s0 m : Series K) : Prop := Series.WF 0 1 fs m ∧ m.coeff = s0.coeff

theorem ask_of {fs : List (Family K)} {c : List Int → K} {s0 m : Series K} (hc : s0.Coeffs fs c) (h : Inv fs s0 m) (q : Query K) (hq : q.Fits fs.length) :
    ∃ m', ask m q = .ok (q.meant fs c, m') ∧ Inv fs s0 m' := by
  have hcm : Series.HasCoeff m fs c := by
    unfold Series.HasCoeff
    rw [h.2]; exact hc
  cases q with
  | value x =>
    obtain ⟨m', e1, _⟩ := Series.evalAt_of h.1 (le_of_eq hq.symm) hcm
    rw [zero_add] at e1
    have := Series.step_keeps (op := .evalAt x) trivial h.1 (s' := m') (by simp [Series.step, e1])
    exact ⟨m', e1, this.1, (this.2 trivial).trans h.2⟩
  | grad x di =>
    obtain ⟨hx, h0, h1⟩ := hq
    obtain ⟨m', e1, e2⟩ := Series.evalGrad_of h.1 (le_of_eq hx.symm) hcm
    have e3 := e2 di.toNat (by omega)
    rw [zero_add, Int.toNat_of_nonneg h0] at e3
    have := Series.step_keeps (op := .evalGrad x) trivial h.1 (s' := m') e1
    exact ⟨m', by simp only [ask, e1, ok_bind, e3]; rfl, this.1, (this.2 trivial).trans h.2⟩
  | hess x di dj =>
    obtain ⟨hx, ⟨h0, h1⟩, h2, h3⟩ := hq
    obtain ⟨m', e1, e2⟩ := Series.evalHess_of h.1 (le_of_eq hx.symm) hcm
    have e3 := e2 di.toNat dj.toNat (by omega) (by omega)
    rw [zero_add, Int.toNat_of_nonneg h0, Int.toNat_of_nonneg h2] at e3
    have := Series.step_keeps (op := .evalHess x) trivial h.1 (s' := m') e1
    exact ⟨m', by simp only [ask, e1, ok_bind, e3]; rfl, this.1, (this.2 trivial).trans h.2⟩

/-! ### A thread that is not disturbed -/

/-- The thread's evaluation under way will end well, and its results will be `all`. -/
def Good (fs : List (Family K)) (c : List Int → K) (s0 : Series K) (all : List (Res K)) (t : Thread K) (m : Series K) : Prop :=
  (∀ q ∈ t.todo, q.Fits fs.length) ∧
  ((t.cur = none ∧ t.results ++ t.todo.map (fun q => .ok (q.meant fs c)) = all) ∨
    ∃ p y m', t.cur = some p ∧ p.exec m = (.ok y, m') ∧ Inv fs s0 m' ∧ t.results ++ .ok y :: t.todo.map (fun q => .ok (q.meant fs c)) = all)

theorem good_step {fs : List (Family K)} {c : List Int → K} {s0 m : Series K} {all : List (Res K)} {t : Thread K} (hc : s0.Coeffs fs c)
    (h : Good fs c s0 all t m) (hi : t.cur = none → Inv fs s0 m) :
    Good fs c s0 all (step t m).1 (step t m).2 ∧ ((step t m).1.cur = none → Inv fs s0 (step t m).2) := by
  obtain ⟨todo, cur, res⟩ := t
  obtain ⟨hf, ⟨h1, h2⟩ | ⟨p, y, m', h1, h2, h3, h4⟩⟩ := h
  · simp only at h1 h2 hf hi
    subst h1
    cases todo with
    | nil => exact ⟨⟨by simp [step], .inl ⟨rfl, h2⟩⟩, fun _ => hi rfl⟩
    | cons q rest =>
      obtain ⟨m', e1, e2⟩ := ask_of hc (hi rfl) q (hf q (by simp))
      refine ⟨⟨fun r hr => hf r (by simp [hr, step] at hr ⊢; exact .inr hr), .inr ⟨prog m q, _, m', rfl, (prog_exec e1).1, e2, by simpa [step] using h2⟩⟩, fun he => ?_⟩
      simp [step] at he
  · simp only at h1 h4 hf
    subst h1
    cases p with
    | done r =>
      simp only [Prog.exec, Prod.mk.injEq] at h2
      obtain ⟨rfl, rfl⟩ := h2
      exact ⟨⟨hf, .inl ⟨rfl, by simpa [step] using h4⟩⟩, fun _ => h3⟩
    | read a k =>
      simp only [Prog.exec] at h2
      cases e : rd m a with
      | error err => rw [e] at h2; simp at h2
      | ok v =>
        rw [e] at h2
        refine ⟨⟨by simpa [step, e] using hf, .inr ⟨k v, y, m', by simp [step, e], by simpa [step, e] using h2, h3, by simpa [step, e] using h4⟩⟩, fun he => ?_⟩
        simp [step, e] at he
    | write a v p =>
      simp only [Prog.exec] at h2
      cases e : wr m a v with
      | error err => rw [e] at h2; simp at h2
      | ok m1 =>
        rw [e] at h2
        refine ⟨⟨by simpa [step, e] using hf, .inr ⟨p, y, m', by simp [step, e], by simpa [step, e] using h2, h3, by simpa [step, e] using h4⟩⟩, fun he => ?_⟩
        simp [step, e] at he

theorem good_prefix {fs : List (Family K)} {c : List Int → K} {s0 m : Series K} {all : List (Res K)} {t : Thread K} (h : Good fs c s0 all t m) :
    t.results <+: all ∧ (t.Finished → t.results = all) := by
  obtain ⟨_, ⟨h1, h2⟩ | ⟨p, y, m', h1, h2, h3, h4⟩⟩ := h
  · exact ⟨⟨_, h2⟩, fun hf => by rw [← h2, hf.1]; simp⟩
  · exact ⟨⟨_, h4⟩, fun hf => by rw [hf.2] at h1; simp at h1⟩

/-! ### Every evaluation ends, whatever the others do -/

/-- The evaluation ends within `n` steps, whatever is read. -/
inductive Within : Nat → Prog K → Prop where
  | done (n r) : Within n (.done r)
  | read (n a k) : (∀ y, Within n (k y)) → Within (n + 1) (.read a k)
  | write (n a y p) : Within n p → Within (n + 1) (.write a y p)

theorem Within.mono {n m : Nat} {p : Prog K} (h : Within n p) (hm : n ≤ m) : Within m p := by
  induction h generalizing m with
  | done n r => exact .done _ _
  | read n a k _ ih => obtain ⟨m, rfl⟩ : ∃ m', m = m' + 1 := ⟨m - 1, by omega⟩; exact .read _ _ _ fun y => ih y (by omega)
  | write n a y p _ ih => obtain ⟨m, rfl⟩ : ∃ m', m = m' + 1 := ⟨m - 1, by omega⟩; exact .write _ _ _ _ (ih (by omega))

theorem termsP_within (f : Option (Nat → K → K)) (k : Kind) (i : Nat) (x : K) {next : Prog K} {N : Nat} (h : Within N next) (n : Nat) : ∀ t,
    Within (n + N) (termsP f k i x n t next) := by
  induction n with
  | zero => intro t; simpa [termsP] using h
  | succ n ih =>
    intro t
    simp only [termsP]
    cases BasisSet.virt f t x with
    | error e => exact .done _ _
    | ok y => rw [show n + 1 + N = n + N + 1 by omega]; exact .write _ _ _ _ (ih _)

theorem basisP_within (s : Series K) (k : Kind) (var : List K) {next : Prog K} (h : ∃ N, Within N next) (n : Nat) : ∀ i,
    ∃ N, Within N (basisP s k var n i next) := by
  induction n with
  | zero => intro i; exact h
  | succ n ih =>
    intro i
    obtain ⟨N, hN⟩ := ih (i + 1)
    simp only [basisP]
    split
    · exact ⟨0, .done _ _⟩
    · exact ⟨0, .done _ _⟩
    · exact ⟨_, termsP_within _ _ _ _ hN _ _⟩

theorem prodP_within (a : Cell) (ti : List Int) {k : K → Prog K} {N : Nat} (h : ∀ p, Within N (k p)) (n : Nat) : ∀ j tmp,
    Within (n + N) (prodP a ti n j tmp k) := by
  induction n with
  | zero => intro j tmp; simpa [prodP] using h tmp
  | succ n ih =>
    intro j tmp
    simp only [prodP]
    split
    · exact .done _ _
    · rw [show n + 1 + N = n + N + 1 by omega]; exact .read _ _ _ fun y => ih _ _

theorem sumP_within (s : Series K) (a : Cell) {next : Prog K} (h : ∃ N, Within N next) (n : Nat) : ∀ i ti, ∃ N, Within N (sumP s a n i ti next) := by
  induction n with
  | zero => intro i ti; exact h
  | succ n ih =>
    intro i ti
    simp only [sumP]
    split
    · exact ⟨0, .done _ _⟩
    · exact ⟨0, .done _ _⟩
    · rename_i ti' _ _
      obtain ⟨N, hN⟩ := ih (i + 1) ti'
      exact ⟨_, prodP_within _ _ (N := N + 1 + 1) (fun p => .read _ _ _ fun acc => .write _ _ _ _ hN) _ _ _⟩

theorem calcP_within (s : Series K) (a : Cell) {next : Prog K} (h : ∃ N, Within N next) : ∃ N, Within N (calcP s a next) := by
  obtain ⟨N, hN⟩ := sumP_within s a h s.coeff.volume.toNat 0 (List.replicate s.coeff.order.toNat 0)
  exact ⟨N + 1, .write _ _ _ _ hN⟩

theorem gradsP_within (s : Series K) {next : Prog K} (h : ∃ N, Within N next) (n : Nat) : ∀ i, ∃ N, Within N (gradsP s n i next) := by
  induction n with
  | zero => intro i; exact h
  | succ n ih => intro i; exact calcP_within s _ (ih _)

theorem hessRowP_within (s : Series K) (i : Nat) {next : Prog K} (h : ∃ N, Within N next) (n : Nat) : ∀ j, ∃ N, Within N (hessRowP s i n j next) := by
  induction n with
  | zero => intro j; exact h
  | succ n ih => intro j; exact calcP_within s _ (ih _)

theorem hesssP_within (s : Series K) {next : Prog K} (h : ∃ N, Within N next) (n : Nat) : ∀ i, ∃ N, Within N (hesssP s n i next) := by
  induction n with
  | zero => intro i; exact h
  | succ n ih => intro i; exact hessRowP_within s _ (ih _) _ _

theorem prog_within (s : Series K) (q : Query K) : ∃ N, Within N (prog s q) := by
  have hg : ∀ a, ∃ N, Within N (getP (K := K) a) := fun a => ⟨1, .read _ _ _ fun y => .done _ _⟩
  cases q with
  | value x => exact basisP_within s _ _ (calcP_within s _ (hg _)) _ _
  | grad x di => exact basisP_within s _ _ (basisP_within s _ _ (gradsP_within s (hg _) _ _) _ _) _ _
  | hess x di dj => exact basisP_within s _ _ (basisP_within s _ _ (basisP_within s _ _ (hesssP_within s (hg _) _ _) _ _) _ _) _ _

theorem putMember_fixed {k : Kind} {b b' : BasisSet K} {t : Int} {y : K} (h : putMember k b t y = .ok b') : fixed b' = fixed b := by
  cases k <;> simp only [putMember, bind_eq_ok] at h <;> obtain ⟨l, h1, h2⟩ := h <;> cases h2
  · simp only [fixed, Prod.mk.injEq, true_and]
    rw [(vset_ok.mp h1).2.2]; simp
  · rfl
  · rfl

theorem wr_same {a : Cell} {s s' : Series K} {y : K} (h : wr s a y = .ok s') : Same s s' := by
  cases a with
  | basis k i t =>
    simp only [wr, bind_eq_ok] at h
    obtain ⟨b, h1, b', h2, h3⟩ := h
    cases h3
    have hi : 0 ≤ i := by
      simp only [Series.basisAt, bind_eq_ok] at h1
      obtain ⟨o, h1, _⟩ := h1
      exact (vget_ok.mp h1).1
    obtain ⟨j, rfl⟩ := Int.eq_ofNat_of_zero_le hi
    exact same_put h1 (putMember_fixed h2)
  | val => exact (wr_result (a := .val) trivial h).2.1
  | grad di => exact (wr_result (a := .grad di) trivial h).2.1
  | hess di dj => exact (wr_result (a := .hess di dj) trivial h).2.1

theorem step_same (t : Thread K) (m : Series K) : Same m (step t m).2 := by
  obtain ⟨todo, cur, res⟩ := t
  cases cur with
  | none => cases todo <;> exact Same.refl _
  | some p =>
    cases p with
    | done r => exact Same.refl _
    | read a k => simp only [step]; split <;> exact Same.refl _
    | write a y p =>
      simp only [step]
      split
      · exact Same.refl _
      · rename_i h
        exact wr_same h

/-- The thread is finished after `n` more steps, when the series are like `s0` in all that evaluations keep. -/
inductive Left (s0 : Series K) : Nat → Thread K → Prop where
  | finished (n res) : Left s0 n ⟨[], none, res⟩
  | idle (n N q rest res) : Within N (prog s0 q) → (∀ res, Left s0 n ⟨rest, none, res⟩) → Left s0 (N + 1 + n + 1) ⟨q :: rest, none, res⟩
  | busy (n N p todo res) : Within N p → (∀ res, Left s0 n ⟨todo, none, res⟩) → Left s0 (N + 1 + n) ⟨todo, some p, res⟩

theorem left_start (s0 : Series K) (todo : List (Query K)) : ∃ n, ∀ res, Left s0 n ⟨todo, none, res⟩ := by
  induction todo with
  | nil => exact ⟨0, fun res => .finished _ _⟩
  | cons q rest ih =>
    obtain ⟨n, hn⟩ := ih
    obtain ⟨N, hN⟩ := prog_within s0 q
    exact ⟨_, fun res => .idle n N q rest res hN hn⟩

theorem left_step {s0 m : Series K} {n : Nat} {t : Thread K} (h : Left s0 (n + 1) t) (hs : Same s0 m) : Left s0 n (step t m).1 := by
  generalize hk : n + 1 = k at h
  cases h with
  | finished _ res => exact .finished _ _
  | idle n' N q rest res h1 h2 =>
    have : n = N + 1 + n' := by omega
    subst this
    simp only [step]
    exact .busy _ _ _ _ _ (by rw [prog_same hs]; exact h1) h2
  | busy n' N p todo res h1 h2 =>
    cases h1 with
    | done _ r =>
      have : n = N + n' := by omega
      subst this
      simp only [step]
      have : ∀ res, Left s0 (N + n') ⟨todo, none, res⟩ := by
        intro res
        have := h2 res
        generalize hk : n' = k' at this
        cases this with
        | finished _ _ => exact .finished _ _
        | idle n2 N2 q rest _ g1 g2 =>
          rw [show N + (N2 + 1 + n2 + 1) = (N + N2) + 1 + n2 + 1 by omega]
          exact .idle _ _ _ _ _ (g1.mono (by omega)) g2
      exact this _
    | read N' a k h3 =>
      have : n = N' + 1 + n' := by omega
      subst this
      simp only [step]
      split
      · exact .busy _ _ _ _ _ (.done _ _) h2
      · exact .busy _ _ _ _ _ (h3 _) h2
    | write N' a y p h3 =>
      have : n = N' + 1 + n' := by omega
      subst this
      simp only [step]
      split
      · exact .busy _ _ _ _ _ (.done _ _) h2
      · exact .busy _ _ _ _ _ h3 h2

theorem left_zero {s0 : Series K} {t : Thread K} (h : Left s0 0 t) : t.Finished := by
  generalize hk : 0 = k at h
  cases h with
  | finished => exact ⟨rfl, rfl⟩
  | idle => omega
  | busy => omega

theorem left_finished {s0 : Series K} {n : Nat} {t : Thread K} (h : t.Finished) : Left s0 n t := by
  obtain ⟨todo, cur, res⟩ := t
  obtain ⟨h1, h2⟩ := h
  simp only at h1 h2
  subst h1 h2
  exact .finished _ _

theorem run_left (s0 : Nat → Series K) (t : Nat) (sched : List Nat) : ∀ (s : Sys K) (n : Nat), (∀ i, Same (s0 i) (s.series i)) →
    Left (s0 (s.on t)) n (s.threads t) → n ≤ sched.count t → ((s.run sched).threads t).Finished := by
  induction sched with
  | nil =>
    intro s n _ h hn
    obtain rfl : n = 0 := by simpa using hn
    exact left_zero h
  | cons u us ih =>
    intro s n hs h hn
    rw [Sys.run]
    have hs' : ∀ i, Same (s0 i) ((s.step u).series i) := by
      intro i
      simp only [Sys.step]
      split
      · subst_vars; exact (hs _).trans (step_same _ _)
      · exact hs i
    by_cases hu : u = t
    · subst hu
      rw [List.count_cons_self] at hn
      have ht : (s.step u).threads u = (step (s.threads u) (s.series (s.on u))).1 := by simp [Sys.step]
      cases n with
      | zero =>
        refine ih (s.step u) 0 hs' ?_ (by omega)
        have hf := left_zero h
        rw [ht]
        generalize s.threads u = t at hf
        obtain ⟨todo, cur, res⟩ := t
        obtain ⟨h1, h2⟩ := hf
        simp only at h1 h2
        subst h1 h2
        exact .finished _ _
      | succ n =>
        refine ih (s.step u) n hs' ?_ (by omega)
        rw [ht]
        exact left_step h (hs _)
    · rw [List.count_cons_of_ne hu] at hn
      refine ih (s.step u) n hs' ?_ hn
      have : (s.step u).threads t = s.threads t := by simp [Sys.step, Ne.symm hu]
      rw [this]
      exact h

/-- The number of results is the number of evaluations begun and ended. -/
theorem run_count (t : Nat) (sched : List Nat) : ∀ (s : Sys K) (n : Nat),
    (s.threads t).results.length + ((s.threads t).cur.toList.length + (s.threads t).todo.length) = n →
    ((s.run sched).threads t).results.length + (((s.run sched).threads t).cur.toList.length + ((s.run sched).threads t).todo.length) = n := by
  induction sched with
  | nil => intro s n h; exact h
  | cons u us ih =>
    intro s n h
    rw [Sys.run]
    apply ih
    by_cases hu : u = t
    · subst hu
      have ht : (s.step u).threads u = (step (s.threads u) (s.series (s.on u))).1 := by simp [Sys.step]
      rw [ht]
      generalize s.threads u = t at h
      generalize s.series (s.on u) = m
      obtain ⟨todo, cur, res⟩ := t
      simp only at h
      cases cur with
      | none => cases todo <;> simp [step] at h ⊢ <;> omega
      | some p =>
        cases p with
        | done r => simp [step] at h ⊢; omega
        | read a k => simp only [step]; split <;> simpa using h
        | write a y p => simp only [step]; split <;> simpa using h
    · have : (s.step u).threads t = s.threads t := by simp [Sys.step, Ne.symm hu]
      rw [this]
      exact h

/-! ### Schedules -/

theorem run_on (sched : List Nat) : ∀ s : Sys K, (s.run sched).on = s.on := by
  induction sched with
  | nil => intro s; rfl
  | cons t ts ih => intro s; rw [Sys.run, ih]; rfl

/-- The state of a locked system. -/
structure LockInv (fs : Nat → List (Family K)) (c : Nat → List Int → K) (s0 : Nat → Series K) (all : Nat → List (Res K)) (s : Sys K) : Prop where
  thread : ∀ t, Good (fs (s.on t)) (c (s.on t)) (s0 (s.on t)) (all t) (s.threads t) (s.series (s.on t))
  free : ∀ n, (∀ t, s.on t = n → (s.threads t).cur = none) → Inv (fs n) (s0 n) (s.series n)

theorem good_idle {fs : List (Family K)} {c : List Int → K} {s0 m m' : Series K} {all : List (Res K)} {t : Thread K} (h : Good fs c s0 all t m)
    (hi : t.cur = none) : Good fs c s0 all t m' := by
  obtain ⟨h1, h2 | ⟨p, y, m', h3, _⟩⟩ := h
  · exact ⟨h1, .inl h2⟩
  · rw [hi] at h3; simp at h3

theorem lock_step {fs : Nat → List (Family K)} {c : Nat → List Int → K} {s0 : Nat → Series K} {all : Nat → List (Res K)} {s : Sys K}
    (hc : ∀ n, (s0 n).Coeffs (fs n) (c n)) (h : LockInv fs c s0 all s) (t : Nat)
    (hl : ∀ u, u ≠ t → s.on u = s.on t → (s.threads u).cur = none) : LockInv fs c s0 all (s.step t) := by
  have hg := good_step (hc (s.on t)) (h.thread t) (fun he => h.free _ fun u hu => by
    by_cases hut : u = t
    · subst hut; exact he
    · exact hl u hut hu)
  have ht : (s.step t).threads t = (step (s.threads t) (s.series (s.on t))).1 := by simp [Sys.step]
  have hu : ∀ u, u ≠ t → (s.step t).threads u = s.threads u := fun u hne => by simp [Sys.step, hne]
  have hm : (s.step t).series (s.on t) = (step (s.threads t) (s.series (s.on t))).2 := by simp [Sys.step]
  have hn : ∀ n, n ≠ s.on t → (s.step t).series n = s.series n := fun n hne => by simp [Sys.step, hne]
  refine ⟨fun u => ?_, fun n hf => ?_⟩
  · show Good (fs (s.on u)) (c (s.on u)) (s0 (s.on u)) (all u) ((s.step t).threads u) ((s.step t).series (s.on u))
    by_cases hut : u = t
    · subst hut; rw [ht, hm]; exact hg.1
    · rw [hu u hut]
      by_cases ho : s.on u = s.on t
      · exact good_idle (h.thread u) (hl u hut ho)
      · rw [hn _ ho]; exact h.thread u
  · by_cases ho : n = s.on t
    · subst ho
      rw [hm]
      refine hg.2 ?_
      rw [← ht]
      exact hf t rfl
    · rw [hn _ ho]
      refine h.free n fun u hun => ?_
      have := hf u hun
      rwa [hu u (by rintro rfl; exact ho hun.symm)] at this

theorem lock_run {fs : Nat → List (Family K)} {c : Nat → List Int → K} {s0 : Nat → Series K} {all : Nat → List (Res K)}
    (hc : ∀ n, (s0 n).Coeffs (fs n) (c n)) (sched : List Nat) : ∀ s : Sys K, LockInv fs c s0 all s → s.Locked sched → LockInv fs c s0 all (s.run sched) := by
  induction sched with
  | nil => intro s h _; exact h
  | cons t ts ih => intro s h hl; exact ih _ (lock_step hc h t hl.1) hl.2

end
end SPar

open SPar
section
variable {K : Type} [Field K] [LinearOrder K] [FloorRing K]

/-- **C136** (part) Any number of threads evaluate values and derivatives of shared series, one at a time on each series (a lock around each evaluation). Under
every such schedule each thread has as results the values and derivatives of the series at its points, in its order; all of them when it has finished. -/
theorem C136_locked_partial (fs : Nat → List (Family K)) (hg : ∀ n, GoodDims (extents (fs n))) (c : Nat → List Int → K) (s : SPar.Sys K)
    (ho : ∀ n, (s.series n).Over (fs n)) (hc : ∀ n, (s.series n).Coeffs (fs n) (c n)) (todo : Nat → List (SPar.Query K))
    (ht : ∀ t, s.threads t = Thread.start (todo t)) (hq : ∀ t, ∀ q ∈ todo t, q.Fits (fs (s.on t)).length) (sched : List Nat) (hk : s.Locked sched) (t : Nat) :
    ((s.run sched).threads t).results <+: (todo t).map (fun q => .ok (q.meant (fs (s.on t)) (c (s.on t)))) ∧
    (((s.run sched).threads t).Finished →
      ((s.run sched).threads t).results = (todo t).map fun q => .ok (q.meant (fs (s.on t)) (c (s.on t)))) := by
  have h0 : LockInv fs c s.series (fun t => (todo t).map fun q => .ok (q.meant (fs (s.on t)) (c (s.on t)))) s := by
    refine ⟨fun t => ⟨?_, .inl ⟨?_, ?_⟩⟩, fun n _ => ⟨(ho n).wf (hg n), rfl⟩⟩
    · rw [ht]; exact hq t
    · rw [ht]; rfl
    · rw [ht]; rfl
  have h1 := (lock_run hc sched s h0 hk).thread t
  rw [run_on] at h1
  exact good_prefix h1

/-- **C136** (part) A thread that has a series of its own gets the values and derivatives of that series, whatever the other threads do with other series, with
no locks, under every schedule. -/
theorem C136_separate_partial (fs : List (Family K)) (hg : GoodDims (extents fs)) (c : List Int → K) (s : SPar.Sys K) (t : Nat)
    (ho : (s.series (s.on t)).Over fs) (hc : (s.series (s.on t)).Coeffs fs c) (todo : List (SPar.Query K))
    (ht : s.threads t = Thread.start todo) (hq : ∀ q ∈ todo, q.Fits fs.length) (sched : List Nat) (hs : ∀ u ∈ sched, u ≠ t → s.on u ≠ s.on t) :
    ((s.run sched).threads t).results <+: todo.map (fun q => .ok (q.meant fs c)) ∧
    (((s.run sched).threads t).Finished → ((s.run sched).threads t).results = todo.map fun q => .ok (q.meant fs c)) := by
  have key : ∀ (sched : List Nat) (s' : SPar.Sys K), s'.on = s.on → (∀ u ∈ sched, u ≠ t → s.on u ≠ s.on t) →
      Good fs c (s.series (s.on t)) (todo.map fun q => .ok (q.meant fs c)) (s'.threads t) (s'.series (s.on t)) →
      ((s'.threads t).cur = none → Inv fs (s.series (s.on t)) (s'.series (s.on t))) →
      Good fs c (s.series (s.on t)) (todo.map fun q => .ok (q.meant fs c)) ((s'.run sched).threads t) ((s'.run sched).series (s.on t)) := by
    intro sched
    induction sched with
    | nil => intro s' _ _ h _; exact h
    | cons u us ih =>
      intro s' hon hs h hi
      rw [SPar.Sys.run]
      have hg := good_step hc h hi
      by_cases hu : u = t
      · subst hu
        have e1 : (s'.step u).threads u = (SPar.step (s'.threads u) (s'.series (s.on u))).1 := by simp [SPar.Sys.step, hon]
        have e2 : (s'.step u).series (s.on u) = (SPar.step (s'.threads u) (s'.series (s.on u))).2 := by simp [SPar.Sys.step, hon]
        refine ih _ hon (fun v hv => hs v (by simp [hv])) ?_ ?_
        · rw [e1, e2]; exact hg.1
        · rw [e1, e2]; exact hg.2
      · have hne := hs u (by simp) hu
        have e1 : (s'.step u).threads t = s'.threads t := by simp [SPar.Sys.step, Ne.symm hu]
        have e2 : (s'.step u).series (s.on t) = s'.series (s.on t) := by simp [SPar.Sys.step, hon, Ne.symm hne]
        refine ih _ hon (fun v hv => hs v (by simp [hv])) ?_ ?_
        · rw [e1, e2]; exact h
        · rw [e1, e2]; exact hi
  refine good_prefix (key sched s rfl hs ⟨?_, .inl ⟨?_, ?_⟩⟩ fun _ => ⟨ho.wf hg, rfl⟩)
  · rw [ht]; exact hq
  · rw [ht]; rfl
  · rw [ht]; rfl

/-- **C136** Every thread finishes, with a result for every evaluation, once it has made a number of steps that does not depend on the schedule: whatever the
other threads do, with or without locks, on any series in any state. -/
theorem C136_progress (s : SPar.Sys K) (t : Nat) (todo : List (SPar.Query K)) (ht : s.threads t = Thread.start todo) :
    ∃ N, ∀ sched : List Nat, N ≤ sched.count t → ((s.run sched).threads t).Finished ∧ ((s.run sched).threads t).results.length = todo.length := by
  obtain ⟨N, hN⟩ := left_start (s.series (s.on t)) todo
  refine ⟨N, fun sched hn => ?_⟩
  have hf := run_left s.series t sched s N (fun i => Same.refl _) (by rw [ht]; exact hN _) hn
  refine ⟨hf, ?_⟩
  have := run_count t sched s todo.length (by rw [ht]; simp [Thread.start])
  rw [hf.1, hf.2] at this
  simpa using this

end

/-! ### Threads on the same series -/

namespace SerThreadsDemo

/-- Two threads, each with one evaluation at (2,3) of `5 x y^2`, of series `on`. -/
def sys (on : Nat → Nat) : SPar.Sys ℚ :=
  ⟨on, fun t => if t = 0 ∨ t = 1 then .start [.value [2, 3]] else .start [], fun _ => Demo.ser ℚ⟩

/-- The first is interrupted by the second after it has evaluated the basis functions and set the sum to 0. -/
def sched : List Nat := List.replicate 7 0 ++ List.replicate 33 1 ++ List.replicate 26 0

end SerThreadsDemo

open SerThreadsDemo in
/-- **C136** is false for two threads on one series, even at the same point: with this schedule the first gets 180 instead of 90. -/
theorem C136_shared_violated : (((sys fun _ => 0).run sched).threads 0).results = [.ok 180] ∧ (((sys fun _ => 0).run sched).threads 1).results = [.ok 90] ∧
    (SPar.Query.value [2, 3]).meant (Demo.fams ℚ) (fun t => if t = [1, 2] then 5 else 0) = 90 := by
  refine ⟨?_, ?_, ?_⟩ <;> decide +kernel

namespace SerThreadsDemo

/-- A thread that holds the lock for `n` steps while all others are idle. -/
theorem stretch (t n : Nat) (rest : List Nat) : ∀ s : SPar.Sys ℚ, (∀ u, u ≠ t → (s.threads u).cur = none) →
    (∀ s' : SPar.Sys ℚ, s' = s.run (List.replicate n t) → (∀ u, u ≠ t → (s'.threads u).cur = none) → s'.Locked rest) →
    s.Locked (List.replicate n t ++ rest) := by
  induction n with
  | zero => intro s h1 h2; exact h2 s rfl h1
  | succ n ih =>
    intro s h1 h2
    refine ⟨fun u hu _ => h1 u hu, ih (s.step t) (fun u hu => ?_) fun s' hs' => h2 s' (by rw [hs']; rfl)⟩
    have : (s.step t).threads u = s.threads u := by simp [SPar.Sys.step, hu]
    rw [this]
    exact h1 u hu

end SerThreadsDemo

open SerThreadsDemo in
/-- Non-vacuity of C136: with a lock both threads get 90 of the one series. -/
example : ∃ sched, (sys fun _ => 0).Locked sched ∧ (((sys fun _ => 0).run sched).threads 0).results = [.ok 90] ∧
    (((sys fun _ => 0).run sched).threads 1).results = [.ok 90] := by
  refine ⟨List.replicate 33 0 ++ (List.replicate 33 1 ++ []), ?_, by decide +kernel, by decide +kernel⟩
  refine stretch 0 33 _ _ (fun u _ => ?_) fun s' hs' h1 => stretch 1 33 _ s' (fun u hu => ?_) fun _ _ _ => trivial
  · simp only [sys]; split <;> rfl
  · by_cases h : u = 0
    · subst h hs'
      have : (((sys fun _ => 0).run (List.replicate 33 0)).threads 0).cur.isNone = true := by decide +kernel
      exact Option.isNone_iff_eq_none.mp this
    · exact h1 u h

open SerThreadsDemo in
/-- Non-vacuity of C136: with a series of its own the first thread gets 90 under the same schedule. -/
example : (((sys id).run sched).threads 0).results = [.ok 90] := by
  have h := C136_separate_partial (Demo.fams ℚ) (Demo.good ℚ) _ (sys id) 0 Demo.ser_over Demo.ser_coeffs [.value [2, 3]] rfl
    (by intro q hq; simp only [List.mem_singleton] at hq; subst hq; rfl) sched (by decide)
  have hf : (((sys id).run sched).threads 0).Finished := by
    have h1 : (((sys id).run sched).threads 0).todo.length = 0 ∧ (((sys id).run sched).threads 0).cur.isNone = true := by decide +kernel
    exact ⟨List.length_eq_zero_iff.mp h1.1, Option.isNone_iff_eq_none.mp h1.2⟩
  rw [h.2 hf]
  decide +kernel

end Verif
