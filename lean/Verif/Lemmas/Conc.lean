import Verif.Model.Conc

/-! Helper lemmas about threads that share stored numbers. -/

namespace Verif
namespace Conc
variable {C : Type} {A : C → Type} {Q R : Type}

section
variable [DecidableEq C]

/-- From a state in which the numbers `D` are known, the program ends with `res` and writes only `G`, if nobody else writes anything but `W`. -/
def Sound (G W : ∀ c, A c → Prop) (res : Res R) : Prog A R → Mem A → Prop
  | .done r, _ => r = res
  | .read c k, D => ∃ a, D c = some a ∧ Sound G W res (k a) D
  | .write c a next, D => G c a ∧ (∀ b, W c b → b = a) ∧ Sound G W res next (Function.update D c (some a))

theorem sound_mono {G G' W W' : ∀ c, A c → Prop} (hG : ∀ c a, G c a → G' c a) (hW : ∀ c a, W' c a → W c a) {res : Res R} {p : Prog A R} :
    ∀ {D : Mem A}, Sound G W res p D → Sound G' W' res p D := by
  induction p with
  | done r => exact fun h => h
  | read c k ih => rintro D ⟨a, h1, h2⟩; exact ⟨a, h1, ih a h2⟩
  | write c a next ih => rintro D ⟨h1, h2, h3⟩; exact ⟨hG _ _ h1, fun b hb => h2 b (hW _ _ hb), ih h3⟩

/-- The thread's evaluation under way will end with the right result, and its results will be `all`; it writes only `G`, others only `W`. -/
def Good (meant : Q → Res R) (G W : ∀ c, A c → Prop) (all : List (Res R)) (t : Thread Q A R) (m : Mem A) : Prop :=
  (t.cur = none ∧ t.results ++ t.todo.map meant = all) ∨
  ∃ p res D, t.cur = some p ∧ Sound G W res p D ∧ (∀ c a, D c = some a → m c = some a ∧ ∀ b, W c b → b = a) ∧
    t.results ++ res :: t.todo.map meant = all

theorem good_step {code : Q → Prog A R} {meant : Q → Res R} {G W : ∀ c, A c → Prop} {all : List (Res R)} {t : Thread Q A R} {m : Mem A}
    (hs : ∀ q ∈ t.todo, Sound G W (meant q) (code q) (fun _ => none)) (h : Good meant G W all t m) :
    Good meant G W all (step code t m).1 (step code t m).2 ∧
      ((step code t m).2 = m ∨ ∃ c a, G c a ∧ (step code t m).2 = Function.update m c (some a)) := by
  obtain ⟨todo, cur, res⟩ := t
  obtain ⟨h1, h2⟩ | ⟨p, r, D, h1, h2, h3, h4⟩ := h
  · simp only at h1 h2 hs
    subst h1
    cases todo with
    | nil => exact ⟨.inl ⟨rfl, h2⟩, Or.inl (by rfl)⟩
    | cons q rest => exact ⟨.inr ⟨code q, meant q, fun _ => none, rfl, hs q (by simp), by simp, by simpa [step] using h2⟩, .inl rfl⟩
  · simp only at h1 h4 hs
    subst h1
    cases p with
    | done r' =>
      simp only [Sound] at h2
      subst h2
      exact ⟨.inl ⟨rfl, by simpa [step] using h4⟩, .inl rfl⟩
    | read c k =>
      obtain ⟨a, ha, h5⟩ := h2
      simp only [step, (h3 c a ha).1]
      exact ⟨.inr ⟨_, r, D, rfl, h5, h3, h4⟩, Or.inl trivial⟩
    | write c a next =>
      obtain ⟨hg, hW, h5⟩ := h2
      refine ⟨.inr ⟨_, r, _, rfl, h5, fun d b hb => ?_, h4⟩, .inr ⟨c, a, hg, rfl⟩⟩
      by_cases hd : d = c
      · subst hd
        simp only [Function.update_self, Option.some.injEq] at hb
        subst hb
        exact ⟨by simp [step], hW⟩
      · rw [Function.update_of_ne hd] at hb
        exact ⟨by simp only [step]; rw [Function.update_of_ne hd]; exact (h3 d b hb).1, (h3 d b hb).2⟩

theorem step_todo (code : Q → Prog A R) (t : Thread Q A R) (m : Mem A) : ∀ q ∈ (step code t m).1.todo, q ∈ t.todo := by
  obtain ⟨todo, cur, res⟩ := t
  cases cur with
  | none =>
    cases todo with
    | nil => simp [step]
    | cons q rest => intro r hr; simp only [step] at hr; simp [hr]
  | some p =>
    cases p with
    | done r => exact fun q hq => hq
    | read c k => simp only [step]; split <;> exact fun q hq => hq
    | write c a next => exact fun q hq => hq

/-- Writes of others that are allowed do no harm. -/
theorem good_put {meant : Q → Res R} {G W : ∀ c, A c → Prop} {all : List (Res R)} {t : Thread Q A R} {m : Mem A} {c : C} {a : A c}
    (h : Good meant G W all t m) (hw : t.cur = none ∨ W c a) : Good meant G W all t (Function.update m c (some a)) := by
  obtain h | ⟨p, r, D, h1, h2, h3, h4⟩ := h
  · exact .inl h
  · refine .inr ⟨p, r, D, h1, h2, fun d b hb => ?_, h4⟩
    obtain ⟨g1, g2⟩ := h3 d b hb
    refine ⟨?_, g2⟩
    by_cases hd : d = c
    · subst hd
      rw [Function.update_self]
      rcases hw with hw | hw
      · rw [hw] at h1; simp at h1
      · rw [g2 a hw]
    · rw [Function.update_of_ne hd]; exact g1

theorem good_prefix {meant : Q → Res R} {G W : ∀ c, A c → Prop} {all : List (Res R)} {t : Thread Q A R} {m : Mem A} (h : Good meant G W all t m) :
    t.results <+: all ∧ (t.Finished → t.results = all) := by
  obtain ⟨h1, h2⟩ | ⟨p, r, D, h1, h2, h3, h4⟩ := h
  · exact ⟨⟨_, h2⟩, fun hf => by rw [← h2, hf.2]; simp⟩
  · exact ⟨⟨_, h4⟩, fun hf => by rw [hf.1] at h1; simp at h1⟩

/-- The state of object `o` and the threads that evaluate it; thread `u` writes `G u`, other threads than `u` write `W u`. -/
def Inv (meant : Q → Res R) (G W : Nat → ∀ c, A c → Prop) (todo : Nat → List Q) (o : Nat) (s : Sys Q A R) : Prop :=
  ∀ u, s.on u = o → Good meant (G u) (W u) ((todo u).map meant) (s.threads u) (s.mem o) ∧ ∀ q ∈ (s.threads u).todo, q ∈ todo u

theorem inv_step {meant : Q → Res R} {G W : Nat → ∀ c, A c → Prop} {todo : Nat → List Q} {o : Nat} {s : Sys Q A R}
    (hS : ∀ u, s.on u = o → ∀ q ∈ todo u, Sound (G u) (W u) (meant q) (s.code o q) (fun _ => none)) (h : Inv meant G W todo o s) (u : Nat)
    (hu : ∀ t, u ≠ t → s.on u = o → s.on t = o → (s.threads t).cur = none ∨ ∀ c a, G u c a → W t c a) : Inv meant G W todo o (s.step u) := by
  have e1 : (s.step u).threads u = (step (s.code (s.on u)) (s.threads u) (s.mem (s.on u))).1 := by simp [Sys.step]
  have e2 : ∀ v, v ≠ u → (s.step u).threads v = s.threads v := fun v hv => by simp [Sys.step, hv]
  have e3 : (s.step u).mem (s.on u) = (step (s.code (s.on u)) (s.threads u) (s.mem (s.on u))).2 := by simp [Sys.step]
  have e4 : ∀ m, m ≠ s.on u → (s.step u).mem m = s.mem m := fun m hm => by simp [Sys.step, hm]
  intro t ht
  have ht' : s.on t = o := ht
  by_cases ho : s.on u = o
  · obtain ⟨k1, k2⟩ := good_step (code := s.code o) (fun q hq => hS u ho q ((h u ho).2 q hq)) (h u ho).1
    by_cases hut : u = t
    · subst hut
      rw [e1, ho]
      refine ⟨?_, fun q hq => (h u ho).2 q (step_todo _ _ _ q hq)⟩
      have : (s.step u).mem o = (step (s.code o) (s.threads u) (s.mem o)).2 := by rw [ho] at e3; exact e3
      rw [this]
      exact k1
    · rw [e2 t (Ne.symm hut)]
      refine ⟨?_, (h t ht').2⟩
      have : (s.step u).mem o = (step (s.code o) (s.threads u) (s.mem o)).2 := by rw [ho] at e3; exact e3
      rw [this]
      rcases k2 with k2 | ⟨c, y, k3, k4⟩
      · rw [k2]; exact (h t ht').1
      · rw [k4]
        refine good_put (h t ht').1 ?_
        rcases hu t hut ho ht' with h | h
        · exact .inl h
        · exact .inr (h c y k3)
  · have hne : t ≠ u := by rintro rfl; exact ho ht'
    rw [e4 _ (Ne.symm ho), e2 t hne]
    exact h t ht'

theorem inv_start {meant : Q → Res R} {G W : Nat → ∀ c, A c → Prop} {todo : Nat → List Q} {o : Nat} {s : Sys Q A R}
    (ht : ∀ u, s.on u = o → s.threads u = .start (todo u)) : Inv meant G W todo o s := by
  intro u hu
  rw [ht u hu]
  exact ⟨.inl ⟨rfl, rfl⟩, fun q hq => hq⟩

/-- One evaluation at a time. -/
theorem locked_results {meant : Nat → Q → Res R} (s : Sys Q A R)
    (hS : ∀ m q, Sound (fun _ _ => True) (fun _ _ => False) (meant m q) (s.code m q) (fun _ => none))
    (todo : Nat → List Q) (ht : ∀ t, s.threads t = .start (todo t)) (sched : List Nat) (hk : s.Locked sched) (t : Nat) :
    ((s.run sched).threads t).results <+: (todo t).map (meant (s.on t)) ∧
      (((s.run sched).threads t).Finished → ((s.run sched).threads t).results = (todo t).map (meant (s.on t))) := by
  have key : ∀ (sched : List Nat) (s' : Sys Q A R), s'.on = s.on → s'.code = s.code → s'.Locked sched →
      Inv (meant (s.on t)) (fun _ _ _ => True) (fun _ _ _ => False) todo (s.on t) s' →
      (s'.run sched).on = s.on ∧ Inv (meant (s.on t)) (fun _ _ _ => True) (fun _ _ _ => False) todo (s.on t) (s'.run sched) := by
    intro sched
    induction sched with
    | nil => intro s' hon _ _ h; exact ⟨hon, h⟩
    | cons u us ih =>
      intro s' hon hco hl h
      refine ih (s'.step u) hon hco hl.2 (inv_step (fun u _ q _ => by rw [hco]; exact hS _ _) h u
        fun t' hut ho ho' => .inl (hl.1 t' (Ne.symm hut) (ho'.trans ho.symm)))
  obtain ⟨h1, h2⟩ := key sched s rfl rfl hk (inv_start fun u _ => ht u)
  exact good_prefix (h2 t (by rw [h1])).1

/-- Threads that do not write different things into the same cell. -/
theorem shared_results {meant : Q → Res R} {G : Q → ∀ c, A c → Prop} (s : Sys Q A R) (t : Nat) (todo : Nat → List Q)
    (ht : ∀ u, s.on u = s.on t → s.threads u = .start (todo u))
    (hS : ∀ q W, (∀ c a b, G q c a → W c b → b = a) → Sound (G q) W (meant q) (s.code (s.on t) q) (fun _ => none))
    (ha : ∀ u v, s.on u = s.on t → s.on v = s.on t → u ≠ v → ∀ q ∈ todo u, ∀ r ∈ todo v, ∀ c a b, G q c a → G r c b → a = b)
    (sched : List Nat) :
    ((s.run sched).threads t).results <+: (todo t).map meant ∧
      (((s.run sched).threads t).Finished → ((s.run sched).threads t).results = (todo t).map meant) := by
  have key : ∀ (sched : List Nat) (s' : Sys Q A R), s'.on = s.on → s'.code = s.code →
      Inv meant (fun u c a => ∃ q ∈ todo u, G q c a) (fun u c a => ∃ v, v ≠ u ∧ s.on v = s.on t ∧ ∃ r ∈ todo v, G r c a) todo (s.on t) s' →
      (s'.run sched).on = s.on ∧ Inv meant (fun u c a => ∃ q ∈ todo u, G q c a) (fun u c a => ∃ v, v ≠ u ∧ s.on v = s.on t ∧ ∃ r ∈ todo v, G r c a) todo
        (s.on t) (s'.run sched) := by
    intro sched
    induction sched with
    | nil => intro s' hon _ h; exact ⟨hon, h⟩
    | cons u us ih =>
      intro s' hon hco h
      refine ih (s'.step u) hon hco (inv_step (fun v hv q hq => ?_) h u fun t' hut ho ho' => .inr fun c a hca => ⟨u, hut, by rwa [hon] at ho, hca⟩)
      rw [hco]
      rw [hon] at hv
      refine sound_mono (fun c a h => ⟨q, hq, h⟩) (fun c a h => h) (hS q _ ?_)
      rintro c a b h1 ⟨w, hw, how, r, hr, h2⟩
      exact (ha v w hv how (Ne.symm hw) q hq r hr c a b h1 h2).symm
  obtain ⟨h1, h2⟩ := key sched s rfl rfl (inv_start ht)
  exact good_prefix (h2 t (by rw [h1])).1

/-! ### Every evaluation ends, whatever the others do -/

/-- The evaluation ends within `n` steps, whatever is read. -/
inductive Within : Nat → Prog A R → Prop where
  | done (n r) : Within n (.done r)
  | read (n c k) : (∀ a, Within n (k a)) → Within (n + 1) (.read c k)
  | write (n c a p) : Within n p → Within (n + 1) (.write c a p)

omit [DecidableEq C] in
theorem Within.mono {n m : Nat} {p : Prog A R} (h : Within n p) (hm : n ≤ m) : Within m p := by
  induction h generalizing m with
  | done n r => exact .done _ _
  | read n a k _ ih => obtain ⟨m, rfl⟩ : ∃ m', m = m' + 1 := ⟨m - 1, by omega⟩; exact .read _ _ _ fun y => ih y (by omega)
  | write n a y p _ ih => obtain ⟨m, rfl⟩ : ∃ m', m = m' + 1 := ⟨m - 1, by omega⟩; exact .write _ _ _ _ (ih (by omega))

/-- How many more steps the thread takes, at most, each evaluation taking `B`. -/
def Left (B : Nat) (n : Nat) (t : Thread Q A R) : Prop :=
  match t.cur with
  | none => (B + 2) * t.todo.length ≤ n
  | some p => ∃ N, Within N p ∧ N + 1 + (B + 2) * t.todo.length ≤ n

theorem left_step {code : Q → Prog A R} {B : Nat} (hB : ∀ q, Within B (code q)) {n : Nat} {t : Thread Q A R} {m : Mem A} (h : Left B (n + 1) t) :
    Left B n (step code t m).1 := by
  obtain ⟨todo, cur, res⟩ := t
  cases cur with
  | none =>
    cases todo with
    | nil => simp [Left, step]
    | cons q rest =>
      simp only [Left, List.length_cons, Nat.mul_succ] at h
      exact ⟨B, hB q, by show B + 1 + (B + 2) * rest.length ≤ n; omega⟩
  | some p =>
    obtain ⟨N, h1, h2⟩ := h
    simp only at h2
    cases h1 with
    | done _ r => simp only [step, Left]; omega
    | read N' c k h3 =>
      simp only [step]
      split
      · exact ⟨N', .done _ _, by simp only; omega⟩
      · exact ⟨N', h3 _, by simp only; omega⟩
    | write N' c y P h3 => exact ⟨N', h3, by show N' + 1 + (B + 2) * todo.length ≤ n; omega⟩

omit [DecidableEq C] in
theorem left_zero {B : Nat} {t : Thread Q A R} (h : Left B 0 t) : t.Finished := by
  obtain ⟨todo, cur, res⟩ := t
  cases cur with
  | none =>
    cases todo with
    | nil => exact ⟨rfl, rfl⟩
    | cons q rest => simp only [Left, List.length_cons, Nat.mul_succ] at h; omega
  | some p =>
    obtain ⟨N, h1, h2⟩ := h
    omega

theorem run_left (t B : Nat) (sched : List Nat) : ∀ (s : Sys Q A R) (n : Nat), (∀ q, Within B (s.code (s.on t) q)) → Left B n (s.threads t) →
    n ≤ sched.count t → ((s.run sched).threads t).Finished := by
  induction sched with
  | nil =>
    intro s n _ h hn
    obtain rfl : n = 0 := by simpa using hn
    exact left_zero h
  | cons u us ih =>
    intro s n hs h hn
    rw [Sys.run]
    by_cases hu : u = t
    · subst hu
      rw [List.count_cons_self] at hn
      have ht : (s.step u).threads u = (step (s.code (s.on u)) (s.threads u) (s.mem (s.on u))).1 := by simp [Sys.step]
      cases n with
      | zero =>
        refine ih (s.step u) 0 hs ?_ (by omega)
        have hf := left_zero h
        rw [ht]
        generalize s.threads u = t at hf
        obtain ⟨todo, cur, res⟩ := t
        obtain ⟨h1, h2⟩ := hf
        simp only at h1 h2
        subst h1 h2
        simp [Left, step]
      | succ n =>
        refine ih (s.step u) n hs ?_ (by omega)
        rw [ht]
        exact left_step hs h
    · rw [List.count_cons_of_ne hu] at hn
      refine ih (s.step u) n hs ?_ hn
      have : (s.step u).threads t = s.threads t := by simp [Sys.step, Ne.symm hu]
      rw [this]
      exact h

/-- The number of results is the number of evaluations begun and ended. -/
theorem run_count (t : Nat) (sched : List Nat) : ∀ (s : Sys Q A R) (n : Nat),
    (s.threads t).results.length + ((s.threads t).cur.toList.length + (s.threads t).todo.length) = n →
    ((s.run sched).threads t).results.length + (((s.run sched).threads t).cur.toList.length + ((s.run sched).threads t).todo.length) = n := by
  induction sched with
  | nil => intro s n h; exact h
  | cons u us ih =>
    intro s n h
    rw [Sys.run]
    apply ih
    by_cases hu : u = t
    · subst hu
      have ht : (s.step u).threads u = (step (s.code (s.on u)) (s.threads u) (s.mem (s.on u))).1 := by simp [Sys.step]
      rw [ht]
      generalize s.threads u = t at h
      generalize s.mem (s.on u) = m
      obtain ⟨todo, cur, res⟩ := t
      simp only at h
      cases cur with
      | none => cases todo <;> simp [step] at h ⊢ <;> omega
      | some p =>
        cases p with
        | done r => simp [step] at h ⊢; omega
        | read a k => simp only [step]; split <;> simpa using h
        | write a y p => simpa [step] using h
    · have : (s.step u).threads t = s.threads t := by simp [Sys.step, Ne.symm hu]
      rw [this]
      exact h

/-- Every thread finishes. -/
theorem finishes (s : Sys Q A R) (t B : Nat) (hB : ∀ q, Within B (s.code (s.on t) q)) (todo : List Q) (ht : s.threads t = .start todo) (sched : List Nat)
    (hn : (B + 2) * todo.length ≤ sched.count t) : ((s.run sched).threads t).Finished ∧ ((s.run sched).threads t).results.length = todo.length := by
  have hf := run_left t B sched s _ hB (by rw [ht]; exact Nat.le_refl _) hn
  refine ⟨hf, ?_⟩
  have := run_count t sched s todo.length (by rw [ht]; simp [Thread.start])
  rw [hf.1, hf.2] at this
  simpa using this

end
end Conc
end Verif
