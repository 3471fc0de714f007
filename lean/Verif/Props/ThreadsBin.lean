import Verif.Props.Threads
import Verif.Props.FieldStaleMore
import Verif.Props.Bin

/-!
# C115: threads on one body whose points are in the same bin
-/

namespace Verif
open Spec Mesh PField Body

namespace Par
variable {K : Type} {d : Nat} [Field K] [LinearOrder K] [FloorRing K]

/-- The numbers both memories hold for the passes made so far are those of the query `q`. -/
def Known (min max incr : List K) (q : Query K d) (idx idx' : List Int) (k : Nat) : Prop :=
  ∀ j < k, ∃ v, Bin.idxAt min max incr (List.ofFn q.coord) j = .ok v ∧ idx[j]? = some v ∧ idx'[j]? = some v

/-- What a thread that is at `tt` knows of the shared body `b'`, compared with the body `b` it would have alone. -/
structure Sim (tt : Thread K d) (b b' : Body K d) : Prop where
  mesh : ∃ idx', b'.mesh = (withIdx b idx').mesh
  len : b'.mesh.bin.indices.length = b.mesh.bin.indices.length
  fields : ∀ x ∈ tt.todo, b'.fields[x.1]? = b.fields[x.1]?
  beyond : ∀ j, b.mesh.bin.item.order.toNat ≤ j → b'.mesh.bin.indices[j]? = b.mesh.bin.indices[j]?
  known : ∀ i q rest, tt.todo = (i, q) :: rest →
    match tt.pc with
    | .index k => Known b.mesh.bin.min b.mesh.bin.max b.mesh.bin.incr q b.mesh.bin.indices b'.mesh.bin.indices k
    | .locate _ _ => Known b.mesh.bin.min b.mesh.bin.max b.mesh.bin.incr q b.mesh.bin.indices b'.mesh.bin.indices b.mesh.bin.item.order.toNat
    | .found _ => True

/-- Two lists of evaluations that do not disturb each other: other fields, and the same bin. -/
def Apart (bin : Bin (Interp K d) K) (todo todo' : List (Nat × Query K d)) : Prop :=
  ∀ x ∈ todo, ∀ y ∈ todo', x.1 ≠ y.1 ∧
    ∀ k, Bin.idxAt bin.min bin.max bin.incr (List.ofFn y.2.coord) k = Bin.idxAt bin.min bin.max bin.incr (List.ofFn x.2.coord) k

theorem step_todo (E : ElemOps K d) (t : Thread K d) (b : Body K d) : ∀ x ∈ (step E t b).1.todo, x ∈ t.todo := by
  intro x
  obtain ⟨todo, pc, res⟩ := t
  cases todo with
  | nil => exact id
  | cons y rest =>
    obtain ⟨i, q⟩ := y
    have r : x ∈ rest → x ∈ (i, q) :: rest := fun h => List.mem_cons_of_mem _ h
    simp only [step]
    cases b.fields[i]? with
    | none => exact r
    | some f =>
      cases pc with
      | index k =>
        simp only
        split
        · split
          · exact r
          · exact id
        · exact id
      | locate k l =>
        simp only
        split
        · split
          · exact r
          · exact id
        · split
          · exact r
          · exact id
      | found c => exact r

/-- A step of the thread itself, in the shared body and alone. -/
theorem sim_own (E : ElemOps K d) {tt : Thread K d} {b b' : Body K d} (h : Sim tt b b') :
    (step E tt b').1 = (step E tt b).1 ∧ Sim (step E tt b).1 (step E tt b).2 (step E tt b').2 := by
  obtain ⟨todo, pc, res⟩ := tt
  obtain ⟨⟨idx', hm⟩, hlen, hfld, hbey, hkn⟩ := h
  obtain ⟨mesh', fields'⟩ := b'
  simp only at hm hlen hbey hkn hfld
  subst hm
  simp only [withIdx] at hlen hbey hkn
  cases todo with
  | nil => exact ⟨rfl, ⟨idx', rfl⟩, hlen, hfld, hbey, fun i q rest he => by cases he⟩
  | cons x rest =>
    obtain ⟨i, q⟩ := x
    have hf := hfld (i, q) List.mem_cons_self
    simp only at hf
    have hrest : ∀ x ∈ rest, fields'[x.1]? = b.fields[x.1]? := fun x hx => hfld x (List.mem_cons_of_mem _ hx)
    have k0 := hkn i q rest rfl
    simp only [step, hf]
    cases hbi : b.fields[i]? with
    | none =>
      exact ⟨rfl, ⟨idx', rfl⟩, hlen, hrest, hbey, fun i q r he => by simp [Thread.done, Known]⟩
    | some f =>
      cases pc with
      | index k =>
        simp only [withIdx] at k0 ⊢
        by_cases hk : k < b.mesh.bin.item.order.toNat
        · simp only [hk, if_true]
          cases hi : Bin.idxAt b.mesh.bin.min b.mesh.bin.max b.mesh.bin.incr (List.ofFn q.coord) k with
          | error e =>
            exact ⟨rfl, ⟨idx', rfl⟩, hlen, hrest, hbey, fun i q r he => by simp [Thread.done, Known]⟩
          | ok v =>
            simp only [ok_bind]
            cases h2 : vset b.mesh.bin.indices (k : Nat) v with
            | error e =>
              have h3 : vset idx' (k : Nat) v = .error e := by
                rw [← h2]
                unfold vset at h2 ⊢
                rw [hlen]
                by_cases hc : 0 ≤ ((k : Nat) : Int) ∧ ((k : Nat) : Int).toNat < b.mesh.bin.indices.length
                · rw [if_pos hc] at h2; cases h2
                · rw [if_neg hc, if_neg hc]
              rw [h3]
              exact ⟨rfl, ⟨idx', rfl⟩, hlen, hrest, hbey, fun i q r he => by simp [Thread.done, Known]⟩
            | ok idx =>
              obtain ⟨_, h4, rfl⟩ := vset_ok.mp h2
              simp only [Int.toNat_natCast] at h4 ⊢
              rw [vset_nat idx' k v (by omega)]
              refine ⟨rfl, ⟨idx'.set k v, rfl⟩, by simpa using hlen, hfld, ?_, fun i' q' r he => ?_⟩
              · intro j hj
                have hj' : b.mesh.bin.item.order.toNat ≤ j := hj
                show (idx'.set k v)[j]? = (b.mesh.bin.indices.set k v)[j]?
                rw [List.getElem?_set_ne (by omega), List.getElem?_set_ne (by omega)]
                exact hbey j hj'
              · cases he
                intro j hj
                show ∃ w, Bin.idxAt b.mesh.bin.min b.mesh.bin.max b.mesh.bin.incr (List.ofFn q.coord) j = .ok w ∧
                  (b.mesh.bin.indices.set k v)[j]? = some w ∧ (idx'.set k v)[j]? = some w
                by_cases hjk : j = k
                · subst hjk
                  exact ⟨v, hi, List.getElem?_set_self h4, List.getElem?_set_self (by omega)⟩
                · rw [List.getElem?_set_ne (by omega), List.getElem?_set_ne (by omega)]
                  exact k0 j (by omega)
        · simp only [hk, if_false]
          refine ⟨trivial, ⟨idx', rfl⟩, hlen, hfld, hbey, fun i' q' r he => ?_⟩
          cases he
          exact fun j hj => k0 j (by omega)
      | locate k l =>
        simp only [withIdx] at k0 ⊢
        have same : idx' = b.mesh.bin.indices := by
          apply List.ext_getElem?
          intro j
          by_cases hj : j < b.mesh.bin.item.order.toNat
          · obtain ⟨v, _, e1, e2⟩ := k0 j hj
            rw [e1, e2]
          · exact hbey j (by omega)
        subst same
        cases hu : b.mesh.bin.item.unroll[k]? with
        | some u =>
          simp only
          cases (do let x ← vget b.mesh.bin.indices (k : Nat); let p ← imul x u; iadd l p : Res Int) with
          | error e => exact ⟨rfl, ⟨b.mesh.bin.indices, rfl⟩, rfl, hrest, fun _ _ => rfl, fun i q r he => by simp [Thread.done, Known]⟩
          | ok l' => exact ⟨rfl, ⟨b.mesh.bin.indices, rfl⟩, rfl, hfld, fun _ _ => rfl, fun i' q' r he => by cases he; exact k0⟩
        | none =>
          simp only
          cases b.mesh.bin.item.getLin l with
          | error e => exact ⟨rfl, ⟨b.mesh.bin.indices, rfl⟩, rfl, hrest, fun _ _ => rfl, fun i q r he => by simp [Thread.done, Known]⟩
          | ok content => exact ⟨rfl, ⟨b.mesh.bin.indices, rfl⟩, rfl, hfld, fun _ _ => rfl, fun i' q' r he => trivial⟩
      | found content =>
        simp only
        rcases finish E q f content with ⟨r, f'⟩
        refine ⟨trivial, ⟨idx', rfl⟩, hlen, ?_, hbey, fun i q r he => by simp [Thread.done, Known]⟩
        intro x hx
        show (fields'.set i f')[x.1]? = (b.fields.set i f')[x.1]?
        have l1 : i < fields'.length := (List.getElem?_eq_some_iff.mp (hf.trans hbi)).1
        have l2 : i < b.fields.length := (List.getElem?_eq_some_iff.mp hbi).1
        by_cases e : x.1 = i
        · rw [e, List.getElem?_set_self l1, List.getElem?_set_self l2]
        · rw [List.getElem?_set_ne (Ne.symm e), List.getElem?_set_ne (Ne.symm e)]
          exact hrest x hx

/-- A step of another thread on the same body. -/
theorem sim_other (E : ElemOps K d) {tt uu : Thread K d} {b b' : Body K d} (h : Sim tt b b') (ha : Apart b.mesh.bin tt.todo uu.todo) :
    Sim tt b (step E uu b').2 := by
  obtain ⟨todo, pc, res⟩ := uu
  obtain ⟨⟨idx', hm⟩, hlen, hfld, hbey, hkn⟩ := h
  obtain ⟨mesh', fields'⟩ := b'
  simp only at hm hlen hbey hkn hfld
  subst hm
  simp only [withIdx] at hlen hbey hkn
  have keep : Sim tt b ⟨(withIdx b idx').mesh, fields'⟩ := ⟨⟨idx', rfl⟩, hlen, hfld, hbey, hkn⟩
  cases todo with
  | nil => exact keep
  | cons x rest =>
    obtain ⟨i, q⟩ := x
    simp only [step]
    cases hfi : fields'[i]? with
    | none => exact keep
    | some f =>
      cases pc with
      | index k =>
        simp only
        split
        · rename_i hk
          replace hk : k < b.mesh.bin.item.order.toNat := hk
          split
          · exact keep
          · rename_i idx2 h2
            obtain ⟨v, hv, h2⟩ := bind_eq_ok.mp h2
            obtain ⟨_, h4, rfl⟩ := vset_ok.mp h2
            replace hv : Bin.idxAt b.mesh.bin.min b.mesh.bin.max b.mesh.bin.incr (List.ofFn q.coord) k = .ok v := hv
            replace h4 : k < idx'.length := h4
            have upd : ∀ i' q' rest', tt.todo = (i', q') :: rest' → ∀ n,
                Known b.mesh.bin.min b.mesh.bin.max b.mesh.bin.incr q' b.mesh.bin.indices idx' n →
                Known b.mesh.bin.min b.mesh.bin.max b.mesh.bin.incr q' b.mesh.bin.indices (idx'.set k v) n := by
              intro i' q' rest' he n kn j hj
              obtain ⟨w, w1, w2, w3⟩ := kn j hj
              refine ⟨w, w1, w2, ?_⟩
              by_cases e : j = k
              · subst e
                have e2 := (ha (i', q') (by rw [he]; exact List.mem_cons_self) (i, q) List.mem_cons_self).2 j
                simp only at e2
                rw [hv, w1] at e2
                rw [List.getElem?_set_self h4, Except.ok.inj e2]
              · rw [List.getElem?_set_ne (Ne.symm e)]
                exact w3
            refine ⟨⟨idx'.set k v, rfl⟩, ?_, hfld, ?_, ?_⟩
            · show (idx'.set k v).length = _
              simpa using hlen
            · intro j hj
              show (idx'.set k v)[j]? = _
              rw [List.getElem?_set_ne (by omega)]
              exact hbey j hj
            · intro i' q' rest' he
              have k0 := hkn i' q' rest' he
              show match tt.pc with
                | .index n => Known b.mesh.bin.min b.mesh.bin.max b.mesh.bin.incr q' b.mesh.bin.indices (idx'.set k v) n
                | .locate _ _ => Known b.mesh.bin.min b.mesh.bin.max b.mesh.bin.incr q' b.mesh.bin.indices (idx'.set k v) b.mesh.bin.item.order.toNat
                | .found _ => True
              cases hpc : tt.pc with
              | index n => rw [hpc] at k0; exact upd i' q' rest' he n k0
              | locate n l => rw [hpc] at k0; exact upd i' q' rest' he _ k0
              | found c => trivial
        · exact keep
      | locate k l =>
        simp only
        split
        · split <;> exact keep
        · split <;> exact keep
      | found content =>
        simp only
        rcases finish E q f content with ⟨r, f'⟩
        refine ⟨⟨idx', rfl⟩, hlen, ?_, hbey, hkn⟩
        intro x hx
        show (fields'.set i f')[x.1]? = _
        rw [List.getElem?_set_ne (Ne.symm (ha x hx (i, q) List.mem_cons_self).1)]
        exact hfld x hx

/-- A step alone leaves the grid of the bins as it is. -/
theorem step_grid (E : ElemOps K d) (t : Thread K d) (b : Body K d) : (step E t b).2.mesh.bin.min = b.mesh.bin.min ∧
    (step E t b).2.mesh.bin.max = b.mesh.bin.max ∧ (step E t b).2.mesh.bin.incr = b.mesh.bin.incr := by
  obtain ⟨todo, pc, res⟩ := t
  cases todo with
  | nil => exact ⟨rfl, rfl, rfl⟩
  | cons y rest =>
    obtain ⟨i, q⟩ := y
    simp only [step]
    cases b.fields[i]? with
    | none => exact ⟨rfl, rfl, rfl⟩
    | some f =>
      cases pc with
      | index k =>
        simp only
        split
        · split <;> exact ⟨rfl, rfl, rfl⟩
        · exact ⟨rfl, rfl, rfl⟩
      | locate k l =>
        simp only
        split
        · split <;> exact ⟨rfl, rfl, rfl⟩
        · split <;> exact ⟨rfl, rfl, rfl⟩
      | found c => exact ⟨rfl, rfl, rfl⟩

/-- A thread among others that do not disturb it makes its own steps. -/
theorem run_shared (E : ElemOps K d) (t : Nat) (sched : List Nat) : ∀ (s : Sys K d) (b : Body K d), Sim (s.threads t) b (s.bodies (s.on t)) →
    (∀ u ∈ sched, u ≠ t → s.on u = s.on t → Apart b.mesh.bin (s.threads t).todo (s.threads u).todo) →
    (s.run E sched).threads t = ((pair E)^[sched.count t] (s.threads t, b)).1 := by
  induction sched with
  | nil => intro s b _ _; rfl
  | cons u us ih =>
    intro s b hs ha
    rw [Sys.run]
    by_cases h : u = t
    · subst h
      rw [List.count_cons_self, Function.iterate_succ_apply]
      obtain ⟨e1, e2⟩ := sim_own E hs
      have e3 : (s.step E u).threads u = (step E (s.threads u) b).1 := by simp [Sys.step, e1]
      have e4 : (s.step E u).bodies (s.on u) = (step E (s.threads u) (s.bodies (s.on u))).2 := by simp [Sys.step]
      rw [ih (s.step E u) (step E (s.threads u) b).2 (by rw [e3]; show Sim _ _ ((s.step E u).bodies (s.on u)); rw [e4]; exact e2) ?_, e3]
      · rfl
      · intro v hv hne hon
        have a := ha v (by simp [hv]) hne hon
        obtain ⟨g1, g2, g3⟩ := step_grid E (s.threads u) b
        intro x hx y hy
        rw [e3] at hx
        have hy' : y ∈ (s.threads v).todo := by simpa [Sys.step, hne] using hy
        rw [g1, g2, g3]
        exact a x (step_todo E _ _ x hx) y hy'
    · rw [List.count_cons_of_ne h]
      have e3 : (s.step E u).threads t = s.threads t := by simp [Sys.step, Ne.symm h]
      rw [← e3]
      refine ih (s.step E u) b ?_ ?_
      · rw [e3]
        show Sim _ _ ((s.step E u).bodies (s.on t))
        by_cases hon : s.on u = s.on t
        · have : (s.step E u).bodies (s.on t) = (step E (s.threads u) (s.bodies (s.on t))).2 := by simp [Sys.step, hon]
          rw [this]
          exact sim_other E hs (ha u (by simp) h hon)
        · have : (s.step E u).bodies (s.on t) = s.bodies (s.on t) := by simp [Sys.step, Ne.symm hon]
          rw [this]
          exact hs
      · intro v hv hne hon
        have a := ha v (by simp [hv]) hne hon
        rw [e3]
        intro x hx y hy
        refine a x hx y ?_
        by_cases hvu : v = u
        · subst hvu
          have : y ∈ (step E (s.threads v) (s.bodies (s.on v))).1.todo := by simpa [Sys.step] using hy
          exact step_todo E _ _ y this
        · simpa [Sys.step, hvu] using hy

theorem sim_start (todo : List (Nat × Query K d)) (b : Body K d) : Sim (Thread.start todo) b b :=
  ⟨⟨b.mesh.bin.indices, rfl⟩, rfl, fun _ _ => rfl, fun _ _ => rfl, fun i q r he => by simp [Thread.start, Known]⟩

/-- Points in one bin of a mesh that was read. -/
theorem idxAt_same [IsStrictOrderedRing K] {n : Nat} {E : ElemOps K d} {unit : Fin n → Fin d → K} {pts : List (Fin d → K)} {cells : List (List Nat)} {lo hi : Fin d → K}
    {qs : List (Interp K d)} {m : Mesh K d} (hb : Built E unit pts cells lo hi qs m) {c c' : Fin d → K} (hc : InBins pts c) (hc' : InBins pts c')
    (hs : SameBin pts c c') (k : Nat) :
    Bin.idxAt m.bin.min m.bin.max m.bin.incr (List.ofFn c') k = Bin.idxAt m.bin.min m.bin.max m.bin.incr (List.ofFn c) k := by
  by_cases hk : k < d
  · have e1 : (List.ofFn (gMin pts lo hi))[k]? = some (gMin pts lo hi ⟨k, hk⟩) := by simp [hk]
    have e2 : (List.ofFn (gIncr pts lo hi))[k]? = some (gIncr pts lo hi ⟨k, hk⟩) := by simp [hk]
    have e3 : (List.ofFn (gN pts))[k]? = some (gN pts ⟨k, hk⟩) := by simp [hk]
    have ht := grid_top (pts := pts) (lo := lo) (hi := hi) ⟨k, hk⟩ (hb.npos _)
    have e4 := gridMax_get _ e1 e2 e3
    rw [ht] at e4
    have get : ∀ {l : List K} {x : K}, l[k]? = some x → vget l (k : Nat) = .ok x := by
      intro l x h; unfold vget; simp [h]
    have val : ∀ c : Fin d → K, InBins pts c → Bin.idxAt m.bin.min m.bin.max m.bin.incr (List.ofFn c) k =
        if gIncr pts lo hi ⟨k, hk⟩ = 0 then .error (.ub .overflow) else
          ckInt ⌊(c ⟨k, hk⟩ - gMin pts lo hi ⟨k, hk⟩) / gIncr pts lo hi ⟨k, hk⟩⌋ := by
      intro c hc
      obtain ⟨l1, l2⟩ := hc ⟨k, hk⟩ _ _ (hb.grid.low _) (hb.grid.high _)
      unfold Bin.idxAt
      rw [hb.inv.min_eq, hb.inv.max_eq, hb.inv.incr_eq, get e1, get e2, get e4, get (x := c ⟨k, hk⟩) (by simp [hk])]
      simp only [ok_bind]
      rw [if_neg (not_lt.mpr (show gMin pts lo hi ⟨k, hk⟩ ≤ c ⟨k, hk⟩ from l1)),
        if_neg (not_lt.mpr (show c ⟨k, hk⟩ ≤ hi ⟨k, hk⟩ + gIncr pts lo hi ⟨k, hk⟩ from l2.le))]
    have := hs ⟨k, hk⟩ _ _ (hb.grid.low _) (hb.grid.high _)
    rw [val c hc, val c' hc']
    simp only [gMin, gIncr]
    rw [this]
  · unfold Bin.idxAt
    have : ∀ c : Fin d → K, vget (List.ofFn c) (k : Nat) = .error (.ub .oob) := by
      intro c
      unfold vget
      simp [hk]
    rw [this, this]

end Par

open Par
section
variable {K : Type} {d : Nat} [Field K] [LinearOrder K] [FloorRing K] [IsStrictOrderedRing K]

theorem shared_run (E : ElemOps K d) (s : Sys K d) (t : Nat) (todo : List (Nat × Query K d)) (ht : s.threads t = Thread.start todo) :
    (∀ sched, (∀ u ∈ sched, u ≠ t → s.on u = s.on t → Apart (s.bodies (s.on t)).mesh.bin todo (s.threads u).todo) →
      ((s.run E sched).threads t).results <+: serial E (s.bodies (s.on t)) todo) ∧
    ∃ N, ∀ sched, (∀ u ∈ sched, u ≠ t → s.on u = s.on t → Apart (s.bodies (s.on t)).mesh.bin todo (s.threads u).todo) → N ≤ sched.count t →
      ((s.run E sched).threads t).results = serial E (s.bodies (s.on t)) todo := by
  obtain ⟨N, b', hN⟩ := serial_run E todo [] (s.bodies (s.on t))
  rw [List.nil_append] at hN
  have enough : ∀ n, N ≤ n → ((pair E)^[n] (s.threads t, s.bodies (s.on t))) = (⟨[], .index 0, serial E (s.bodies (s.on t)) todo⟩, b') := by
    intro n hn
    obtain ⟨k, rfl⟩ := Nat.exists_eq_add_of_le' hn
    rw [Function.iterate_add_apply, ht, Thread.start, hN, idle]
  have main : ∀ sched, (∀ u ∈ sched, u ≠ t → s.on u = s.on t → Apart (s.bodies (s.on t)).mesh.bin todo (s.threads u).todo) →
      (s.run E sched).threads t = ((pair E)^[sched.count t] (s.threads t, s.bodies (s.on t))).1 := by
    intro sched ha
    refine run_shared E t sched s _ (by rw [ht]; exact sim_start todo _) ?_
    rw [ht]
    exact ha
  refine ⟨fun sched hs => ?_, N, fun sched hs hc => ?_⟩
  · rw [main sched hs]
    have h2 := results_grow_iter E N ((pair E)^[sched.count t] (s.threads t, s.bodies (s.on t)))
    rw [← Function.iterate_add_apply, enough _ (Nat.le_add_right _ _)] at h2
    exact h2
  · rw [main sched hs, enough _ hc]

theorem same_bin {n : Nat} {E : ElemOps K d} {unit : Fin n → Fin d → K} {R : (a h c : Fin d → K) → Prop} (L : ElemLaw E unit R) {pts : List (Fin d → K)}
    {cells : List (List Nat)} {flds : List (String × List K)} (hm : RectMesh unit pts cells) (hl : ∀ fl ∈ flds, fl.2.length = pts.length) {s : Sys K d} {t : Nat}
    (hb : Body.load E pts cells flds = .ok (s.bodies (s.on t))) {todo : List (Nat × Query K d)} (hin : ∀ x ∈ todo, InBins pts x.2.coord) {u : Nat}
    (h : ∀ x ∈ todo, ∀ y ∈ (s.threads u).todo, x.1 ≠ y.1 ∧ InBins pts y.2.coord ∧ SameBin pts x.2.coord y.2.coord) :
    Apart (s.bodies (s.on t)).mesh.bin todo (s.threads u).todo := by
  obtain ⟨b, lo, hi, qs, e, hB⟩ := load_ok L hm hl
  rw [hb] at e
  cases e
  intro x hx y hy
  obtain ⟨h1, h2, h3⟩ := h x hx y hy
  exact ⟨h1, fun k => idxAt_same hB.mesh (hin x hx) h2 h3 k⟩

end

variable {K : Type} [Field K] [LinearOrder K] [FloorRing K] [IsStrictOrderedRing K]

/-- **C115** (part, 2D) Threads that evaluate different fields of one body do not disturb each other if their points are in the same bin: for any number of threads,
evaluations and schedules, at every moment the results a thread has so far are the first of those it gets alone, and once it has been scheduled often enough it has all of them. The other
threads may also use other bodies, in any way. -/
theorem C115_same_bin_2d_partial (pts : List (Fin 2 → K)) (cells : List (List Nat)) (flds : List (String × List K)) (hm : RectMesh quadUnit pts cells)
    (hl : ∀ fl ∈ flds, fl.2.length = pts.length) (s : Sys K 2) (t : Nat) (hb : Body.load (quadOps K) pts cells flds = .ok (s.bodies (s.on t)))
    (todo : List (Nat × Query K 2)) (ht : s.threads t = Thread.start todo) (hin : ∀ x ∈ todo, InBins pts x.2.coord) :
    (∀ sched, (∀ u ∈ sched, u ≠ t → s.on u = s.on t → ∀ x ∈ todo, ∀ y ∈ (s.threads u).todo,
        x.1 ≠ y.1 ∧ InBins pts y.2.coord ∧ SameBin pts x.2.coord y.2.coord) →
      ((s.run (quadOps K) sched).threads t).results <+: serial (quadOps K) (s.bodies (s.on t)) todo) ∧
    ∃ N, ∀ sched, (∀ u ∈ sched, u ≠ t → s.on u = s.on t → ∀ x ∈ todo, ∀ y ∈ (s.threads u).todo,
        x.1 ≠ y.1 ∧ InBins pts y.2.coord ∧ SameBin pts x.2.coord y.2.coord) → N ≤ sched.count t →
      ((s.run (quadOps K) sched).threads t).results = serial (quadOps K) (s.bodies (s.on t)) todo := by
  obtain ⟨h1, N, h2⟩ := shared_run (quadOps K) s t todo ht
  exact ⟨fun sched hs => h1 sched fun u hu hne hon => same_bin quadLaw hm hl hb hin (hs u hu hne hon),
    N, fun sched hs => h2 sched fun u hu hne hon => same_bin quadLaw hm hl hb hin (hs u hu hne hon)⟩

/-- **C115** (part, 3D) The same. -/
theorem C115_same_bin_3d_partial (pts : List (Fin 3 → K)) (cells : List (List Nat)) (flds : List (String × List K)) (hm : RectMesh hexUnit pts cells)
    (hl : ∀ fl ∈ flds, fl.2.length = pts.length) (s : Sys K 3) (t : Nat) (hb : Body.load (hexOps K) pts cells flds = .ok (s.bodies (s.on t)))
    (todo : List (Nat × Query K 3)) (ht : s.threads t = Thread.start todo) (hin : ∀ x ∈ todo, InBins pts x.2.coord) :
    (∀ sched, (∀ u ∈ sched, u ≠ t → s.on u = s.on t → ∀ x ∈ todo, ∀ y ∈ (s.threads u).todo,
        x.1 ≠ y.1 ∧ InBins pts y.2.coord ∧ SameBin pts x.2.coord y.2.coord) →
      ((s.run (hexOps K) sched).threads t).results <+: serial (hexOps K) (s.bodies (s.on t)) todo) ∧
    ∃ N, ∀ sched, (∀ u ∈ sched, u ≠ t → s.on u = s.on t → ∀ x ∈ todo, ∀ y ∈ (s.threads u).todo,
        x.1 ≠ y.1 ∧ InBins pts y.2.coord ∧ SameBin pts x.2.coord y.2.coord) → N ≤ sched.count t →
      ((s.run (hexOps K) sched).threads t).results = serial (hexOps K) (s.bodies (s.on t)) todo := by
  obtain ⟨h1, N, h2⟩ := shared_run (hexOps K) s t todo ht
  exact ⟨fun sched hs => h1 sched fun u hu hne hon => same_bin hexLaw hm hl hb hin (hs u hu hne hon),
    N, fun sched hs => h2 sched fun u hu hne hon => same_bin hexLaw hm hl hb hin (hs u hu hne hon)⟩

/-! ### Non-vacuity -/

namespace ThreadsDemo

/-- Two threads on one body, with points in one bin. -/
def near (b : Body ℚ 2) : Sys ℚ 2 :=
  ⟨fun _ => 0, fun t => if t = 0 then .start [(0, .value ![1 / 2, 1 / 4])] else if t = 1 then .start [(1, .value ![1 / 4, 1 / 8])] else .start [], fun _ => b⟩

theorem low0 : IsLow Demo.pts 0 0 := by unfold IsLow; decide +kernel
theorem low1 : IsLow Demo.pts 1 0 := by unfold IsLow; decide +kernel
theorem high0 : IsHigh Demo.pts 0 3 := by unfold IsHigh; decide +kernel
theorem high1 : IsHigh Demo.pts 1 1 := by unfold IsHigh; decide +kernel

theorem in_bins {x y : ℚ} (hx : 0 ≤ x ∧ x ≤ 3) (hy : 0 ≤ y ∧ y ≤ 1) : InBins Demo.pts ![x, y] := by
  intro i lo hi l h
  have n0 : (0 : ℚ) < nDistinct Demo.pts 0 := by exact_mod_cast (by decide +kernel : 0 < nDistinct Demo.pts 0)
  have n1 : (0 : ℚ) < nDistinct Demo.pts 1 := by exact_mod_cast (by decide +kernel : 0 < nDistinct Demo.pts 1)
  fin_cases i
  · have e1 := isLow_unique l low0
    have e2 := isHigh_unique h high0
    subst e1 e2
    have : 0 < margin Demo.pts 0 0 3 := div_pos (by norm_num) n0
    constructor
    · show 0 - margin Demo.pts 0 0 3 ≤ x; linarith
    · show x < 3 + margin Demo.pts 0 0 3; linarith
  · have e1 := isLow_unique l low1
    have e2 := isHigh_unique h high1
    subst e1 e2
    have : 0 < margin Demo.pts 1 0 1 := div_pos (by norm_num) n1
    constructor
    · show 0 - margin Demo.pts 1 0 1 ≤ y; linarith
    · show y < 1 + margin Demo.pts 1 0 1; linarith

theorem near_same : SameBin Demo.pts ![1 / 2, 1 / 4] ![1 / 4, 1 / 8] := by
  intro i lo hi l h
  fin_cases i
  · have e1 := isLow_unique l low0
    have e2 := isHigh_unique h high0
    subst e1 e2
    decide +kernel
  · have e1 := isLow_unique l low1
    have e2 := isHigh_unique h high1
    subst e1 e2
    decide +kernel

end ThreadsDemo

open ThreadsDemo in
/-- Two threads on one body, in one bin, steps in turns. -/
example : ∃ b, Body.load (quadOps ℚ) Demo.pts Demo.cells Demo.flds = .ok b ∧
    (∀ x ∈ [(0, Query.value (![1 / 2, 1 / 4] : Fin 2 → ℚ))], InBins Demo.pts x.2.coord) ∧
    (∀ u ∈ [0, 1, 0, 1, 0, 1, 0, 1, 0, 1, 0, 1, 0, 1], u ≠ 0 → (near b).on u = (near b).on 0 → ∀ x ∈ [(0, Query.value (![1 / 2, 1 / 4] : Fin 2 → ℚ))],
      ∀ y ∈ ((near b).threads u).todo, x.1 ≠ y.1 ∧ InBins Demo.pts y.2.coord ∧ SameBin Demo.pts x.2.coord y.2.coord) ∧
    (((near b).run (quadOps ℚ) [0, 1, 0, 1, 0, 1, 0, 1, 0, 1, 0, 1, 0, 1]).threads 0).results = serial (quadOps ℚ) b [(0, .value ![1 / 2, 1 / 4])] ∧
    (serial (quadOps ℚ) b [(0, .value ![1 / 2, 1 / 4])]).length = 1 := by
  obtain ⟨b, hb, _⟩ := C22_load_2d Demo.pts Demo.cells Demo.flds Demo.rect Demo.lens
  refine ⟨b, hb, ?_, ?_, ?_, rfl⟩
  · intro x hx
    rw [List.mem_singleton.mp hx]
    exact in_bins (by norm_num) (by norm_num)
  · intro u hu hne _ x hx y hy
    have hu1 : u = 1 := by simp at hu; omega
    subst hu1
    rw [List.mem_singleton.mp hx]
    have hy' : y ∈ [(1, Query.value (![1 / 4, 1 / 8] : Fin 2 → ℚ))] := hy
    rw [List.mem_singleton.mp hy']
    exact ⟨by decide, in_bins (by norm_num) (by norm_num), near_same⟩
  · have : (Body.load (quadOps ℚ) Demo.pts Demo.cells Demo.flds).map (fun b => decide
        ((((near b).run (quadOps ℚ) [0, 1, 0, 1, 0, 1, 0, 1, 0, 1, 0, 1, 0, 1]).threads 0).results = serial (quadOps ℚ) b [(0, .value ![1 / 2, 1 / 4])])) = .ok true := by
      decide +kernel
    rw [hb] at this
    exact of_decide_eq_true (Except.ok.inj this)

end Verif
