import Verif.Lemmas.BodyCopy
import Verif.Lemmas.RoundedId
import Mathlib.Data.Rat.Floor

/-!
# C144: copies of bodies
-/

namespace Verif
open Spec
namespace BodyCopy
open Fl
variable {K : Type} {d : Nat} [Field K] [LinearOrder K] [FloorRing K] {rnd : K → K} {E : ElemOps K d}

/-- The objects in memory behave as the values: the object of a variable has the fields, over the mesh of its origin, which is the same but for scratch
memory. -/
def Rep (s : Store K d) (t : CopyVars (Body K d)) : Prop :=
  s.next = t.next ∧ (∀ v, t.next ≤ v → t.val v = none) ∧ (∀ v, t.val v = none → s.obj v = none) ∧
  ∀ v b, t.val v = some b → (∃ ob, s.obj v = some ob ∧ SameMesh b.mesh ob.mesh ∧ ob.fields = b.fields.map fun f => (t.origin v, f)) ∧
    (∃ r, s.obj (t.origin v) = some r ∧ SameMesh b.mesh r.mesh) ∧ (∃ bo, t.val (t.origin v) = some bo) ∧ t.origin (t.origin v) = t.origin v

theorem rep_start : Rep (Store.start : Store K d) CopyVars.start := ⟨rfl, fun _ _ => rfl, fun _ _ => rfl, fun v b h => by simp [CopyVars.start] at h⟩

/-- A variable gets a value of its own, or that of another variable. -/
theorem rep_put {s : Store K d} {t : CopyVars (Body K d)} (h : Rep s t) {v : Nat} (hv : v < t.next) {b : Body K d} {ob : Obj K d} {o : Nat}
    (hb : SameMesh b.mesh ob.mesh) (hf : ob.fields = b.fields.map fun f => (o, f))
    (ho : o = v ∨ ∃ r bo, s.obj o = some r ∧ SameMesh b.mesh r.mesh ∧ t.val o = some bo ∧ t.origin o = o)
    (ha : t.Alone v ∨ (o = v ∧ ∀ u c, u ≠ v → t.val u = some c → t.origin u = v → SameMesh c.mesh ob.mesh)) :
    Rep (s.put v (some ob)) (t.put v (some b) o) := by
  obtain ⟨h1, h2, h3, h4⟩ := h
  refine ⟨h1, fun u hu => ?_, fun u hu => ?_, fun u c hc => ?_⟩
  · have : u ≠ v := by rintro rfl; simp only [CopyVars.put] at hu; omega
    simp only [CopyVars.put, if_neg this]
    exact h2 u hu
  · simp only [CopyVars.put, Store.put] at hu ⊢
    split at hu
    · simp at hu
    · rename_i hne; rw [if_neg hne]; exact h3 u hu
  · by_cases huv : u = v
    · subst huv
      simp only [CopyVars.put, if_true, Option.some.injEq] at hc
      subst hc
      refine ⟨⟨ob, by simp [Store.put], hb, by simpa [CopyVars.put] using hf⟩, ?_⟩
      simp only [CopyVars.put, Store.put, if_true]
      by_cases hov : o = u
      · subst hov
        exact ⟨⟨ob, by simp, hb⟩, ⟨b, by simp⟩, by simp⟩
      · obtain rfl | ⟨r, bo, e1, e2, e3, e4⟩ := ho
        · exact absurd rfl hov
        · simp only [if_neg hov]
          exact ⟨⟨r, e1, e2⟩, ⟨bo, e3⟩, e4⟩
    · simp only [CopyVars.put, if_neg huv] at hc
      obtain ⟨⟨x, g1, g2, g3⟩, ⟨r, g4, g5⟩, ⟨bo, g6⟩, g7⟩ := h4 u c hc
      refine ⟨⟨x, by simp [Store.put, huv, g1], g2, by simp [CopyVars.put, huv, g3]⟩, ?_⟩
      simp only [CopyVars.put, Store.put, if_neg huv]
      by_cases hou : t.origin u = v
      · obtain ha | ⟨rfl, ha⟩ := ha
        · exact absurd hou (ha u c huv hc)
        · simp only [hou, if_true]
          exact ⟨⟨ob, rfl, ha u c huv hc hou⟩, ⟨b, rfl⟩, trivial⟩
      · simp only [if_neg hou]
        exact ⟨⟨r, g4, g5⟩, ⟨bo, g6⟩, g7⟩

/-- Scratch memory of a mesh changes. -/
theorem rep_mesh {s : Store K d} {t : CopyVars (Body K d)} (h : Rep s t) {o : Nat} {a : Obj K d} (ha : s.obj o = some a) {m : Mesh K d}
    (hm : SameMesh a.mesh m) : Rep (s.put o (some { a with mesh := m })) t := by
  obtain ⟨h1, h2, h3, h4⟩ := h
  refine ⟨h1, h2, fun u hu => ?_, fun u c hc => ?_⟩
  · simp only [Store.put]; split
    · rename_i e; subst e; rw [h3 u hu] at ha; simp at ha
    · exact h3 u hu
  · obtain ⟨⟨x, g1, g2, g3⟩, ⟨r, g4, g5⟩, g6, g7⟩ := h4 u c hc
    refine ⟨?_, ?_, g6, g7⟩
    · by_cases hu : u = o
      · subst hu
        rw [ha] at g1; cases g1
        exact ⟨{ a with mesh := m }, by simp [Store.put], g2.trans hm, g3⟩
      · exact ⟨x, by simp [Store.put, hu, g1], g2, g3⟩
    · by_cases hu : t.origin u = o
      · rw [hu] at g4 ⊢
        rw [ha] at g4; cases g4
        exact ⟨{ a with mesh := m }, by simp [Store.put], g5.trans hm⟩
      · exact ⟨r, by simp [Store.put, hu, g4], g5⟩

/-- The fields of a body change. -/
theorem rep_fields {s : Store K d} {t : CopyVars (Body K d)} (h : Rep s t) {v : Nat} {b : Body K d} {ob : Obj K d} (hb : t.val v = some b)
    (ho : s.obj v = some ob) {m : Mesh K d} (hm : SameMesh b.mesh m) (gs : List (PField K)) :
    Rep (s.put v (some { ob with fields := gs.map fun f => (t.origin v, f) })) (t.put v (some ⟨m, gs⟩) (t.origin v)) := by
  obtain ⟨h1, h2, h3, h4⟩ := h
  have eo : ∀ u, (t.put v (some ⟨m, gs⟩) (t.origin v)).origin u = t.origin u := fun u => by
    simp only [CopyVars.put]; split
    · rename_i e; rw [e]
    · rfl
  have ev : ∀ u c, t.val u = some c → ∃ c', (t.put v (some ⟨m, gs⟩) (t.origin v)).val u = some c' := fun u c hc => by
    simp only [CopyVars.put]; split
    · exact ⟨_, rfl⟩
    · exact ⟨c, hc⟩
  have es : ∀ u x, s.obj u = some x → ∃ x', (s.put v (some { ob with fields := gs.map fun f => (t.origin v, f) })).obj u = some x' ∧ x'.mesh = x.mesh :=
    fun u x hx => by
    simp only [Store.put]; split
    · rename_i e; subst e; rw [ho] at hx; cases hx; exact ⟨_, rfl, rfl⟩
    · exact ⟨x, hx, rfl⟩
  refine ⟨h1, fun u hu => ?_, fun u hu => ?_, fun u c hc => ?_⟩
  · have : u ≠ v := by rintro rfl; rw [h2 u hu] at hb; simp at hb
    simp only [CopyVars.put, if_neg this]
    exact h2 u hu
  · simp only [CopyVars.put, Store.put] at hu ⊢
    split at hu
    · simp at hu
    · rename_i hne; rw [if_neg hne]; exact h3 u hu
  · rw [eo, eo]
    by_cases huv : u = v
    · subst huv
      simp only [CopyVars.put, if_true, Option.some.injEq] at hc
      subst hc
      obtain ⟨⟨x, g1, g2, g3⟩, ⟨r, g4, g5⟩, ⟨bo, g6⟩, g7⟩ := h4 u b hb
      rw [ho] at g1; cases g1
      obtain ⟨r', e1, e2⟩ := es _ r g4
      exact ⟨⟨{ ob with fields := gs.map fun f => (t.origin u, f) }, by simp only [Store.put, if_true], hm.symm.trans g2, rfl⟩, ⟨r', e1, by rw [e2]; exact hm.symm.trans g5⟩, ev _ _ g6, g7⟩
    · simp only [CopyVars.put, if_neg huv] at hc
      obtain ⟨⟨x, g1, g2, g3⟩, ⟨r, g4, g5⟩, ⟨bo, g6⟩, g7⟩ := h4 u c hc
      obtain ⟨r', e1, e2⟩ := es _ r g4
      exact ⟨⟨x, by simp only [Store.put, if_neg huv]; exact g1, g2, g3⟩, ⟨r', e1, by rw [e2]; exact g5⟩, ev _ _ g6, g7⟩

theorem rep_step {s : Store K d} {t : CopyVars (Body K d)} (h : Rep s t) (op : CopyOp (File K d) (Call K d)) (hl : t.Legal (bodySem rnd E) op) :
    (step rnd E s op).1 = (t.step (bodySem rnd E) op).1 ∧ Rep (step rnd E s op).2 (t.step (bodySem rnd E) op).2 := by
  obtain ⟨h1, h2, h3, h4⟩ := h
  have hlt : ∀ v b, t.val v = some b → v < t.next := fun v b hv => by
    by_contra hn
    rw [h2 v (by omega)] at hv
    simp at hv
  have hnext : ∀ u c, t.val u = some c → t.origin u ≠ t.next := by
    intro u c hc e
    obtain ⟨_, _, ⟨bo, g6⟩, _⟩ := h4 u c hc
    rw [e, h2 _ (Nat.le_refl _)] at g6
    simp at g6
  have hup : Rep ⟨s.next + 1, s.obj⟩ ⟨t.next + 1, t.val, t.origin⟩ :=
    ⟨by simp [h1], fun v hv => h2 v (by simp only at hv; omega), h3, h4⟩
  cases op with
  | fresh =>
    refine ⟨rfl, ?_⟩
    have := rep_put hup (v := t.next) (by simp) (b := Body.empty) (ob := ⟨Mesh.empty, []⟩) (o := t.next) (SameMesh.refl _) rfl (.inl rfl)
      (.inl fun u c _ hc => hnext u c hc)
    simp only [step, CopyVars.step, bodySem]
    rw [← h1] at this ⊢
    exact this
  | copy v =>
    obtain ⟨b, hb⟩ := hl
    obtain ⟨⟨ob, g1, g2, g3⟩, ⟨r, g4, g5⟩, ⟨bo, g6⟩, g7⟩ := h4 v b hb
    simp only [step, CopyVars.step, g1, hb]
    refine ⟨trivial, ?_⟩
    have hov : t.origin v ≠ t.next := hnext v b hb
    have := rep_put hup (v := t.next) (by simp) (b := b) (ob := ob) (o := t.origin v) g2 g3 (.inr ⟨r, bo, g4, g5, g6, g7⟩)
      (.inl fun u c _ hc => hnext u c hc)
    rw [← h1] at this ⊢
    exact this
  | read v file =>
    obtain ⟨⟨b, b', hb, hr⟩, ho, ha⟩ := hl
    obtain ⟨⟨ob, g1, g2, g3⟩, _⟩ := h4 v b hb
    have e := loadInto_prefix (rnd := rnd) (E := E) b ob.mesh g2 file
    simp only [bodySem] at hr
    simp only [step, CopyVars.step, g1, hb, bodySem, hr]
    rw [hr] at e
    cases hx : loadInto rnd E ⟨ob.mesh, []⟩ file with
    | error er => rw [hx] at e; cases e
    | ok x =>
      rw [hx] at e
      simp only [Except.map, Except.ok.injEq] at e
      subst e
      refine ⟨rfl, rep_put ⟨h1, h2, h3, h4⟩ (hlt v b hb) (SameMesh.refl _) ?_ (.inl ho) (.inl ha)⟩
      simp [g3, ho]
  | assign v w =>
    obtain ⟨⟨b, hb⟩, ⟨c, hc⟩, ha⟩ := hl
    obtain ⟨⟨ob, g1, g2, g3⟩, _⟩ := h4 v b hb
    obtain ⟨⟨oc, k1, k2, k3⟩, ⟨r, k4, k5⟩, ⟨bo, k6⟩, k7⟩ := h4 w c hc
    simp only [step, CopyVars.step, g1, hb, k1, hc]
    refine ⟨trivial, rep_put ⟨h1, h2, h3, h4⟩ (hlt v b hb) k2 k3 (.inr ⟨r, bo, k4, k5, k6, k7⟩) ?_⟩
    rcases ha with ha | ha
    · exact .inl ha
    · refine .inr ⟨ha, fun u e hu he heo => ?_⟩
      obtain ⟨_, ⟨r', l4, l5⟩, _⟩ := h4 u e he
      rw [heo] at l4
      rw [ha, l4] at k4
      simp only [Option.some.injEq] at k4
      subst k4
      exact l5.trans (k5.symm.trans k2)
  | destroy v =>
    obtain ⟨⟨b, hb, hbare⟩, ha⟩ := hl
    obtain ⟨⟨ob, g1, g2, g3⟩, _⟩ := h4 v b hb
    have hi : ob.mesh.interp.isEmpty = true := by
      have : ob.mesh.interp = b.mesh.interp := by rw [g2.1]
      rw [this]; exact hbare
    simp only [step, CopyVars.step, g1, hb, hi, if_true]
    refine ⟨trivial, h1, fun u hu => ?_, fun u hu => ?_, fun u c hc => ?_⟩
    · simp only [CopyVars.put]; split
      · rfl
      · exact h2 u hu
    · simp only [Store.put]; split
      · rfl
      · rename_i hne; simp only [CopyVars.put, if_neg hne] at hu; exact h3 u hu
    · have huv : u ≠ v := by rintro rfl; simp [CopyVars.put] at hc
      simp only [CopyVars.put, if_neg huv] at hc
      have hou := ha u c huv hc
      simp only [CopyVars.put, Store.put, if_neg huv, if_neg hou]
      exact h4 u c hc
  | call v i c =>
    obtain ⟨b, hb⟩ := hl
    obtain ⟨⟨ob, g1, g2, g3⟩, ⟨r, g4, g5⟩, ⟨bo, g6⟩, g7⟩ := h4 v b hb
    have hput : t.put v (some b) (t.origin v) = t := by
      obtain ⟨n, vl, og⟩ := t
      simp only [CopyVars.put, CopyVars.mk.injEq, true_and]
      refine ⟨funext fun u => ?_, funext fun u => ?_⟩ <;> split
      · rename_i e; rw [e]; exact hb.symm
      · rfl
      · rename_i e; rw [e]
      · rfl
    simp only [step, CopyVars.step, g1, hb, bodySem, g3, List.getElem?_map]
    cases hf : b.fields[i]? with
    | none =>
      simp only [Option.map_none]
      rw [hput]
      exact ⟨rfl, h1, h2, h3, h4⟩
    | some f =>
      simp only [Option.map_some, g4]
      obtain ⟨k1, k2, k3⟩ := sem_congr (rnd := rnd) (E := E) g5 f c
      obtain ⟨_, _, k4⟩ := sem_congr (rnd := rnd) (E := E) (SameMesh.refl b.mesh) f c
      revert k1 k2 k3 k4
      rcases sem rnd E b.mesh f c with ⟨x, m1, f1⟩
      rcases sem rnd E r.mesh f c with ⟨x', m1', f1'⟩
      intro k1 k2 k3 k4
      simp only at k1 k2 k3 k4 ⊢
      subst k1 k2
      refine ⟨rfl, ?_⟩
      have hr := rep_mesh ⟨h1, h2, h3, h4⟩ g4 (g5.symm.trans k3)
      have hov : (s.put (t.origin v) (some { r with mesh := m1' })).obj v = some (if v = t.origin v then { r with mesh := m1' } else ob) := by
        simp only [Store.put]
        split <;> simp [*]
      have := rep_fields hr hb hov k4 (b.fields.set i f1)
      have e : (if v = t.origin v then { r with mesh := m1' } else ob : Obj K d).fields.set i (t.origin v, f1) =
          (b.fields.set i f1).map fun f => (t.origin v, f) := by
        rw [List.map_set, ← g3]
        split
        · rename_i e; rw [← e, g1] at g4; cases g4; rfl
        · rfl
      rw [e]
      exact this

theorem rep_run (ops : List (CopyOp (File K d) (Call K d))) : ∀ (s : Store K d) (t : CopyVars (Body K d)), Rep s t → t.LegalRun (bodySem rnd E) ops →
    (run rnd E ops s).1 = (t.run (bodySem rnd E) ops).1 ∧ Rep (run rnd E ops s).2 (t.run (bodySem rnd E) ops).2 := by
  induction ops with
  | nil => intro s t h _; exact ⟨rfl, h⟩
  | cons op ops ih =>
    intro s t h hl
    obtain ⟨k1, k2⟩ := rep_step h op hl.1
    obtain ⟨l1, l2⟩ := ih _ _ k2 hl.2
    exact ⟨by simp only [run, CopyVars.run]; rw [k1, l1], l2⟩

end BodyCopy

section
variable {K : Type} {d : Nat} [Field K] [LinearOrder K] [FloorRing K]

/-- **C144** (part) In every history that obeys the rules (while there are copies of a body, nothing is read into it or assigned to it, except one of its copies;
nothing is read into a copy; only bodies without cells are destroyed) bodies behave as values: every call on a field of a body, original or copy, has the outcome
it has if each copy is a body of its own. In any arithmetic. -/
theorem C144_copies_partial (rnd : K → K) (E : ElemOps K d) (ops : List (CopyOp (BodyCopy.File K d) (BodyCopy.Call K d)))
    (hl : CopyVars.LegalRun (BodyCopy.bodySem rnd E) ops CopyVars.start) :
    (BodyCopy.run rnd E ops BodyCopy.Store.start).1 = (CopyVars.run (BodyCopy.bodySem rnd E) ops CopyVars.start).1 :=
  (BodyCopy.rep_run ops _ _ BodyCopy.rep_start hl).1

/-- **C144** The values are the bodies of the other properties: reading a file into a new body is `load`, and an evaluation of one of its fields that returns a
number is `eval`. -/
theorem C144_values (rnd : K → K) (E : ElemOps K d) (pts : List (Fin d → K)) (cells : List (List Nat)) (flds : List (String × List K)) (b : Body K d) (i : Nat) :
    (BodyCopy.bodySem rnd E).read (pts, cells, flds) (BodyCopy.bodySem rnd E).empty = Fl.load rnd E pts cells flds ∧
    (∀ c, ((BodyCopy.bodySem rnd E).call (.value c) b i).1 = (Fl.eval rnd E b i (.value c)).map some) ∧
    (∀ c (di : Fin d), ((BodyCopy.bodySem rnd E).call (.grad c di) b i).1 = (Fl.eval rnd E b i (.grad c di)).map some) ∧
    (∀ c (di dj : Fin d), ((BodyCopy.bodySem rnd E).call (.hess c di dj) b i).1 = (Fl.eval rnd E b i (.hess c di dj)).map some) := by
  refine ⟨?_, fun c => ?_, fun c di => ?_, fun c di dj => ?_⟩
  · simp only [BodyCopy.bodySem, BodyCopy.loadInto, Fl.load, Fl.build, Body.empty]
    cases Fl.readPoints rnd Mesh.empty pts <;> rfl
  all_goals
    simp only [BodyCopy.bodySem, Fl.eval]
    cases b.fields[i]? <;> rfl

/-- **C144** The getters of the values are those of the fields, and change nothing. -/
theorem C144_getters (rnd : K → K) (E : ElemOps K d) (b : Body K d) (i : Nat) :
    (BodyCopy.bodySem rnd E).call .get b i = ((b.getVal i).map some, b) ∧
    (∀ di, (BodyCopy.bodySem rnd E).call (.getGrad di) b i = ((b.getGrad i di).map some, b)) ∧
    (∀ di dj, (BodyCopy.bodySem rnd E).call (.getHess di dj) b i = ((b.getHess i di dj).map some, b)) := by
  simp only [BodyCopy.bodySem, Body.getVal, Body.getGrad, Body.getHess]
  cases hf : b.fields[i]? with
  | none => exact ⟨rfl, fun _ => rfl, fun _ _ => rfl⟩
  | some f =>
    obtain ⟨h, e⟩ := List.getElem?_eq_some_iff.mp hf
    subst e
    simp [BodyCopy.sem, List.set_getElem_self]

/-- **C144** (violated, for every body with cells) Destroying a body that has cells is undefined, whatever happened before. -/
theorem C144_destroy_violated (rnd : K → K) (E : ElemOps K d) (s : BodyCopy.Store K d) (v : Nat) (b : BodyCopy.Obj K d) (hb : s.obj v = some b)
    (hc : b.mesh.interp ≠ []) : (BodyCopy.step rnd E s (.destroy v)).1 = .error (.ub .badDelete) := by
  simp [BodyCopy.step, hb, hc]
end

/-! ### A test of the rules, for examples -/

namespace CopyTest
variable {File B Call Out : Type}

/-- `Alone`, tested. -/
def alone (s : CopyVars B) (v : Nat) : Bool := (List.range s.next).all fun u => u == v || (s.val u).isNone || s.origin u != v

/-- `Legal`, tested. -/
def legal (M : CopySem File B Call Out) (s : CopyVars B) : CopyOp File Call → Bool
  | .fresh => true
  | .read v file => (match s.val v with | none => false | some b => match M.read file b with | .ok _ => true | .error _ => false) && s.origin v == v && alone s v
  | .copy v => (s.val v).isSome
  | .assign v w => (s.val v).isSome && (s.val w).isSome && (alone s v || s.origin w == v)
  | .call v _ _ => (s.val v).isSome
  | .destroy v => (match s.val v with | none => false | some b => M.bare b) && alone s v

/-- `LegalRun`, tested. -/
def legalRun (M : CopySem File B Call Out) : List (CopyOp File Call) → CopyVars B → Bool
  | [], _ => true
  | op :: ops, s => legal M s op && legalRun M ops (s.step M op).2

theorem alone_of {s : CopyVars B} (hs : ∀ v, s.next ≤ v → s.val v = none) {v : Nat} (h : alone s v = true) : s.Alone v := by
  intro u b huv hu ho
  have hlt : u < s.next := by
    by_contra hn
    rw [hs u (by omega)] at hu
    simp at hu
  have := List.all_eq_true.mp h u (List.mem_range.mpr hlt)
  simp [huv, hu, ho] at this

theorem legal_of {M : CopySem File B Call Out} {s : CopyVars B} (hs : ∀ v, s.next ≤ v → s.val v = none) {op : CopyOp File Call} (h : legal M s op = true) :
    s.Legal M op := by
  have hso : ∀ {v : Nat}, (s.val v).isSome = true → ∃ b, s.val v = some b := fun h => Option.isSome_iff_exists.mp h
  cases op with
  | fresh => trivial
  | read v file =>
    simp only [legal, Bool.and_eq_true, beq_iff_eq] at h
    refine ⟨?_, h.1.2, alone_of hs h.2⟩
    have h1 := h.1.1
    cases hv : s.val v with
    | none => rw [hv] at h1; simp at h1
    | some b =>
      rw [hv] at h1
      cases hr : M.read file b with
      | error e => simp [hr] at h1
      | ok b' => exact ⟨b, b', rfl, hr⟩
  | copy v => exact hso h
  | assign v w =>
    simp only [legal, Bool.and_eq_true, Bool.or_eq_true, beq_iff_eq] at h
    exact ⟨hso h.1.1, hso h.1.2, h.2.imp_left (alone_of hs)⟩
  | call v i c => exact hso h
  | destroy v =>
    simp only [legal, Bool.and_eq_true] at h
    refine ⟨?_, alone_of hs h.2⟩
    have h1 := h.1
    cases hv : s.val v with
    | none => rw [hv] at h1; simp at h1
    | some b => rw [hv] at h1; exact ⟨b, rfl, h1⟩

theorem bounded_step {M : CopySem File B Call Out} {s : CopyVars B} (hs : ∀ v, s.next ≤ v → s.val v = none) {op : CopyOp File Call} (h : s.Legal M op) :
    ∀ v, (s.step M op).2.next ≤ v → (s.step M op).2.val v = none := by
  have hne : ∀ {u v : Nat} {b : B}, s.val v = some b → s.next ≤ u → u ≠ v := by
    rintro u v b hv hu rfl
    rw [hs u hu] at hv; simp at hv
  intro u hu
  cases op with
  | fresh =>
    simp only [CopyVars.step, CopyVars.put] at hu ⊢
    rw [if_neg (by omega)]
    exact hs u (by omega)
  | read v file =>
    obtain ⟨⟨b, b', h1, h2⟩, _⟩ := h
    simp only [CopyVars.step, h1, h2, CopyVars.put] at hu ⊢
    rw [if_neg (hne h1 hu)]
    exact hs u hu
  | copy v =>
    obtain ⟨b, h1⟩ := h
    simp only [CopyVars.step, h1, CopyVars.put] at hu ⊢
    rw [if_neg (by omega)]
    exact hs u (by omega)
  | assign v w =>
    obtain ⟨⟨b, h1⟩, ⟨c, h2⟩, _⟩ := h
    simp only [CopyVars.step, h1, h2, CopyVars.put] at hu ⊢
    rw [if_neg (hne h1 hu)]
    exact hs u hu
  | call v i c =>
    obtain ⟨b, h1⟩ := h
    simp only [CopyVars.step, h1, CopyVars.put] at hu ⊢
    rw [if_neg (hne h1 hu)]
    exact hs u hu
  | destroy v =>
    obtain ⟨⟨b, h1, _⟩, _⟩ := h
    simp only [CopyVars.step, h1, CopyVars.put] at hu ⊢
    rw [if_neg (hne h1 hu)]
    exact hs u hu

theorem legalRun_of {M : CopySem File B Call Out} (ops : List (CopyOp File Call)) : ∀ (s : CopyVars B), (∀ v, s.next ≤ v → s.val v = none) →
    legalRun M ops s = true → s.LegalRun M ops := by
  induction ops with
  | nil => intro _ _ _; trivial
  | cons op ops ih =>
    intro s hs h
    simp only [legalRun, Bool.and_eq_true] at h
    have hl := legal_of hs h.1
    exact ⟨hl, ih _ (bounded_step hs hl) h.2⟩

end CopyTest

/-! ### Bodies of one cell -/

namespace CopyDemo

/-- The square `[0,w]²` with these values of a field at its corners. -/
def file (w : ℚ) (l : List ℚ) : BodyCopy.File ℚ 2 := ([![0, 0], ![w, 0], ![w, w], ![0, w]], [[0, 1, 2, 3]], [("f", l)])

/-- What the history returns, in memory. -/
def mem (ops : List (CopyOp (BodyCopy.File ℚ 2) (BodyCopy.Call ℚ 2))) : List (Res (Option (Option ℚ))) :=
  (BodyCopy.run id (quadOps ℚ) ops BodyCopy.Store.start).1

/-- What it returns if bodies are values. -/
def val (ops : List (CopyOp (BodyCopy.File ℚ 2) (BodyCopy.Call ℚ 2))) : List (Res (Option (Option ℚ))) :=
  (CopyVars.run (BodyCopy.bodySem id (quadOps ℚ)) ops CopyVars.start).1

/-- `a` from a file, `c` a copy of it; `b` from another file. -/
def two : List (CopyOp (BodyCopy.File ℚ 2) (BodyCopy.Call ℚ 2)) :=
  [.fresh, .read 0 (file 1 [0, 1, 3, 2]), .copy 0, .fresh, .read 2 (file 2 [5, 5, 5, 5])]

end CopyDemo

open CopyDemo in
/-- **C144** is false of the code when the source of a copy is assigned to: `c` was copied from `a`, then `a = b`; the field of `c` at (1,1/2), 2 before, is
then computed on the cell of `b` and is 1. -/
theorem C144_assign_violated :
    (mem (two ++ [.call 1 0 (.value ![1, 1/2])])).getLast? = some (.ok (some (some 2))) ∧
    (mem (two ++ [.assign 0 2, .call 1 0 (.value ![1, 1/2])])).getLast? = some (.ok (some (some 1))) ∧
    (val (two ++ [.assign 0 2, .call 1 0 (.value ![1, 1/2])])).getLast? = some (.ok (some (some 2))) := by
  refine ⟨?_, ?_, ?_⟩ <;> decide +kernel

open CopyDemo in
/-- **C144** is false of the code when a file is read into the source of a copy: `c` was copied from `a`, then the same file is read into `a` again; an evaluation of
the field of `c` then writes behind the end of its buffers. -/
theorem C144_read_violated :
    (mem (two ++ [.read 0 (file 1 [0, 1, 3, 2]), .call 1 0 (.value ![1, 1/2])])).getLast? = some (.error (.ub .oob)) ∧
    (val (two ++ [.read 0 (file 1 [0, 1, 3, 2]), .call 1 0 (.value ![1, 1/2])])).getLast? = some (.ok (some (some 2))) := by
  refine ⟨?_, ?_⟩ <;> decide +kernel

open CopyDemo in
/-- Non-vacuity of C144: a history that obeys the rules, with a copy of a copy, evaluations of all of them, a copy that gets another body, a copy assigned back,
and an empty body destroyed; the copies keep results of their own. -/
example : (mem (two ++ [.copy 1, .call 1 0 (.value ![1, 1/2]), .call 3 0 (.value ![0, 1]), .assign 1 2, .call 1 0 (.value ![2, 2]), .assign 0 3, .call 0 0 .get,
    .call 3 0 (.value ![1, 1]), .call 0 0 .get, .fresh, .destroy 4])).drop 5 =
    [.ok none, .ok (some (some 2)), .ok (some (some 2)), .ok none, .ok (some (some 5)), .ok none, .ok (some (some 2)), .ok (some (some 3)), .ok (some (some 2)),
      .ok none, .ok none] := by
  have h := C144_copies_partial id (quadOps ℚ) (two ++ [.copy 1, .call 1 0 (.value ![1, 1/2]), .call 3 0 (.value ![0, 1]), .assign 1 2,
    .call 1 0 (.value ![2, 2]), .assign 0 3, .call 0 0 .get, .call 3 0 (.value ![1, 1]), .call 0 0 .get, .fresh, .destroy 4])
    (CopyTest.legalRun_of _ _ (fun _ _ => rfl) (by decide +kernel))
  simp only [mem, h]
  decide +kernel

open CopyDemo in
/-- Non-vacuity of C144: the destruction of a body with cells. -/
example : (mem (two ++ [.destroy 1])).getLast? = some (.error (.ub .badDelete)) := by decide +kernel

end Verif
