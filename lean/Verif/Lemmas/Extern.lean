import Verif.Model.Extern
import Verif.Lemmas.Handle
import Verif.Lemmas.SeriesOps

/-!
# C pointer variables: the memory implements the slots
-/

namespace Verif.Ext
open Spec Mem
variable {Obj Arg Call Out : Type}

/-- The variables as handles that are never destroyed. -/
def vals (s : Slots Obj) : Vals Obj := ⟨s.map some, []⟩

/-- Memory against slots. -/
def Rel (m : Mem Obj) (s : Slots Obj) : Prop := Mem.Rel m (vals s)

theorem vals_set (s : Slots Obj) (h : Nat) (o : Option Obj) :
    ({ vals s with handles := (vals s).handles.set h (some o) } : Vals Obj) = vals (s.set h o) := by
  simp [vals, List.map_set]

theorem vals_get {s : Slots Obj} {h : Nat} {o : Option Obj} (e : s[h]? = some o) : (vals s).handles[h]? = some (some o) := by
  simp [vals, e]

theorem rel_start : Rel (Mem.start : Mem Obj) [] := Mem.rel_start

/-- A legal operation. -/
theorem step_rel (make : Arg → Res Obj) (sem : Call → Obj → Res Out × Obj) {m : Mem Obj} {s : Slots Obj} (R : Rel m s)
    (op : XOp Arg Call) (hl : s.Legal op) :
    (step make sem m op).1 = (s.step make sem op).1 ∧ Rel (step make sem m op).2 (s.step make sem op).2 := by
  cases op with
  | decl =>
    refine ⟨rfl, ?_⟩
    have := rel_push R
    simpa [Rel, vals, step, Slots.step] using this
  | share g => exact hl.elim
  | new h a =>
    have hl' : s[h]? = some none := hl
    obtain ⟨p, hp, h1, _⟩ := Mem.Rel.handle R (vals_get hl')
    obtain rfl := h1 rfl
    cases hm : make a with
    | error e => simp [step, new, ptr_eq hp, ok_bind, err_bind, hm, done, Slots.step, R]
    | ok o =>
      have e : new make m h a = .ok (setPtr { m with heap := m.heap ++ [some o] } h (some (some m.heap.length))) := by
        simp [new, ptr_eq hp, ok_bind, hm, alloc]
      simp only [step, e, done, Slots.step, hm]
      refine ⟨trivial, ?_⟩
      have := rel_put R hp o
      rw [vals_set] at this
      exact this
  | delete h =>
    have hl' : h < s.length := hl
    obtain ⟨p, hp, _, _⟩ := Mem.Rel.handle R (vals_get (List.getElem?_eq_getElem hl'))
    obtain ⟨m1, e1, _, _, R1, _⟩ := rel_delPtr R hp
    have e : delete m h = .ok (m1.setPtr h (some none)) := by simp [delete, ptr_eq hp, ok_bind, e1]
    simp only [step, e, done, Slots.step]
    refine ⟨trivial, ?_⟩
    rw [vals_set] at R1
    exact R1
  | call h c =>
    obtain ⟨o, ho⟩ := hl
    obtain ⟨p, hp, _, h2⟩ := Mem.Rel.handle R (vals_get ho)
    obtain ⟨a, rfl, ha⟩ := h2 o rfl
    simp only [step, forward, ptr_eq hp, deref_eq ha, Slots.step, ho, Option.join_some]
    refine ⟨trivial, ?_⟩
    have := rel_update R hp (sem c o).2
    rw [vals_set] at this
    exact this

theorem run_rel (make : Arg → Res Obj) (sem : Call → Obj → Res Out × Obj) (ops : List (XOp Arg Call)) :
    ∀ {m : Mem Obj} {s : Slots Obj}, Rel m s → Slots.LegalRun make sem ops s →
      (run make sem ops m).1 = (Slots.run make sem ops s).1 ∧ Rel (run make sem ops m).2 (Slots.run make sem ops s).2 := by
  induction ops with
  | nil => intro m s R _; exact ⟨rfl, R⟩
  | cons op ops ih =>
    intro m s R hl
    obtain ⟨h1, h2⟩ := step_rel make sem R op hl.1
    obtain ⟨h3, h4⟩ := ih h2 hl.2
    simp only [run, Slots.run]
    exact ⟨by rw [h1, h3], h4⟩

/-- The objects that exist are those in the slots, and no two variables share one. -/
theorem Rel.owners {m : Mem Obj} {s : Slots Obj} (R : Rel m s) :
    (∀ (a : Nat) o, m.heap[a]? = some (some o) ↔ ∃ i : Nat, m.handles[i]? = some (some (some a)) ∧ s[i]? = some (some o)) ∧
    ∀ i j a : Nat, m.handles[i]? = some (some (some a)) → m.handles[j]? = some (some (some a)) → i = j := by
  have key : ∀ (i a : Nat), m.handles[i]? = some (some (some a)) → ∃ o, s[i]? = some (some o) ∧ m.heap[a]? = some (some o) := by
    intro i a h
    have hl : i < s.length := by
      have := (List.getElem?_eq_some_iff.mp h).1
      have h2 := Mem.Rel.hlen R
      simp [vals] at h2; omega
    have hr := Mem.Rel.hrel R i _ _ h (vals_get (List.getElem?_eq_getElem hl))
    cases hs : s[i] with
    | none => rw [hs] at hr; simp [HRel] at hr
    | some o => rw [hs] at hr; exact ⟨o, by rw [List.getElem?_eq_getElem hl, hs], hr⟩
  refine ⟨fun a o => ⟨fun h => ?_, ?_⟩, fun i j a hi hj => ?_⟩
  · obtain ⟨w, hw⟩ := Mem.Rel.live R a o h
    cases w with
    | inl i =>
      obtain ⟨o', h1, h2⟩ := key i a hw
      rw [h] at h2; cases h2
      exact ⟨i, hw, h1⟩
    | inr j => obtain ⟨_, o', ho'⟩ := hw; simp [vals] at ho'
  · rintro ⟨i, h1, h2⟩
    obtain ⟨o', h3, h4⟩ := key i a h1
    rw [h2] at h3; cases h3
    exact h4
  · have := Mem.Rel.inj R (.inl i) (.inl j) a hi hj
    simpa using this


end Verif.Ext

namespace Verif.Series
open Spec
variable {K : Type} [Field K] [LinearOrder K] [FloorRing K]

/-- The constants of two series agree. -/
def SameConsts (s s' : Series K) : Prop := s'.zeroVal = s.zeroVal ∧ s'.identityVal = s.identityVal

theorem SameConsts.refl (s : Series K) : SameConsts s s := ⟨rfl, rfl⟩
theorem SameConsts.trans {s s' s'' : Series K} (h : SameConsts s s') (h' : SameConsts s' s'') : SameConsts s s'' :=
  ⟨h'.1.trans h.1, h'.2.trans h.2⟩

theorem basisLoop_consts {f : BasisSet K → K → Res (BasisSet K)} {x : List K} : ∀ (n i : Nat) {s s' : Series K},
    basisLoop f x n i s = .ok s' → SameConsts s s' := by
  intro n
  induction n with
  | zero => intro i s s' h; cases h; exact .refl _
  | succ n ih =>
    intro i s s' h
    simp only [basisLoop, bind_eq_ok] at h
    obtain ⟨b, _, y, _, b', _, h⟩ := h
    exact SameConsts.trans (s' := s.putBasis i b') ⟨rfl, rfl⟩ (ih _ h)

theorem calcVal_consts {s s' : Series K} {y : K} (h : s.calcVal = .ok (y, s')) : SameConsts s s' := by
  simp only [calcVal, bind_eq_ok] at h
  obtain ⟨_, _, h⟩ := h; cases h; exact ⟨rfl, rfl⟩

theorem calcGrad_consts {s s' : Series K} {y : K} {di : Int} (h : s.calcGrad di = .ok (y, s')) : SameConsts s s' := by
  simp only [calcGrad, bind_eq_ok] at h
  obtain ⟨_, _, _, _, _, _, h⟩ := h; cases h; exact ⟨rfl, rfl⟩

theorem calcHess_consts {s s' : Series K} {y : K} {di dj : Int} (h : s.calcHess di dj = .ok (y, s')) : SameConsts s s' := by
  simp only [calcHess, bind_eq_ok] at h
  obtain ⟨_, _, _, _, _, _, _, _, _, _, h⟩ := h; cases h; exact ⟨rfl, rfl⟩

theorem gradAtLoop_consts {x : List K} {di : Int} : ∀ (n i : Nat) {s s' : Series K}, gradAtLoop x di n i s = .ok s' → SameConsts s s' := by
  intro n
  induction n with
  | zero => intro i s s' h; cases h; exact .refl _
  | succ n ih =>
    intro i s s' h
    simp only [gradAtLoop, bind_eq_ok] at h
    obtain ⟨b, _, y, _, h⟩ := h
    split at h
    · simp only [bind_eq_ok] at h
      obtain ⟨b', _, h⟩ := h
      exact SameConsts.trans (s' := s.putBasis i b') ⟨rfl, rfl⟩ (ih _ h)
    · simp only [bind_eq_ok] at h
      obtain ⟨_, _, _, _, h⟩ := h
      exact ih _ h

theorem hessAtLoop_consts {x : List K} {di dj : Int} : ∀ (n i : Nat) {s s' : Series K}, hessAtLoop x di dj n i s = .ok s' →
    SameConsts s s' := by
  intro n
  induction n with
  | zero => intro i s s' h; cases h; exact .refl _
  | succ n ih =>
    intro i s s' h
    simp only [hessAtLoop, bind_eq_ok] at h
    obtain ⟨b, _, y, _, h⟩ := h
    have put : ∀ b', hessAtLoop x di dj n (i + 1) (s.putBasis i b') = .ok s' → SameConsts s s' := fun b' h =>
      SameConsts.trans (s' := s.putBasis i b') ⟨rfl, rfl⟩ (ih _ h)
    split at h
    · split at h
      all_goals
        obtain ⟨b', _, h⟩ := bind_eq_ok.mp h
        exact put _ h
    · simp only [bind_eq_ok] at h
      obtain ⟨_, _, _, _, h⟩ := h
      exact ih _ h

theorem calcGrads_consts : ∀ (n i : Nat) {s s' : Series K}, calcGrads n i s = .ok s' → SameConsts s s' := by
  intro n
  induction n with
  | zero => intro i s s' h; cases h; exact .refl _
  | succ n ih =>
    intro i s s' h
    simp only [calcGrads, bind_eq_ok] at h
    obtain ⟨⟨y, s1⟩, h1, h⟩ := h
    exact (calcGrad_consts h1).trans (ih _ h)

theorem calcHessRow_consts {r : Nat} : ∀ (n i : Nat) {s s' : Series K}, calcHessRow r n i s = .ok s' → SameConsts s s' := by
  intro n
  induction n with
  | zero => intro i s s' h; cases h; exact .refl _
  | succ n ih =>
    intro i s s' h
    simp only [calcHessRow, bind_eq_ok] at h
    obtain ⟨⟨y, s1⟩, h1, h⟩ := h
    exact (calcHess_consts h1).trans (ih _ h)

theorem calcHesss_consts : ∀ (n i : Nat) {s s' : Series K}, calcHesss n i s = .ok s' → SameConsts s s' := by
  intro n
  induction n with
  | zero => intro i s s' h; cases h; exact .refl _
  | succ n ih =>
    intro i s s' h
    simp only [calcHesss, bind_eq_ok] at h
    obtain ⟨s1, h1, h⟩ := h
    exact (calcHessRow_consts _ _ h1).trans (ih _ h)

theorem basisProdLoop_consts {ev : Int → BasisSet K → Int → K → Res (K × BasisSet K)} {t : List Int} {x : List K} :
    ∀ (n i : Nat) (a : K) {s s' : Series K} {y : K}, basisProdLoop ev t x n i a s = .ok (y, s') → SameConsts s s' := by
  intro n
  induction n with
  | zero => intro i a s s' y h; cases h; exact .refl _
  | succ n ih =>
    intro i a s s' y h
    simp only [basisProdLoop, bind_eq_ok] at h
    obtain ⟨b, _, _, _, _, _, r, _, h⟩ := h
    exact SameConsts.trans (s' := s.putBasis i r.2) ⟨rfl, rfl⟩ (ih _ _ h)

theorem readLoop_consts {scan : List Char → Option K × List Char} : ∀ (n i : Nat) (t : List Int) (sin : IStream) {s s' : Series K}
    {sin' : IStream}, readLoop scan n i t sin s = .ok (sin', s') → SameConsts s s' := by
  intro n
  induction n with
  | zero => intro i t sin s s' sin' h; cases h; exact .refl _
  | succ n ih =>
    intro i t sin s s' sin' h
    simp only [readLoop, bind_eq_ok] at h
    obtain ⟨old, _, c, _, h⟩ := h
    have := ih _ _ _ h
    exact SameConsts.trans (s' := { s with coeff := c }) ⟨rfl, rfl⟩ this

theorem set_consts {s s' : Series K} {bs : List (Option (BasisSet K))} (h : s.set bs = .ok s') : SameConsts s s' := by
  simp only [set, bind_eq_ok] at h
  obtain ⟨dim, _, h⟩ := h
  split at h
  · cases h
  · simp only [bind_eq_ok] at h
    obtain ⟨l, _, h⟩ := h
    cases h; exact ⟨rfl, rfl⟩

/-- No call changes the constants given to the constructor. -/
theorem step_consts {s s' : Series K} {op : SerOp K} (h : s.step op = .ok s') : SameConsts s s' := by
  cases op with
  | set bs => exact set_consts h
  | clear => cases h; exact ⟨rfl, rfl⟩
  | evalAt x =>
    simp only [step, bind_eq_ok, evalAt, evalBasis] at h
    obtain ⟨⟨y, s2⟩, ⟨s1, h1, h2⟩, h⟩ := h
    cases h
    exact (basisLoop_consts _ _ h1).trans (calcVal_consts h2)
  | gradAt x di =>
    simp only [step, bind_eq_ok, gradAt] at h
    obtain ⟨⟨y, s2⟩, ⟨s1, h1, h2⟩, h⟩ := h
    cases h
    exact (gradAtLoop_consts _ _ h1).trans (calcGrad_consts h2)
  | hessAt x di dj =>
    simp only [step, bind_eq_ok, hessAt] at h
    obtain ⟨⟨y, s2⟩, ⟨s1, h1, h2⟩, h⟩ := h
    cases h
    exact (hessAtLoop_consts _ _ h1).trans (calcHess_consts h2)
  | evalGrad x =>
    simp only [step, bind_eq_ok, evalGrad, evalBasis, evalBasisGrad] at h
    obtain ⟨s1, h1, s2, h2, h3⟩ := h
    exact ((basisLoop_consts _ _ h1).trans (basisLoop_consts _ _ h2)).trans (calcGrads_consts _ _ h3)
  | evalHess x =>
    simp only [step, bind_eq_ok, evalHess, evalBasis, evalBasisGrad, evalBasisHess] at h
    obtain ⟨s1, h1, s2, h2, s3, h3, h4⟩ := h
    exact (((basisLoop_consts _ _ h1).trans (basisLoop_consts _ _ h2)).trans (basisLoop_consts _ _ h3)).trans (calcHesss_consts _ _ h4)
  | basisAll k x => cases k <;> exact basisLoop_consts _ _ h
  | basisOne k x i =>
    simp only [step, evalBasis1, bind_eq_ok] at h
    obtain ⟨b, _, y, _, b', _, h⟩ := h
    cases h; exact ⟨rfl, rfl⟩
  | basis1 k bi t x =>
    simp only [step, basis1, bind_eq_ok] at h
    obtain ⟨r, ⟨b, _, y, _, b', _, h'⟩, h⟩ := h
    cases h'; cases h; exact ⟨rfl, rfl⟩
  | prod t x =>
    simp only [step, basisProd, bind_eq_ok] at h
    obtain ⟨⟨y, s1⟩, h1, h⟩ := h
    cases h; exact basisProdLoop_consts _ _ _ h1
  | prodGrad t x di =>
    simp only [step, basisProd, bind_eq_ok] at h
    obtain ⟨⟨y, s1⟩, h1, h⟩ := h
    cases h; exact basisProdLoop_consts _ _ _ h1
  | prodHess t x di dj =>
    simp only [step, basisProd, bind_eq_ok] at h
    obtain ⟨⟨y, s1⟩, h1, h⟩ := h
    cases h; exact basisProdLoop_consts _ _ _ h1
  | setCoeff t y =>
    simp only [step, bind_eq_ok] at h
    obtain ⟨c, _, h⟩ := h
    cases h; exact ⟨rfl, rfl⟩
  | setCoeffLin i y =>
    simp only [step, bind_eq_ok] at h
    obtain ⟨c, _, h⟩ := h
    cases h; exact ⟨rfl, rfl⟩
  | readCoeff scan sin =>
    simp only [step, bind_eq_ok, readCoeff] at h
    obtain ⟨⟨sin', s1⟩, h1, h⟩ := h
    cases h; exact readLoop_consts _ _ _ _ h1

theorem run_consts (ops : List (SerOp K)) : ∀ {s s' : Series K}, run ops s = .ok s' → SameConsts s s' := by
  induction ops with
  | nil => intro s s' h; cases h; exact .refl _
  | cons op ops ih =>
    intro s s' h
    simp only [run, bind_eq_ok] at h
    obtain ⟨s1, h1, h⟩ := h
    exact (step_consts h1).trans (ih h)

theorem run_append (xs ys : List (SerOp K)) {s s1 s2 : Series K} (h1 : run xs s = .ok s1) (h2 : run ys s1 = .ok s2) :
    run (xs ++ ys) s = .ok s2 := by
  induction xs generalizing s with
  | nil => cases h1; exact h2
  | cons x xs ih =>
    simp only [run, bind_eq_ok] at h1
    obtain ⟨s', e1, e2⟩ := h1
    simp only [List.cons_append, run, e1, ok_bind]
    exact ih e2

end Verif.Series

namespace Verif.XSeries
open Spec Series
variable {K : Type} [Field K] [LinearOrder K] [FloorRing K]

theorem numM_step {f : Series K → Res (K × Series K)} {op : SerOp K} {s : Series K}
    (h : s.step op = (do let r ← f s; .ok r.2)) : (numM f s).2 = s ∨ s.step op = .ok (numM f s).2 := by
  unfold numM
  cases hf : f s with
  | error e => exact Or.inl rfl
  | ok r => exact Or.inr (by rw [h, hf]; rfl)

theorem voidM_step {op : SerOp K} {s : Series K} :
    (voidM (fun s => s.step op) s).2 = s ∨ s.step op = .ok (voidM (fun s => s.step op) s).2 := by
  simp only [voidM]
  cases hf : s.step op with
  | error e => exact Or.inl rfl
  | ok r => exact Or.inr rfl

/-- A call of the interface changes nothing, or does what a call on the series does. -/
theorem api_step (c : SeriesFn × List (CVal K)) (s : Series K) :
    (apiSem api c s).2 = s ∨ ∃ op : SerOp K, (c.1 ≠ .clear → op.KeepsBasis) ∧ s.step op = .ok (apiSem api c s).2 := by
  obtain ⟨fn, args⟩ := c
  unfold apiSem
  split
  · rename_i f hf
    revert hf
    simp only
    unfold api
    have w : ∀ {fn : SeriesFn} {r : Series K} (op : SerOp K), op.KeepsBasis → (r = s ∨ s.step op = .ok r) →
        r = s ∨ ∃ op : SerOp K, (fn ≠ SeriesFn.clear → op.KeepsBasis) ∧ s.step op = .ok r := by
      intro fn r op ho h
      exact h.imp id fun h => ⟨op, fun _ => ho, h⟩
    split <;> intro hf <;> (first | cases hf | (cases Option.some.inj hf))
    all_goals first
      | exact Or.inl rfl
      | exact Or.inr ⟨.clear, fun h => absurd rfl h, rfl⟩
      | exact w _ (by exact trivial) voidM_step
      | exact w (.evalAt _) trivial (numM_step rfl)
      | exact w (.gradAt _ _) trivial (numM_step rfl)
      | exact w (.hessAt _ _ _) trivial (numM_step rfl)
      | exact w (.basis1 _ _ _ _) trivial (numM_step rfl)
      | exact w (.prod _ _) trivial (numM_step rfl)
      | exact w (.prodGrad _ _ _) trivial (numM_step rfl)
      | exact w (.prodHess _ _ _ _) trivial (numM_step rfl)
  · exact Or.inl rfl

end Verif.XSeries
