import Verif.Model.Func
import Verif.Lemmas.Core

/-! Helper lemmas about `PFlexFunction`: what is stored in its components. -/

namespace Verif
open Spec
variable {V O : Type}

theorem run_snoc {σ Call Out : Type} (sem : Call → σ → Res Out × σ) (cs : List Call) (c : Call) :
    ∀ s, (runCalls sem (cs ++ [c]) s).1.getLast? = some (sem c (runCalls sem cs s).2).1 := by
  induction cs with
  | nil => intro s; simp [runCalls]
  | cons a cs ih =>
    intro s
    have h := ih (sem a s).2
    simp only [List.cons_append, runCalls]
    cases hr : (runCalls sem (cs ++ [c]) (sem a s).2).1 with
    | nil => rw [hr] at h; simp at h
    | cons x xs => rw [hr] at h; rw [List.getLast?_cons_cons]; exact h

/-- Handle `h` holds the component function `F c` and the stored value `st c`. -/
def Rep (F : Comp → V → Res O) (st : Comp → Option O) (c : Comp) (h : SFun V O) : Prop :=
  ∃ o, h = some o ∧ o.evalFn = F c ∧ o.val = st c

/-- The stored values after evaluating `cs` at `v`. -/
def upd (F : Comp → V → Res O) (v : V) (cs : List Comp) (st : Comp → Option O) (c : Comp) : Option O :=
  if c ∈ cs.takeWhile (fun c' => isValue (F c' v)) then
    match F c v with
    | .ok y => some y
    | .error _ => st c
  else st c

theorem Rep.congr {F : Comp → V → Res O} {st st' : Comp → Option O} {c : Comp} {h : SFun V O} (hr : Rep F st c h)
    (e : st' c = st c) : Rep F st' c h := by
  obtain ⟨o, h1, h2, h3⟩ := hr
  exact ⟨o, h1, h2, h3.trans e.symm⟩

/-- Two lists agree element by element. -/
inductive All2 {α β : Type} (R : α → β → Prop) : List α → List β → Prop
  | nil : All2 R [] []
  | cons {a b l m} : R a b → All2 R l m → All2 R (a :: l) (b :: m)

namespace All2
variable {α β : Type} {R R' : α → β → Prop}

theorem mono {l : List α} {m : List β} (h : All2 R l m) (f : ∀ a ∈ l, ∀ b, R a b → R' a b) : All2 R' l m := by
  induction h with
  | nil => exact .nil
  | cons hab _ ih => exact .cons (f _ (by simp) _ hab) (ih fun a ha b => f a (by simp [ha]) b)

theorem length {l : List α} {m : List β} (h : All2 R l m) : l.length = m.length := by
  induction h <;> simp_all

theorem getElem? {l : List α} {m : List β} (h : All2 R l m) {i : Nat} {a : α} (ha : l[i]? = some a) :
    ∃ b, m[i]? = some b ∧ R a b := by
  induction h generalizing i with
  | nil => simp at ha
  | cons hab _ ih =>
    cases i with
    | zero => simp at ha; subst ha; exact ⟨_, rfl, hab⟩
    | succ i => simp at ha; simpa using ih ha

theorem set {l : List α} {m : List β} (h : All2 R l m) {i : Nat} {b : β} (hb : ∀ a, l[i]? = some a → R' a b)
    (hr : ∀ j a c, j ≠ i → l[j]? = some a → R a c → R' a c) : All2 R' l (m.set i b) := by
  induction h generalizing i with
  | nil => exact .nil
  | @cons x y l m hab hm ih =>
    cases i with
    | zero =>
      refine .cons (hb _ rfl) ?_
      have : ∀ (k : Nat) (l : List α) (m : List β), All2 R l m → (∀ (j : Nat) a c, l[j]? = some a → R a c → R' a c) → All2 R' l m := by
        intro k l m h f
        induction h with
        | nil => exact .nil
        | cons hab _ ih => exact .cons (f 0 _ _ rfl hab) (ih fun j a c hj => f (j + 1) a c (by simpa using hj))
      exact this 0 _ _ hm fun j a c hj => hr (j + 1) a c (by omega) (by simpa using hj)
    | succ i =>
      exact .cons (hr 0 _ _ (by omega) rfl hab)
        (ih (fun a ha => hb a (by simpa using ha)) fun j a c hj hja => hr (j + 1) a c (by omega) (by simpa using hja))

theorem of_getElem? {l : List α} {m : List β} (hl : l.length = m.length)
    (h : ∀ (i : Nat) a b, l[i]? = some a → m[i]? = some b → R a b) : All2 R l m := by
  induction l generalizing m with
  | nil => cases m with
    | nil => exact .nil
    | cons _ _ => simp at hl
  | cons a l ih => cases m with
    | nil => simp at hl
    | cons b m =>
      exact .cons (h 0 a b rfl rfl) (ih (by simpa using hl) fun i a b ha hb => h (i + 1) a b (by simpa using ha) (by simpa using hb))

end All2

theorem Rep.evalAt {F : Comp → V → Res O} {st : Comp → Option O} {c : Comp} {h : SFun V O} (hr : Rep F st c h) (v : V) :
    (h.evalAt v).1 = F c v ∧ Rep F (upd F v [c] st) c (h.evalAt v).2 := by
  obtain ⟨o, rfl, h2, h3⟩ := hr
  simp only [SFun.evalAt, SObj.evalAt]
  have e : o.evalFn v = F c v := by rw [h2]
  rw [e]
  cases hF : F c v with
  | ok y => exact ⟨rfl, _, rfl, h2, by simp [upd, isValue, hF]⟩
  | error er => exact ⟨rfl, _, rfl, h2, by simp [upd, isValue, hF, h3]⟩

theorem Rep.get {F : Comp → V → Res O} {st : Comp → Option O} {c : Comp} {h : SFun V O} (hr : Rep F st c h) :
    h.get = match st c with | some y => .ok y | none => .error (.ub .uninit) := by
  obtain ⟨o, rfl, _, h3⟩ := hr
  simp only [SFun.get, SObj.get, h3]
  cases st c <;> rfl

/-- All components of `cs` evaluate to a value. -/
def allOk (F : Comp → V → Res O) (v : V) (cs : List Comp) : Bool := cs.all fun c => isValue (F c v)

theorem upd_cons_ok {F : Comp → V → Res O} {v : V} {c : Comp} (cs : List Comp) (h : isValue (F c v) = true) (st : Comp → Option O)
    (d : Comp) (hd : d ≠ c) : upd F v (c :: cs) st d = upd F v cs st d := by
  simp [upd, h, hd]

theorem upd_cons_err {F : Comp → V → Res O} {v : V} {c : Comp} (cs : List Comp) (h : isValue (F c v) = false) (st : Comp → Option O) :
    upd F v (c :: cs) st = st := by
  funext d; simp [upd, h]

theorem evalAll_rep {F : Comp → V → Res O} {st : Comp → Option O} (v : V) {cs : List Comp} {hs : List (SFun V O)}
    (h : All2 (Rep F st) cs hs) (hn : cs.Nodup) :
    isValue (SFun.evalAll v hs).1 = allOk F v cs ∧ All2 (Rep F (upd F v cs st)) cs (SFun.evalAll v hs).2 := by
  induction h with
  | nil => exact ⟨rfl, .nil⟩
  | @cons c h cs hs hc hcs ih =>
    obtain ⟨hnc, hn'⟩ := List.nodup_cons.mp hn
    obtain ⟨ih1, ih2⟩ := ih hn'
    obtain ⟨e1, e2⟩ := hc.evalAt v
    simp only [SFun.evalAll]
    cases hp : h.evalAt v with
    | mk r h' =>
      rw [hp] at e1 e2
      simp only at e1 e2
      subst e1
      cases hF : F c v with
      | error er =>
        refine ⟨by simp [isValue, allOk, hF], ?_⟩
        rw [upd_cons_err cs (by simp [isValue, hF])]
        rw [upd_cons_err [] (by simp [isValue, hF])] at e2
        exact .cons e2 hcs
      | ok y =>
        simp only
        refine ⟨by rw [ih1]; simp [allOk, isValue, hF], .cons (e2.congr ?_) (ih2.mono fun d hd b hb => hb.congr ?_)⟩
        · simp [upd, isValue, hF]
        · exact upd_cons_ok cs (by simp [isValue, hF]) st d (by rintro rfl; exact hnc hd)

theorem upd_append_ok {F : Comp → V → Res O} {v : V} {cs : List Comp} (ds : List Comp) (h : allOk F v cs = true)
    (st : Comp → Option O) (d : Comp) :
    (d ∉ ds → upd F v (cs ++ ds) st d = upd F v cs st d) ∧ (d ∉ cs → upd F v (cs ++ ds) st d = upd F v ds st d) := by
  have hall : ∀ c ∈ cs, isValue (F c v) = true := by simpa [allOk] using h
  have e : (cs ++ ds).takeWhile (fun c' => isValue (F c' v)) = cs ++ ds.takeWhile (fun c' => isValue (F c' v)) :=
    List.takeWhile_append_of_pos hall
  have e2 : cs.takeWhile (fun c' => isValue (F c' v)) = cs := by
    have := List.takeWhile_append_of_pos (l₂ := []) hall
    simpa using this
  constructor
  · intro hd
    have hnd : d ∉ ds.takeWhile (fun c' => isValue (F c' v)) := fun hm => hd (List.takeWhile_subset _ hm)
    simp [upd, e, e2, hnd]
  · intro hd
    simp [upd, e, hd]

theorem upd_append_err {F : Comp → V → Res O} {v : V} {cs : List Comp} (ds : List Comp) (h : allOk F v cs = false)
    (st : Comp → Option O) : upd F v (cs ++ ds) st = upd F v cs st := by
  have e : (cs ++ ds).takeWhile (fun c' => isValue (F c' v)) = cs.takeWhile (fun c' => isValue (F c' v)) := by
    induction cs with
    | nil => simp [allOk] at h
    | cons c cs ih =>
      by_cases hc : isValue (F c v) = true
      · simp only [List.cons_append, List.takeWhile_cons, hc, if_true]
        rw [ih]; simpa [allOk, hc] using h
      · simp [hc]
  funext d; simp only [upd, e]

theorem evalRows_rep {F : Comp → V → Res O} {st : Comp → Option O} (v : V) {css : List (List Comp)} {rows : List (List (SFun V O))}
    (h : All2 (All2 (Rep F st)) css rows) (hn : css.flatten.Nodup) :
    isValue (SFun.evalRows v rows).1 = allOk F v css.flatten ∧
      All2 (All2 (Rep F (upd F v css.flatten st))) css (SFun.evalRows v rows).2 := by
  induction h with
  | nil => exact ⟨rfl, .nil⟩
  | @cons cs row css rows hc hcs ih =>
    rw [List.flatten_cons, List.nodup_append] at hn
    obtain ⟨hn1, hn2, hd⟩ := hn
    obtain ⟨ih1, ih2⟩ := ih hn2
    obtain ⟨e1, e2⟩ := evalAll_rep v hc hn1
    simp only [SFun.evalRows, List.flatten_cons]
    cases hp : SFun.evalAll v row with
    | mk r row' =>
      rw [hp] at e1 e2
      simp only at e1 e2
      cases r with
      | error er =>
        have hf : allOk F v cs = false := by rw [← e1]; rfl
        rw [upd_append_err _ hf]
        refine ⟨?_, .cons e2 (hcs.mono fun ds hds b hb => hb.mono fun d hdd b hb => hb.congr ?_)⟩
        · simp only [allOk] at hf ⊢; rw [List.all_append, hf]; rfl
        · have hdc : d ∉ cs := fun hdc => hd d hdc d (List.mem_flatten.mpr ⟨ds, hds, hdd⟩) rfl
          simp only [upd]
          rw [if_neg fun hm => hdc (List.takeWhile_subset _ hm)]
      | ok u =>
        have hf : allOk F v cs = true := by rw [← e1]; rfl
        simp only
        refine ⟨?_, .cons (e2.mono fun d hdd b hb => hb.congr ?_) (ih2.mono fun ds hds b hb => hb.mono fun d hdd b hb => hb.congr ?_)⟩
        · rw [ih1]; simp only [allOk] at hf ⊢; simp [List.all_append, hf]
        · exact (upd_append_ok _ hf st d).1 fun hm => hd d hdd d hm rfl
        · exact (upd_append_ok _ hf st d).2 fun hm => hd d hm d (List.mem_flatten.mpr ⟨ds, hds, hdd⟩) rfl

/-- Rows of Hessian components. -/
def hessComps (n : Nat) : List (List Comp) := (List.range n).map fun i => (List.range n).map (Comp.h i)

/-- The function has `n` variables, component functions `F` and stored values `st`. -/
structure FlexRep (n : Nat) (F : Comp → V → Res O) (st : Comp → Option O) (p : Flex V O) : Prop where
  val : Rep F st .f p.val
  grad : All2 (Rep F st) ((List.range n).map .g) p.grad
  hess : All2 (All2 (Rep F st)) (hessComps n) p.hess

theorem FlexRep.congr {n : Nat} {F : Comp → V → Res O} {st st' : Comp → Option O} {p : Flex V O} (h : FlexRep n F st p)
    (e : st' = st) : FlexRep n F st' p := e ▸ h

theorem upd_other {F : Comp → V → Res O} {v : V} {cs : List Comp} {st : Comp → Option O} {d : Comp} (h : d ∉ cs) :
    upd F v cs st d = st d := by
  simp only [upd]; rw [if_neg fun hm => h (List.takeWhile_subset _ hm)]

theorem hessComps_flatten (n : Nat) : (hessComps n).flatten = (List.range n).flatMap fun i => (List.range n).map (.h i) := by
  simp [hessComps, List.flatMap]

theorem mem_hess {n : Nat} {ds : List Comp} (h : ds ∈ hessComps n) {d : Comp} (hd : d ∈ ds) : ∃ i j, i < n ∧ j < n ∧ d = .h i j := by
  simp only [hessComps, List.mem_map, List.mem_range] at h
  obtain ⟨i, hi, rfl⟩ := h
  simp only [List.mem_map, List.mem_range] at hd
  obtain ⟨j, hj, rfl⟩ := hd
  exact ⟨i, j, hi, hj, rfl⟩

theorem nodup_map_inj {α β : Type} (f : α → β) (hf : ∀ a b, f a = f b → a = b) {l : List α} (h : l.Nodup) : (l.map f).Nodup := by
  induction l with
  | nil => simp
  | cons a l ih =>
    obtain ⟨h1, h2⟩ := List.nodup_cons.mp h
    rw [List.map_cons, List.nodup_cons]
    refine ⟨?_, ih h2⟩
    simp only [List.mem_map, not_exists, not_and]
    intro b hb e
    exact h1 (hf _ _ e ▸ hb)

theorem grad_nodup (n : Nat) : ((List.range n).map Comp.g).Nodup := nodup_map_inj _ (by intro a b h; cases h; rfl) List.nodup_range

theorem flatMap_nodup {α : Type} (f : α → List Comp) (l : List α) (hl : l.Nodup) (h1 : ∀ a, (f a).Nodup)
    (h2 : ∀ a b x, x ∈ f a → x ∈ f b → a = b) : (l.flatMap f).Nodup := by
  induction l with
  | nil => simp
  | cons a l ih =>
    obtain ⟨ha, hl'⟩ := List.nodup_cons.mp hl
    rw [List.flatMap_cons, List.nodup_append]
    refine ⟨h1 a, ih hl', ?_⟩
    intro x hx y hy e
    subst e
    obtain ⟨b, hb, hxb⟩ := List.mem_flatMap.mp hy
    exact ha (h2 a b x hx hxb ▸ hb)

theorem hess_nodup (n : Nat) : (hessComps n).flatten.Nodup := by
  rw [hessComps_flatten]
  refine flatMap_nodup _ _ List.nodup_range (fun i => nodup_map_inj _ (by intro a b h; cases h; rfl) List.nodup_range) ?_
  intro a b x hx hy
  simp only [List.mem_map] at hx hy
  obtain ⟨j, _, rfl⟩ := hx
  obtain ⟨k, _, e⟩ := hy
  cases e; rfl

/-- What a call does to the stored values. -/
def callUpd (n : Nat) (F : Comp → V → Res O) (c : FCall V) (st : Comp → Option O) : Comp → Option O :=
  match c.evaluates n with
  | some (v, cs) => upd F v cs st
  | none => st

theorem vget_range {α : Type} {l : List α} {i : Int} {n : Nat} (hl : l.length = n) (h0 : 0 ≤ i) (h1 : i < n) :
    ∃ a, vget l i = .ok a ∧ l[i.toNat]? = some a := vget_of_lt l i h0 (by omega)

/-- Every call in range keeps the representation, with the stored values updated. -/
theorem FlexRep.call {n : Nat} {F : Comp → V → Res O} {st : Comp → Option O} {p : Flex V O} (h : FlexRep n F st p)
    (c : FCall V) (hc : c.InRange n) : FlexRep n F (callUpd n F c st) (Flex.sem c p).2 := by
  have hgl : p.grad.length = n := by have := h.grad.length; simpa using this.symm
  have hhl : p.hess.length = n := by have := h.hess.length; simpa [hessComps] using this.symm
  have hself : ∀ (q : Flex V O), q = p → FlexRep n F st q := fun q e => e ▸ h
  have hevalAt : ∀ v, FlexRep n F (upd F v [.f] st) (p.evalAt v).2 := by
    intro v
    obtain ⟨_, e⟩ := h.val.evalAt v
    refine ⟨e, h.grad.mono fun d hd b hb => hb.congr (upd_other ?_), h.hess.mono fun ds hds b hb => hb.mono fun d hd b hb => hb.congr (upd_other ?_)⟩
    · simp only [List.mem_map] at hd; obtain ⟨i, _, rfl⟩ := hd; simp
    · obtain ⟨i, j, _, _, rfl⟩ := mem_hess hds hd; simp
  cases c with
  | evalAt v => exact hevalAt v
  | eval v => exact hevalAt v
  | gradAt v di =>
    obtain ⟨h0, h1⟩ := hc
    obtain ⟨hd, e1, e2⟩ := vget_range hgl h0 h1
    have hi : ((List.range n).map Comp.g)[di.toNat]? = some (.g di.toNat) := by
      rw [List.getElem?_map, List.getElem?_range (by omega)]; rfl
    obtain ⟨b, hb, hr⟩ := h.grad.getElem? hi
    rw [e2] at hb; cases hb
    obtain ⟨_, hr'⟩ := hr.evalAt v
    simp only [Flex.sem, FBase.sem, Flex.ov, Flex.gradAt, e1, callUpd, FCall.evaluates]
    refine ⟨h.val.congr (upd_other (by simp)), h.grad.set ?_ ?_, h.hess.mono fun ds hds b hb => hb.mono fun d hd b hb => hb.congr (upd_other ?_)⟩
    · intro a ha; rw [hi] at ha; cases ha; exact hr'
    · intro j a c hj ha hac
      refine hac.congr (upd_other ?_)
      rw [List.getElem?_map] at ha
      cases hj' : (List.range n)[j]? with
      | none => rw [hj'] at ha; cases ha
      | some k =>
        rw [hj'] at ha; cases ha
        have := List.getElem?_eq_some_iff.mp hj'
        obtain ⟨_, hk⟩ := this
        simp at hk
        subst hk
        simpa using hj
    · obtain ⟨i, j, _, _, rfl⟩ := mem_hess hds hd; simp
  | hessAt v di dj =>
    obtain ⟨⟨h0, h1⟩, h2, h3⟩ := hc
    obtain ⟨row, e1, e2⟩ := vget_range hhl h0 h1
    have hi : (hessComps n)[di.toNat]? = some ((List.range n).map (Comp.h di.toNat)) := by
      rw [hessComps, List.getElem?_map, List.getElem?_range (by omega)]; rfl
    obtain ⟨b, hb, hrow⟩ := h.hess.getElem? hi
    rw [e2] at hb; cases hb
    have hrl : row.length = n := by have := hrow.length; simpa using this.symm
    obtain ⟨hd, e3, e4⟩ := vget_range hrl h2 h3
    have hj : ((List.range n).map (Comp.h di.toNat))[dj.toNat]? = some (.h di.toNat dj.toNat) := by
      rw [List.getElem?_map, List.getElem?_range (by omega)]; rfl
    obtain ⟨b, hb, hr⟩ := hrow.getElem? hj
    rw [e4] at hb; cases hb
    obtain ⟨_, hr'⟩ := hr.evalAt v
    simp only [Flex.sem, FBase.sem, Flex.ov, Flex.hessAt, e1, e3, callUpd, FCall.evaluates]
    refine ⟨h.val.congr (upd_other (by simp)), h.grad.mono fun d hd b hb => hb.congr (upd_other ?_), h.hess.set ?_ ?_⟩
    · simp only [List.mem_map] at hd; obtain ⟨i, _, rfl⟩ := hd; simp
    · intro a ha; rw [hi] at ha; cases ha
      refine hrow.set ?_ ?_
      · intro a ha; rw [hj] at ha; cases ha; exact hr'
      · intro j a c hj ha hac
        refine hac.congr (upd_other ?_)
        rw [List.getElem?_map] at ha
        cases hj' : (List.range n)[j]? with
        | none => rw [hj'] at ha; cases ha
        | some k =>
          rw [hj'] at ha; cases ha
          obtain ⟨_, hk⟩ := List.getElem?_eq_some_iff.mp hj'
          simp at hk
          subst hk
          simpa using hj
    · intro i ds c hi' hds hac
      refine hac.mono fun d hd b hb => hb.congr (upd_other ?_)
      rw [hessComps, List.getElem?_map] at hds
      cases hj' : (List.range n)[i]? with
      | none => rw [hj'] at hds; cases hds
      | some k =>
        rw [hj'] at hds; cases hds
        obtain ⟨_, hk⟩ := List.getElem?_eq_some_iff.mp hj'
        simp at hk
        subst hk
        simp only [List.mem_map] at hd
        obtain ⟨j, _, rfl⟩ := hd
        simp [hi']
  | evalGrad v =>
    obtain ⟨_, e⟩ := evalAll_rep v h.grad (grad_nodup n)
    refine ⟨h.val.congr (upd_other (by simp)), e, h.hess.mono fun ds hds b hb => hb.mono fun d hd b hb => hb.congr (upd_other ?_)⟩
    obtain ⟨i, j, _, _, rfl⟩ := mem_hess hds hd; simp
  | evalHess v =>
    obtain ⟨_, e⟩ := evalRows_rep v h.hess (hess_nodup n)
    rw [hessComps_flatten] at e
    refine ⟨h.val.congr (upd_other ?_), h.grad.mono fun d hd b hb => hb.congr (upd_other ?_), e⟩
    · simp
    · simp only [List.mem_map] at hd; obtain ⟨i, _, rfl⟩ := hd; simp
  | get | getGrad | getHess | simple | gradSimple | hessSimple | name | size | varNames | varName | varDescs | varDesc => exact h

/-- The getters read the stored values. -/
theorem FlexRep.getter {n : Nat} {F : Comp → V → Res O} {st : Comp → Option O} {p : Flex V O} (h : FlexRep n F st p)
    (c : Comp) (hc : (Spec.getter c : FCall V).InRange n) :
    (Flex.sem (Spec.getter c) p).1 = (match st c with | some y => .ok y | none => .error (.ub .uninit) : Res O).map .num := by
  have hgl : p.grad.length = n := by have := h.grad.length; simpa using this.symm
  have hhl : p.hess.length = n := by have := h.hess.length; simpa [hessComps] using this.symm
  cases c with
  | f =>
    simp only [Spec.getter, Flex.sem, FBase.sem, Flex.ov]
    rw [h.val.get]
  | g i =>
    simp only [Spec.getter, FCall.InRange] at hc
    have hi : ((List.range n).map Comp.g)[i]? = some (.g i) := by
      rw [List.getElem?_map, List.getElem?_range (by omega)]; rfl
    obtain ⟨b, hb, hr⟩ := h.grad.getElem? hi
    obtain ⟨hd, e1, e2⟩ := vget_range hgl hc.1 hc.2
    rw [Int.toNat_natCast, hb] at e2; cases e2
    simp only [Spec.getter, Flex.sem, FBase.sem, Flex.ov, e1, Except.bind]
    rw [hr.get]
  | h i j =>
    simp only [Spec.getter, FCall.InRange] at hc
    have hi : (hessComps n)[i]? = some ((List.range n).map (Comp.h i)) := by
      rw [hessComps, List.getElem?_map, List.getElem?_range (by omega)]; rfl
    obtain ⟨row, hb, hrow⟩ := h.hess.getElem? hi
    obtain ⟨hd, e1, e2⟩ := vget_range hhl hc.1.1 hc.1.2
    rw [Int.toNat_natCast, hb] at e2; cases e2
    have hrl : row.length = n := by have := hrow.length; simpa using this.symm
    have hj : ((List.range n).map (Comp.h i))[j]? = some (.h i j) := by
      rw [List.getElem?_map, List.getElem?_range (by omega)]; rfl
    obtain ⟨b, hb', hr⟩ := hrow.getElem? hj
    obtain ⟨hd, e3, e4⟩ := vget_range hrl hc.2.1 hc.2.2
    rw [Int.toNat_natCast, hb'] at e4; cases e4
    simp only [Spec.getter, Flex.sem, FBase.sem, Flex.ov, e1, e3, Except.bind]
    rw [hr.get]

/-- A single evaluation returns the component function's value. -/
theorem FlexRep.single {n : Nat} {F : Comp → V → Res O} {st : Comp → Option O} {p : Flex V O} (h : FlexRep n F st p) (v : V)
    (c : Comp) (hc : (Spec.getter c : FCall V).InRange n) : (Flex.sem (Spec.single v c) p).1 = (F c v).map .num := by
  have hgl : p.grad.length = n := by have := h.grad.length; simpa using this.symm
  have hhl : p.hess.length = n := by have := h.hess.length; simpa [hessComps] using this.symm
  cases c with
  | f =>
    simp only [Spec.single, Flex.sem, FBase.sem, Flex.ov, Flex.evalAt]
    rw [(h.val.evalAt v).1]
  | g i =>
    simp only [Spec.getter, FCall.InRange] at hc
    have hi : ((List.range n).map Comp.g)[i]? = some (.g i) := by
      rw [List.getElem?_map, List.getElem?_range (by omega)]; rfl
    obtain ⟨b, hb, hr⟩ := h.grad.getElem? hi
    obtain ⟨hd, e1, e2⟩ := vget_range hgl hc.1 hc.2
    rw [Int.toNat_natCast, hb] at e2; cases e2
    simp only [Spec.single, Flex.sem, FBase.sem, Flex.ov, Flex.gradAt, e1]
    rw [(hr.evalAt v).1]
  | h i j =>
    simp only [Spec.getter, FCall.InRange] at hc
    have hi : (hessComps n)[i]? = some ((List.range n).map (Comp.h i)) := by
      rw [hessComps, List.getElem?_map, List.getElem?_range (by omega)]; rfl
    obtain ⟨row, hb, hrow⟩ := h.hess.getElem? hi
    obtain ⟨hd, e1, e2⟩ := vget_range hhl hc.1.1 hc.1.2
    rw [Int.toNat_natCast, hb] at e2; cases e2
    have hrl : row.length = n := by have := hrow.length; simpa using this.symm
    have hj : ((List.range n).map (Comp.h i))[j]? = some (.h i j) := by
      rw [List.getElem?_map, List.getElem?_range (by omega)]; rfl
    obtain ⟨b, hb', hr⟩ := hrow.getElem? hj
    obtain ⟨hd, e3, e4⟩ := vget_range hrl hc.2.1 hc.2.2
    rw [Int.toNat_natCast, hb'] at e4; cases e4
    simp only [Spec.single, Flex.sem, FBase.sem, Flex.ov, Flex.hessAt, e1, e3]
    rw [(hr.evalAt v).1]

theorem checkRows_ok (n : Nat) (rows : List (List (SFun V O))) :
    Flex.checkRows n rows = if ∀ r ∈ rows, r.length = n then .ok () else .error (.exit 1) := by
  induction rows with
  | nil => simp [Flex.checkRows]
  | cons r rows ih =>
    simp only [Flex.checkRows]
    by_cases h : r.length = n
    · simp [h, ih]
    · simp [h]

/-- The sizes that `check` compares. -/
def sizesOk (b : FBase) (g : List (SFun V O)) (h : List (List (SFun V O))) : Prop :=
  b.varDesc.length = b.varName.length ∧ g.length = b.varName.length ∧ h.length = b.varName.length ∧
    ∀ r ∈ h, r.length = b.varName.length

theorem check_eq (p : Flex V O) : (sizesOk p.base p.grad p.hess → p.check = .ok ()) ∧
    (¬ sizesOk p.base p.grad p.hess → p.check = .error (.exit 1)) := by
  unfold Flex.check sizesOk
  dsimp only
  rw [checkRows_ok]
  constructor
  · rintro ⟨h1, h2, h3, h4⟩
    simp [h1, h2, h3]; exact h4
  · intro h
    by_cases h1 : p.base.varDesc.length = p.base.varName.length
    · by_cases h2 : p.grad.length = p.base.varName.length
      · by_cases h3 : p.hess.length = p.base.varName.length
        · have h4 : ¬ ∀ r ∈ p.hess, r.length = p.base.varName.length := fun h4 => h ⟨h1, h2, h3, h4⟩
          rw [if_neg (by simp [h1]), if_neg (by simp [h2]), if_neg (by simp [h3]), if_neg h4]
        · rw [if_neg (by simp [h1]), if_neg (by simp [h2]), if_pos h3]
      · rw [if_neg (by simp [h1]), if_pos h2]
    · rw [if_pos h1]

/-- The stored values of given functions. -/
def storedVal (f : SObj V O) (g : List (SObj V O)) (h : List (List (SObj V O))) : Comp → Option O
  | .f => f.val
  | .g i => (g[i]?).bind SObj.val
  | .h i j => (((h[i]?).getD [])[j]?).bind SObj.val

theorem flexRep_mk {n : Nat} (b : FBase) (f : SObj V O) (g : List (SObj V O)) (h : List (List (SObj V O)))
    (hg : g.length = n) (hh : h.length = n) (hr : ∀ r ∈ h, r.length = n) :
    FlexRep n (compFn f.evalFn (g.map SObj.evalFn) (h.map fun r => r.map SObj.evalFn)) (storedVal f g h)
      ⟨b, some f, g.map some, h.map fun r => r.map some⟩ := by
  refine ⟨⟨f, rfl, rfl, rfl⟩, All2.of_getElem? (by simp [hg]) ?_, All2.of_getElem? (by simp [hessComps, hh]) ?_⟩
  · intro i c b hc hb
    rw [List.getElem?_map] at hc hb
    cases hi : (List.range n)[i]? with
    | none => rw [hi] at hc; cases hc
    | some k =>
      rw [hi] at hc; cases hc
      obtain ⟨_, hk⟩ := List.getElem?_eq_some_iff.mp hi
      simp at hk; subst hk
      cases ho : g[i]? with
      | none => rw [ho] at hb; cases hb
      | some o =>
        rw [ho] at hb; cases hb
        exact ⟨o, rfl, by simp [compFn, ho], by simp only [storedVal, ho]; rfl⟩
  · intro i cs row hcs hrow
    rw [hessComps, List.getElem?_map] at hcs
    rw [List.getElem?_map] at hrow
    cases hi : (List.range n)[i]? with
    | none => rw [hi] at hcs; cases hcs
    | some k =>
      rw [hi] at hcs; cases hcs
      obtain ⟨_, hk⟩ := List.getElem?_eq_some_iff.mp hi
      simp at hk; subst hk
      cases hr' : h[i]? with
      | none => rw [hr'] at hrow; cases hrow
      | some r =>
        rw [hr'] at hrow; cases hrow
        have hrl := hr r (List.mem_of_getElem? hr')
        refine All2.of_getElem? (by simp [hrl]) ?_
        intro j c b hc hb
        rw [List.getElem?_map] at hc hb
        cases hj : (List.range n)[j]? with
        | none => rw [hj] at hc; cases hc
        | some k =>
          rw [hj] at hc; cases hc
          obtain ⟨_, hk⟩ := List.getElem?_eq_some_iff.mp hj
          simp at hk; subst hk
          cases ho : r[j]? with
          | none => rw [ho] at hb; cases hb
          | some o =>
            rw [ho] at hb; cases hb
            exact ⟨o, rfl, by simp [compFn, hr', ho], by simp only [storedVal, hr', Option.getD_some, ho]; rfl⟩

/-- A history of calls. -/
theorem FlexRep.run {n : Nat} {F : Comp → V → Res O} (cs : List (FCall V)) (hc : ∀ c ∈ cs, c.InRange n) :
    ∀ {st : Comp → Option O} {p : Flex V O}, FlexRep n F st p →
      FlexRep n F (cs.foldl (fun st c => callUpd n F c st) st) (runCalls Flex.sem cs p).2 := by
  induction cs with
  | nil => intro st p h; exact h
  | cons c cs ih =>
    intro st p h
    exact ih (fun c' hc' => hc c' (by simp [hc'])) (h.call c (hc c (by simp)))

theorem mem_takeWhile_pos {α : Type} {p : α → Bool} {l : List α} {x : α} (h : x ∈ l.takeWhile p) : p x = true := by
  induction l with
  | nil => simp at h
  | cons a l ih =>
    rw [List.takeWhile_cons] at h
    split at h
    · rcases List.mem_cons.mp h with rfl | h
      · assumption
      · exact ih h
    · simp at h

/-- Stored values after a history are the values at the last successful evaluation. -/
theorem foldl_lastEval {n : Nat} {F : Comp → V → Res O} (c : Comp) (cs : List (FCall V)) (st0 : Comp → Option O) :
    ∀ (st : Comp → Option O) (last : Option V),
      (match last with | some v => ∃ y, F c v = .ok y ∧ st c = some y | none => st c = st0 c) →
      match lastEval F n c cs last with
      | some v => ∃ y, F c v = .ok y ∧ cs.foldl (fun st c => callUpd n F c st) st c = some y
      | none => cs.foldl (fun st c => callUpd n F c st) st c = st0 c := by
  induction cs with
  | nil => intro st last h; exact h
  | cons call cs ih =>
    intro st last h
    refine ih _ _ ?_
    simp only [callUpd]
    cases he : call.evaluates n with
    | none => exact h
    | some vc =>
      obtain ⟨v, cs'⟩ := vc
      by_cases hm : c ∈ cs'.takeWhile (fun c' => isValue (F c' v))
      · have hv := mem_takeWhile_pos hm
        simp only [upd, hm, if_true]
        cases hF : F c v with
        | ok y => exact ⟨y, rfl, rfl⟩
        | error e => rw [hF] at hv; cases hv
      · simp only [upd, hm, if_false]
        exact h

end Verif
