import Verif.Props.Extern
import Verif.Props.Python

/-!
# The C interface to basis sets and simple functions (C86); basis sets and series together (C87)
-/

namespace Verif
open Spec

/-! ### C86 -/

section
variable {K : Type}

/-- The functions for simple functions of an array of numbers. -/
abbrev dsdC : SimpleFn × List (CVal K) → SObj (List K) K → Res (XOut K) × SObj (List K) K := apiSem simpleDsd
/-- The functions for simple functions of a number. -/
abbrev ddC : SimpleFn × List (CVal K) → SObj K K → Res (XOut K) × SObj K K := apiSem simpleDd

/-- The point of the last `calc` that gave a value, in a history of calls at the given points. -/
def Spec.lastValue {V O : Type} (f : V → Res O) : List V → Option V → Option V
  | [], last => last
  | v :: vs, last => lastValue f vs (if isValue (f v) then some v else last)

theorem sobj_calls {V : Type} (sem : SimpleFn × List (CVal K) → SObj V K → Res (XOut K) × SObj V K) (arg : V → SimpleFn × List (CVal K))
    (hs : ∀ v o, (sem (arg v) o).2 = (o.evalAt v).2) (f : V → Res K) (vs : List V) : ∀ (o : SObj V K) (last : Option V), o.evalFn = f →
      (∀ u, last = some u → o.val = (f u).toOption) → (last = none → o.val = none) →
      (runCalls sem (vs.map arg) o).2.evalFn = f ∧
        (runCalls sem (vs.map arg) o).2.val = match lastValue f vs last with | some u => (f u).toOption | none => none := by
  induction vs with
  | nil =>
    intro o last h1 h2 h3
    refine ⟨h1, ?_⟩
    cases last with
    | none => exact h3 rfl
    | some u => exact h2 u rfl
  | cons v vs ih =>
    intro o last h1 h2 h3
    simp only [List.map_cons, runCalls, lastValue, hs]
    have hf : o.evalFn v = f v := by rw [h1]
    cases hv : f v with
    | ok y =>
      have e : (o.evalAt v).2 = { o with val := some y } := by simp [SObj.evalAt, hf, hv]
      rw [e]
      refine ih _ _ (by rw [← h1]; rfl) ?_ ?_
      · intro u hu; simp [isValue] at hu; subst hu; rw [hv]; rfl
      · intro hu; simp [isValue] at hu
    | error er =>
      have e : (o.evalAt v).2 = o := by simp [SObj.evalAt, hf, hv]
      rw [e]
      exact ih _ _ h1 (by intro u hu; simp [isValue] at hu; exact h2 u hu) (by intro hu; simp [isValue] at hu; exact h3 hu)

/-- **C86** After any calls at any points, `PSimpleFunction_dsd_calc` (and `_dd_calc`) stores the function's value at the given point or
passes on its exception, and `_get` the value at the point of the last `calc` that gave one; before that it is undefined. -/
theorem C86_simple (o : SObj (List K) K) (hv : o.val = none) (o' : SObj K K) (hv' : o'.val = none) (vs : List (List K)) (v : List K)
    (xs : List K) (x : K) :
    (let q := (runCalls dsdC (vs.map fun v => (.calc, [.dbls v, .refDbl])) o).2
     (dsdC (.calc, [.dbls v, .refDbl]) q).1 = (o.evalFn v).map .num ∧
     (dsdC (.get, [.refDbl]) q).1 = match lastValue o.evalFn vs none with | some u => (o.evalFn u).map .num | none => .error (.ub .uninit)) ∧
    (let q := (runCalls ddC (xs.map fun x => (.calc, [.dbl x, .refDbl])) o').2
     (ddC (.calc, [.dbl x, .refDbl]) q).1 = (o'.evalFn x).map .num ∧
     (ddC (.get, [.refDbl]) q).1 = match lastValue o'.evalFn xs none with | some u => (o'.evalFn u).map .num | none => .error (.ub .uninit)) := by
  have lv : ∀ {V : Type} (f : V → Res K) (vs : List V) (last : Option V), (∀ u, last = some u → isValue (f u) = true) →
      ∀ u, lastValue f vs last = some u → isValue (f u) = true := by
    intro V f vs
    induction vs with
    | nil => intro last h u hu; exact h u hu
    | cons v vs ih =>
      intro last h u hu
      refine ih _ ?_ u hu
      intro w hw
      by_cases hv : isValue (f v) = true
      · simp [hv] at hw; subst hw; exact hv
      · simp [hv] at hw; exact h w hw
  have key : ∀ {V : Type} (q : SObj V K) (f : V → Res K) (vs : List V) (v : V), q.evalFn = f →
      (q.val = match lastValue f vs none with | some u => (f u).toOption | none => none) →
      (q.evalAt v).1 = f v ∧ q.get.map (XOut.num (K := K)) = match lastValue f vs none with | some u => (f u).map .num | none => .error (.ub .uninit) := by
    intro V q f vs v h1 h2
    refine ⟨?_, ?_⟩
    · simp only [SObj.evalAt, h1]; cases f v <;> rfl
    · simp only [SObj.get, h2]
      cases hl : lastValue f vs none with
      | none => rfl
      | some u =>
        have := lv f vs none (by simp) u hl
        cases hu : f u with
        | ok y => simp [hu, Except.map, Except.toOption]
        | error e => rw [hu] at this; cases this
  constructor
  · intro q
    obtain ⟨h1, h2⟩ := sobj_calls dsdC (fun v => (.calc, [.dbls v, .refDbl])) (fun v o => rfl) o.evalFn vs o none rfl (by simp) (fun _ => hv)
    obtain ⟨k1, k2⟩ := key q o.evalFn vs v h1 h2
    refine ⟨?_, show q.get.map XOut.num = _ from k2.trans (by cases lastValue o.evalFn vs none <;> rfl)⟩
    show (q.evalAt v).1.map XOut.num = _
    rw [k1]
  · intro q
    obtain ⟨h1, h2⟩ := sobj_calls ddC (fun v => (.calc, [.dbl v, .refDbl])) (fun v o => rfl) o'.evalFn xs o' none rfl (by simp) (fun _ => hv')
    obtain ⟨k1, k2⟩ := key q o'.evalFn xs x h1 h2
    refine ⟨?_, show q.get.map XOut.num = _ from k2.trans (by cases lastValue o'.evalFn xs none <;> rfl)⟩
    show (q.evalAt x).1.map XOut.num = _
    rw [k1]

end

section
variable {K : Type} [Field K] [LinearOrder K] [FloorRing K]

/-- The functions for basis sets. -/
abbrev basisC : BasisFn × List (CVal K) → XBasis K → Res (XOut K) × XBasis K := apiSem (XBasis.api 0)

/-- **C86** A basis set checked out by name has the class's functions, `N` of them, if `N` is not more than the class allows; an unknown
name throws `std::runtime_error`; a size the class does not allow ends the program. -/
theorem C86_checkout (lib : String → Option (BClass K)) (k : String) (n : Int) :
    (lib k = none → checkoutBasis 0 lib (k, n) = .error .runtimeError) ∧
    ∀ c, lib k = some c →
      (∀ m : Nat, c.maxSize = some m → ¬ (0 ≤ n ∧ n ≤ m) → checkoutBasis 0 lib (k, n) = .error (.exit 1)) ∧
      ((0 ≤ n ∧ ∀ m : Nat, c.maxSize = some m → n ≤ m) → ∀ F : Family K, c.phi = some F.phi → c.dphi = some F.dphi →
        c.ddphi = some F.ddphi → (F.size : Int) = n → ∃ b, checkoutBasis 0 lib (k, n) = .ok b ∧ b.Has lib F) := by
  refine ⟨fun h => by simp [checkoutBasis, h], fun c h => ⟨fun m hm hn => ?_, fun hn F h1 h2 h3 hs => ?_⟩⟩
  · simp only [checkoutBasis, h, XBasis.make, XBasis.checkSize, hm, if_neg hn, err_bind]
  · have e : XBasis.checkSize c n = .ok n.toNat := by
      simp only [XBasis.checkSize]
      cases hm : c.maxSize with
      | none => simp [hn.1]
      | some m => simp [hn.1, hn.2 m hm]
    have e' : checkoutBasis 0 lib (k, n) = .ok ⟨c, BasisSet.make 0 n.toNat c.phi c.dphi c.ddphi⟩ := by
      simp only [checkoutBasis, h, XBasis.make, e, ok_bind]
    refine ⟨_, e', (k, n), _, [], e', rfl, h1, h2, h3, ?_⟩
    have : (BasisSet.make (0 : K) n.toNat c.phi c.dphi c.ddphi).size = n.toNat := BasisSet.vresize_length _ _ _
    rw [this]; omega

/-- **C86** After any calls, `PBasisSet_dd_size` is the number of functions; `_calc`, `_calc_grad`, `_calc_hess` store the value of a function
and its derivatives at the point; `_get`, `_get_grad`, `_get_hess` after `_eval`, `_eval_grad`, `_eval_hess` do, too. -/
theorem C86_basis (lib : String → Option (BClass K)) (F : Family K) (b : XBasis K) (hb : b.Has lib F) (x : K) :
    (basisC (.size, [.refInt]) b).1 = .ok (.int F.size) ∧ ∀ t : Nat, t < F.size →
      (basisC (.calc, [.int t, .dbl x, .refDbl]) b).1 = .ok (.num (F.phi t x)) ∧
      (basisC (.calcGrad, [.int t, .dbl x, .refDbl]) b).1 = .ok (.num (F.dphi t x)) ∧
      (basisC (.calcHess, [.int t, .dbl x, .refDbl]) b).1 = .ok (.num (F.ddphi t x)) ∧
      (runCalls basisC [(.eval, [.dbl x]), (.get, [.int t, .refDbl])] b).1 = [.ok .void, .ok (.num (F.phi t x))] ∧
      (runCalls basisC [(.evalGrad, [.dbl x]), (.getGrad, [.int t, .refDbl])] b).1 = [.ok .void, .ok (.num (F.dphi t x))] ∧
      (runCalls basisC [(.evalHess, [.dbl x]), (.getHess, [.int t, .refDbl])] b).1 = [.ok .void, .ok (.num (F.ddphi t x))] := by
  have ho := hb.of
  have hI := ho.impl
  refine ⟨?_, fun t ht => ?_⟩
  · show Except.ok (XOut.int (b.set.size : Int)) = _
    rw [show b.set.size = F.size from hI.vlen]
  have h0 : (0 : Int) ≤ t := by omega
  have h1 : (t : Int) < F.size := by omega
  obtain ⟨⟨b1, e1, _⟩, ⟨b2, e2, _⟩, ⟨b3, e3, _⟩⟩ := C45_eval_term F b.set ho t h0 h1 x
  obtain ⟨⟨d1, f1, _, f1', _⟩, ⟨d2, f2, _, f2', _⟩, ⟨d3, f3, _, f3', _⟩⟩ := C45_eval_all F b.set ho x
  rw [Int.toNat_natCast] at e1 e2 e3
  refine ⟨?_, ?_, ?_, ?_, ?_, ?_⟩
  · simp only [basisC, apiSem, XBasis.api, XBasis.numM, e1]
  · simp only [basisC, apiSem, XBasis.api, XBasis.numM, e2]
  · simp only [basisC, apiSem, XBasis.api, XBasis.numM, e3]
  · simp only [basisC, runCalls, apiSem, XBasis.api, XBasis.voidM, f1, f1' t ht]; rfl
  · simp only [basisC, runCalls, apiSem, XBasis.api, XBasis.voidM, f2, f2' t ht]; rfl
  · simp only [basisC, runCalls, apiSem, XBasis.api, XBasis.voidM, f3, f3' t ht]; rfl

/-- **C86** `PBasisSet_dd_resize` to an allowed size gives a basis set of that many functions. -/
theorem C86_resize (lib : String → Option (BClass K)) (F : Family K) (b : XBasis K) (hb : b.Has lib F) (n : Nat)
    (hn : ∀ m : Nat, b.cls.maxSize = some m → n ≤ m) :
    (basisC (.resize, [.int n]) b).1 = .ok .void ∧ (basisC (.resize, [.int n]) b).2.Has lib { F with size := n } := by
  have e : XBasis.checkSize b.cls (n : Int) = .ok n := by
    simp only [XBasis.checkSize]
    cases hm : b.cls.maxSize with
    | none => simp
    | some m => have := hn m hm; simp; omega
  have e' : basisC (.resize, [.int n]) b = (.ok .void, { b with set := b.set.resize 0 n }) := by
    simp only [basisC, apiSem, XBasis.api, e]
  rw [e']
  refine ⟨rfl, ?_⟩
  obtain ⟨a, b0, cs, h1, h2, h3, h4, h5, _⟩ := hb
  refine ⟨a, b0, cs ++ [(.resize, [.int n])], h1, ?_, h3, h4, h5, BasisSet.vresize_length _ _ _⟩
  have app : ∀ (cs ds : List (BasisFn × List (CVal K))) (b : XBasis K), (runCalls basisC (cs ++ ds) b).2 =
      (runCalls basisC ds (runCalls basisC cs b).2).2 := by
    intro cs
    induction cs with
    | nil => intro ds b; rfl
    | cons c cs ih => intro ds b; simp only [List.cons_append, runCalls, ih]
  rw [app, h2]
  simp only [runCalls, e']

/-- **C86** `PBasisSet_dd_max_size` is the limit of the class. -/
theorem C86_max_size_partial (b : XBasis K) (m : Nat) (h : b.cls.maxSize = some m) : (basisC (.maxSize, [.refInt]) b).1 = .ok (.int m) := by
  simp only [basisC, apiSem, XBasis.api, XBasis.maxInt, h]

/-- **C86** violated: for a class without a limit it is -1, less than the size. -/
theorem C86_max_size_violated (b : XBasis K) (h : b.cls.maxSize = none) : (basisC (.maxSize, [.refInt]) b).1 = .ok (.int (-1)) ∧
    (-1 : Int) < b.set.size := by
  refine ⟨by simp only [basisC, apiSem, XBasis.api, XBasis.maxInt, h], by omega⟩

/-- **C84** partial: the Python methods of basis sets return the values of the functions and of their derivatives. -/
theorem C84_basis_partial (lib : String → Option (BClass K)) (F : Family K) (b : XBasis K) (hb : b.Has lib F) (x : K) :
    (PyBasis.sem 0 .size b).1 = .ok (.int F.size) ∧ ∀ t : Nat, t < F.size →
      (PyBasis.sem 0 (.calc t x) b).1 = .ok (.num (F.phi t x)) ∧ (PyBasis.sem 0 (.calcGrad t x) b).1 = .ok (.num (F.dphi t x)) ∧
      (PyBasis.sem 0 (.calcHess t x) b).1 = .ok (.num (F.ddphi t x)) ∧
      (pyRun (PyBasis.sem 0) [.eval x, .get t] b).1 = [.ok .none, .ok (.num (F.phi t x))] ∧
      (pyRun (PyBasis.sem 0) [.evalGrad x, .getGrad t] b).1 = [.ok .none, .ok (.num (F.dphi t x))] ∧
      (pyRun (PyBasis.sem 0) [.evalHess x, .getHess t] b).1 = [.ok .none, .ok (.num (F.ddphi t x))] := by
  obtain ⟨h0, h⟩ := C86_basis lib F b hb x
  have one : ∀ (c : BasisFn × List (CVal K)) (b : XBasis K) (o : XOut K), (basisC c b).1 = .ok o → (pyCall (XBasis.api 0) c b).1 = o.toPy := by
    intro c b o hc; rw [pyCall_fst, hc]
  have two : ∀ (m m' : PyBasis K) (o o' : XOut K), (runCalls basisC [m.toC, m'.toC] b).1 = [.ok o, .ok o'] →
      (pyRun (PyBasis.sem 0) [m, m'] b).1 = [o.toPy, o'.toPy] := by
    intro m m' o o' h
    simp only [runCalls, List.cons.injEq, and_true] at h
    simp only [pyRun, PyBasis.sem]
    rw [one _ _ _ h.1, one m'.toC _ o' (by rw [pyCall_snd]; exact h.2)]
  refine ⟨one _ _ _ h0, fun t ht => ?_⟩
  obtain ⟨h1, h2, h3, h4, h5, h6⟩ := h t ht
  exact ⟨one _ _ _ h1, one _ _ _ h2, one _ _ _ h3, two (.eval x) (.get t) _ _ h4, two (.evalGrad x) (.getGrad t) _ _ h5,
    two (.evalHess x) (.getHess t) _ _ h6⟩

end

/-! ### C87 -/

section
variable {K : Type} [Field K] [LinearOrder K] [FloorRing K]

/-- Operations of the client of the C interface as operations on two kinds of variables. -/
def WOp.toDuo : WOp K → DuoOp (String × Int) (BasisFn × List (CVal K)) Unit (SeriesFn × List (CVal K))
  | .basis op => .part op
  | .series op => .thing op
  | .setnew h gs => .build h gs
  | .set h gs => .rebuild h gs

/-- The objects: basis sets of the library, series. -/
def worldSem (lib : String → Option (BClass K)) :
    DuoSem (XBasis K) (Series K) (String × Int) (BasisFn × List (CVal K)) Unit (SeriesFn × List (CVal K)) (XOut K) where
  makeB := checkoutBasis 0 lib
  semB := apiSem (XBasis.api 0)
  makeS := fun _ => .ok XSeries.fresh
  semS := apiSem XSeries.api
  build := XSeries.setnew
  rebuild := fun bs => XSeries.voidM fun s => XSeries.set lib s bs

theorem derefAll_of {m : Mem (XBasis K)} {s : Slots (XBasis K)} (R : Ext.Rel m s) : ∀ (gs : List Nat) (bs : List (XBasis K)),
    s.objs gs = some bs → XWorld.derefAll m gs = .ok bs := by
  intro gs
  induction gs with
  | nil => intro bs h; cases h; rfl
  | cons g gs ih =>
    intro bs h
    simp only [Slots.objs] at h
    split at h
    · rename_i b bs' h1 h2
      cases h
      have hg : s[g]? = some (some b) := by
        cases hs : s[g]? with
        | none => rw [hs] at h1; cases h1
        | some o => rw [hs] at h1; simp at h1; rw [h1]
      obtain ⟨p, hp, _, h3⟩ := Mem.Rel.handle R (Ext.vals_get hg)
      obtain ⟨a, rfl, ha⟩ := h3 b rfl
      simp only [XWorld.derefAll, Mem.ptr_eq hp, ok_bind, Mem.deref_eq ha, ih bs' h2]
    · cases h

theorem world_step (lib : String → Option (BClass K)) {w : XWorld K} {d : Duo (XBasis K) (Series K)} (RB : Ext.Rel w.basis d.parts)
    (RS : Ext.Rel w.series d.things) (op : WOp K) (hl : d.Legal op.toDuo) :
    (w.step lib op).1 = (d.step (worldSem lib) op.toDuo).1 ∧ Ext.Rel (w.step lib op).2.basis (d.step (worldSem lib) op.toDuo).2.parts ∧
      Ext.Rel (w.step lib op).2.series (d.step (worldSem lib) op.toDuo).2.things := by
  cases op with
  | basis op =>
    obtain ⟨h1, h2⟩ := Ext.step_rel (checkoutBasis 0 lib) (apiSem (XBasis.api 0)) RB op hl
    exact ⟨h1, h2, RS⟩
  | series op =>
    obtain ⟨h1, h2⟩ := Ext.step_rel (fun _ : Unit => .ok XSeries.fresh) (apiSem XSeries.api) RS op hl
    exact ⟨h1, RB, h2⟩
  | setnew h gs =>
    obtain ⟨hh, bs, hbs⟩ := hl
    have e := derefAll_of RB gs bs hbs
    obtain ⟨h1, h2⟩ := Ext.step_rel (Out := XOut K) (Call := Unit) XSeries.setnew (fun _ s => (.ok .void, s)) RS (.new h bs) hh
    simp only [XWorld.step, e, WOp.toDuo, Duo.step, hbs, Option.getD_some, worldSem]
    simp only [Ext.step, Slots.step] at h1 h2
    cases hb : XSeries.setnew bs with
    | ok o => rw [hb] at h1 h2; exact ⟨h1, RB, h2⟩
    | error er => rw [hb] at h1 h2; exact ⟨h1, RB, h2⟩
  | set h gs =>
    obtain ⟨⟨o, ho⟩, bs, hbs⟩ := hl
    have e := derefAll_of RB gs bs hbs
    obtain ⟨h1, h2⟩ := Ext.step_rel (Arg := Unit) (fun _ => .ok XSeries.fresh)
      (fun bs s => XSeries.voidM (fun s => XSeries.set lib s bs) s) RS (.call h bs) ⟨o, ho⟩
    simp only [XWorld.step, e, WOp.toDuo, Duo.step, hbs, Option.getD_some, worldSem, ho, Option.join_some]
    simp only [Ext.step, Slots.step, ho, Option.join_some] at h1 h2
    exact ⟨h1, RB, h2⟩

theorem world_run (lib : String → Option (BClass K)) (ops : List (WOp K)) : ∀ {w : XWorld K} {d : Duo (XBasis K) (Series K)},
    Ext.Rel w.basis d.parts → Ext.Rel w.series d.things → Duo.LegalRun (worldSem lib) (ops.map WOp.toDuo) d →
    (w.run lib ops).1 = (d.run (worldSem lib) (ops.map WOp.toDuo)).1 ∧
      Ext.Rel (w.run lib ops).2.basis (d.run (worldSem lib) (ops.map WOp.toDuo)).2.parts ∧
      Ext.Rel (w.run lib ops).2.series (d.run (worldSem lib) (ops.map WOp.toDuo)).2.things := by
  induction ops with
  | nil => intro w d h1 h2 _; exact ⟨rfl, h1, h2⟩
  | cons op ops ih =>
    intro w d h1 h2 hl
    obtain ⟨k1, k2, k3⟩ := world_step lib h1 h2 op hl.1
    obtain ⟨l1, l2, l3⟩ := ih k2 k3 hl.2
    simp only [XWorld.run, List.map_cons, Duo.run]
    exact ⟨by rw [k1, l1], l2, l3⟩

/-- Every object in memory belongs to exactly one variable. -/
def Owned {Obj : Type} (m : Mem Obj) (s : Slots Obj) : Prop :=
  (∀ (a : Nat) o, m.heap[a]? = some (some o) ↔ ∃ i : Nat, m.handles[i]? = some (some (some a)) ∧ s[i]? = some (some o)) ∧
  ∀ i j a : Nat, m.handles[i]? = some (some (some a)) → m.handles[j]? = some (some (some a)) → i = j

/-- **C87** For every legal history of `new`, `delete` and calls on any number of variables for basis sets and for series, with series made
from (`PSeriesFunction_setnew`) and given (`PSeriesFunction_set`) the basis sets in variables: the client observes what it would observe
if every variable simply were its object, and a series had copies of the basis sets; every object in memory belongs to one variable. -/
theorem C87_variables_are_values (lib : String → Option (BClass K)) (ops : List (WOp K))
    (hl : Duo.LegalRun (worldSem lib) (ops.map WOp.toDuo) ⟨[], []⟩) :
    (XWorld.run lib ops ⟨Mem.start, Mem.start⟩).1 = (Duo.run (worldSem lib) (ops.map WOp.toDuo) ⟨[], []⟩).1 ∧
    Owned (XWorld.run lib ops ⟨Mem.start, Mem.start⟩).2.basis (Duo.run (worldSem lib) (ops.map WOp.toDuo) ⟨[], []⟩).2.parts ∧
    Owned (XWorld.run lib ops ⟨Mem.start, Mem.start⟩).2.series (Duo.run (worldSem lib) (ops.map WOp.toDuo) ⟨[], []⟩).2.things := by
  obtain ⟨h1, h2, h3⟩ := world_run lib ops (w := ⟨Mem.start, Mem.start⟩) (d := ⟨[], []⟩) Ext.rel_start Ext.rel_start hl
  exact ⟨h1, h2.owners, h3.owners⟩

/-- The operations that do not concern series variable `h`. -/
def WOp.Leaves (h : Nat) : WOp K → Prop
  | .basis _ => True
  | .series op => op.target ≠ some h
  | .setnew g _ | .set g _ => g ≠ h

theorem duo_append {B S BA BC SA SC O : Type} (D : DuoSem B S BA BC SA SC O) (xs ys : List (DuoOp BA BC SA SC)) : ∀ d : Duo B S,
    (Duo.run D (xs ++ ys) d).1 = (Duo.run D xs d).1 ++ (Duo.run D ys (Duo.run D xs d).2).1 ∧
    (Duo.run D (xs ++ ys) d).2 = (Duo.run D ys (Duo.run D xs d).2).2 := by
  induction xs with
  | nil => intro d; exact ⟨rfl, rfl⟩
  | cons x xs ih => intro d; simp only [List.cons_append, Duo.run, (ih _).1, (ih _).2]; exact ⟨trivial, trivial⟩

theorem duo_other (lib : String → Option (BClass K)) (h : Nat) (x : Option (Series K)) (ops : List (WOp K)) :
    ∀ d : Duo (XBasis K) (Series K), d.things[h]? = some x → (∀ op ∈ ops, op.Leaves h) →
      (Duo.run (worldSem lib) (ops.map WOp.toDuo) d).2.things[h]? = some x := by
  induction ops with
  | nil => intro d hd _; exact hd
  | cons op ops ih =>
    intro d hd hm
    simp only [List.map_cons, Duo.run]
    refine ih _ ?_ fun o ho => hm o (List.mem_cons_of_mem _ ho)
    have hop := hm op List.mem_cons_self
    cases op with
    | basis op => exact hd
    | series op => exact Slots.step_other (worldSem lib).makeS (worldSem lib).semS d.things op h x hd hop
    | setnew g gs =>
      simp only [WOp.Leaves] at hop
      simp only [WOp.toDuo, Duo.step]
      split
      · simp [List.getElem?_set, hop, hd]
      · exact hd
    | set g gs =>
      simp only [WOp.Leaves] at hop
      simp only [WOp.toDuo, Duo.step]
      split
      · exact hd
      · simp [List.getElem?_set, hop, hd]

/-- **C87** A series does not change when, after it was made, the variables of its basis sets are evaluated, resized, deleted or reused,
or when other series are worked on: the call that follows gives what it would have given at once. -/
theorem C87_series_keep_their_basis_sets (lib : String → Option (BClass K)) (ops mid : List (WOp K)) (h : Nat)
    (c : SeriesFn × List (CVal K)) (s : Series K) (hl : Duo.LegalRun (worldSem lib) ((ops ++ mid ++ [WOp.series (.call h c)]).map WOp.toDuo) ⟨[], []⟩)
    (hs : (Duo.run (worldSem lib) (ops.map WOp.toDuo) ⟨[], []⟩).2.things[h]? = some (some s)) (hm : ∀ op ∈ mid, op.Leaves h) :
    (XWorld.run lib (ops ++ mid ++ [.series (.call h c)]) ⟨Mem.start, Mem.start⟩).1.getLast? = some ((seriesC c s).1.map some) := by
  rw [(C87_variables_are_values lib _ hl).1, List.map_append, (duo_append _ _ _ _).1, List.map_append, (duo_append _ _ _ _).2]
  have := duo_other lib h (some s) mid _ hs hm
  simp only [List.map_cons, List.map_nil, WOp.toDuo, Duo.run, Duo.step, Slots.step, this, Option.join_some, List.getLast?_append,
    List.getLast?_singleton, Option.some_or]
  rfl

end

/-! ### Examples -/

namespace ExternDemo

/-- The hypotheses of C86 are satisfiable: a basis set of `1, x`, evaluated before. -/
example : (basisC (.calc, [.int 1, .dbl 5, .refDbl]) b2).1 = .ok (.num 5) ∧
    (runCalls basisC [(.evalGrad, [.dbl 5]), (.getGrad, [.int 1, .refDbl])] b2).1 = [.ok .void, .ok (.num 1)] ∧
    (basisC (.resize, [.int 4]) b2).2.Has lib (Demo.mono ℚ 4) := by
  obtain ⟨_, h⟩ := C86_basis lib (Demo.mono ℚ 2) b2 has2 5
  obtain ⟨h1, _, _, _, h5, _⟩ := h 1 (by decide)
  refine ⟨h1.trans (by decide +kernel), h5.trans (by decide +kernel), ?_⟩
  exact (C86_resize lib (Demo.mono ℚ 2) b2 has2 4 (by intro m hm; cases hm; decide)).2

example : checkoutBasis 0 lib ("Mono", 11) = .error (.exit 1) ∧ checkoutBasis 0 lib ("Nope", 1) = .error .runtimeError :=
  ⟨((C86_checkout lib "Mono" 11).2 cls rfl).1 10 rfl (by decide), (C86_checkout lib "Nope" 1).1 rfl⟩

/-- A simple function: twice the first argument, with a history of calls. -/
example : (dsdC (.get, [.refDbl]) (runCalls dsdC ([[3], [4]].map fun v => (.calc, [.dbls v, .refDbl])) (obj fun x => 2 * x)).2).1 =
    .ok (.num (8 : ℚ)) :=
  ((C86_simple (obj fun x => 2 * x) rfl ⟨"", some fun x => .ok x, none, none, none, none⟩ rfl [[3], [4]] [1] [] 1).1.2).trans (by decide +kernel)

/-- A history: two basis sets, a series over them, then both basis sets are changed or deleted and the series is used. -/
def hist : List (WOp ℚ) :=
  [.basis .decl, .basis .decl, .series .decl, .basis (.new 0 ("Mono", 2)), .basis (.new 1 ("Mono", 3)), .setnew 0 [0, 1]]

/-- What happens to the variables afterwards. -/
def histMid : List (WOp ℚ) := [.basis (.call 0 (.resize, [.int 7])), .basis (.delete 1), .basis (.delete 0), .basis (.delete 0)]

example : Duo.LegalRun (worldSem lib) ((hist ++ histMid ++ [WOp.series (.call 0 (.getTensorCoeff, [.ints [1, 2], .refDbl]))]).map WOp.toDuo)
    ⟨[], []⟩ ∧ (∀ op ∈ histMid, op.Leaves 0) ∧
    (XWorld.run lib (hist ++ histMid ++ [.series (.call 0 (.calc, [.dbls [1, 2], .refDbl]))]) ⟨Mem.start, Mem.start⟩).1 =
      List.replicate 6 (.ok none) ++ [.ok (some .void), .ok none, .ok none, .ok none, .ok (some (.num 0))] := by
  refine ⟨?_, by simp [histMid, WOp.Leaves], by decide +kernel⟩
  refine ⟨trivial, trivial, trivial, rfl, rfl, ⟨rfl, _, rfl⟩, ⟨_, rfl⟩, show 1 < 2 by decide, show 0 < 2 by decide, show 0 < 2 by decide, ⟨_, rfl⟩, trivial⟩

end ExternDemo
end Verif
