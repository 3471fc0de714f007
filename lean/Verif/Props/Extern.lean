import Verif.Lemmas.Extern
import Verif.Props.Func
import Verif.Props.NDArray
import Verif.Props.Series

/-!
# The C interface (C80-C83)
-/

namespace Verif
open Spec

/-! ### C80 -/

section
variable {Obj Arg Call Out : Type}

/-- **C80** For every legal history of `new`, `delete` and calls on any number of pointer variables: the client observes the results it
would observe if every variable simply were its object (or empty); the objects in memory are exactly those the variables hold, one each
(nothing leaks, nothing is deleted twice). `delete` of an empty or deleted variable is legal, and a `new` that throws leaves the variable
empty. -/
theorem C80_variables_are_values (make : Arg → Res Obj) (sem : Call → Obj → Res Out × Obj) (ops : List (XOp Arg Call))
    (hl : Slots.LegalRun make sem ops []) :
    (Ext.run make sem ops Mem.start).1 = (Slots.run make sem ops []).1 ∧
    (∀ (a : Nat) o, (Ext.run make sem ops Mem.start).2.heap[a]? = some (some o) ↔
      ∃ i : Nat, (Ext.run make sem ops Mem.start).2.handles[i]? = some (some (some a)) ∧
        (Slots.run make sem ops []).2[i]? = some (some o)) ∧
    ∀ i j a : Nat, (Ext.run make sem ops Mem.start).2.handles[i]? = some (some (some a)) →
      (Ext.run make sem ops Mem.start).2.handles[j]? = some (some (some a)) → i = j := by
  obtain ⟨h1, h2⟩ := Ext.run_rel make sem ops Ext.rel_start hl
  exact ⟨h1, h2.owners⟩

/-- **C80** When every variable has been deleted, no object is left. -/
theorem C80_no_leak (make : Arg → Res Obj) (sem : Call → Obj → Res Out × Obj) (ops : List (XOp Arg Call))
    (hl : Slots.LegalRun make sem ops []) (hd : ∀ x ∈ (Slots.run make sem ops []).2, x = none) :
    ∀ x ∈ (Ext.run make sem ops Mem.start).2.heap, x = none := by
  intro x hx
  cases x with
  | none => rfl
  | some o =>
    obtain ⟨a, ha⟩ := List.getElem?_of_mem hx
    obtain ⟨i, _, hi⟩ := ((C80_variables_are_values make sem ops hl).2.1 a o).mp ha
    have := hd _ (List.mem_of_getElem? hi)
    cases this

/-- An operation that does not concern variable `g` leaves it alone. -/
theorem Spec.Slots.step_other (make : Arg → Res Obj) (sem : Call → Obj → Res Out × Obj) (s : Slots Obj) (op : XOp Arg Call) (g : Nat)
    (x : Option Obj) (hg : s[g]? = some x) (ht : op.target ≠ some g) : (s.step make sem op).2[g]? = some x := by
  have hlt := (List.getElem?_eq_some_iff.mp hg).1
  cases op with
  | decl => simp [step, List.getElem?_append_left hlt, hg]
  | share g' => simp [step, List.getElem?_append_left hlt, hg]
  | new h a =>
    simp only [XOp.target, ne_eq, Option.some.injEq] at ht
    simp only [step]
    cases make a <;> simp [List.getElem?_set, ht, hg]
  | delete h => simp only [XOp.target, ne_eq, Option.some.injEq] at ht; simp [step, List.getElem?_set, ht, hg]
  | call h c =>
    simp only [XOp.target, ne_eq, Option.some.injEq] at ht
    simp only [step]
    cases (s[h]?).join <;> simp [List.getElem?_set, ht, hg]

theorem Spec.Slots.run_other (make : Arg → Res Obj) (sem : Call → Obj → Res Out × Obj) (g : Nat) (x : Option Obj)
    (ops : List (XOp Arg Call)) : ∀ s : Slots Obj, s[g]? = some x → (∀ op ∈ ops, op.target ≠ some g) →
      (run make sem ops s).2[g]? = some x := by
  induction ops with
  | nil => intro s h _; exact h
  | cons op ops ih =>
    intro s h ht
    exact ih _ (step_other make sem s op g x h (ht op (by simp))) fun o ho => ht o (by simp [ho])

theorem Spec.Slots.run_append (make : Arg → Res Obj) (sem : Call → Obj → Res Out × Obj) (xs ys : List (XOp Arg Call)) :
    ∀ s : Slots Obj, run make sem (xs ++ ys) s =
      ((run make sem xs s).1 ++ (run make sem ys (run make sem xs s).2).1, (run make sem ys (run make sem xs s).2).2) := by
  induction xs with
  | nil => intro s; rfl
  | cons x xs ih => intro s; simp only [List.cons_append, run, ih]

theorem Spec.Slots.legal_append (make : Arg → Res Obj) (sem : Call → Obj → Res Out × Obj) (xs ys : List (XOp Arg Call)) :
    ∀ s : Slots Obj, LegalRun make sem (xs ++ ys) s ↔ LegalRun make sem xs s ∧ LegalRun make sem ys (run make sem xs s).2 := by
  induction xs with
  | nil => intro s; simp [LegalRun, run]
  | cons x xs ih => intro s; simp only [List.cons_append, LegalRun, run, ih]; tauto

/-- **C80** Operations on other variables (new objects, deletions, calls) do not change what a call on variable `h` returns. -/
theorem C80_others_unaffected (make : Arg → Res Obj) (sem : Call → Obj → Res Out × Obj) (ops mid : List (XOp Arg Call)) (h : Nat) (c : Call)
    (hl : Slots.LegalRun make sem (ops ++ [.call h c]) []) (hm : Slots.LegalRun make sem (ops ++ mid) [])
    (hmid : ∀ op ∈ mid, op.target ≠ some h) :
    (Ext.run make sem (ops ++ mid ++ [.call h c]) Mem.start).1.getLast? = (Ext.run make sem (ops ++ [.call h c]) Mem.start).1.getLast? := by
  obtain ⟨_, ⟨o, ho⟩, _⟩ := (Slots.legal_append make sem ops _ []).mp hl
  have ho' : (Slots.run make sem (ops ++ mid) []).2[h]? = some (some o) := by
    rw [Slots.run_append]
    exact Slots.run_other make sem h _ mid _ ho hmid
  have hl' : Slots.LegalRun make sem (ops ++ mid ++ [.call h c]) [] :=
    (Slots.legal_append make sem (ops ++ mid) _ []).mpr ⟨hm, ⟨o, ho'⟩, trivial⟩
  rw [(C80_variables_are_values make sem _ hl).1, (C80_variables_are_values make sem _ hl').1,
    Slots.run_append make sem (ops ++ mid), Slots.run_append make sem ops [.call h c]]
  simp [Slots.run, Slots.step, ho, ho']

/-- **C80** Outside the legal histories: once an object with two variables has been deleted through one of them, everything done through
the other is undefined. -/
theorem C80_shared_variable_dangles (make : Arg → Res Obj) (sem : Call → Obj → Res Out × Obj) (ops : List (XOp Arg Call)) (h : Nat) (o : Obj)
    (hl : Slots.LegalRun make sem ops []) (ho : (Slots.run make sem ops []).2[h]? = some (some o)) (c : Call) :
    let g := (Slots.run make sem ops []).2.length
    (Ext.run make sem (ops ++ [.share h, .delete h, .call g c]) Mem.start).1.getLast? = some (.error (.ub .useAfterFree)) ∧
    (Ext.run make sem (ops ++ [.share h, .delete h, .delete g]) Mem.start).1.getLast? = some (.error (.ub .doubleFree)) := by
  intro g
  obtain ⟨h1, R⟩ := Ext.run_rel make sem ops Ext.rel_start hl
  obtain ⟨p, hp, _, h2⟩ := Mem.Rel.handle R (Ext.vals_get ho)
  obtain ⟨a, rfl, ha⟩ := h2 o rfl
  have hlen : (Ext.run make sem ops Mem.start).2.handles.length = g := by
    have := Mem.Rel.hlen R; simpa [Ext.vals, g] using this
  have app : ∀ (xs ys : List (XOp Arg Call)) (m : Mem Obj), (Ext.run make sem (xs ++ ys) m).1 =
      (Ext.run make sem xs m).1 ++ (Ext.run make sem ys (Ext.run make sem xs m).2).1 := by
    intro xs
    induction xs with
    | nil => intro ys m; rfl
    | cons x xs ih => intro ys m; simp only [List.cons_append, Ext.run, ih]
  rw [app, app]
  generalize (Ext.run make sem ops Mem.start).2 = m at hp ha hlen
  have hh : h < m.handles.length := (List.getElem?_eq_some_iff.mp hp).1
  have hne : h ≠ g := by omega
  have hal : a < m.heap.length := (List.getElem?_eq_some_iff.mp ha).1
  have e1 : m.ptr h = .ok (some a) := Mem.ptr_eq hp
  have e2 : (m.push (some a)).ptr h = .ok (some a) := by
    simp only [Mem.ptr, Mem.push, List.getElem?_append_left hh, hp]
  let m2 : Mem Obj := { heap := m.heap.set a none, handles := (m.handles ++ [some (some a)]).set h (some none), raws := m.raws }
  have e3 : m2.handles[g]? = some (some (some a)) := by
    simp only [m2]
    rw [List.getElem?_set_ne hne, ← hlen, List.getElem?_append_right (Nat.le_refl _)]
    simp
  have e4 : m2.heap[a]? = some none := by simp [m2, hal]
  have s1 : Ext.step make sem m (.share h) = (.ok none, m.push (some a)) := by simp [Ext.step, e1, ok_bind, Mem.done]
  have s2 : Ext.step make sem (m.push (some a)) (.delete h) = (.ok none, m2) := by
    have : (m.push (some a)).delPtr (some a) = .ok { m.push (some a) with heap := m.heap.set a none } := by
      have ha' : (m.push (some a)).heap[a]? = some (some o) := ha
      simp only [Mem.delPtr, Mem.del, ha']
      rfl
    simp only [Ext.step, Ext.delete, e2, ok_bind, this, Mem.done]
    rfl
  constructor
  · have s3 : Ext.step make sem m2 (.call g c) = (.error (.ub .useAfterFree), m2) := by
      simp only [Ext.step, Mem.forward, Mem.ptr_eq e3, Mem.deref, e4]
    simp [Ext.run, s1, s2, s3]
  · have s3 : Ext.step make sem m2 (.delete g) = (.error (.ub .doubleFree), m2) := by
      simp only [Ext.step, Ext.delete, Mem.ptr_eq e3, ok_bind, Mem.delPtr, Mem.del, e4, err_bind, Mem.done]
    simp [Ext.run, s1, s2, s3]

end

/-! ### C81 -/

section
variable {K : Type}

/-- The C function and the arguments of a call. -/
def Spec.CCall.toC : CCall (List K) → FuncFn × List (CVal K)
  | .calc v .f => (.calc, [.dbls v, .refDbl])
  | .calc v (.g i) => (.calcGrad, [.dbls v, .int i, .refDbl])
  | .calc v (.h i j) => (.calcHess, [.dbls v, .int i, .int j, .refDbl])
  | .eval v .f => (.eval, [.dbls v])
  | .eval v (.g i) => (.evalGrad, [.dbls v, .int i])
  | .eval v (.h i j) => (.evalHess, [.dbls v, .int i, .int j])
  | .get .f => (.get, [.refDbl])
  | .get (.g i) => (.getGrad, [.int i, .refDbl])
  | .get (.h i j) => (.getHess, [.int i, .int j, .refDbl])

/-- The C++ member behind it. -/
def Spec.CCall.toF : CCall (List K) → FCall (List K)
  | .calc v c | .eval v c => single v c
  | .get c => getter c

/-- The functions of the interface, on a `PFlexFunction`. -/
abbrev flexC : FuncFn × List (CVal K) → Flex (List K) K → Res (XOut K) × Flex (List K) K := apiSem (funcApi (flexCls (List K) K))

theorem flexC_state (c : CCall (List K)) (p : Flex (List K) K) : (flexC c.toC p).2 = (Flex.sem c.toF p).2 := by
  cases c with
  | «calc» v c => cases c <;> rfl
  | eval v c => cases c <;> rfl
  | get c => cases c <;> rfl

theorem flexC_run (cs : List (CCall (List K))) : ∀ p : Flex (List K) K,
    (runCalls flexC (cs.map CCall.toC) p).2 = (runCalls Flex.sem (cs.map CCall.toF) p).2 := by
  induction cs with
  | nil => intro p; rfl
  | cons c cs ih => intro p; simp only [List.map_cons, runCalls]; rw [ih, flexC_state]

theorem lastPoint_eq {O : Type} (F : Comp → List K → Res O) (n : Nat) (c : Comp) (cs : List (CCall (List K))) :
    ∀ last, lastEval F n c (cs.map CCall.toF) last = CCall.lastPoint F c cs last := by
  have key : ∀ (v : List K) (d : Comp), (single v d).evaluates n = some (v, [d]) := by
    intro v d
    cases d <;> simp [single, FCall.evaluates]
  induction cs with
  | nil => intro last; rfl
  | cons x cs ih =>
    intro last
    cases x with
    | «calc» v d => simp only [List.map_cons, CCall.toF, lastEval, CCall.lastPoint, ih, key]; by_cases hv : isValue (F d v) = true <;> simp [hv]
    | eval v d => simp only [List.map_cons, CCall.toF, lastEval, CCall.lastPoint, ih, key]; by_cases hv : isValue (F d v) = true <;> simp [hv]
    | get d =>
      have h : ((getter d : FCall (List K)).evaluates n) = none := by cases d <;> rfl
      simp only [List.map_cons, CCall.toF, lastEval, CCall.lastPoint, ih, h]

theorem single_inRange {n : Nat} {c : Comp} (h : c.Exists n) (v : List K) : (single v c).InRange n := by
  cases c <;> simp_all [single, FCall.InRange, Comp.Exists]

theorem getter_inRange {n : Nat} {c : Comp} (h : c.Exists n) : (getter c : FCall (List K)).InRange n := by
  cases c <;> simp_all [getter, FCall.InRange, Comp.Exists]

theorem toF_inRange {n : Nat} {c : CCall (List K)} (h : c.comp.Exists n) : c.toF.InRange n := by
  cases c with
  | «calc» v c => exact single_inRange h v
  | eval v c => exact single_inRange h v
  | get c => exact getter_inRange h

/-- **C81** Through the C interface, `calc`/`calc_grad`/`calc_hess` store the component's value at the given point (or pass on its
exception) after any history of calls, and `eval`/`eval_grad`/`eval_hess` succeed exactly when it has one. -/
theorem C81_calc (b : FBase) (f : SObj (List K) K) (g : List (SObj (List K) K)) (h : List (List (SObj (List K) K)))
    (p : Flex (List K) K) (hp : Flex.make b (some f) (hs g) (h.map hs) = .ok p) (cs : List (CCall (List K)))
    (hcs : ∀ c ∈ cs, c.comp.Exists b.varName.length) (v : List K) (c : Comp) (hc : c.Exists b.varName.length) :
    let F := compFn f.evalFn (g.map SObj.evalFn) (h.map fun r => r.map SObj.evalFn)
    (flexC (CCall.calc v c).toC (runCalls flexC (cs.map CCall.toC) p).2).1 = (F c v).map .num ∧
    (flexC (CCall.eval v c).toC (runCalls flexC (cs.map CCall.toC) p).2).1 = (F c v).map fun _ => .void := by
  intro F
  have hcs' : ∀ x ∈ cs.map CCall.toF, x.InRange b.varName.length := by
    intro x hx
    obtain ⟨y, hy, rfl⟩ := List.mem_map.mp hx
    exact toF_inRange (hcs y hy)
  have key := C42_components b f g h p hp (cs.map CCall.toF) hcs' v c (getter_inRange hc)
  rw [flexC_run]
  generalize (runCalls Flex.sem (cs.map CCall.toF) p).2 = q at key
  have e1 : (flexC (CCall.calc v c).toC q).1 = ((Flex.sem (single v c) q).1).bind FOut.numOut := by cases c <;> rfl
  have e2 : (flexC (CCall.eval v c).toC q).1 = ((Flex.sem (single v c) q).1).bind fun _ => .ok .void := by cases c <;> rfl
  rw [e1, e2, key]
  cases hF : F c v with
  | ok y => simp only [F] at hF; rw [hF]; exact ⟨rfl, rfl⟩
  | error e => simp only [F] at hF; rw [hF]; exact ⟨rfl, rfl⟩

/-- **C81** `get`/`get_grad`/`get_hess` return the component's value at the point where it was last evaluated through the interface, by
`calc...` or `eval...`; if it never was, what the function object stored before (nothing, for a new one). -/
theorem C81_get (b : FBase) (f : SObj (List K) K) (g : List (SObj (List K) K)) (h : List (List (SObj (List K) K)))
    (p : Flex (List K) K) (hp : Flex.make b (some f) (hs g) (h.map hs) = .ok p) (cs : List (CCall (List K)))
    (hcs : ∀ c ∈ cs, c.comp.Exists b.varName.length) (c : Comp) (hc : c.Exists b.varName.length) :
    let F := compFn f.evalFn (g.map SObj.evalFn) (h.map fun r => r.map SObj.evalFn)
    (flexC (CCall.get c).toC (runCalls flexC (cs.map CCall.toC) p).2).1 =
      match CCall.lastPoint F c cs none with
      | some v => (F c v).map .num
      | none => match storedVal f g h c with | some y => .ok (.num y) | none => .error (.ub .uninit) := by
  intro F
  have hcs' : ∀ x ∈ cs.map CCall.toF, x.InRange b.varName.length := by
    intro x hx
    obtain ⟨y, hy, rfl⟩ := List.mem_map.mp hx
    exact toF_inRange (hcs y hy)
  have key := C43_getters b f g h p hp (cs.map CCall.toF) hcs' c (getter_inRange hc)
  simp only at key
  rw [run_snoc, lastPoint_eq] at key
  rw [flexC_run]
  generalize (runCalls Flex.sem (cs.map CCall.toF) p).2 = q at key
  have e1 : (flexC (CCall.get c).toC q).1 = ((Flex.sem (getter c) q).1).bind FOut.numOut := by cases c <;> rfl
  rw [e1]
  simp only [F]
  generalize compFn f.evalFn (g.map SObj.evalFn) (h.map fun r => r.map SObj.evalFn) = F at key ⊢
  cases hl : CCall.lastPoint F c cs none with
  | some v =>
    rw [hl] at key
    simp only [Option.some.injEq] at key
    rw [key]
    simp only
    cases F c v <;> rfl
  | none =>
    rw [hl] at key
    simp only [Option.some.injEq] at key
    rw [key]
    simp only
    cases storedVal f g h c <;> rfl

/-- **C81** `size` is the number of variables, after any history. -/
theorem C81_size (b : FBase) (f : SObj (List K) K) (g : List (SObj (List K) K)) (h : List (List (SObj (List K) K)))
    (p : Flex (List K) K) (hp : Flex.make b (some f) (hs g) (h.map hs) = .ok p) (cs : List (CCall (List K))) :
    (flexC (.size, [.refInt]) (runCalls flexC (cs.map CCall.toC) p).2).1 = .ok (.int b.varName.length) := by
  rw [flexC_run]
  have hbase : ∀ (cs : List (FCall (List K))) (q : Flex (List K) K), (runCalls Flex.sem cs q).2.base = q.base := by
    intro cs
    induction cs with
    | nil => intro q; rfl
    | cons c cs ih =>
      intro q
      simp only [runCalls]
      rw [ih]
      cases c <;> simp only [Flex.sem, FBase.sem, Flex.ov, Flex.evalAt, Flex.gradAt, Flex.hessAt, Flex.evalGrad, Flex.evalHess] <;>
        repeat' (first | rfl | split)
  have hp' : p.base = b := by
    simp only [Flex.make] at hp
    split at hp <;> cases hp
    rfl
  show (Except.ok (XOut.int ((runCalls Flex.sem (cs.map CCall.toF) p).2.base.varName.length)) : Res (XOut K)) = _
  rw [hbase, hp']

end

/-! ### C82 -/

section
variable {K : Type}

/-- A function that stores a text in a `char*` given by the client: it does so if the text and the terminating 0 fit, and is undefined
otherwise; the client cannot ask for the length first. -/
def Fits (r : Nat → Res (XOut K)) (s : String) : Prop :=
  (∀ room, s.length < room → r room = .ok (.str s)) ∧ ∀ room, room ≤ s.length → r room = .error (.ub .oob)

theorem strcpy_fits (s : String) : Fits (fun n => strcpy (K := K) n s) s := by
  constructor
  · intro n h; simp [strcpy, show s.length + 1 ≤ n by omega]
  · intro n h; simp [strcpy, show ¬ s.length + 1 ≤ n by omega]

theorem flex_base (cs : List (FCall (List K))) : ∀ q : Flex (List K) K, (runCalls Flex.sem cs q).2.base = q.base := by
  induction cs with
  | nil => intro q; rfl
  | cons c cs ih =>
    intro q
    simp only [runCalls]
    rw [ih]
    cases c <;> simp only [Flex.sem, FBase.sem, Flex.ov, Flex.evalAt, Flex.gradAt, Flex.hessAt, Flex.evalGrad, Flex.evalHess] <;>
      repeat' (first | rfl | split)

/-- **C82** partial: the name of a function and the name and description of each variable are stored in the client's buffer, after any
history, if the buffer has more characters than the text; otherwise the call writes behind the buffer. -/
theorem C82_function_names_partial (b : FBase) (f : SObj (List K) K) (g : List (SObj (List K) K)) (h : List (List (SObj (List K) K)))
    (p : Flex (List K) K) (hp : Flex.make b (some f) (hs g) (h.map hs) = .ok p) (cs : List (CCall (List K))) :
    let q := (runCalls flexC (cs.map CCall.toC) p).2
    Fits (fun n => (flexC (.name, [.buf n]) q).1) b.name ∧
    (∀ (i : Nat) s, b.varName[i]? = some s → Fits (fun n => (flexC (.varName, [.int i, .buf n]) q).1) s) ∧
    ∀ (i : Nat) s, b.varDesc[i]? = some s → Fits (fun n => (flexC (.varDescription, [.int i, .buf n]) q).1) s := by
  intro q
  have hq : q.base = b := by
    simp only [q, flexC_run, flex_base]
    simp only [Flex.make] at hp
    split at hp <;> cases hp
    rfl
  refine ⟨?_, fun i s hi => ?_, fun i s hi => ?_⟩
  · have e : ∀ n, (flexC (.name, [.buf n]) q).1 = strcpy n q.base.name := fun n => rfl
    simp only [e, hq]; exact strcpy_fits _
  · have e : ∀ n, (flexC (.varName, [.int i, .buf n]) q).1 = ((vget q.base.varName i).map FOut.str).bind (FOut.strOut (V := List K) n) :=
      fun n => rfl
    have hv := vget_ok.mpr ⟨Int.natCast_nonneg i, by simpa using hi⟩; simp only [e, hq, hv]; exact strcpy_fits _
  · have e : ∀ n, (flexC (.varDescription, [.int i, .buf n]) q).1 =
        ((vget q.base.varDesc i).map FOut.str).bind (FOut.strOut (V := List K) n) := fun n => rfl
    have hv := vget_ok.mpr ⟨Int.natCast_nonneg i, by simpa using hi⟩; simp only [e, hq, hv]; exact strcpy_fits _

/-- **C82** partial: the same for the names of simple functions and for the names and descriptions of basis sets. -/
theorem C82_other_names_partial (z : K) (f : SObj (List K) K) (f' : SObj K K) (b : XBasis K) :
    Fits (fun n => (apiSem simpleDsd (.name, [.buf n]) f).1) f.name ∧ Fits (fun n => (apiSem simpleDd (.name, [.buf n]) f').1) f'.name ∧
    Fits (fun n => (apiSem (XBasis.api z) (.name, [.buf n]) b).1) b.cls.name ∧
    Fits (fun n => (apiSem (XBasis.api z) (.description, [.buf n]) b).1) b.cls.description :=
  ⟨strcpy_fits _, strcpy_fits _, strcpy_fits _, strcpy_fits _⟩

/-- **C82** violated: whatever size of buffer a client uses, there is a function with a name that does not fit. -/
theorem C82_names_violated (room : Nat) (b : FBase) (f : SObj (List K) K) :
    ∃ (nm : String) (p : Flex (List K) K), Flex.make { b with name := nm, varName := [], varDesc := [] } (some f) [] [] = .ok p ∧
      (flexC (.name, [.buf room]) p).1 = .error (.ub .oob) := by
  refine ⟨String.ofList (List.replicate room 'x'), _, by simp [Flex.make]; rfl, ?_⟩
  show strcpy room (String.ofList (List.replicate room 'x')) = _
  simp [strcpy]

end

/-! ### C83 -/

section
variable {K : Type} [Field K] [LinearOrder K] [FloorRing K]

/-- `b` was checked out of `lib` and used through the C interface in any way; its class offers the functions of `F`, and it has
`F.size` terms now. -/
def XBasis.Has (lib : String → Option (BClass K)) (F : Family K) (b : XBasis K) : Prop :=
  ∃ (a : String × Int) (b0 : XBasis K) (cs : List (BasisFn × List (CVal K))), checkoutBasis 0 lib a = .ok b0 ∧
    (runCalls (apiSem (XBasis.api 0)) cs b0).2 = b ∧ b.cls.phi = some F.phi ∧ b.cls.dphi = some F.dphi ∧ b.cls.ddphi = some F.ddphi ∧
    b.set.size = F.size

/-- The classes of `lib` have the names under which they are registered. -/
def NamedWell (lib : String → Option (BClass K)) : Prop := ∀ k c, lib k = some c → c.name = k

namespace XBasis

theorem checkSize_nat {c : BClass K} {n : Int} {m : Nat} (h : checkSize c n = .ok m) : checkSize c m = .ok m := by
  simp only [checkSize] at h ⊢
  cases hm : c.maxSize with
  | some k =>
    rw [hm] at h; simp only at h ⊢
    split at h
    · rename_i hc
      have : (m : Int) = n := by cases h; omega
      rw [if_pos (by omega)]; simp
    · cases h
  | none =>
    rw [hm] at h; simp only at h ⊢
    split at h
    · simp
    · cases h

/-- What a call of the interface does to the object. -/
theorem api_step (c : BasisFn × List (CVal K)) (b : XBasis K) : (apiSem (api 0) c b).2.cls = b.cls ∧
    ((apiSem (api 0) c b).2.set = b.set ∨ (∃ bc : BCall K, b.set.step 0 bc = .ok (apiSem (api 0) c b).2.set ∧
      ∀ n, bc = .resize n → checkSize b.cls n = .ok n)) := by
  obtain ⟨fn, args⟩ := c
  have num : ∀ (f : BasisSet K → Res (K × BasisSet K)) (bc : BCall K), (b.set.step 0 bc = (do let r ← f b.set; .ok r.2)) →
      (∀ n, bc ≠ .resize n) → (numM f b).2.cls = b.cls ∧ ((numM f b).2.set = b.set ∨ (∃ bc : BCall K, b.set.step 0 bc = .ok (numM f b).2.set ∧
        ∀ n, bc = .resize n → checkSize b.cls n = .ok n)) := by
    intro f bc h1 h2
    simp only [numM]
    cases hf : f b.set with
    | error e => exact ⟨rfl, Or.inl rfl⟩
    | ok r => exact ⟨rfl, Or.inr ⟨bc, by rw [h1, hf]; rfl, fun n hn => absurd hn (h2 n)⟩⟩
  have void : ∀ (f : BasisSet K → Res (BasisSet K)) (bc : BCall K), b.set.step 0 bc = f b.set →
      (∀ n, bc ≠ .resize n) → (voidM f b).2.cls = b.cls ∧ ((voidM f b).2.set = b.set ∨ (∃ bc : BCall K, b.set.step 0 bc = .ok (voidM f b).2.set ∧
        ∀ n, bc = .resize n → checkSize b.cls n = .ok n)) := by
    intro f bc h1 h2
    simp only [voidM]
    cases hf : f b.set with
    | error e => exact ⟨rfl, Or.inl rfl⟩
    | ok r => exact ⟨rfl, Or.inr ⟨bc, by rw [h1, hf], fun n hn => absurd hn (h2 n)⟩⟩
  unfold apiSem
  split
  · rename_i f hf
    revert hf
    simp only
    unfold api
    split <;> intro hf <;> (first | cases hf | (cases Option.some.inj hf))
    all_goals first
      | exact ⟨rfl, Or.inl rfl⟩
      | exact num _ (.evalTerm _ _) rfl (by simp)
      | exact num _ (.gradTerm _ _) rfl (by simp)
      | exact num _ (.hessTerm _ _) rfl (by simp)
      | exact void _ (.eval _) rfl (by simp)
      | exact void _ (.evalGrad _) rfl (by simp)
      | exact void _ (.evalHess _) rfl (by simp)
      | skip
    rename_i n
    simp only
    cases hn : checkSize b.cls n with
    | error e => exact ⟨rfl, Or.inl rfl⟩
    | ok m => exact ⟨rfl, Or.inr ⟨.resize m, rfl, fun k hk => by cases hk; exact checkSize_nat hn⟩⟩
  · exact ⟨rfl, Or.inl rfl⟩

/-- The invariant kept by calls. -/
def Inv (F : Family K) (b : XBasis K) : Prop :=
  (∃ n : Nat, Impl (BasisSet.resizeFamily F n) b.set ∧ checkSize b.cls n = .ok n) ∧
  ∃ n bcs, BasisSet.run 0 bcs (BasisSet.make 0 n (some F.phi) (some F.dphi) (some F.ddphi)) = .ok b.set

theorem calls_inv {F : Family K} (cs : List (BasisFn × List (CVal K))) : ∀ {b : XBasis K}, b.Inv F →
    (runCalls (apiSem (api 0)) cs b).2.Inv F := by
  induction cs with
  | nil => intro b h; exact h
  | cons c cs ih =>
    intro b h
    obtain ⟨e1, e2⟩ := api_step c b
    refine ih (b := (apiSem (api 0) c b).2) ?_
    unfold Inv
    rw [e1]
    rcases e2 with e2 | ⟨bc, e2, e3⟩
    · rw [e2]; exact h
    · obtain ⟨⟨n, hI, hn⟩, n', bcs, hr⟩ := h
      refine ⟨?_, n', _, BasisSet.run_snoc hr e2⟩
      obtain ⟨m, hm, h'⟩ := BasisSet.step_impl_size 0 hI bc e2
      rcases h' with h' | rfl
      · exact ⟨m, hm, by rw [h']; exact hn⟩
      · exact ⟨m, hm, e3 m rfl⟩

theorem calls_cls (cs : List (BasisFn × List (CVal K))) : ∀ {b : XBasis K}, (runCalls (apiSem (api 0)) cs b).2.cls = b.cls := by
  induction cs with
  | nil => intro b; rfl
  | cons c cs ih => intro b; exact (ih (b := (apiSem (api 0) c b).2)).trans (api_step c b).1

theorem make_inv {F : Family K} {c : BClass K} {n : Int} {b : XBasis K} (h : make 0 c n = .ok b) (h1 : c.phi = some F.phi)
    (h2 : c.dphi = some F.dphi) (h3 : c.ddphi = some F.ddphi) : b.cls = c ∧ b.Inv F ∧ checkSize c n = .ok b.set.size := by
  simp only [make, bind_eq_ok] at h
  obtain ⟨m, hm, h⟩ := h
  cases h
  have hI := BasisSet.make_impl (0 : K) (BasisSet.resizeFamily F m)
  refine ⟨rfl, ⟨⟨m, ?_, checkSize_nat hm⟩, m, [], ?_⟩, ?_⟩
  · simp only [h1, h2, h3]; exact hI
  · simp only [h1, h2, h3]; rfl
  · rw [hm]; exact congrArg _ hI.vlen.symm

theorem Has.inv {lib : String → Option (BClass K)} {F : Family K} {b : XBasis K} (h : b.Has lib F) :
    b.Inv F ∧ ∃ k, lib k = some b.cls := by
  obtain ⟨⟨k, n⟩, b0, cs, h1, rfl, h3, h4, h5, _⟩ := h
  simp only [checkoutBasis] at h1
  rw [calls_cls] at h3 h4 h5
  cases hc : lib k with
  | none => rw [hc] at h1; cases h1
  | some c =>
    rw [hc] at h1
    have hcls : b0.cls = c := by
      simp only [make, bind_eq_ok] at h1
      obtain ⟨m, hm, h⟩ := h1; cases h; rfl
    subst hcls
    exact ⟨calls_inv cs (make_inv h1 h3 h4 h5).2.1, k, by rw [calls_cls]; exact hc⟩

theorem Has.of {lib : String → Option (BClass K)} {F : Family K} {b : XBasis K} (h : b.Has lib F) : b.set.Of F := by
  obtain ⟨⟨_, n, bcs, hr⟩, _⟩ := h.inv
  obtain ⟨_, _, _, _, _, _, _, _, hsz⟩ := h
  exact ⟨n, bcs, hr, hsz⟩

/-- A second one of the same name and size. -/
theorem Has.again {lib : String → Option (BClass K)} (hl : NamedWell lib) {F : Family K} {b : XBasis K} (h : b.Has lib F) :
    ∃ b', checkoutBasis 0 lib (b.cls.name, (b.set.size : Int)) = .ok b' ∧ b'.set.Of F := by
  obtain ⟨⟨⟨n, hI, hn⟩, _⟩, k, hk⟩ := h.inv
  obtain ⟨_, _, _, _, _, h3, h4, h5, hsz⟩ := h
  have hsn : b.set.size = n := hI.vlen
  have hname := hl k _ hk
  have e : make 0 b.cls ((b.set.size : Nat) : Int) = .ok ⟨b.cls, BasisSet.make 0 b.set.size b.cls.phi b.cls.dphi b.cls.ddphi⟩ := by
    simp only [make, hsn, hn, ok_bind]
  refine ⟨_, by simp only [checkoutBasis, hname, hk]; exact e, b.set.size, [], by rw [h3, h4, h5]; rfl, ?_⟩
  rw [← hsz]
  exact BasisSet.vresize_length _ _ _

end XBasis

namespace XSeries

/-- A series variable: created empty, or from basis sets, and used through the C interface in any way (`set`, `clear` and all the
others). -/
inductive Reach (lib : String → Option (BClass K)) : Series K → Prop
  | new : Reach lib fresh
  | setnew {bs : List (XBasis K)} {s : Series K} : setnew bs = .ok s → Reach lib s
  | set {bs : List (XBasis K)} {s s' : Series K} : Reach lib s → set lib s bs = .ok s' → Reach lib s'
  | call {s : Series K} (c : SeriesFn × List (CVal K)) : Reach lib s → Reach lib (apiSem api c s).2

theorem Reach.consts {lib : String → Option (BClass K)} {s : Series K} (h : Reach lib s) : s.zeroVal = 0 ∧ s.identityVal = 1 := by
  induction h with
  | new => exact ⟨rfl, rfl⟩
  | setnew h =>
    have := Series.set_consts h
    exact ⟨this.1.trans rfl, this.2.trans rfl⟩
  | set _ h ih =>
    simp only [XSeries.set, bind_eq_ok] at h
    obtain ⟨v, _, h⟩ := h
    have := Series.set_consts h
    exact ⟨this.1.trans ih.1, this.2.trans ih.2⟩
  | @call s c _ ih =>
    rcases api_step c s with h | ⟨op, _, h⟩
    · rw [h]; exact ih
    · have := Series.step_consts h
      exact ⟨this.1.trans ih.1, this.2.trans ih.2⟩

theorem over_calls {fs : List (Family K)} (cs : List (SeriesFn × List (CVal K))) : ∀ {s : Series K}, s.Over fs →
    (∀ c ∈ cs, c.1 ≠ .clear) → (runCalls (apiSem api) cs s).2.Over fs := by
  induction cs with
  | nil => intro s h _; exact h
  | cons c cs ih =>
    intro s h hc
    refine ih (s := (apiSem api c s).2) ?_ fun x hx => hc x (by simp [hx])
    rcases api_step c s with e | ⟨op, h1, h2⟩
    · rw [e]; exact h
    · obtain ⟨s0, s1, bs, ops, a1, a2, a3, a4, a5, a6⟩ := h
      refine ⟨s0, s1, bs, ops ++ [op], a1, a2, a3, a4, ?_, Series.run_append _ _ a6 (by simp [Series.run, h2])⟩
      intro o ho
      rcases List.mem_append.mp ho with ho | ho
      · exact a5 o ho
      · obtain rfl := List.mem_singleton.mp ho
        exact h1 (hc c (by simp))

theorem checkoutAll_of {lib : String → Option (BClass K)} (hl : NamedWell lib) {fs : List (Family K)} {bs : List (XBasis K)}
    (hb : List.Forall₂ (XBasis.Has lib) fs bs) : ∃ v, checkoutAll lib bs = .ok v ∧ List.Forall₂ BasisSet.HandleOf fs v := by
  induction hb with
  | nil => exact ⟨[], rfl, .nil⟩
  | cons h _ ih =>
    obtain ⟨v, e, hv⟩ := ih
    obtain ⟨b', e', hb'⟩ := h.again hl
    exact ⟨some b'.set :: v, by simp [checkoutAll, e, e', ok_bind], .cons ⟨_, rfl, hb'⟩ hv⟩

end XSeries

/-- **C83** `PSeriesFunction_dsis_setnew` with basis sets checked out of the library and used in any way gives a series over their
functions: order, dimensions and zero coefficients as for the C++ constructor. The same holds for `PSeriesFunction_dsis_set` on a series
in any state. -/
theorem C83_set (lib : String → Option (BClass K)) (hl : NamedWell lib) (fs : List (Family K)) (hg : GoodDims (extents fs))
    (bs : List (XBasis K)) (hb : List.Forall₂ (XBasis.Has lib) fs bs) (s0 : Series K) (h0 : XSeries.Reach lib s0) :
    (∃ s, XSeries.setnew bs = .ok s ∧ s.Over fs ∧ s.coeff.dim = extents fs ∧ s.Coeffs fs fun _ => 0) ∧
    ∃ s, XSeries.set lib s0 bs = .ok s ∧ s.Over fs ∧ s.coeff.dim = extents fs ∧ s.Coeffs fs fun _ => 0 := by
  constructor
  · have hb' : List.Forall₂ BasisSet.HandleOf fs (bs.map fun b => some b.set) := by
      rw [List.forall₂_map_right_iff]
      exact hb.imp fun F b h => ⟨_, rfl, h.of⟩
    obtain ⟨s, e1, e2, e3, _, e5, _⟩ := C52_set fs hg XSeries.fresh rfl rfl _ hb'
    exact ⟨s, e1, e2, e3, e5⟩
  · obtain ⟨v, ev, hv⟩ := XSeries.checkoutAll_of hl hb
    obtain ⟨s, e1, e2, e3, _, e5, _⟩ := C52_set fs hg s0 h0.consts.1 h0.consts.2 _ hv
    exact ⟨s, by simp [XSeries.set, ev, ok_bind, e1], e2, e3, e5⟩

/-- The functions of the interface, on a series. -/
abbrev seriesC : SeriesFn × List (CVal K) → Series K → Res (XOut K) × Series K := apiSem XSeries.api

/-- **C83** Through the C interface, after any calls other than `clear`: `calc` (and `eval` followed by `get`) stores the sum of the series with
the coefficients the client reads, `eval_grad` followed by `get_grad` its partial derivatives in the terms and `eval_hess` followed by
`get_hess` the second ones. -/
theorem C83_values (fs : List (Family K)) (hg : GoodDims (extents fs)) (s : Series K) (hs : s.Over fs)
    (cs : List (SeriesFn × List (CVal K))) (hcs : ∀ c ∈ cs, c.1 ≠ .clear) :
    let r := (runCalls seriesC cs s).2
    ∃ c : List Int → K, (∀ t, InBox (extents fs) t → (seriesC (.getTensorCoeff, [.ints t, .refDbl]) r).1 = .ok (.num (c t))) ∧
      ∀ x : List K, x.length = fs.length → (seriesC (.calc, [.dbls x, .refDbl]) r).1 = .ok (.num (series fs (value fs.length) c x)) ∧
      (runCalls seriesC [(.eval, [.dbls x]), (.get, [.refDbl])] r).1 = [.ok .void, .ok (.num (series fs (value fs.length) c x))] ∧
      (∀ di : Nat, di < fs.length → (runCalls seriesC [(.evalGrad, [.dbls x]), (.getGrad, [.int di, .refDbl])] r).1 =
        [.ok .void, .ok (.num (series fs (gradient fs.length di) c x))]) ∧
      ∀ di dj : Nat, di < fs.length → dj < fs.length →
        (runCalls seriesC [(.evalHess, [.dbls x]), (.getHess, [.int di, .int dj, .refDbl])] r).1 =
          [.ok .void, .ok (.num (series fs (hessian fs.length di dj) c x))] := by
  intro r
  have hr : r.Over fs := XSeries.over_calls cs hs hcs
  generalize r = r at hr
  obtain ⟨c, hc⟩ := (hr.wf hg).coeff_exists
  refine ⟨c, fun t ht => ?_, fun x hx => ⟨?_, ?_, fun di hdi => ?_, fun di dj hdi hdj => ?_⟩⟩
  · show (r.coeff.get t).map XOut.num = _
    rw [hc t ht]; rfl
  · obtain ⟨s', e, _⟩ := C46_value fs hg r hr c hc x hx
    show (XSeries.numM (fun s => s.evalAt x) r).1 = _
    simp only [XSeries.numM, e]
  · obtain ⟨s', e, e2, _⟩ := C46_value fs hg r hr c hc x hx
    have e' : seriesC (.eval, [.dbls x]) r = (.ok .void, s') := by
      show XSeries.voidM (fun s => s.step (.evalAt x)) r = _
      simp only [XSeries.voidM, Series.step, e, ok_bind]
    have e3 : (seriesC (.get, [.refDbl]) s').1 = .ok (.num (series fs (value fs.length) c x)) := by
      show (s'.get).map XOut.num = _
      rw [e2]; rfl
    simp only [runCalls, e', e3]
  · obtain ⟨s', e, e2⟩ := C47_gradient fs hg r hr c hc x hx
    have e' : seriesC (.evalGrad, [.dbls x]) r = (.ok .void, s') := by
      show XSeries.voidM (fun s => s.step (.evalGrad x)) r = _
      simp only [XSeries.voidM, Series.step, e]
    have e3 : (seriesC (.getGrad, [.int di, .refDbl]) s').1 = .ok (.num (series fs (gradient fs.length di) c x)) := by
      show (s'.getGrad di).map XOut.num = _
      rw [e2 di hdi]; rfl
    simp only [runCalls, e', e3]
  · obtain ⟨s', e, e2⟩ := C48_hessian fs hg r hr c hc x hx
    have e' : seriesC (.evalHess, [.dbls x]) r = (.ok .void, s') := by
      show XSeries.voidM (fun s => s.step (.evalHess x)) r = _
      simp only [XSeries.voidM, Series.step, e]
    have e3 : (seriesC (.getHess, [.int di, .int dj, .refDbl]) s').1 = .ok (.num (series fs (hessian fs.length di dj) c x)) := by
      show (s'.getHess di dj).map XOut.num = _
      rw [(e2 di dj hdi hdj).1]; rfl
    simp only [runCalls, e', e3]

/-- **C83** Shape and coefficients through the C interface, after any calls other than `clear`: `order`, `dim` and `volume` are those of
the basis sets, `linear_index` is the row-major position and `tensor_indices` its inverse; a coefficient set by tensor or linear index
is the one read, and no other changes. -/
theorem C83_coefficients (fs : List (Family K)) (hg : GoodDims (extents fs)) (s : Series K) (hs : s.Over fs)
    (cs : List (SeriesFn × List (CVal K))) (hcs : ∀ c ∈ cs, c.1 ≠ .clear) :
    let r := (runCalls seriesC cs s).2
    (seriesC (.order, [.refInt]) r).1 = .ok (.int fs.length) ∧ (seriesC (.volume, [.refInt]) r).1 = .ok (.int (prod (extents fs))) ∧
    (∀ (i : Nat) F, fs[i]? = some F → (seriesC (.dim, [.int i, .refInt]) r).1 = .ok (.int F.size)) ∧
    ∀ t, InBox (extents fs) t →
      (seriesC (.linearIndex, [.ints t, .refInt]) r).1 = .ok (.int (rowMajor (extents fs) t)) ∧
      (∀ u : List Int, u.length = fs.length → (seriesC (.tensorIndices, [.int (rowMajor (extents fs) t), .ints u]) r).1 = .ok (.ints t)) ∧
      (seriesC (.getLinearCoeff, [.int (rowMajor (extents fs) t), .refDbl]) r).1 = (seriesC (.getTensorCoeff, [.ints t, .refDbl]) r).1 ∧
      ∀ y : K, ∃ r', seriesC (.setTensorCoeff, [.ints t, .dbl y]) r = (.ok .void, r') ∧
        seriesC (.setLinearCoeff, [.int (rowMajor (extents fs) t), .dbl y]) r = (.ok .void, r') ∧
        (seriesC (.getTensorCoeff, [.ints t, .refDbl]) r').1 = .ok (.num y) ∧
        ∀ u, InBox (extents fs) u → u ≠ t →
          (seriesC (.getTensorCoeff, [.ints u, .refDbl]) r').1 = (seriesC (.getTensorCoeff, [.ints u, .refDbl]) r).1 := by
  intro r
  have hr : r.Over fs := XSeries.over_calls cs hs hcs
  generalize r = r at hr
  have hw := hr.wf hg
  have hsh : NDArray.Shaped r.coeff (extents fs) := hw.shaped
  refine ⟨?_, ?_, fun i F hF => ?_, fun t ht => ?_⟩
  · show (Except.ok (XOut.int r.coeff.order) : Res (XOut K)) = _
    rw [hsh.order_eq]; simp [extents]
  · show (Except.ok (XOut.int r.coeff.volume) : Res (XOut K)) = _
    rw [hsh.vol_eq]
  · show (vget r.coeff.dim i).map XOut.int = _
    have : vget r.coeff.dim i = .ok (F.size : Int) := vget_ok.mpr ⟨Int.natCast_nonneg i, by simp [hsh.dim_eq, extents, hF]⟩
    rw [this]; rfl
  · have hlin := NDArray.linearIndex_of hsh hg ht
    have h0 := dot_nonneg hg.2.1 ht
    have h1 := dot_lt hg.2.1 ht
    rw [rowMajor_eq_dot ht]
    refine ⟨?_, fun u hu => ?_, ?_, fun y => ?_⟩
    · show (r.coeff.linearIndex t).map XOut.int = _
      rw [hlin]; rfl
    · show (r.coeff.tensorIndices (dot (extents fs) t) u).map XOut.ints = _
      rw [NDArray.tensorIndices_of hsh hg (by simpa [extents] using hu) h0 h1, digits_dot hg.2.1 ht]; rfl
    · show (r.coeff.getLin (dot (extents fs) t)).map XOut.num = (r.coeff.get t).map XOut.num
      simp only [NDArray.get, hlin, ok_bind]
    · have hset := (NDArray.set_of hsh hg ht y).1
      have hget := NDArray.set_get hsh hg ht y
      have hsetl : r.coeff.setLin (dot (extents fs) t) y = .ok { r.coeff with val := r.coeff.val.set (dot (extents fs) t).toNat y } := by
        rw [← hset]; simp only [NDArray.set, hlin, ok_bind]
      refine ⟨{ r with coeff := { r.coeff with val := r.coeff.val.set (dot (extents fs) t).toNat y } }, ?_, ?_, ?_, fun u hu hne => ?_⟩
      · show XSeries.voidM (fun s => s.step (.setCoeff t y)) r = _
        simp only [XSeries.voidM, Series.step, hset, ok_bind]
      · show XSeries.voidM (fun s => s.step (.setCoeffLin (dot (extents fs) t) y)) r = _
        simp only [XSeries.voidM, Series.step, hsetl, ok_bind]
      · show (NDArray.get _ t).map XOut.num = _
        simp only [hget.1]; rfl
      · show (NDArray.get _ u).map XOut.num = (r.coeff.get u).map XOut.num
        simp only [hget.2 u hu hne]

end

/-! ### Non-vacuity -/

namespace ExternDemo

/-- Monomials, at most ten of them. -/
def cls : BClass ℚ := ⟨"Mono", "1, x, x^2, ...", some (Demo.mono ℚ 0).phi, some (Demo.mono ℚ 0).dphi, some (Demo.mono ℚ 0).ddphi, some 10⟩

/-- The library. -/
def lib (k : String) : Option (BClass ℚ) := if k = "Mono" then some cls else none

theorem lib_named : NamedWell lib := by
  intro k c h
  simp only [lib] at h
  split at h
  · cases h; rename_i hk; exact hk.symm
  · cases h

/-- Checked out with 5 terms, evaluated, resized to 2. -/
def b2 : XBasis ℚ := ⟨cls, ⟨cls.phi, cls.dphi, cls.ddphi, [1, 7], [0, 0], [0, 0]⟩⟩

/-- Checked out with 3 terms. -/
def b3 : XBasis ℚ := ⟨cls, ⟨cls.phi, cls.dphi, cls.ddphi, [0, 0, 0], [0, 0, 0], [0, 0, 0]⟩⟩

theorem has2 : b2.Has lib (Demo.mono ℚ 2) := by
  refine ⟨("Mono", 5), ⟨cls, BasisSet.make 0 5 cls.phi cls.dphi cls.ddphi⟩, [(.eval, [.dbl 7]), (.resize, [.int 2])], rfl, ?_, rfl, rfl, rfl,
    rfl⟩
  have e : (apiSem (XBasis.api 0) (.eval, [.dbl 7]) (⟨cls, BasisSet.make 0 5 cls.phi cls.dphi cls.ddphi⟩ : XBasis ℚ)).2 =
      ⟨cls, ⟨cls.phi, cls.dphi, cls.ddphi, [1, 7, 7 ^ 2, 7 ^ 3, 7 ^ 4], [0, 0, 0, 0, 0], [0, 0, 0, 0, 0]⟩⟩ := by
    show (⟨cls, ⟨cls.phi, cls.dphi, cls.ddphi, [7 ^ 0, 7 ^ 1, 7 ^ 2, 7 ^ 3, 7 ^ 4], [0, 0, 0, 0, 0], [0, 0, 0, 0, 0]⟩⟩ : XBasis ℚ) = _
    simp
  simp only [runCalls, e]
  rfl

theorem has3 : b3.Has lib (Demo.mono ℚ 3) := ⟨("Mono", 3), b3, [], rfl, rfl, rfl, rfl, rfl, rfl⟩

theorem has : List.Forall₂ (XBasis.Has lib) (Demo.fams ℚ) [b2, b3] := .cons has2 (.cons has3 .nil)

/-- **C83** applies: `5 x y^2` at `(2,3)` through the C interface. -/
example : ∃ s, XSeries.setnew [b2, b3] = .ok s ∧
    (runCalls seriesC [(.setTensorCoeff, [.ints [1, 2], .dbl 5]), (.calc, [.dbls [2, 3], .refDbl])] s).1 = [.ok .void, .ok (.num 90)] := by
  obtain ⟨⟨s, e1, e2, _, e4⟩, _⟩ := C83_set lib lib_named _ (Demo.good ℚ) _ has XSeries.fresh .new
  refine ⟨s, e1, ?_⟩
  obtain ⟨_, _, _, h⟩ := C83_coefficients _ (Demo.good ℚ) s e2 [] (by simp)
  obtain ⟨_, _, _, h⟩ := h [1, 2] (by simp [extents, Demo.fams, Demo.mono, InBox])
  obtain ⟨r', h1, _, h2, h3⟩ := h 5
  obtain ⟨c, g1, g⟩ := C83_values _ (Demo.good ℚ) s e2 [(.setTensorCoeff, [.ints [1, 2], .dbl 5])] (by simp)
  obtain ⟨g2, _⟩ := g [2, 3] rfl
  simp only [runCalls] at h1 h2 h3 g1 g2
  simp only [h1] at g1 g2
  simp only [runCalls, h1, g2]
  have hc : ∀ t, InBox (extents (Demo.fams ℚ)) t → c t = if t = [1, 2] then 5 else 0 := by
    intro t ht
    have ht' := g1 t ht
    by_cases e : t = [1, 2]
    · subst e; rw [h2] at ht'; simpa [eq_comm] using ht'
    · rw [h3 t ht e] at ht'
      have : (seriesC (.getTensorCoeff, [.ints t, .refDbl]) s).1 = .ok (.num 0) := by
        show (s.coeff.get t).map XOut.num = _
        rw [e4 t ht]; rfl
      rw [this] at ht'
      simp only [e, if_false]
      simpa [eq_comm] using ht'
  have box : ∀ a b : Nat, a < 2 → b < 3 → InBox (extents (Demo.fams ℚ)) [(a : Int), (b : Int)] := by
    intro a b ha hb; simp [extents, Demo.fams, Demo.mono, InBox]; omega
  have : series (Demo.fams ℚ) (value 2) c [2, 3] = 90 := by
    simp only [series, Demo.fams, value, Demo.mono, List.replicate, List.zip, List.zipWith, List.map, tensorSum, Finset.sum_range_succ, Finset.sum_range_zero]
    have h00 := hc _ (box 0 0 (by omega) (by omega)); have h01 := hc _ (box 0 1 (by omega) (by omega))
    have h02 := hc _ (box 0 2 (by omega) (by omega)); have h10 := hc _ (box 1 0 (by omega) (by omega))
    have h11 := hc _ (box 1 1 (by omega) (by omega)); have h12 := hc _ (box 1 2 (by omega) (by omega))
    rw [h00, h01, h02, h10, h11, h12]
    norm_num [Family.deriv]
  rw [show (Demo.fams ℚ).length = 2 from rfl, this]

/-- A function object without a stored value. -/
def obj (f : ℚ → ℚ) : SObj (List ℚ) ℚ :=
  ⟨"", some fun v => match v with | x :: _ => .ok (f x) | [] => .error (.ub .oob), none, none, none, none⟩

/-- `x^2` with its derivatives. -/
def sq : Flex (List ℚ) ℚ :=
  ⟨⟨"sq", ["x"], ["a number"]⟩, some (obj fun x => x * x), hs [obj fun x => 2 * x], [[obj fun _ => 2]].map hs⟩

theorem sq_make : Flex.make ⟨"sq", ["x"], ["a number"]⟩ (some (obj fun x => x * x)) (hs [obj fun x => 2 * x]) ([[obj fun _ => 2]].map hs) =
    .ok sq := rfl

/-- **C81** applies: `calc_grad` at 3 stores 6; `get_grad` afterwards returns it, also after other components were evaluated; `get` before
any evaluation is undefined. -/
example : (flexC (CCall.calc [3] (.g 0)).toC sq).1 = .ok (.num 6) ∧
    (flexC (CCall.get (.g 0)).toC (runCalls flexC ([CCall.eval [3] (.g 0), .calc [5] .f].map CCall.toC) sq).2).1 = .ok (.num 6) ∧
    (flexC (CCall.get (.f : Comp) : CCall (List ℚ)).toC sq).1 = .error (.ub .uninit) := by
  refine ⟨?_, ?_, ?_⟩
  · refine (C81_calc _ _ _ _ _ sq_make [] (by simp) [3] (.g 0) (by simp [Comp.Exists])).1.trans ?_
    decide +kernel
  · refine (C81_get _ _ _ _ _ sq_make [.eval [3] (.g 0), .calc [5] .f] (by simp [CCall.comp, Comp.Exists]) (.g 0) (by simp [Comp.Exists])).trans ?_
    decide +kernel
  · refine (C81_get _ _ _ _ _ sq_make [] (by simp) .f trivial).trans ?_
    decide +kernel

/-- **C80** applies: two variables of functions; one is deleted twice, made again and used. -/
example : Slots.LegalRun (fun _ : Unit => .ok sq) flexC
    [.decl, .decl, .new 0 (), .new 1 (), .delete 0, .delete 0, .call 1 (.calc, [.dbls [3], .refDbl]), .new 0 (), .call 0 (.get, [.refDbl])] [] ∧
    (Ext.run (fun _ : Unit => .ok sq) flexC
      [.decl, .decl, .new 0 (), .new 1 (), .delete 0, .delete 0, .call 1 (.calc, [.dbls [3], .refDbl]), .new 0 (), .call 0 (.get, [.refDbl])]
      Mem.start).1 = [.ok none, .ok none, .ok none, .ok none, .ok none, .ok none, .ok (some (.num 9)), .ok none, .error (.ub .uninit)] := by
  refine ⟨?_, by decide +kernel⟩
  refine ⟨trivial, trivial, rfl, rfl, ?_, ?_, ⟨sq, rfl⟩, rfl, ⟨sq, rfl⟩, trivial⟩ <;> simp [Slots.Legal, Slots.step]

/-- **C82** applies. -/
example : (flexC (.varDescription, [.int 0, .buf 9]) sq).1 = .ok (.str "a number") ∧
    (flexC (.varDescription, [.int 0, .buf 8]) sq).1 = .error (.ub .oob) := by
  have := (C82_function_names_partial _ _ _ _ _ sq_make []).2.2 0 "a number" rfl
  exact ⟨this.1 9 (by decide), this.2 8 (by decide)⟩

end ExternDemo

end Verif
