import Verif.Model.PyObject
import Verif.Props.ExternMore
import Verif.Props.Python

/-!
# The life of Python objects (C98)
-/

namespace Verif
open Spec

namespace PyMem
variable {Obj Arg M Out : Type}

/-- Memory against objects. -/
def Rel (p : PyMem Obj) (s : PyVals Obj) : Prop :=
  Ext.Rel p.mem s.objs ∧ p.vars = s.vars ∧ ∀ v i, s.vars v = some i → i < s.objs.length

theorem rel_start : Rel (start : PyMem Obj) PyVals.start := ⟨Ext.rel_start, rfl, fun _ _ h => by cases h⟩

theorem hlen {m : Mem Obj} {s : Slots Obj} (R : Ext.Rel m s) : m.handles.length = s.length := by
  have := Mem.Rel.hlen R; simpa [Ext.vals] using this

theorem value_iff {s : PyVals Obj} {v : Nat} {o : Obj} : s.value v = some o ↔ ∃ i, s.vars v = some i ∧ s.objs[i]? = some (some o) := by
  unfold PyVals.value
  cases s.vars v with
  | none => simp
  | some i => cases h : s.objs[i]? with | none => simp [h] | some x => simp [h]

/-- A legal statement. -/
theorem step_rel (make : Arg → Res Obj) (sem : M → Obj → Except PyErr Out × Obj) {p : PyMem Obj} {s : PyVals Obj} (R : Rel p s)
    (st : PyStmt Arg M) (hl : s.Legal st) :
    (p.step make sem st).1 = (s.step make sem st).1 ∧ Rel (p.step make sem st).2 (s.step make sem st).2 := by
  obtain ⟨R, hv, hb⟩ := R
  cases st with
  | new v a =>
    have k1 := Ext.step_rel (Arg := Arg) (Call := Unit) (Out := Unit) make (fun _ o => (.ok (), o)) R .decl trivial
    have k2 := Ext.step_rel (Arg := Arg) (Call := Unit) (Out := Unit) make (fun _ o => (.ok (), o)) k1.2 (.new s.objs.length a)
      (by simp [Slots.Legal, Slots.step])
    simp only [Ext.step, Slots.step] at k1 k2
    cases hm : make a with
    | error e =>
      have : Ext.new make (p.mem.push none) s.objs.length a = .error e := by
        rw [hm] at k2
        cases hn : Ext.new make (p.mem.push none) s.objs.length a with
        | error e' => rw [hn] at k2; simpa [Mem.done] using k2.1
        | ok m => rw [hn] at k2; simp [Mem.done] at k2
      simp only [step, init, hlen R, this, PyVals.step, hm]
      exact ⟨trivial, R, hv, hb⟩
    | ok o =>
      rw [hm] at k2
      cases hn : Ext.new make (p.mem.push none) s.objs.length a with
      | error e' => rw [hn] at k2; simp [Mem.done] at k2
      | ok m =>
        rw [hn] at k2
        have R' : Ext.Rel m (s.objs ++ [some o]) := by simpa [Mem.done] using k2.2
        obtain ⟨q, hq, _, h2⟩ := Mem.Rel.handle R' (Ext.vals_get (h := s.objs.length) (o := some o) (by simp))
        obtain ⟨b, rfl, _⟩ := h2 o rfl
        simp only [step, init, hlen R, hn, Mem.ptr_eq hq, PyVals.step, hm, hv]
        refine ⟨trivial, R', rfl, fun w i h => ?_⟩
        simp only [Binding.set] at h
        split at h
        · cases h; simp
        · have := hb w i h; simp; omega
  | assign v w =>
    simp only [PyVals.Legal, Option.isSome_iff_exists] at hl
    obtain ⟨i, hi⟩ := hl
    simp only [step, hv, PyVals.step, hi]
    refine ⟨trivial, R, rfl, fun u j h => ?_⟩
    simp only [Binding.set] at h
    split at h
    · cases h; exact hb w _ hi
    · exact hb u j h
  | unbind v =>
    simp only [PyVals.Legal, Option.isSome_iff_exists] at hl
    obtain ⟨i, hi⟩ := hl
    simp only [step, hv, PyVals.step, hi, Option.isSome_some, if_true]
    refine ⟨trivial, R, rfl, fun u j h => ?_⟩
    simp only [Binding.set] at h
    split at h
    · cases h
    · exact hb u j h
  | delete v =>
    simp only [PyVals.Legal, Option.isSome_iff_exists] at hl
    obtain ⟨i, hi⟩ := hl
    have k := Ext.step_rel (Arg := Arg) (Call := Unit) (Out := Unit) make (fun _ o => (.ok (), o)) R (.delete i) (hb v i hi)
    simp only [Ext.step, Slots.step] at k
    cases hd : Ext.delete p.mem i with
    | error e => rw [hd] at k; simp [Mem.done] at k
    | ok m =>
      rw [hd] at k
      simp only [step, hv, hi, hd, PyVals.step]
      refine ⟨trivial, by simpa [Mem.done] using k.2, rfl, fun u j h => by simpa using hb u j h⟩
  | call v c =>
    simp only [PyVals.Legal, Option.isSome_iff_exists] at hl
    obtain ⟨o, ho⟩ := hl
    obtain ⟨i, hi, hio⟩ := value_iff.mp ho
    obtain ⟨q, hq, _, h2⟩ := Mem.Rel.handle R (Ext.vals_get hio)
    obtain ⟨a, rfl, ha⟩ := h2 o rfl
    simp only [step, hv, hi, method, Mem.ptr_eq hq, Mem.deref_eq ha, PyVals.step, ho]
    refine ⟨trivial, ?_, rfl, fun u j h => by simpa using hb u j h⟩
    have := Mem.rel_update R hq (sem c o).2
    rw [Ext.vals_set] at this
    exact this

theorem run_rel (make : Arg → Res Obj) (sem : M → Obj → Except PyErr Out × Obj) (sts : List (PyStmt Arg M)) :
    ∀ {p : PyMem Obj} {s : PyVals Obj}, Rel p s → PyVals.LegalRun make sem sts s →
      (p.run make sem sts).1 = (s.run make sem sts).1 ∧ Rel (p.run make sem sts).2 (s.run make sem sts).2 := by
  induction sts with
  | nil => intro p s R _; exact ⟨rfl, R⟩
  | cons st sts ih =>
    intro p s R hl
    obtain ⟨h1, h2⟩ := step_rel make sem R st hl.1
    have hl2 := hl.2
    simp only [run, PyVals.run]
    revert hl2 h1 h2
    rcases p.step make sem st with ⟨r, p'⟩
    rcases s.step make sem st with ⟨r', s'⟩
    intro h1 h2 hl2
    dsimp only at h1 h2
    subst h1
    cases r with
    | error e =>
      dsimp only at hl2 ⊢
      by_cases hf : e.fatal = true
      · simp only [hf, if_true]; exact ⟨trivial, h2⟩
      · simp only [hf, if_false]
        obtain ⟨h3, h4⟩ := ih h2 (hl2.resolve_left hf)
        exact ⟨by rw [h3]; rfl, h4⟩
    | ok x =>
      dsimp only at hl2 ⊢
      obtain ⟨h3, h4⟩ := ih h2 hl2
      exact ⟨by rw [h3], h4⟩

end PyMem

section
variable {Obj Arg M Out : Type}

/-- **C98** For every program that makes objects of one of the classes, gives them one or several names, deletes them (even more than once,
under any of their names) and calls methods of objects that were not deleted: every call returns or raises what it would if the objects
simply were values that the names refer to, the program ends where it should, the names refer to the same objects, and in memory there is
exactly one C++ object for every object that was not deleted. -/
theorem C98_objects_are_values_partial (make : Arg → Res Obj) (sem : M → Obj → Except PyErr Out × Obj) (sts : List (PyStmt Arg M))
    (hl : PyVals.LegalRun make sem sts PyVals.start) :
    (PyMem.run make sem sts PyMem.start).1 = (PyVals.run make sem sts PyVals.start).1 ∧
    (PyMem.run make sem sts PyMem.start).2.vars = (PyVals.run make sem sts PyVals.start).2.vars ∧
    Owned (PyMem.run make sem sts PyMem.start).2.mem (PyVals.run make sem sts PyVals.start).2.objs := by
  obtain ⟨h1, h2, h3, _⟩ := PyMem.run_rel make sem sts PyMem.rel_start hl
  exact ⟨h1, h3, h2.owners⟩

/-- No object in the slots: nothing in memory. -/
theorem Owned.empty {m : Mem Obj} {s : Slots Obj} (h : Owned m s) (hd : ∀ x ∈ s, x = none) : ∀ x ∈ m.heap, x = none := by
  intro x hx
  cases x with
  | none => rfl
  | some o =>
    obtain ⟨a, ha⟩ := List.getElem?_of_mem hx
    obtain ⟨i, _, hi⟩ := (h.1 a o).mp ha
    cases hd _ (List.mem_of_getElem? hi)

/-- **C98** A program that deletes every object it makes leaves nothing in memory. -/
theorem C98_no_leak_partial (make : Arg → Res Obj) (sem : M → Obj → Except PyErr Out × Obj) (sts : List (PyStmt Arg M))
    (hl : PyVals.LegalRun make sem sts PyVals.start) (hd : ∀ x ∈ (PyVals.run make sem sts PyVals.start).2.objs, x = none) :
    ∀ x ∈ (PyMem.run make sem sts PyMem.start).2.mem.heap, x = none :=
  (C98_objects_are_values_partial make sem sts hl).2.2.empty hd

/-- **C98** violated: an object whose only name goes away stays in memory, and no variable names it any more. -/
theorem C98_unnamed_objects_stay_violated (make : Arg → Res Obj) (sem : M → Obj → Except PyErr Out × Obj) (sts : List (PyStmt Arg M))
    (hl : PyVals.LegalRun make sem sts PyVals.start) (v : Nat) (o : Obj)
    (hv : (PyVals.run make sem sts PyVals.start).2.value v = some o)
    (hu : ∀ w, w ≠ v → (PyVals.run make sem sts PyVals.start).2.vars w ≠ (PyVals.run make sem sts PyVals.start).2.vars v) :
    let p := (PyMem.step make sem (PyMem.run make sem sts PyMem.start).2 (.unbind v)).2
    ∃ i a, p.mem.handles[i]? = some (some (some a)) ∧ p.mem.heap[a]? = some (some o) ∧ ∀ w, p.vars w ≠ some i := by
  obtain ⟨_, R, h3, _⟩ := PyMem.run_rel make sem sts PyMem.rel_start hl
  obtain ⟨i, hi, hio⟩ := PyMem.value_iff.mp hv
  obtain ⟨q, hq, _, h2⟩ := Mem.Rel.handle R (Ext.vals_get hio)
  obtain ⟨a, rfl, ha⟩ := h2 o rfl
  simp only [PyMem.step, h3, hi]
  refine ⟨i, a, hq, ha, fun w => ?_⟩
  simp only [Binding.set]
  split
  · simp
  · rename_i hw
    rw [← hi]
    exact hu w hw

/-- **C98** A method of an object that was deleted, under whatever name, is undefined (`NULL` is dereferenced); `delete` does nothing. -/
theorem C98_deleted_object_partial (make : Arg → Res Obj) (sem : M → Obj → Except PyErr Out × Obj) (sts : List (PyStmt Arg M))
    (hl : PyVals.LegalRun make sem sts PyVals.start) (v i : Nat) (m : M)
    (hv : (PyVals.run make sem sts PyVals.start).2.vars v = some i)
    (hi : (PyVals.run make sem sts PyVals.start).2.objs[i]? = some none) :
    (PyMem.step make sem (PyMem.run make sem sts PyMem.start).2 (.call v m)).1 = .error (.cpp (.ub .nullDeref)) ∧
    (PyMem.step make sem (PyMem.run make sem sts PyMem.start).2 (.delete v)).1 = .ok none ∧
    (PyMem.step make sem (PyMem.run make sem sts PyMem.start).2 (.delete v)).2.mem.heap =
      (PyMem.run make sem sts PyMem.start).2.mem.heap := by
  obtain ⟨_, R, h3, _⟩ := PyMem.run_rel make sem sts PyMem.rel_start hl
  obtain ⟨q, hq, h1, _⟩ := Mem.Rel.handle R (Ext.vals_get hi)
  obtain rfl := h1 rfl
  simp [PyMem.step, h3, hv, PyMem.method, Mem.ptr_eq hq, Ext.delete, ok_bind, Mem.delPtr, Mem.setPtr, Except.map]

/-- **C98** violated: a constructor never prints "not found" and ends the program. A name that is not in the library (any error of the
C++ constructor) is a C++ exception. -/
theorem C98_not_found_violated (make : Arg → Res Obj) (sem : M → Obj → Except PyErr Out × Obj) (p : PyMem Obj) (v : Nat) (a : Arg) :
    (p.step make sem (.new v a)).1 ≠ .error .systemExit ∧
    ∀ e, make a = .error e → (p.step make sem (.new v a)).1 = .error (.cpp e) := by
  have hp : (p.mem.push none).ptr p.mem.handles.length = .ok none := by simp [Mem.push, Mem.ptr]
  refine ⟨?_, fun e he => by simp [PyMem.step, PyMem.init, Ext.new, hp, ok_bind, he, err_bind]⟩
  cases he : make a with
  | error e => simp [PyMem.step, PyMem.init, Ext.new, hp, ok_bind, he, err_bind]
  | ok o =>
    have e : Ext.new make (p.mem.push none) p.mem.handles.length a =
        .ok (Mem.setPtr { p.mem.push none with heap := p.mem.heap ++ [some o] } p.mem.handles.length (some (some p.mem.heap.length))) := by
      simp only [Ext.new, hp, ok_bind, he]; rfl
    have e2 : (Mem.setPtr { p.mem.push none with heap := p.mem.heap ++ [some o] } p.mem.handles.length
        (some (some p.mem.heap.length))).ptr p.mem.handles.length = .ok (some p.mem.heap.length) := by
      simp [Mem.push, Mem.ptr, Mem.setPtr]
    simp [PyMem.step, PyMem.init, e, e2]

end

/-! ### Basis sets and series -/

section
variable {K : Type} [Field K] [LinearOrder K] [FloorRing K]

/-- The objects: basis sets of the library, series. -/
def pyWorldSem (lib : String → Option (BClass K)) :
    PyDuoSem (XBasis K) (Series K) (String × Int) (PyBasis K) (PySer K) (PyVal K) where
  makeB := checkoutBasis 0 lib
  semB := PyBasis.sem 0
  build := XSeries.setnew
  semS := PySer.sem
  rebuild := pySet lib

theorem PyWorld.parts_of {p : PyMem (XBasis K)} {s : PyVals (XBasis K)} (R : PyMem.Rel p s) : ∀ (ws : List Nat) (bs : List (XBasis K)),
    s.values ws = some bs → PyWorld.parts p ws = .ok bs := by
  have key : ∀ (ws : List Nat) (bs : List (XBasis K)), s.values ws = some bs →
      ∃ hs, PyWorld.ptrs p ws = .ok hs ∧ s.objs.objs hs = some bs := by
    intro ws
    induction ws with
    | nil => intro bs h; cases h; exact ⟨[], rfl, rfl⟩
    | cons w ws ih =>
      intro bs h
      simp only [PyVals.values] at h
      split at h
      · rename_i b bs' h1 h2
        cases h
        obtain ⟨i, hi, hio⟩ := PyMem.value_iff.mp h1
        obtain ⟨hs, e1, e2⟩ := ih bs' h2
        refine ⟨i :: hs, ?_, ?_⟩
        · simp [PyWorld.ptrs, R.2.1, hi, e1]
        · simp [Slots.objs, hio, e2]
      · cases h
  intro ws bs h
  obtain ⟨hs, e1, e2⟩ := key ws bs h
  simp [PyWorld.parts, e1, derefAll_of R.1 hs bs e2]

/-- A program against values. -/
def PyWorld.Rel (w : PyWorld K) (d : PyDuo (XBasis K) (Series K)) : Prop := PyMem.Rel w.basis d.parts ∧ PyMem.Rel w.series d.things

theorem PyWorld.step_rel (lib : String → Option (BClass K)) {w : PyWorld K} {d : PyDuo (XBasis K) (Series K)} (R : PyWorld.Rel w d)
    (st : PyDuoStmt (String × Int) (PyBasis K) (PySer K)) (hl : d.Legal st) :
    (w.step lib st).1 = (d.step (pyWorldSem lib) st).1 ∧ PyWorld.Rel (w.step lib st).2 (d.step (pyWorldSem lib) st).2 := by
  obtain ⟨RB, RS⟩ := R
  cases st with
  | part st =>
    obtain ⟨h1, h2⟩ := PyMem.step_rel (checkoutBasis 0 lib) (PyBasis.sem 0) RB st hl
    exact ⟨h1, h2, RS⟩
  | build v ws =>
    simp only [PyDuo.Legal, Option.isSome_iff_exists] at hl
    obtain ⟨bs, hbs⟩ := hl
    obtain ⟨h1, h2⟩ := PyMem.step_rel XSeries.setnew PySer.sem RS (.new v bs) trivial
    simp only [PyWorld.step, PyWorld.parts_of RB ws bs hbs, PyDuo.step, hbs, Option.getD_some]
    exact ⟨h1, RB, h2⟩
  | rebuild v ws =>
    simp only [PyDuo.Legal, Option.isSome_iff_exists] at hl
    obtain ⟨⟨o, ho⟩, bs, hbs⟩ := hl
    obtain ⟨h1, h2⟩ := PyMem.step_rel XSeries.setnew (pySet lib) RS (.call v bs) (by simp [PyVals.Legal, ho])
    obtain ⟨i, hi, _⟩ := PyMem.value_iff.mp ho
    simp only [PyWorld.step, RS.2.1, hi, PyWorld.parts_of RB ws bs hbs, PyDuo.step, hbs, Option.getD_some]
    exact ⟨h1, RB, h2⟩
  | thing st =>
    obtain ⟨h1, h2⟩ := PyMem.step_rel (fun e : Empty => nomatch e) PySer.sem RS st hl
    exact ⟨h1, RB, h2⟩

theorem PyWorld.run_rel (lib : String → Option (BClass K)) (sts : List (PyDuoStmt (String × Int) (PyBasis K) (PySer K))) :
    ∀ {w : PyWorld K} {d : PyDuo (XBasis K) (Series K)}, PyWorld.Rel w d → d.LegalRun (pyWorldSem lib) sts →
      (w.run lib sts).1 = (d.run (pyWorldSem lib) sts).1 ∧ PyWorld.Rel (w.run lib sts).2 (d.run (pyWorldSem lib) sts).2 := by
  induction sts with
  | nil => intro p s R _; exact ⟨rfl, R⟩
  | cons st sts ih =>
    intro p s R hl
    obtain ⟨h1, h2⟩ := PyWorld.step_rel lib R st hl.1
    have hl2 := hl.2
    simp only [PyWorld.run, PyDuo.run]
    revert hl2 h1 h2
    rcases p.step lib st with ⟨r, p'⟩
    rcases s.step (pyWorldSem lib) st with ⟨r', s'⟩
    intro h1 h2 hl2
    dsimp only at h1 h2
    subst h1
    cases r with
    | error e =>
      dsimp only at hl2 ⊢
      by_cases hf : e.fatal = true
      · simp only [hf, if_true]; exact ⟨trivial, h2⟩
      · simp only [hf, if_false]
        obtain ⟨h3, h4⟩ := ih h2 (hl2.resolve_left hf)
        exact ⟨by rw [h3]; rfl, h4⟩
    | ok x =>
      dsimp only at hl2 ⊢
      obtain ⟨h3, h4⟩ := ih h2 hl2
      exact ⟨by rw [h3], h4⟩

/-- **C98** The same for programs that use basis sets and series together: a series is made from, or given, copies of the basis sets its
argument names (so the basis sets may be changed and deleted afterwards), and every C++ object belongs to one Python object. -/
theorem C98_series_are_values_partial (lib : String → Option (BClass K)) (sts : List (PyDuoStmt (String × Int) (PyBasis K) (PySer K)))
    (hl : PyDuo.LegalRun (pyWorldSem lib) sts ⟨PyVals.start, PyVals.start⟩) :
    let w := PyWorld.run lib sts ⟨PyMem.start, PyMem.start⟩
    let d := PyDuo.run (pyWorldSem lib) sts ⟨PyVals.start, PyVals.start⟩
    w.1 = d.1 ∧ w.2.basis.vars = d.2.parts.vars ∧ w.2.series.vars = d.2.things.vars ∧
      Owned w.2.basis.mem d.2.parts.objs ∧ Owned w.2.series.mem d.2.things.objs := by
  intro w d
  obtain ⟨h1, h2, h3⟩ := PyWorld.run_rel lib sts (w := ⟨PyMem.start, PyMem.start⟩) (d := ⟨PyVals.start, PyVals.start⟩)
    ⟨PyMem.rel_start, PyMem.rel_start⟩ hl
  exact ⟨h1, h2.2.1, h3.2.1, h2.1.owners, h3.1.owners⟩

/-- **C98** A basis set that was deleted cannot be given to a series: the list holds `NULL`, which is dereferenced. -/
theorem C98_deleted_basis_partial (lib : String → Option (BClass K)) (sts : List (PyDuoStmt (String × Int) (PyBasis K) (PySer K)))
    (hl : PyDuo.LegalRun (pyWorldSem lib) sts ⟨PyVals.start, PyVals.start⟩) (v u i : Nat)
    (hu : (PyDuo.run (pyWorldSem lib) sts ⟨PyVals.start, PyVals.start⟩).2.parts.vars u = some i)
    (hi : (PyDuo.run (pyWorldSem lib) sts ⟨PyVals.start, PyVals.start⟩).2.parts.objs[i]? = some none) :
    ((PyWorld.run lib sts ⟨PyMem.start, PyMem.start⟩).2.step lib (.build v [u])).1 = .error (.cpp (.ub .nullDeref)) := by
  obtain ⟨h1, h2, h3⟩ := PyWorld.run_rel lib sts (w := ⟨PyMem.start, PyMem.start⟩) (d := ⟨PyVals.start, PyVals.start⟩)
    ⟨PyMem.rel_start, PyMem.rel_start⟩ hl
  obtain ⟨q, hq, h4, _⟩ := Mem.Rel.handle h2.1 (Ext.vals_get hi)
  obtain rfl := h4 rfl
  simp [PyWorld.step, PyWorld.parts, PyWorld.ptrs, h2.2.1, hu, XWorld.derefAll, Mem.ptr_eq hq, ok_bind, Mem.deref, err_bind]

end

/-! ### Examples -/

namespace PyObjectDemo
open ExternDemo

/-- A library with one function. -/
def flib (n : String) : Option (Flex (List ℚ) ℚ) := if n = "sq" then some sq else none

/-- `f = PFunc_dsd("sq"); g = f; h = PFunc_dsd("sq"); f.calc([3]); h.calc([5]); g(); f.delete(); g.delete(); h()`, and then a name that is not
in the library. -/
def prog : List (PyStmt String (PyFn ℚ)) :=
  [.new 0 "sq", .assign 1 0, .new 2 "sq", .call 0 (.calc [3]), .call 2 (.calc [5]), .call 1 .get, .delete 0, .delete 1, .call 2 .get,
    .new 3 "nope", .delete 3]

/-- **C98** applies: the two names of one object share it, the other object is not affected; the program ends at the unknown name. -/
example : PyVals.LegalRun (checkoutObj flib) (PyFn.sem (flexCls _ _)) prog PyVals.start ∧
    (PyMem.run (checkoutObj flib) (PyFn.sem (flexCls _ _)) prog PyMem.start).1 =
      [.ok none, .ok none, .ok none, .ok (some (.num 9)), .ok (some (.num 25)), .ok (some (.num 9)), .ok none, .ok none,
        .ok (some (.num 25)), .error (.cpp .runtimeError)] := by
  refine ⟨?_, by decide +kernel⟩
  refine ⟨trivial, rfl, trivial, rfl, rfl, rfl, rfl, rfl, rfl, trivial, ?_⟩
  exact Or.inl rfl

/-- The hypotheses of the violated part are met: `f = PFunc_dsd("sq"); del f`. -/
example : (PyVals.run (checkoutObj flib) (PyFn.sem (flexCls _ _)) [.new 0 "sq"] PyVals.start).2.value 0 = some sq ∧
    ∀ w, w ≠ 0 → (PyVals.run (checkoutObj flib) (PyFn.sem (flexCls _ _)) [.new 0 "sq"] PyVals.start).2.vars w ≠
      (PyVals.run (checkoutObj flib) (PyFn.sem (flexCls _ _)) [.new 0 "sq"] PyVals.start).2.vars 0 := by
  refine ⟨rfl, fun w hw => ?_⟩
  have : (PyVals.run (checkoutObj flib) (PyFn.sem (flexCls _ _)) [.new 0 "sq"] PyVals.start).2.vars = Binding.set (fun _ => none) 0 (some 0) := rfl
  rw [this]
  simp [Binding.set, hw]

/-- Two basis sets, a series over them, then one basis set is resized and both are deleted, and the series is used. -/
def sprog : List (PyDuoStmt (String × Int) (PyBasis ℚ) (PySer ℚ)) :=
  [.part (.new 0 ("Mono", 2)), .part (.new 1 ("Mono", 3)), .build 0 [0, 1], .part (.call 0 (.resize 7)), .part (.delete 0), .part (.delete 1),
    .thing (.call 0 (.setTensorCoeff [1, 2] 5)), .thing (.assign 1 0), .thing (.call 1 (.calc [2, 3])), .part (.new 0 ("Mono", 4)),
    .rebuild 1 [0, 0], .thing (.call 0 .volume), .thing (.delete 1), .part (.delete 0)]

/-- **C98** applies to it. -/
example : PyDuo.LegalRun (pyWorldSem lib) sprog ⟨PyVals.start, PyVals.start⟩ ∧
    (PyWorld.run lib sprog ⟨PyMem.start, PyMem.start⟩).1 =
      [.ok none, .ok none, .ok none, .ok (some .none), .ok none, .ok none, .ok (some .none), .ok none, .ok (some (.num 90)), .ok none,
        .ok (some .none), .ok (some (.int 16)), .ok none, .ok none] := by
  refine ⟨?_, by decide +kernel⟩
  refine ⟨trivial, trivial, rfl, rfl, rfl, rfl, rfl, rfl, rfl, trivial, ⟨rfl, rfl⟩, rfl, rfl, rfl, trivial⟩

end PyObjectDemo
end Verif
