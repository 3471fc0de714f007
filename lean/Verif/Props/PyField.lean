import Verif.Spec.PyField
import Verif.Props.BodyExtern
import Verif.Props.Python

/-!
# Python bodies and fields (C92)
-/

namespace Verif
open Spec Bin Mesh PField Body FieldMem

namespace PyField

section
variable {K : Type} {d : Nat} {File : Type}

/-- The C calls of a program. -/
def toCAll : List (PyFieldOp K File) → Nat → Nat → List (BOp File (FuncFn × List (CVal K)))
  | [], _, _ => []
  | op :: ops, nb, nf => op.toC nb nf ++ toCAll ops
      (match op with | .body _ => nb + 1 | _ => nb) (match op with | .func _ _ => nf + 1 | _ => nf)

variable {make : File → Res (Body K d)} {sem : FuncFn × List (CVal K) → Mesh K d × PField K → Res (XOut K) × Mesh K d × PField K}

theorem run_append (a b : List (BOp File (FuncFn × List (CVal K)))) : ∀ m : FieldMem K d,
    FieldMem.run make sem (a ++ b) m = ((FieldMem.run make sem a m).1 ++ (FieldMem.run make sem b (FieldMem.run make sem a m).2).1,
      (FieldMem.run make sem b (FieldMem.run make sem a m).2).2) := by
  induction a with
  | nil => intro m; rfl
  | cons op a ih => intro m; simp only [List.cons_append, FieldMem.run, ih]

theorem bind_ok {α β : Type} {r : Res α} {f : α → Res β} {b : β} (h : (r >>= f) = .ok b) : ∃ a, r = .ok a ∧ f a = .ok b := by
  cases r with
  | error e => exact absurd h (by simp [bind, Except.bind])
  | ok a => exact ⟨a, rfl, h⟩

theorem vset_length {α : Type} {l l' : List α} {i : Int} {x : α} (h : vset l i x = .ok l') : l'.length = l.length := by
  unfold vset at h
  split at h
  · cases h; simp
  · cases h

/-- Only declarations change the number of variables. -/
theorem step_len (m : FieldMem K d) (op : BOp File (FuncFn × List (CVal K))) :
    ((m.step make sem op).2.bodies.handles.length = m.bodies.handles.length + match op with | .declBody => 1 | _ => 0) ∧
    ((m.step make sem op).2.ptrs.length = m.ptrs.length + match op with | .declField => 1 | _ => 0) := by
  have done : ∀ r : Res (FieldMem K d), (∀ m', r = .ok m' → m'.bodies.handles.length = m.bodies.handles.length ∧ m'.ptrs.length = m.ptrs.length) →
      (FieldMem.done (Out := XOut K) m r).2.bodies.handles.length = m.bodies.handles.length + 0 ∧
        (FieldMem.done (Out := XOut K) m r).2.ptrs.length = m.ptrs.length + 0 := by
    intro r hr
    cases r with
    | ok m' => exact hr m' rfl
    | error e => exact ⟨rfl, rfl⟩
  cases op with
  | declBody => exact ⟨by simp [FieldMem.step, Mem.push], rfl⟩
  | declField => exact ⟨rfl, by simp [FieldMem.step]⟩
  | newBody h f =>
    refine done _ fun m' hm => ?_
    obtain ⟨b, hb, hm⟩ := bind_ok hm
    cases hm
    refine ⟨?_, rfl⟩
    obtain ⟨_, _, hb⟩ := bind_ok hb
    obtain ⟨o, _, hb⟩ := bind_ok hb
    cases hb
    simp [Mem.setPtr, Mem.alloc]
  | deleteBody h =>
    refine done _ fun m' hm => ?_
    obtain ⟨p, _, hm⟩ := bind_ok hm
    cases p with
    | none => cases hm; exact ⟨rfl, rfl⟩
    | some a =>
      simp only at hm
      split at hm
      · split at hm
        · cases hm; exact ⟨by simp [Mem.setPtr], rfl⟩
        · cases hm
      · cases hm
  | field g h n =>
    refine done _ fun m' hm => ?_
    obtain ⟨p, _, hm⟩ := bind_ok hm
    obtain ⟨b, _, hm⟩ := bind_ok hm
    obtain ⟨i, _, hm⟩ := bind_ok hm
    obtain ⟨ps, h4, hm⟩ := bind_ok hm
    cases hm
    exact ⟨rfl, vset_length h4⟩
  | clone g k =>
    refine done _ fun m' hm => ?_
    obtain ⟨x, _, hm⟩ := bind_ok hm
    have jp : ∀ x : Nat × PField K, (vset m.ptrs (g : Int) (some (FPtr.own m.clones.length)) >>= fun ps =>
        Except.ok { bodies := m.bodies, clones := m.clones ++ [some x], ptrs := ps } : Res (FieldMem K d)) = .ok m' →
        m'.bodies.handles.length = m.bodies.handles.length ∧ m'.ptrs.length = m.ptrs.length := by
      intro x hm
      obtain ⟨ps, h4, hm⟩ := bind_ok hm
      cases hm
      exact ⟨rfl, vset_length h4⟩
    simp only at hm
    split at hm
    · cases hm
    · obtain ⟨b, _, hm⟩ := bind_ok hm
      obtain ⟨f, _, hm⟩ := bind_ok hm
      exact jp _ hm
    · split at hm
      · exact jp _ hm
      · cases hm
  | call g c =>
    simp only [FieldMem.step, FieldMem.call, Nat.add_zero]
    split
    · exact ⟨rfl, rfl⟩
    · exact ⟨rfl, rfl⟩
    · split <;> exact ⟨rfl, rfl⟩
    · split
      · split <;> exact ⟨rfl, rfl⟩
      · exact ⟨rfl, rfl⟩
  | deleteField g =>
    refine done _ fun m' hm => ?_
    obtain ⟨p, _, hm⟩ := bind_ok hm
    split at hm
    · cases hm; exact ⟨rfl, rfl⟩
    · cases hm
    · split at hm
      · cases hm; exact ⟨rfl, by simp⟩
      · cases hm

/-- A program does what its C calls do. -/
theorem run_eq (ops : List (PyFieldOp K File)) : ∀ (m : FieldMem K d) (nb nf : Nat), m.bodies.handles.length = nb → m.ptrs.length = nf →
    (pyFieldRun make sem ops m).2 = (FieldMem.run make sem (toCAll ops nb nf) m).2 := by
  induction ops with
  | nil => intros; rfl
  | cons op ops ih =>
    intro m nb nf h1 h2
    subst h1 h2
    simp only [pyFieldRun, toCAll, run_append]
    refine ih _ _ _ ?_ ?_
    · cases op <;> simp only [pyFieldStep, PyFieldOp.toC, FieldMem.run, step_len] <;> rfl
    · cases op <;> simp only [pyFieldStep, PyFieldOp.toC, FieldMem.run, step_len] <;> rfl

/-- The numbers of variables after a program. -/
theorem after_call (ops : List (PyFieldOp K File)) (g : Nat) (c : PyFn K) :
    pyFieldAfter make sem ops (.call g c) = pyOut (callAfter make sem (toCAll ops 0 0) g c.toC) := by
  simp only [pyFieldAfter, pyFieldStep, run_eq ops FieldMem.start 0 0 rfl rfl, PyFieldOp.toC, FieldMem.run, callAfter]
  rfl

theorem toCAll_append (a b : List (PyFieldOp K File)) : ∀ nb nf, toCAll (a ++ b) nb nf =
    toCAll a nb nf ++ toCAll b (nb + (pyFiles a).length) (nf + (pyFuncs a).length) := by
  induction a with
  | nil => intros; simp [toCAll, pyFiles, pyFuncs]
  | cons op a ih =>
    intro nb nf
    cases op <;> simp [toCAll, ih, pyFiles, pyFuncs, Nat.add_comm, Nat.add_left_comm, Nat.add_assoc]

theorem after_two (ops : List (PyFieldOp K File)) (g : Nat) (c c' : PyFn K) :
    pyFieldAfter make sem (ops ++ [.call g c]) (.call g c') = pyOut (callTwice make sem (toCAll ops 0 0) g c.toC c'.toC) := by
  rw [after_call, toCAll_append]
  simp only [callAfter, callTwice, run_append, toCAll, PyFieldOp.toC, List.append_nil, FieldMem.run]

variable [Field K] [LinearOrder K]

omit [Field K] [LinearOrder K] in
theorem find_ex {flds : List (String × List K)} {n : String} (h : ∃ fl ∈ flds, fl.1 = n) :
    ∃ i, flds.findIdx? (fun f => f.1 == n) = some i := by
  cases hi : flds.findIdx? (fun f => f.1 == n) with
  | some i => exact ⟨i, rfl⟩
  | none =>
    obtain ⟨fl, h1, h2⟩ := h
    have := List.findIdx?_eq_none_iff.mp hi fl h1
    simp [h2] at this

/-- The state of the variables of a fine program. -/
structure Tracks (info : File → BodyData K d) (files : List File) (funcs : List (Nat × String))
    (s : BVars (BodyData K d) (String × List K)) : Prop where
  bodies : s.bodies = files.map fun f => some (info f)
  len : s.fields.length = funcs.length
  field : ∀ (g h : Nat) n, funcs[g]? = some (h, n) → ∃ i f, s.fields[g]? = some (.view h i) ∧ files[h]? = some f ∧
    (info f).flds.findIdx? (fun fl => fl.1 == n) = some i

theorem fine_run (info : File → BodyData K d) (ops : List (PyFieldOp K File)) : ∀ (files : List File) (funcs : List (Nat × String))
    (s : BVars (BodyData K d) (String × List K)), Tracks info files funcs s → PyFine info ops files funcs →
    BVars.LegalRun (dataSem info) (toCAll ops files.length funcs.length) s ∧
    CallsRun FieldArgs info (toCAll ops files.length funcs.length) s ∧
    Tracks info (files ++ pyFiles ops) (funcs ++ pyFuncs ops) (BVars.run (dataSem info) (toCAll ops files.length funcs.length) s).2 := by
  induction ops with
  | nil =>
    intro files funcs s T _
    refine ⟨trivial, trivial, ?_⟩
    simpa [pyFiles, pyFuncs, toCAll, BVars.run] using T
  | cons op ops ih =>
    intro files funcs s T hf
    cases op with
    | deleteBody => exact hf.elim
    | deleteFunc => exact hf.elim
    | body f =>
      have T' : Tracks info (files ++ [f]) funcs ((((s.step (dataSem info) (.declBody : BOp File (FuncFn × List (CVal K)))).2).step (dataSem info) (.newBody files.length f : BOp File (FuncFn × List (CVal K)))).2) := by
        refine ⟨?_, T.len, ?_⟩
        · simp [BVars.step, dataSem, T.bodies]
        · intro g h n hg
          obtain ⟨i, f', h1, h2, h3⟩ := T.field g h n hg
          refine ⟨i, f', h1, ?_, h3⟩
          rw [List.getElem?_append_left (List.getElem?_eq_some_iff.mp h2).1]; exact h2
      obtain ⟨i1, i2, i3⟩ := ih _ _ _ T' hf
      simp only [List.length_append, List.length_singleton] at i1 i2 i3
      refine ⟨⟨trivial, ?_, i1⟩, ⟨trivial, trivial, i2⟩, ?_⟩
      · simp [BVars.step, BVars.Legal, T.bodies]
      · simpa [pyFiles, pyFuncs, toCAll, PyFieldOp.toC, BVars.run] using i3
    | func h n =>
      obtain ⟨⟨f, hf1, hf2⟩, hf⟩ := hf
      obtain ⟨i, hi⟩ := find_ex hf2
      have hb : s.bodies[h]? = some (some (info f)) := by rw [T.bodies, List.getElem?_map, hf1]; rfl
      have hst : ((s.step (dataSem info) (.declField : BOp File (FuncFn × List (CVal K)))).2).step (dataSem info) (.field funcs.length h n : BOp File (FuncFn × List (CVal K))) =
          (.ok none, { s with fields := s.fields ++ [.view h i] }) := by
        have hi' : BVars.find (dataSem (Call := FuncFn × List (CVal K)) info) (info f) n = some i := hi
        simp only [BVars.step, hb, Option.join_some, hi', ← T.len]
        simp
      have T' : Tracks info files (funcs ++ [(h, n)]) ({ s with fields := s.fields ++ [.view h i] }) := by
        refine ⟨T.bodies, by simp [T.len], ?_⟩
        intro g h' n' hg
        rw [List.getElem?_append] at hg
        split_ifs at hg with hlt
        · obtain ⟨i', f', h1, h2, h3⟩ := T.field g h' n' hg
          refine ⟨i', f', ?_, h2, h3⟩
          simp only
          rw [List.getElem?_append_left (by rw [T.len]; exact hlt)]; exact h1
        · have hz : g - funcs.length = 0 := by
            by_contra hne
            rw [List.getElem?_eq_none (by simp; omega)] at hg; cases hg
          rw [hz] at hg
          simp only [List.getElem?_cons_zero, Option.some.injEq, Prod.mk.injEq] at hg
          obtain ⟨rfl, rfl⟩ := hg
          refine ⟨i, f, ?_, hf1, hi⟩
          simp only
          rw [List.getElem?_append_right (by rw [T.len]; omega), T.len, hz]
          rfl
      obtain ⟨i1, i2, i3⟩ := ih _ _ _ T' hf
      simp only [List.length_append, List.length_singleton] at i1 i2 i3
      refine ⟨⟨trivial, ⟨⟨_, hb⟩, .empty, ?_, by simp⟩, ?_⟩, ⟨trivial, trivial, ?_⟩, ?_⟩
      · simp [BVars.step, ← T.len]
      · rw [hst]; exact i1
      · rw [hst]; exact i2
      · have e : (BVars.run (dataSem info) (toCAll (.func h n :: ops) files.length funcs.length) s).2 =
            (BVars.run (dataSem info) (toCAll ops files.length (funcs.length + 1)) { s with fields := s.fields ++ [.view h i] }).2 := by
          simp only [toCAll, PyFieldOp.toC, List.cons_append, List.nil_append, BVars.run, hst]
        rw [e]
        simpa [pyFiles, pyFuncs] using i3
    | call g m =>
      obtain ⟨⟨h, n, f, hg, hf1, ha⟩, hf⟩ := hf
      obtain ⟨i, f', h1, h2, h3⟩ := T.field g h n hg
      rw [hf1] at h2; cases h2
      have hb : s.bodies[h]? = some (some (info f)) := by rw [T.bodies, List.getElem?_map, hf1]; rfl
      have hst : (s.step (dataSem info) (.call g m.toC : BOp File (FuncFn × List (CVal K)))).2 = s := by
        simp only [BVars.step, h1, hb, Option.join_some, dataSem, FieldMem.set_self hb]
      obtain ⟨i1, i2, i3⟩ := ih files funcs s T hf
      refine ⟨⟨⟨_, h1, by simp⟩, ?_⟩, ⟨?_, ?_⟩, ?_⟩
      · rw [hst]; exact i1
      · intro D fl hD
        have hDf : D = info f := by
          rcases hD with ⟨h', i', g1, g2, _⟩ | ⟨h', g1, _⟩
          · rw [h1] at g1; cases g1
            rw [hb] at g2; cases g2; rfl
          · rw [h1] at g1; cases g1
        subst hDf
        cases m <;> exact ha
      · show CallsRun FieldArgs info _ (s.step (dataSem info) (.call g m.toC : BOp File (FuncFn × List (CVal K)))).2
        rw [hst]; exact i2
      · have e : (BVars.run (dataSem info) (toCAll (.call g m :: ops) files.length funcs.length) s).2 =
            (BVars.run (dataSem info) (toCAll ops files.length funcs.length) s).2 := by
          simp only [toCAll, PyFieldOp.toC, List.cons_append, List.nil_append, BVars.run, hst]
        rw [e]
        simpa [pyFiles, pyFuncs] using i3

theorem tracks_start (info : File → BodyData K d) : Tracks info [] [] ⟨[], []⟩ := ⟨rfl, rfl, by intro g h n hg; simp at hg⟩

theorem fieldIs_of (info : File → BodyData K d) {files : List File} {funcs : List (Nat × String)}
    {s : BVars (BodyData K d) (String × List K)} (T : Tracks info files funcs s) {g h : Nat} {n : String} {f : File} {data : List K}
    (hg : funcs[g]? = some (h, n)) (hf : files[h]? = some f) (hd : (info f).flds.find? (fun fl => fl.1 == n) = some (n, data)) :
    FieldIs s g (info f) (n, data) := by
  obtain ⟨i, f', h1, h2, h3⟩ := T.field g h n hg
  rw [hf] at h2; cases h2
  refine Or.inl ⟨h, i, h1, by rw [T.bodies, List.getElem?_map, hf]; rfl, ?_⟩
  rw [List.findIdx?_eq_some_iff_getElem] at h3
  obtain ⟨hi, hp, hlt⟩ := h3
  rw [List.find?_eq_some_iff_getElem] at hd
  obtain ⟨_, j, hj, hje, hjl⟩ := hd
  have : i = j := by
    rcases Nat.lt_trichotomy i j with h | h | h
    · have := hjl i h; simp_all
    · exact h
    · have := hlt j h; rw [hje] at this; simp at this
  subst this
  rw [List.getElem?_eq_getElem hi, hje]

end

end PyField

section
variable {K : Type} [Field K] [LinearOrder K] [FloorRing K] [IsStrictOrderedRing K] {File : Type}
open PyField

/-- The value and derivatives Python returns at a point are those of a body read afresh whose only field is the given one. -/
def PyAsFresh {d : Nat} (b0 : Body K d) (E : ElemOps K d) (py : PyFn K → Except PyErr (PyVal K)) (v : List K) (c : Fin d → K) : Prop :=
  py (.calc v) = pyOf (b0.value E 0 c) ∧
  (∀ di : Fin d, py (.calcGrad v di) = pyOf (b0.grad E 0 c di)) ∧
  ∀ di dj : Fin d, py (.calcHess v di dj) = pyOf (b0.hess E 0 c di dj)

omit [LinearOrder K] [FloorRing K] [IsStrictOrderedRing K] [Field K] in
theorem pyOut_num (r : Res K) : pyOut (r.map (some ∘ XOut.num)) = pyOf r := by cases r <;> rfl

theorem py_generic {d n : Nat} {E : ElemOps K d} {unit : Fin n → Fin d → K} {R : (a h c : Fin d → K) → Prop} (L : ElemLaw E unit R)
    (T : ElemTotal E) (hd : d = 2 ∨ d = 3) {make : File → Res (Body K d)} {info : File → BodyData K d}
    (hmk : ∀ f, make f = Body.load E (info f).pts (info f).cells (info f).flds)
    (hm : ∀ f, RectMesh unit (info f).pts (info f).cells) (hlen : ∀ f, ∀ fl ∈ (info f).flds, fl.2.length = (info f).pts.length)
    (ops : List (PyFieldOp K File)) (hf : PyFine info ops [] []) {g h : Nat} {name : String} {f : File} {data : List K}
    (hg : (pyFuncs ops)[g]? = some (h, name)) (hh : (pyFiles ops)[h]? = some f)
    (hd' : (info f).flds.find? (fun fl => fl.1 == name) = some (name, data)) :
    pyFieldAfter make (fsem E) ops (.call g .size) = .ok (.int d) ∧
    ∃ b0, Body.load E (info f).pts (info f).cells [(name, data)] = .ok b0 ∧
    (∀ v c, PointAt v c → Covered unit (info f).pts (info f).cells c ∨ OutOfBins (info f).pts c →
      PyAsFresh b0 E (fun m => pyFieldAfter make (fsem E) ops (.call g m)) v c) ∧
    ∀ v (c : Fin d → K), PointAt v c → InBins (info f).pts c → ∃ y, pyFieldAfter make (fsem E) ops (.call g (.calc v)) = .ok (.num y) ∧
      pyFieldAfter make (fsem E) (ops ++ [.call g (.calc v)]) (.call g .get) = .ok (.num y) ∧
      pyFieldAfter make (fsem E) (ops ++ [.call g (.eval v)]) (.call g .get) = .ok (.num y) := by
  obtain ⟨hl, hc, T'⟩ := fine_run info ops [] [] _ (tracks_start info) hf
  simp only [List.nil_append, List.length_nil] at hl hc T'
  have hF := fieldIs_of info T' hg hh hd'
  obtain ⟨_, hmeta, b0, h1, h2, h3⟩ := fields_generic L T hd hmk hm hlen _ hl hc hF
  refine ⟨?_, b0, h1, fun v c hv hcc => ?_, fun v c hv hcc => ?_⟩
  · rw [after_call]
    show pyOut (callAfter make (fsem E) (toCAll ops 0 0) g (.size, [.refInt])) = _
    rw [hmeta.2.1]; rfl
  · obtain ⟨e1, e2, e3⟩ := h2 v c hv hcc
    refine ⟨?_, fun di => ?_, fun di dj => ?_⟩
    · show pyFieldAfter _ _ _ _ = _
      rw [after_call]
      exact (congrArg pyOut e1).trans (pyOut_num _)
    · show pyFieldAfter _ _ _ _ = _
      rw [after_call]
      exact (congrArg pyOut (e2 di)).trans (pyOut_num _)
    · show pyFieldAfter _ _ _ _ = _
      rw [after_call]
      exact (congrArg pyOut (e3 di dj)).trans (pyOut_num _)
  · obtain ⟨⟨y, e1, e2, e3⟩, _⟩ := h3 v c hv hcc
    refine ⟨y, ?_, ?_, ?_⟩
    · rw [after_call]; exact congrArg pyOut e1
    · rw [after_two]; exact congrArg pyOut e2
    · rw [after_two]; exact congrArg pyOut e3

/-- **C92** (2D) A Python program makes bodies from any files, function objects for fields of them by name, and calls methods in any order
with points in the binned region or outside it. Afterwards a function object for the field `name` of a file has size 2; at every point of
the body `calc`, `calc_grad` and `calc_hess` return the value and derivatives of the bilinear interpolant of a cell containing the point; a
point outside the bins ends the interpreter (`std::domain_error`); and `get` returns what `calc` or `eval` computed last. -/
theorem C92_fields_2d_partial (scan : List Char → Option K × List Char) (text : File → List Char) (info : File → BodyData K 2)
    (hv : ∀ f, IsVtk scan (info f).pts (info f).cells (info f).flds (text f))
    (hm : ∀ f, RectMesh quadUnit (info f).pts (info f).cells) :
    ∃ N : File → Nat, ∀ fuel : File → Nat, (∀ f, N f ≤ fuel f) → ∀ ops : List (PyFieldOp K File), PyFine info ops [] [] →
    ∀ g h name f data, (pyFuncs ops)[g]? = some (h, name) → (pyFiles ops)[h]? = some f →
      (info f).flds.find? (fun fl => fl.1 == name) = some (name, data) →
    ∀ after, after = pyFieldAfter (bodyNew scan (quadOps K) text fuel) (fsem (quadOps K)) →
    after ops (.call g .size) = .ok (.int 2) ∧
    (∀ v c, PointAt v c → Covered quadUnit (info f).pts (info f).cells c → ∃ cell a h u, cell ∈ (info f).cells ∧
      CellAt quadUnit (info f).pts cell a h ∧ InCell a h c ∧ CornerVals data cell u ∧
      after ops (.call g (.calc v)) = .ok (.num (bilinear a h u c)) ∧
      after ops (.call g (.calcGrad v 0)) =
        .ok (.num (((u 1 - u 0) * (1 - (c 1 - a 1) / h 1) + (u 2 - u 3) * ((c 1 - a 1) / h 1)) / h 0)) ∧
      after ops (.call g (.calcGrad v 1)) =
        .ok (.num (((u 3 - u 0) * (1 - (c 0 - a 0) / h 0) + (u 2 - u 1) * ((c 0 - a 0) / h 0)) / h 1)) ∧
      after ops (.call g (.calcHess v 0 0)) = .ok (.num 0) ∧ after ops (.call g (.calcHess v 1 1)) = .ok (.num 0) ∧
      after ops (.call g (.calcHess v 0 1)) = .ok (.num ((u 0 - u 1 + u 2 - u 3) / (h 0 * h 1))) ∧
      after ops (.call g (.calcHess v 1 0)) = .ok (.num ((u 0 - u 1 + u 2 - u 3) / (h 0 * h 1)))) ∧
    (∀ v c, PointAt v c → OutOfBins (info f).pts c → after ops (.call g (.calc v)) = .error (.cpp .domainError)) ∧
    ∀ v (c : Fin 2 → K), PointAt v c → InBins (info f).pts c → ∃ y, after ops (.call g (.calc v)) = .ok (.num y) ∧
      after (ops ++ [.call g (.calc v)]) (.call g .get) = .ok (.num y) ∧
      after (ops ++ [.call g (.eval v)]) (.call g .get) = .ok (.num y) := by
  obtain ⟨N, hN⟩ := bodyNew_eq scan (quadOps K) text info hv
  obtain ⟨N', hN'⟩ := C89_bilinear_2d scan text info hv hm
  refine ⟨fun f => N f + N' f, fun fuel hfu ops hf g h name f data hg hh hd after hafter => ?_⟩
  subst hafter
  obtain ⟨p1, _, _, _, p2⟩ := py_generic quadLaw quadTotal (Or.inl rfl) (hN fuel fun f => by have := hfu f; simp only at this; omega) hm
    (fun f => isVtk_len (hv f)) ops hf hg hh hd
  obtain ⟨hl, hc, T'⟩ := fine_run info ops [] [] _ (tracks_start info) hf
  simp only [List.nil_append, List.length_nil] at hl hc T'
  obtain ⟨q1, q2⟩ := hN' fuel (fun f => by have := hfu f; simp only at this; omega) _ hl hc g _ name data (fieldIs_of info T' hg hh hd) _ rfl
  refine ⟨p1, fun v c hv hcc => ?_, fun v c hv hcc => ?_, p2⟩
  · obtain ⟨cell, a, h, u, e1, e2, e3, e4, e5, e6, e7, e8, e9, e10, e11⟩ := q1 v c hv hcc
    refine ⟨cell, a, h, u, e1, e2, e3, e4, ?_, ?_, ?_, ?_, ?_, ?_, ?_⟩ <;> rw [after_call]
    · exact congrArg pyOut e5
    · exact congrArg pyOut e6
    · exact congrArg pyOut e7
    · exact congrArg pyOut e8
    · exact congrArg pyOut e9
    · exact congrArg pyOut e10
    · exact congrArg pyOut e11
  · rw [after_call]
    exact congrArg pyOut (q2 v c hv hcc)

/-- **C92** (3D) The same for bodies of hexahedra, compared with a body read afresh whose only field is the given one. -/
theorem C92_fields_3d_partial (scan : List Char → Option K × List Char) (text : File → List Char) (info : File → BodyData K 3)
    (hv : ∀ f, IsVtk scan (info f).pts (info f).cells (info f).flds (text f))
    (hm : ∀ f, RectMesh hexUnit (info f).pts (info f).cells) :
    ∃ N : File → Nat, ∀ fuel : File → Nat, (∀ f, N f ≤ fuel f) → ∀ ops : List (PyFieldOp K File), PyFine info ops [] [] →
    ∀ g h name f data, (pyFuncs ops)[g]? = some (h, name) → (pyFiles ops)[h]? = some f →
      (info f).flds.find? (fun fl => fl.1 == name) = some (name, data) →
    ∀ after, after = pyFieldAfter (bodyNew scan (hexOps K) text fuel) (fsem (hexOps K)) →
    after ops (.call g .size) = .ok (.int 3) ∧
    ∃ b0, Body.load (hexOps K) (info f).pts (info f).cells [(name, data)] = .ok b0 ∧
    (∀ v c, PointAt v c → Covered hexUnit (info f).pts (info f).cells c ∨ OutOfBins (info f).pts c →
      PyAsFresh b0 (hexOps K) (fun m => after ops (.call g m)) v c) ∧
    ∀ v (c : Fin 3 → K), PointAt v c → InBins (info f).pts c → ∃ y, after ops (.call g (.calc v)) = .ok (.num y) ∧
      after (ops ++ [.call g (.calc v)]) (.call g .get) = .ok (.num y) ∧
      after (ops ++ [.call g (.eval v)]) (.call g .get) = .ok (.num y) := by
  obtain ⟨N, hN⟩ := bodyNew_eq scan (hexOps K) text info hv
  refine ⟨N, fun fuel hfu ops hf g h name f data hg hh hd after hafter => ?_⟩
  subst hafter
  exact py_generic hexLaw hexTotal (Or.inr rfl) (hN fuel hfu) hm (fun f => isVtk_len (hv f)) ops hf hg hh hd

theorem py_methods {d n : Nat} {E : ElemOps K d} {unit : Fin n → Fin d → K} {R : (a h c : Fin d → K) → Prop} (L : ElemLaw E unit R)
    (T : ElemTotal E) (hd : d = 2 ∨ d = 3) {make : File → Res (Body K d)} {info : File → BodyData K d}
    (hmk : ∀ f, make f = Body.load E (info f).pts (info f).cells (info f).flds)
    (hm : ∀ f, RectMesh unit (info f).pts (info f).cells) (hlen : ∀ f, ∀ fl ∈ (info f).flds, fl.2.length = (info f).pts.length)
    (ops : List (PyFieldOp K File)) (hf : PyFine info ops [] []) :
    (∀ g h name f data, (pyFuncs ops)[g]? = some (h, name) → (pyFiles ops)[h]? = some f →
      (info f).flds.find? (fun fl => fl.1 == name) = some (name, data) → name ≠ "" →
      (∀ di, pyFieldAfter make (fsem E) ops (.call g (.getGrad di)) = .error (.cpp (.ub .badCall))) ∧
      (∀ di dj, pyFieldAfter make (fsem E) ops (.call g (.getHess di dj)) = .error (.cpp (.ub .badCall))) ∧
      pyFieldAfter make (fsem E) ops (.call g .name) = .error (.cpp (.ub .oob)) ∧
      pyFieldAfter make (fsem E) ops (.deleteFunc g) = .error (.cpp (.ub .badDelete))) ∧
    ∀ h f, (pyFiles ops)[h]? = some f → pyFieldAfter make (fsem E) ops (.deleteBody h) = .error (.cpp (.ub .badDelete)) := by
  have hd3 : d ≤ 3 := by omega
  obtain ⟨hl, hc, T'⟩ := fine_run info ops [] [] _ (tracks_start info) hf
  simp only [List.nil_append, List.length_nil] at hl hc T'
  obtain ⟨los, his, qss, hG⟩ := ghost (E := E) (K := K) L
  have hmk' : ∀ f, ∃ b, make f = .ok b ∧ RectMesh unit (info f).pts (info f).cells ∧
      BOk E unit (info f).pts (info f).cells (los (info f)) (his (info f)) (qss (info f)) (info f).flds b := by
    intro f
    obtain ⟨b, h1, h2⟩ := hG (info f) (hm f) _ (hlen f)
    exact ⟨b, by rw [hmk f, h1], hm f, h2⟩
  have R0 : TRel E unit los his qss (⟨[], []⟩ : BVars (Body K d) (PField K)) ⟨[], []⟩ := ⟨rfl, by simp, rfl, by simp⟩
  obtain ⟨hl', R1⟩ := track_run L T hd3 hmk' _ R0 hl hc
  have del : ∀ op o, pyFieldAfter make (fsem E) ops op = pyOut ((FieldMem.run make (fsem E) [o] (FieldMem.run make (fsem E) (toCAll ops 0 0) FieldMem.start).2).1.getLast?.getD (.ok none)) ∨
      op.toC (FieldMem.run make (fsem E) (toCAll ops 0 0) FieldMem.start).2.bodies.handles.length (FieldMem.run make (fsem E) (toCAll ops 0 0) FieldMem.start).2.ptrs.length ≠ [o] := by
    intro op o
    by_cases h : op.toC (FieldMem.run make (fsem E) (toCAll ops 0 0) FieldMem.start).2.bodies.handles.length (FieldMem.run make (fsem E) (toCAll ops 0 0) FieldMem.start).2.ptrs.length = [o]
    · left
      simp only [pyFieldAfter, pyFieldStep, run_eq ops FieldMem.start 0 0 rfl rfl, h]
    · exact Or.inr h
  refine ⟨fun g h name f data hg hh hd' hname => ?_, fun h f hh => ?_⟩
  · obtain ⟨m, fl, _, _, _, _, _, _, o3, o4, _⟩ := FieldMem.object L T hd3 hmk hm hlen _ hl hc (fieldIs_of info T' hg hh hd')
    have hca : ∀ c, callAfter make (fsem E) (toCAll ops 0 0) g c = (fsem E c (m, fl)).1.map some := o4
    refine ⟨fun di => ?_, fun di dj => ?_, ?_, ?_⟩
    · rw [after_call, hca]; rfl
    · rw [after_call, hca]; rfl
    · have hnm : fl.name = name := by
        have := o3.fields
        cases this with
        | cons h0 _ => exact h0.1
      rw [after_call, hca]
      show pyOut (((Except.ok (FOut.str fl.name) : Res (FOut (List K) K)).bind (FOut.strOut 8)).map some) = _
      simp only [Except.bind, FOut.strOut, strcpy, hnm]
      split
      · simp [pyOut, Except.map, XOut.toPy, charCell, hname]
      · simp [pyOut, Except.map]
    · obtain ⟨i, f', h1, h2, h3⟩ := T'.field g h name hg
      obtain ⟨x, hx, hp⟩ := R1.field h1
      cases x with
      | empty => exact hp.elim
      | copy => exact hp.elim
      | view h' i' =>
        have hdv := C88_delete_view_partial make (fsem E) _ hl' g h' i' hx
        rcases del (.deleteFunc g) (.deleteField g) with e | e
        · rw [e]
          simp only [FieldMem.run, List.getLast?_singleton, Option.getD_some, hdv]
          rfl
        · exact absurd rfl e
  · have hb : (BVars.run (dataSem info) (toCAll ops 0 0) ⟨[], []⟩).2.bodies[h]? = some (some (info f)) := by
      rw [T'.bodies, List.getElem?_map, hh]; rfl
    obtain ⟨b, hb', hrm, hbok⟩ := R1.bodySome hb
    have hne : b.mesh.interp ≠ [] := by
      intro h0
      obtain ⟨c0, hc0⟩ := List.exists_mem_of_ne_nil _ hrm.nonempty
      obtain ⟨e, he⟩ := List.getElem?_of_mem hc0
      obtain ⟨a0, x0, hlen0, _⟩ := hrm.rect c0 hc0
      have := (holds_of L hbok).2.2.1 e _ he
      have hnp := L.npos
      simp [h0] at this
      rw [this] at hlen0
      simp at hlen0
      omega
    have hdv := C88_delete_body_violated make (fsem E) _ hl' h b hb' hne
    rcases del (.deleteBody h) (.deleteBody h) with e | e
    · rw [e]
      simp only [FieldMem.run, List.getLast?_singleton, Option.getD_some, hdv]
      rfl
    · exact absurd rfl e

/-- **C92** (violated part) After every such program `get_grad` and `get_hess` of every field object call the wrong C function, `name` reads
an address made of the characters of the name, `delete` of a function object deletes an element of the body's array, and `delete` of a
body is undefined too. -/
theorem C92_methods_2d_violated (scan : List Char → Option K × List Char) (text : File → List Char) (info : File → BodyData K 2)
    (hv : ∀ f, IsVtk scan (info f).pts (info f).cells (info f).flds (text f))
    (hm : ∀ f, RectMesh quadUnit (info f).pts (info f).cells) :
    ∃ N : File → Nat, ∀ fuel : File → Nat, (∀ f, N f ≤ fuel f) → ∀ ops : List (PyFieldOp K File), PyFine info ops [] [] →
    ∀ after, after = pyFieldAfter (bodyNew scan (quadOps K) text fuel) (fsem (quadOps K)) ops →
    (∀ g h name f data, (pyFuncs ops)[g]? = some (h, name) → (pyFiles ops)[h]? = some f →
      (info f).flds.find? (fun fl => fl.1 == name) = some (name, data) → name ≠ "" →
      (∀ di, after (.call g (.getGrad di)) = .error (.cpp (.ub .badCall))) ∧
      (∀ di dj, after (.call g (.getHess di dj)) = .error (.cpp (.ub .badCall))) ∧
      after (.call g .name) = .error (.cpp (.ub .oob)) ∧ after (.deleteFunc g) = .error (.cpp (.ub .badDelete))) ∧
    ∀ h f, (pyFiles ops)[h]? = some f → after (.deleteBody h) = .error (.cpp (.ub .badDelete)) := by
  obtain ⟨N, hN⟩ := bodyNew_eq scan (quadOps K) text info hv
  refine ⟨N, fun fuel hfu ops hf after hafter => ?_⟩
  subst hafter
  exact py_methods quadLaw quadTotal (Or.inl rfl) (hN fuel hfu) hm (fun f => isVtk_len (hv f)) ops hf

/-- **C92** (violated part, 3D) The same for bodies of hexahedra. -/
theorem C92_methods_3d_violated (scan : List Char → Option K × List Char) (text : File → List Char) (info : File → BodyData K 3)
    (hv : ∀ f, IsVtk scan (info f).pts (info f).cells (info f).flds (text f))
    (hm : ∀ f, RectMesh hexUnit (info f).pts (info f).cells) :
    ∃ N : File → Nat, ∀ fuel : File → Nat, (∀ f, N f ≤ fuel f) → ∀ ops : List (PyFieldOp K File), PyFine info ops [] [] →
    ∀ after, after = pyFieldAfter (bodyNew scan (hexOps K) text fuel) (fsem (hexOps K)) ops →
    (∀ g h name f data, (pyFuncs ops)[g]? = some (h, name) → (pyFiles ops)[h]? = some f →
      (info f).flds.find? (fun fl => fl.1 == name) = some (name, data) → name ≠ "" →
      (∀ di, after (.call g (.getGrad di)) = .error (.cpp (.ub .badCall))) ∧
      (∀ di dj, after (.call g (.getHess di dj)) = .error (.cpp (.ub .badCall))) ∧
      after (.call g .name) = .error (.cpp (.ub .oob)) ∧ after (.deleteFunc g) = .error (.cpp (.ub .badDelete))) ∧
    ∀ h f, (pyFiles ops)[h]? = some f → after (.deleteBody h) = .error (.cpp (.ub .badDelete)) := by
  obtain ⟨N, hN⟩ := bodyNew_eq scan (hexOps K) text info hv
  refine ⟨N, fun fuel hfu ops hf after hafter => ?_⟩
  subst hafter
  exact py_methods hexLaw hexTotal (Or.inr rfl) (hN fuel hfu) hm (fun f => isVtk_len (hv f)) ops hf

end

/-! ### Example -/

namespace Demo

/-- Two bodies from the demo file, the fields `w` of the first and `u` of the second, and a few calls. -/
def pyProg : List (PyFieldOp ℚ Unit) :=
  [.body (), .func 0 "w", .call 0 (.calc [1 / 2, 1 / 2]), .body (), .func 1 "u", .call 1 (.eval [9, 0]), .call 0 .size]

theorem pyProg_fine : PyFine data pyProg [] [] := by
  have pt : ∀ x y : ℚ, PointAt [x, y] ![x, y] := by intro x y i; fin_cases i <;> rfl
  refine ⟨⟨(), rfl, ("w", [0, 1, 0, 2, 0, 5]), by simp [data, flds], rfl⟩,
    ⟨0, "w", (), rfl, rfl, _, pt _ _, Or.inl (inBins _ (by simp; norm_num))⟩,
    ⟨(), rfl, ("u", [1, 2, 3, 4, 5, 7]), by simp [data, flds], rfl⟩,
    ⟨1, "u", (), rfl, rfl, _, pt _ _, Or.inr (outOfBins _ (by simp; norm_num))⟩, ⟨0, "w", (), rfl, rfl, trivial⟩, trivial⟩

end Demo

/-- The program above meets the hypotheses of C92. -/
example : ∃ N : Unit → Nat, ∀ fuel : Unit → Nat, (∀ f, N f ≤ fuel f) → ∀ after,
    after = pyFieldAfter (bodyNew Demo.scanDec (quadOps ℚ) (fun _ => Demo.vtkText) fuel) (fsem (quadOps ℚ)) →
    after Demo.pyProg (.call 1 .size) = .ok (.int 2) ∧ after Demo.pyProg (.call 1 (.calc [9, 0])) = .error (.cpp .domainError) ∧
    after Demo.pyProg (.call 0 .name) = .error (.cpp (.ub .oob)) := by
  obtain ⟨N, hN⟩ := C92_fields_2d_partial Demo.scanDec (fun _ : Unit => Demo.vtkText) Demo.data (fun _ => Demo.isVtk) (fun _ => Demo.rect)
  obtain ⟨N', hN'⟩ := C92_methods_2d_violated Demo.scanDec (fun _ : Unit => Demo.vtkText) Demo.data (fun _ => Demo.isVtk) (fun _ => Demo.rect)
  refine ⟨fun f => N f + N' f, fun fuel hf after ha => ?_⟩
  obtain ⟨h1, _, h3, _⟩ := hN fuel (fun f => by have := hf f; simp only at this; omega) Demo.pyProg Demo.pyProg_fine 1 1 "u" () _ rfl rfl rfl after ha
  obtain ⟨_, _, k, _⟩ := (hN' fuel (fun f => by have := hf f; simp only at this; omega) Demo.pyProg Demo.pyProg_fine _ rfl).1 0 0 "w" () _ rfl rfl rfl
    (by decide)
  refine ⟨h1, h3 [9, 0] ![9, 0] (by intro i; fin_cases i <;> rfl) (Demo.outOfBins _ (by simp; norm_num)), ?_⟩
  rw [ha]; exact k

end Verif
