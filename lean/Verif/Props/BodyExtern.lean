import Verif.Lemmas.FieldVars
import Verif.Lemmas.DemoVtk
import Verif.Props.FieldConform
import Verif.Props.Field3D
import Verif.Props.Vtk

/-!
# Properties C88, C89: bodies and fields behind the pointers of the C interface
-/

namespace Verif
open Spec Bin Mesh PField Body FieldMem

/-! ### C88: variables -/

section
variable {K : Type} {d : Nat} {File Call Out : Type}

/-- **C88** Whatever files are read (`make`) and whatever calls on a field do (`sem`): a client that obeys the rules — a body is read into
an empty variable; a field variable that holds a clone of its own is not overwritten but deleted; views are not deleted; a body is not
deleted while a field variable depends on it, nor when it has cells — observes that each body variable holds a body of its own, that a
view is the field of its body, and that a clone is a field of its own over the mesh of the same body. At the end exactly the bodies in the
variables and the clones in the variables exist, each once: nothing is lost, nothing is shared. Missing: deleting a body with cells is
undefined (`C88_delete_body_violated`). -/
theorem C88_variables_partial (make : File → Res (Body K d)) (sem : Call → Mesh K d × PField K → Res Out × Mesh K d × PField K)
    (ops : List (BOp File Call)) (hl : BVars.LegalRun (bsem make sem) ops ⟨[], []⟩) :
    (FieldMem.run make sem ops FieldMem.start).1 = (BVars.run (bsem make sem) ops ⟨[], []⟩).1 ∧
    (∀ (a : Nat) b, (FieldMem.run make sem ops FieldMem.start).2.bodies.heap[a]? = some (some b) ↔
      ∃ h : Nat, (FieldMem.run make sem ops FieldMem.start).2.bodies.handles[h]? = some (some (some a)) ∧
        (BVars.run (bsem make sem) ops ⟨[], []⟩).2.bodies[h]? = some (some b)) ∧
    (∀ h h' a : Nat, (FieldMem.run make sem ops FieldMem.start).2.bodies.handles[h]? = some (some (some a)) →
      (FieldMem.run make sem ops FieldMem.start).2.bodies.handles[h']? = some (some (some a)) → h = h') ∧
    (∀ (k : Nat) a f, (FieldMem.run make sem ops FieldMem.start).2.clones[k]? = some (some (a, f)) ↔
      ∃ g h : Nat, (FieldMem.run make sem ops FieldMem.start).2.ptrs[g]? = some (some (.own k)) ∧
        (BVars.run (bsem make sem) ops ⟨[], []⟩).2.fields[g]? = some (.copy h f) ∧
        (FieldMem.run make sem ops FieldMem.start).2.bodies.handles[h]? = some (some (some a))) ∧
    (∀ g g' k : Nat, (FieldMem.run make sem ops FieldMem.start).2.ptrs[g]? = some (some (.own k)) →
      (FieldMem.run make sem ops FieldMem.start).2.ptrs[g']? = some (some (.own k)) → g = g') := by
  obtain ⟨h1, F⟩ := FieldMem.run_rel make sem ops FieldMem.rel_start hl
  refine ⟨h1, F.bodies.owners.1, F.bodies.owners.2, ?_, F.inj⟩
  intro k a f
  have key : ∀ g : Nat, (FieldMem.run make sem ops FieldMem.start).2.ptrs[g]? = some (some (.own k)) →
      ∃ h f' a', (BVars.run (bsem make sem) ops ⟨[], []⟩).2.fields[g]? = some (.copy h f') ∧
        (FieldMem.run make sem ops FieldMem.start).2.clones[k]? = some (some (a', f')) ∧
        (FieldMem.run make sem ops FieldMem.start).2.bodies.handles[h]? = some (some (some a')) := by
    intro g hg
    have hlt : g < (BVars.run (bsem make sem) ops ⟨[], []⟩).2.fields.length := by
      rw [← F.len]; exact (List.getElem?_eq_some_iff.mp hg).1
    have hp := F.ptr g _ _ hg (List.getElem?_eq_getElem hlt)
    cases hx : (BVars.run (bsem make sem) ops ⟨[], []⟩).2.fields[g] with
    | empty => rw [hx] at hp; exact hp.elim
    | view => rw [hx] at hp; exact hp.elim
    | copy h f' =>
      rw [hx] at hp
      obtain ⟨a', h2, h3⟩ := hp
      exact ⟨h, f', a', by rw [List.getElem?_eq_getElem hlt, hx], h2, h3⟩
  constructor
  · intro hk
    obtain ⟨g, hg⟩ := F.live k _ hk
    obtain ⟨h, f', a', e1, e2, e3⟩ := key g hg
    rw [hk] at e2; cases e2
    exact ⟨g, h, hg, e1, e3⟩
  · rintro ⟨g, h, hg, e1, e2⟩
    obtain ⟨h', f', a', e3, e4, e5⟩ := key g hg
    rw [e1] at e3; cases e3
    rw [e2] at e5; cases e5
    exact e4

/-- **C88** (violated part) After any such history, `BodyXD_delete` of a variable holding a body with cells is undefined behaviour: the
destructor of `Mesh` deletes the interpolators through pointers to a base class without a virtual destructor. -/
theorem C88_delete_body_violated (make : File → Res (Body K d)) (sem : Call → Mesh K d × PField K → Res Out × Mesh K d × PField K)
    (ops : List (BOp File Call)) (hl : BVars.LegalRun (bsem make sem) ops ⟨[], []⟩) (h : Nat) (b : Body K d)
    (hb : (BVars.run (bsem make sem) ops ⟨[], []⟩).2.bodies[h]? = some (some b)) (hc : b.mesh.interp ≠ []) :
    ((FieldMem.run make sem ops FieldMem.start).2.step make sem (.deleteBody h)).1 = .error (.ub .badDelete) := by
  obtain ⟨_, F⟩ := FieldMem.run_rel make sem ops FieldMem.rel_start hl
  obtain ⟨a, h1, h2⟩ := F.handle hb
  simp [FieldMem.step, FieldMem.deleteBody, Mem.ptr_eq h1, ok_bind, h2, hc, FieldMem.done]

/-- **C88** (the warning in the source, "don't delete this!") Deleting a view of a field, from C or with the method `delete` of the Python
object, is undefined behaviour: the pointer did not come from `new`. -/
theorem C88_delete_view_partial (make : File → Res (Body K d)) (sem : Call → Mesh K d × PField K → Res Out × Mesh K d × PField K)
    (ops : List (BOp File Call)) (hl : BVars.LegalRun (bsem make sem) ops ⟨[], []⟩) (g h i : Nat)
    (hb : (BVars.run (bsem make sem) ops ⟨[], []⟩).2.fields[g]? = some (.view h i)) :
    ((FieldMem.run make sem ops FieldMem.start).2.step make sem (.deleteField g)).1 = .error (.ub .badDelete) := by
  obtain ⟨_, F⟩ := FieldMem.run_rel make sem ops FieldMem.rel_start hl
  obtain ⟨p, h1, h2⟩ := F.get hb
  rcases p with _ | ⟨a, j⟩ | k
  · exact h2.elim
  · simp [FieldMem.step, FieldMem.deleteField, FieldMem.vget_of_get h1, ok_bind, FieldMem.done]
  · exact h2.elim

end

/-! ### C89: what fields compute through the interface -/

section
variable {K : Type} [Field K] [LinearOrder K] [FloorRing K] [IsStrictOrderedRing K] {File : Type}

/-- The metadata of a field as the interface returns it. -/
def FieldMeta {d : Nat} (name : String) (call : FuncFn × List (CVal K) → Res (Option (XOut K))) : Prop :=
  (∀ room, name.length < room → call (.name, [.buf room]) = .ok (some (.str name))) ∧
  call (.size, [.refInt]) = .ok (some (.int d)) ∧
  (∀ (i : Fin d) x y room, ["x", "y", "z"][(i : Nat)]? = some x → ["x coordinate", "y coordinate", "z coordinate"][(i : Nat)]? = some y →
    y.length < room → call (.varName, [.int i, .buf room]) = .ok (some (.str x)) ∧
      call (.varDescription, [.int i, .buf room]) = .ok (some (.str y)))

/-- The value and the derivatives returned by `PFunction_dsd_calc`, `_calc_grad`, `_calc_hess` at a point are those of a body read afresh
whose only field is the given one. -/
def AsFresh {d : Nat} (b0 : Body K d) (E : ElemOps K d) (call : FuncFn × List (CVal K) → Res (Option (XOut K))) (v : List K)
    (c : Fin d → K) : Prop :=
  call (.calc, [.dbls v, .refDbl]) = (b0.value E 0 c).map (some ∘ .num) ∧
  (∀ di : Fin d, call (.calcGrad, [.dbls v, .int di, .refDbl]) = (b0.grad E 0 c di).map (some ∘ .num)) ∧
  ∀ di dj : Fin d, call (.calcHess, [.dbls v, .int di, .int dj, .refDbl]) = (b0.hess E 0 c di dj).map (some ∘ .num)

/-- The getters return what was computed last: a first call followed by a second. -/
def GetsBack {d : Nat} (call2 : FuncFn × List (CVal K) → FuncFn × List (CVal K) → Res (Option (XOut K)))
    (call : FuncFn × List (CVal K) → Res (Option (XOut K))) (v : List K) : Prop :=
  (∃ y, call (.calc, [.dbls v, .refDbl]) = .ok (some (.num y)) ∧ call2 (.calc, [.dbls v, .refDbl]) (.get, [.refDbl]) = .ok (some (.num y)) ∧
    call2 (.eval, [.dbls v]) (.get, [.refDbl]) = .ok (some (.num y))) ∧
  (∀ di : Fin d, ∃ y, call (.calcGrad, [.dbls v, .int di, .refDbl]) = .ok (some (.num y)) ∧
    call2 (.calcGrad, [.dbls v, .int di, .refDbl]) (.getGrad, [.int di, .refDbl]) = .ok (some (.num y)) ∧
    call2 (.evalGrad, [.dbls v, .int di]) (.getGrad, [.int di, .refDbl]) = .ok (some (.num y))) ∧
  ∀ di dj : Fin d, ∃ y, call (.calcHess, [.dbls v, .int di, .int dj, .refDbl]) = .ok (some (.num y)) ∧
    call2 (.calcHess, [.dbls v, .int di, .int dj, .refDbl]) (.getHess, [.int di, .int dj, .refDbl]) = .ok (some (.num y)) ∧
    call2 (.evalHess, [.dbls v, .int di, .int dj]) (.getHess, [.int di, .int dj, .refDbl]) = .ok (some (.num y))

theorem map_map_some {α : Type} (r : Res K) (f : K → α) : (r.map f).map some = r.map (some ∘ f) := by cases r <;> rfl

theorem meta_of {d : Nat} (E : ElemOps K d) (hd : d = 2 ∨ d = 3) (m : Mesh K d) (f : PField K) :
    FieldMeta (d := d) f.name fun c => (fsem E c (m, f)).1.map some := by
  refine ⟨?_, ?_, ?_⟩
  · intro room h
    show ((Except.ok (FOut.str f.name) : Res (FOut (List K) K)).bind (FOut.strOut room)).map some = _
    simp only [Except.bind, FOut.strOut, strcpy, if_pos (show f.name.length + 1 ≤ room by omega)]
    rfl
  · rcases hd with rfl | rfl <;> rfl
  · rintro i x y room hx hy hr
    have key : ∀ (n : String) (room : Nat), n.length < room → (strcpy (K := K) room n).map some = .ok (some (.str n)) := by
      intro n room h
      simp only [strcpy, if_pos (show n.length + 1 ≤ room by omega)]
      rfl
    rcases hd with rfl | rfl <;> fin_cases i <;> simp at hx hy <;> subst hx hy
    all_goals
      exact ⟨key _ _ (lt_trans (by decide) hr), key _ _ hr⟩

theorem fresh_of {d n : Nat} {E : ElemOps K d} {unit : Fin n → Fin d → K} {R : (a h c : Fin d → K) → Prop} (L : ElemLaw E unit R)
    (T : ElemTotal E) (hd : d ≤ 3) {pts : List (Fin d → K)} {cells : List (List Nat)} {lo hi : Fin d → K} {qs : List (Interp K d)}
    {name : String} {data : List K} {m : Mesh K d} {f : PField K} {b0 : Body K d} (h2 : BOk E unit pts cells lo hi qs [(name, data)] b0)
    (h3 : BOk E unit pts cells lo hi qs [(name, data)] ⟨m, [f]⟩) {v : List K} {c : Fin d → K} (hv : PointAt v c)
    (hcc : Covered unit pts cells c ∨ OutOfBins pts c) : AsFresh b0 E (fun c => (fsem E c (m, f)).1.map some) v c := by
  obtain ⟨e1, e2, e3⟩ := same_eval L T h3 h2 hcc
  refine ⟨?_, fun di => ?_, fun di dj => ?_⟩
  · show (fsem E _ (m, f)).1.map some = _
    rw [fsem_calc E hv, map_map_some, ← e1]; rfl
  · show (fsem E _ (m, f)).1.map some = _
    rw [fsem_calcGrad E hv hd (by omega) (by have := di.isLt; omega), map_map_some, ← e2 di]; rfl
  · show (fsem E _ (m, f)).1.map some = _
    rw [fsem_calcHess E hv hd (by omega) (by have := di.isLt; omega) (by omega) (by have := dj.isLt; omega), map_map_some, ← e3 di dj]
    rfl

theorem getsBack_of {d n : Nat} {E : ElemOps K d} {unit : Fin n → Fin d → K} {R : (a h c : Fin d → K) → Prop} (L : ElemLaw E unit R)
    (T : ElemTotal E) (hd : d ≤ 3) {pts : List (Fin d → K)} {cells : List (List Nat)} {lo hi : Fin d → K} {qs : List (Interp K d)}
    {m : Mesh K d} {f : PField K} (hm : Built E unit pts cells lo hi qs m) (hf : FOk pts lo hi qs f) {v : List K} {c : Fin d → K}
    (hv : PointAt v c) (hcc : InBins pts c) :
    GetsBack (d := d) (fun c1 c2 => (fsem E c2 (fsem E c1 (m, f)).2).1.map some) (fun c => (fsem E c (m, f)).1.map some) v := by
  refine ⟨?_, fun di => ?_, fun di dj => ?_⟩
  · obtain ⟨y, m', f', g1, _, g3, _⟩ := value_in L T hm hf hcc
    have hg : fsem E (.get, [.refDbl]) (m', f') = (.ok (.num y), m', f') := by
      simp only [fsem, apiSem, funcApi, viaF, FClass.sem, fieldCls, FBase.sem, PField.ov, PField.getVal, g3]; rfl
    refine ⟨y, ?_, ?_, ?_⟩
    · show (fsem E _ (m, f)).1.map some = _
      rw [fsem_calc E hv, g1]; rfl
    · show (fsem E _ (fsem E _ (m, f)).2).1.map some = _
      rw [fsem_calc E hv, g1, hg]; rfl
    · show (fsem E _ (fsem E _ (m, f)).2).1.map some = _
      rw [fsem_eval E hv, g1, hg]; rfl
  · have hdi := di.isLt
    obtain ⟨y, m', f', g1, _, _, g3, _⟩ := gradAt_in L T hm hf hcc di
    have hlt : (di : Nat) < (f.grad.set di y).length := by rw [List.length_set, hf.grad_len]; exact hdi
    have hg : fsem E (.getGrad, [.int di, .refDbl]) (m', f') = (.ok (.num y), m', f') := by
      simp only [fsem, apiSem, funcApi, viaF, FClass.sem, fieldCls, FBase.sem, PField.ov, PField.getGrad, g3,
        sizeType_eq (n := d) hd (show (0 : Int) ≤ di by omega) (by omega), Int.toNat_natCast, vget_nat _ _ hlt]
      simp [FOut.numOut, Except.bind, Except.map]
    have e : ((di : Nat) : Int).toNat = di := Int.toNat_natCast _
    refine ⟨y, ?_, ?_, ?_⟩
    · show (fsem E _ (m, f)).1.map some = _
      rw [fsem_calcGrad E hv hd (by omega) (by omega), e, g1]; rfl
    · show (fsem E _ (fsem E _ (m, f)).2).1.map some = _
      rw [fsem_calcGrad E hv hd (by omega) (by omega), e, g1, hg]; rfl
    · show (fsem E _ (fsem E _ (m, f)).2).1.map some = _
      rw [fsem_evalGrad E hv hd (by omega) (by omega), e, g1, hg]; rfl
  · have hdi := di.isLt
    have hdj := dj.isLt
    obtain ⟨y, m', f', g1, _, _, _, g3⟩ := hessAt_in L T hm hf hcc di dj
    have hlt0 : (di : Nat) < f.hess.length := by rw [hf.hess_len]; exact hdi
    have hlt : (di : Nat) < (f.hess.set di ((f.hess.getD di []).set dj y)).length := by rw [List.length_set]; exact hlt0
    have hrow : (f.hess.getD di []).length = d := by
      have e : f.hess.getD di [] = f.hess[(di : Nat)] := by simp [hlt0]
      rw [e]; exact hf.row_len _ (List.getElem_mem _)
    have hlt2 : (dj : Nat) < ((f.hess.getD di []).set dj y).length := by rw [List.length_set, hrow]; exact hdj
    have hg : fsem E (.getHess, [.int di, .int dj, .refDbl]) (m', f') = (.ok (.num y), m', f') := by
      have e1 : f'.getHess di dj = .ok y := by
        rw [PField.getHess, g3, vget_nat _ _ hlt, ok_bind, List.getElem_set_self, vget_nat _ _ hlt2, List.getElem_set_self]
      simp only [fsem, apiSem, funcApi, viaF, FClass.sem, fieldCls, FBase.sem, PField.ov,
        sizeType_eq (n := d) hd (show (0 : Int) ≤ di by omega) (by omega),
        sizeType_eq (n := d) hd (show (0 : Int) ≤ dj by omega) (by omega), Int.toNat_natCast, e1]
      simp [FOut.numOut, Except.bind, Except.map]
    have e : ((di : Nat) : Int).toNat = di := Int.toNat_natCast _
    have e' : ((dj : Nat) : Int).toNat = dj := Int.toNat_natCast _
    refine ⟨y, ?_, ?_, ?_⟩
    · show (fsem E _ (m, f)).1.map some = _
      rw [fsem_calcHess E hv hd (by omega) (by omega) (by omega) (by omega), e, e', g1]; rfl
    · show (fsem E _ (fsem E _ (m, f)).2).1.map some = _
      rw [fsem_calcHess E hv hd (by omega) (by omega) (by omega) (by omega), e, e', g1, hg]; rfl
    · show (fsem E _ (fsem E _ (m, f)).2).1.map some = _
      rw [fsem_evalHess E hv hd (by omega) (by omega) (by omega) (by omega), e, e', g1, hg]; rfl

/-- Fields behind pointers, for any kind of cell. -/
theorem fields_generic {d n : Nat} {E : ElemOps K d} {unit : Fin n → Fin d → K} {R : (a h c : Fin d → K) → Prop} (L : ElemLaw E unit R)
    (T : ElemTotal E) (hd : d = 2 ∨ d = 3) {make : File → Res (Body K d)} {info : File → BodyData K d}
    (hmk : ∀ f, make f = Body.load E (info f).pts (info f).cells (info f).flds)
    (hm : ∀ f, RectMesh unit (info f).pts (info f).cells) (hlen : ∀ f, ∀ fl ∈ (info f).flds, fl.2.length = (info f).pts.length)
    (ops : List (BOp File (FuncFn × List (CVal K)))) (hl : BVars.LegalRun (dataSem info) ops ⟨[], []⟩)
    (hc : CallsRun FieldArgs info ops ⟨[], []⟩) {g : Nat} {D : BodyData K d} {name : String} {data : List K}
    (hg : FieldIs (dataAfter info ops) g D (name, data)) :
    data.length = D.pts.length ∧ FieldMeta (d := d) name (callAfter make (fsem E) ops g) ∧
    ∃ b0, Body.load E D.pts D.cells [(name, data)] = .ok b0 ∧
    (∀ v c, PointAt v c → Covered unit D.pts D.cells c ∨ OutOfBins D.pts c → AsFresh b0 E (callAfter make (fsem E) ops g) v c) ∧
    ∀ v (c : Fin d → K), PointAt v c → InBins D.pts c →
      GetsBack (d := d) (callTwice make (fsem E) ops g) (callAfter make (fsem E) ops g) v := by
  have hd3 : d ≤ 3 := by rcases hd with rfl | rfl <;> decide
  obtain ⟨m, f, b0, lo, hi, qs, h1, h2, h3, h4, h5⟩ := FieldMem.object L T hd3 hmk hm hlen ops hl hc hg
  have F4 : callAfter make (fsem E) ops g = fun c => (fsem E c (m, f)).1.map some := funext h4
  have F5 : callTwice make (fsem E) ops g = fun c c' => (fsem E c' (fsem E c (m, f)).2).1.map some := by
    funext c c'; exact h5 c c'
  have hf := h3.fields
  cases hf with
  | cons hf0 _ =>
  obtain ⟨f1, f2, f3, f4⟩ := hf0
  rw [F4, F5]
  refine ⟨(congrArg List.length f2).symm.trans f4.data_len, ?_, b0, h1, fun v c hv hcc => fresh_of L T hd3 h2 h3 hv hcc, fun v c hv hcc => getsBack_of L T hd3 h3.mesh f4 hv hcc⟩
  have := meta_of E hd m f
  rwa [f1] at this

/-- `new Body`, then `read_vtk` of the file (PExtern.cc:516-520); `fuel` bounds the loops of the reader. -/
def bodyNew {d : Nat} (scan : List Char → Option K × List Char) (E : ElemOps K d) (text : File → List Char) (fuel : File → Nat) (f : File) :
    Res (Body K d) := Body.readVtk scan E (fuel f) (some (text f)) Body.empty

omit [IsStrictOrderedRing K] in
theorem bodyNew_eq {d : Nat} (scan : List Char → Option K × List Char) (E : ElemOps K d) (text : File → List Char)
    (info : File → BodyData K d) (hv : ∀ f, IsVtk scan (info f).pts (info f).cells (info f).flds (text f)) :
    ∃ N : File → Nat, ∀ fuel : File → Nat, (∀ f, N f ≤ fuel f) →
      ∀ f, bodyNew scan E text fuel f = Body.load E (info f).pts (info f).cells (info f).flds := by
  choose N hN using fun f => C35_read_is_load scan E (info f).pts (info f).cells (info f).flds (text f) (hv f)
  exact ⟨N, fun fuel hf f => hN f _ (hf f)⟩

/-- **C89** (2D) A client reads any files into bodies, obtains and clones fields and calls them in any order, with points in the binned region
or outside it. Afterwards a variable that denotes the field called `name` with values `data` over the mesh of a file has this name, two
variables x and y, and at every point of the body the value and derivatives of a freshly built body with that single field — outside the
bins, its exception — whatever was called before; and the getters return what was computed last. -/
theorem C89_fields_2d (scan : List Char → Option K × List Char) (text : File → List Char) (info : File → BodyData K 2)
    (hv : ∀ f, IsVtk scan (info f).pts (info f).cells (info f).flds (text f))
    (hm : ∀ f, RectMesh quadUnit (info f).pts (info f).cells) :
    ∃ N : File → Nat, ∀ fuel : File → Nat, (∀ f, N f ≤ fuel f) → ∀ ops : List (BOp File (FuncFn × List (CVal K))),
      BVars.LegalRun (dataSem info) ops ⟨[], []⟩ → CallsRun FieldArgs info ops ⟨[], []⟩ →
    ∀ g D name data, FieldIs (dataAfter info ops) g D (name, data) →
    FieldMeta (d := 2) name (callAfter (bodyNew scan (quadOps K) text fuel) (fsem (quadOps K)) ops g) ∧
    ∃ b0, Body.load (quadOps K) D.pts D.cells [(name, data)] = .ok b0 ∧
    (∀ v c, PointAt v c → Covered quadUnit D.pts D.cells c ∨ OutOfBins D.pts c →
      AsFresh b0 (quadOps K) (callAfter (bodyNew scan (quadOps K) text fuel) (fsem (quadOps K)) ops g) v c) ∧
    ∀ v (c : Fin 2 → K), PointAt v c → InBins D.pts c →
      GetsBack (d := 2) (callTwice (bodyNew scan (quadOps K) text fuel) (fsem (quadOps K)) ops g)
        (callAfter (bodyNew scan (quadOps K) text fuel) (fsem (quadOps K)) ops g) v := by
  obtain ⟨N, hN⟩ := bodyNew_eq scan (quadOps K) text info hv
  exact ⟨N, fun fuel hf ops hl hc g D name data hg =>
    (fields_generic quadLaw quadTotal (Or.inl rfl) (hN fuel hf) hm (fun f => isVtk_len (hv f)) ops hl hc hg).2⟩

/-- **C89** (3D) The same for bodies of hexahedra. -/
theorem C89_fields_3d (scan : List Char → Option K × List Char) (text : File → List Char) (info : File → BodyData K 3)
    (hv : ∀ f, IsVtk scan (info f).pts (info f).cells (info f).flds (text f))
    (hm : ∀ f, RectMesh hexUnit (info f).pts (info f).cells) :
    ∃ N : File → Nat, ∀ fuel : File → Nat, (∀ f, N f ≤ fuel f) → ∀ ops : List (BOp File (FuncFn × List (CVal K))),
      BVars.LegalRun (dataSem info) ops ⟨[], []⟩ → CallsRun FieldArgs info ops ⟨[], []⟩ →
    ∀ g D name data, FieldIs (dataAfter info ops) g D (name, data) →
    FieldMeta (d := 3) name (callAfter (bodyNew scan (hexOps K) text fuel) (fsem (hexOps K)) ops g) ∧
    ∃ b0, Body.load (hexOps K) D.pts D.cells [(name, data)] = .ok b0 ∧
    (∀ v c, PointAt v c → Covered hexUnit D.pts D.cells c ∨ OutOfBins D.pts c →
      AsFresh b0 (hexOps K) (callAfter (bodyNew scan (hexOps K) text fuel) (fsem (hexOps K)) ops g) v c) ∧
    ∀ v (c : Fin 3 → K), PointAt v c → InBins D.pts c →
      GetsBack (d := 3) (callTwice (bodyNew scan (hexOps K) text fuel) (fsem (hexOps K)) ops g)
        (callAfter (bodyNew scan (hexOps K) text fuel) (fsem (hexOps K)) ops g) v := by
  obtain ⟨N, hN⟩ := bodyNew_eq scan (hexOps K) text info hv
  exact ⟨N, fun fuel hf ops hl hc g D name data hg =>
    (fields_generic hexLaw hexTotal (Or.inr rfl) (hN fuel hf) hm (fun f => isVtk_len (hv f)) ops hl hc hg).2⟩

/-- Where the file of a field variable comes from. -/
theorem dataRun_file {d : Nat} {info : File → BodyData K d} {Call : Type} (ops : List (BOp File Call)) :
    ∀ (s : BVars (BodyData K d) (String × List K)), (∀ (h : Nat) D, s.bodies[h]? = some (some D) → ∃ f, D = info f) →
    ∀ (h : Nat) D, (BVars.run (dataSem info) ops s).2.bodies[h]? = some (some D) → ∃ f, D = info f := by
  have set_case : ∀ (l : Slots (BodyData K d)) (h : Nat) (x : Option (BodyData K d)),
      (∀ (h : Nat) D, l[h]? = some (some D) → ∃ f, D = info f) → (∀ D, x = some D → ∃ f, D = info f) →
      ∀ (h' : Nat) D, (l.set h x)[h']? = some (some D) → ∃ f, D = info f := by
    intro l h x hl hx h' D hD
    rw [List.getElem?_set] at hD
    split_ifs at hD with e1 e2
    · exact hx D (Option.some.inj hD)
    · exact hl h' D hD
  induction ops with
  | nil => intro s hs; exact hs
  | cons op ops ih =>
    intro s hs
    refine ih _ ?_
    have old : ∀ {h : Nat} {D}, (s.bodies[h]?).join = some D → ∃ f, D = info f := by
      intro h D hD
      cases hx : s.bodies[h]? with
      | none => rw [hx] at hD; exact absurd hD (by simp)
      | some x => rw [hx] at hD; exact hs h D (by rw [hx]; exact congrArg some hD)
    cases op with
    | declBody =>
      intro h D hD
      simp only [BVars.step] at hD
      rw [List.getElem?_append] at hD
      split_ifs at hD with e1
      · exact hs h D hD
      · cases hx : h - s.bodies.length <;> rw [hx] at hD <;> simp at hD
    | declField => exact hs
    | newBody h f => exact set_case _ _ _ hs fun D hD => ⟨f, (Option.some.inj hD).symm⟩
    | deleteBody h => exact set_case _ _ _ hs fun D hD => by cases hD
    | field g h n =>
      simp only [BVars.step]
      split
      · exact hs
      · split <;> exact hs
    | clone g k =>
      simp only [BVars.step]
      split
      · split <;> exact hs
      · exact hs
      · exact hs
    | call g c =>
      simp only [BVars.step]
      split
      · split
        · exact hs
        · rename_i hb; exact set_case _ _ _ hs fun D hD => by cases hD; exact old hb
      · split
        · exact hs
        · rename_i hb; exact set_case _ _ _ hs fun D hD => by cases hD; exact old hb
      · exact hs
    | deleteField g => exact hs

theorem fieldIs_file {d : Nat} {info : File → BodyData K d} {Call : Type} {ops : List (BOp File Call)} {g : Nat} {D : BodyData K d}
    {fl : String × List K} (h : FieldIs (dataAfter info ops) g D fl) : ∃ f, D = info f := by
  rcases h with ⟨h, i, _, h2, _⟩ | ⟨h, _, h2⟩
  · exact dataRun_file ops _ (by simp) h D h2
  · exact dataRun_file ops _ (by simp) h D h2


/-- **C89** (in numbers, 2D) After any such history the value a field variable returns at a point of the body, and the derivatives, are those
of the bilinear interpolant of a cell containing the point; outside the bins `std::domain_error` is thrown. -/
theorem C89_bilinear_2d (scan : List Char → Option K × List Char) (text : File → List Char) (info : File → BodyData K 2)
    (hv : ∀ f, IsVtk scan (info f).pts (info f).cells (info f).flds (text f))
    (hm : ∀ f, RectMesh quadUnit (info f).pts (info f).cells) :
    ∃ N : File → Nat, ∀ fuel : File → Nat, (∀ f, N f ≤ fuel f) → ∀ ops : List (BOp File (FuncFn × List (CVal K))),
      BVars.LegalRun (dataSem info) ops ⟨[], []⟩ → CallsRun FieldArgs info ops ⟨[], []⟩ →
    ∀ g D name data, FieldIs (dataAfter info ops) g D (name, data) → ∀ call,
    call = callAfter (bodyNew scan (quadOps K) text fuel) (fsem (quadOps K)) ops g →
    (∀ v c, PointAt v c → Covered quadUnit D.pts D.cells c → ∃ cell a h u, cell ∈ D.cells ∧ CellAt quadUnit D.pts cell a h ∧
      InCell a h c ∧ CornerVals data cell u ∧
      call (.calc, [.dbls v, .refDbl]) = .ok (some (.num (bilinear a h u c))) ∧
      call (.calcGrad, [.dbls v, .int 0, .refDbl]) =
        .ok (some (.num (((u 1 - u 0) * (1 - (c 1 - a 1) / h 1) + (u 2 - u 3) * ((c 1 - a 1) / h 1)) / h 0))) ∧
      call (.calcGrad, [.dbls v, .int 1, .refDbl]) =
        .ok (some (.num (((u 3 - u 0) * (1 - (c 0 - a 0) / h 0) + (u 2 - u 1) * ((c 0 - a 0) / h 0)) / h 1))) ∧
      call (.calcHess, [.dbls v, .int 0, .int 0, .refDbl]) = .ok (some (.num 0)) ∧
      call (.calcHess, [.dbls v, .int 1, .int 1, .refDbl]) = .ok (some (.num 0)) ∧
      call (.calcHess, [.dbls v, .int 0, .int 1, .refDbl]) = .ok (some (.num ((u 0 - u 1 + u 2 - u 3) / (h 0 * h 1)))) ∧
      call (.calcHess, [.dbls v, .int 1, .int 0, .refDbl]) = .ok (some (.num ((u 0 - u 1 + u 2 - u 3) / (h 0 * h 1))))) ∧
    (∀ v c, PointAt v c → OutOfBins D.pts c → call (.calc, [.dbls v, .refDbl]) = .error .domainError) := by
  obtain ⟨N, hN⟩ := bodyNew_eq scan (quadOps K) text info hv
  refine ⟨N, fun fuel hf ops hl hc g D name data hg call hcall => ?_⟩
  subst hcall
  obtain ⟨hdl, _, b0, hb, hA, _⟩ :=
    fields_generic quadLaw quadTotal (Or.inl rfl) (hN fuel hf) hm (fun f => isVtk_len (hv f)) ops hl hc hg
  obtain ⟨f, hD⟩ := fieldIs_file hg
  have hlen : ∀ fl ∈ [(name, data)], fl.2.length = D.pts.length := by
    intro fl hfl
    rw [List.mem_singleton] at hfl; subst hfl
    exact hdl
  have hrm : RectMesh quadUnit D.pts D.cells := by rw [hD]; exact hm f
  constructor
  · intro v c hvc hcov
    obtain ⟨e1, e2, e3⟩ := hA v c hvc (Or.inl hcov)
    obtain ⟨cell, a, h, g1, g2, g3, g4⟩ := quad_eval D.pts D.cells [(name, data)] hrm hlen b0 hb c hcov
    obtain ⟨u, gu, k1, k2, k3, k4, k5, k6⟩ := g4 [] (by simp [HistOk]) 0 name data rfl
    simp only [Body.calls] at k1 k2 k3 k4 k5 k6
    refine ⟨cell, a, h, u, g1, g2, g3, gu, ?_, ?_, ?_, ?_, ?_, ?_, ?_⟩
    · rw [e1, k1]; rfl
    · exact (e2 0).trans (congrArg _ k2)
    · exact (e2 1).trans (congrArg _ k3)
    · exact (e3 0 0).trans (congrArg _ (k4 0))
    · exact (e3 1 1).trans (congrArg _ (k4 1))
    · exact (e3 0 1).trans (congrArg _ (k5))
    · exact (e3 1 0).trans (congrArg _ (k6))
  · intro v c hvc hout
    obtain ⟨e1, _⟩ := hA v c hvc (Or.inr hout)
    exact e1.trans (congrArg _
      (C30_throws_2d D.pts D.cells [(name, data)] hrm hlen b0 hb [] (by simp [HistOk]) 0 (by simp) c hout).2.1)


end

/-! ### Examples -/

namespace Demo

/-- What the demo file describes. -/
def data : Unit → BodyData ℚ 2 := fun _ => ⟨pts, cells, flds⟩

/-- The body is read; a view of `w` is taken, called in the first cell, cloned; the clone is called outside the bins, the variable of the
view then becomes a view of `u`. -/
def hist : List (BOp Unit (FuncFn × List (CVal ℚ))) :=
  [.declBody, .declField, .declField, .newBody 0 (), .field 0 0 "w", .call 0 (.calc, [.dbls [1 / 2, 1 / 2], .refDbl]), .clone 1 0,
   .call 1 (.eval, [.dbls [9, 0]]), .field 0 0 "u"]

theorem hist_legal : BVars.LegalRun (dataSem data) hist ⟨[], []⟩ := by
  refine ⟨trivial, trivial, trivial, rfl, ⟨⟨_, rfl⟩, _, rfl, by simp⟩, ⟨_, rfl, ?_⟩, ⟨⟨_, rfl, by simp⟩, _, rfl, ?_⟩, ⟨_, rfl, ?_⟩,
    ⟨⟨_, rfl⟩, _, rfl, ?_⟩, trivial⟩
  all_goals simp [BVars.step, dataSem, BVars.find, data, flds]

theorem hist_after : FieldIs (dataAfter data hist) 0 (data ()) ("u", [1, 2, 3, 4, 5, 7]) ∧
    FieldIs (dataAfter data hist) 1 (data ()) ("w", [0, 1, 0, 2, 0, 5]) := by
  constructor
  · exact Or.inl ⟨0, 0, rfl, rfl, rfl⟩
  · exact Or.inr ⟨0, rfl, rfl⟩

theorem hist_calls : CallsRun FieldArgs data hist ⟨[], []⟩ := by
  have pt : ∀ x y : ℚ, PointAt [x, y] ![x, y] := by intro x y i; fin_cases i <;> rfl
  refine ⟨trivial, trivial, trivial, trivial, trivial, ?_, trivial, ?_, trivial, trivial⟩
  · intro D fl hD
    have : D = data () := (fieldIs_file (File := Unit) (info := data) (ops := hist.take 5) hD).choose_spec
    subst this
    exact ⟨_, pt _ _, Or.inl (inBins _ (by simp; norm_num))⟩
  · intro D fl hD
    have : D = data () := (fieldIs_file (File := Unit) (info := data) (ops := hist.take 7) hD).choose_spec
    subst this
    exact ⟨_, pt _ _, Or.inr (outOfBins _ (by simp; norm_num))⟩

end Demo

/-- The history above meets the hypotheses of C89; afterwards `u` at the node `(1,1)` is 5, as in the file, through variable 0, and the clone
of `w` in variable 1 is 0 there. -/
example : ∃ N : Unit → Nat, ∀ fuel : Unit → Nat, (∀ f, N f ≤ fuel f) →
    (callAfter (bodyNew Demo.scanDec (quadOps ℚ) (fun _ => Demo.vtkText) fuel) (fsem (quadOps ℚ)) Demo.hist 0)
      (.calc, [.dbls [9, 0], .refDbl]) = .error .domainError ∧
    (callAfter (bodyNew Demo.scanDec (quadOps ℚ) (fun _ => Demo.vtkText) fuel) (fsem (quadOps ℚ)) Demo.hist 1)
      (.name, [.buf 2]) = .ok (some (.str "w")) := by
  obtain ⟨N, hN⟩ := C89_bilinear_2d Demo.scanDec (fun _ : Unit => Demo.vtkText) Demo.data (fun _ => Demo.isVtk) (fun _ => Demo.rect)
  obtain ⟨N', hN'⟩ := C89_fields_2d Demo.scanDec (fun _ : Unit => Demo.vtkText) Demo.data (fun _ => Demo.isVtk) (fun _ => Demo.rect)
  refine ⟨fun f => N f + N' f, fun fuel hf => ⟨?_, ?_⟩⟩
  · exact (hN fuel (fun f => by have := hf f; simp only at this; omega) _ Demo.hist_legal Demo.hist_calls 0 _ _ _ Demo.hist_after.1 _ rfl).2 [9, 0] ![9, 0]
      (by intro i; fin_cases i <;> rfl) (Demo.outOfBins _ (by simp; norm_num))
  · exact (hN' fuel (fun f => by have := hf f; simp only at this; omega) _ Demo.hist_legal Demo.hist_calls 1 _ _ _ Demo.hist_after.2).1.1 2 (by decide)

/-- A body read from the demo file, with a view and a clone of a field: no rule is broken, and deleting the body is undefined. -/
example : ∃ b, Body.load (quadOps ℚ) Demo.pts Demo.cells Demo.flds = .ok b ∧
    let make : Unit → Res (Body ℚ 2) := fun _ => Body.load (quadOps ℚ) Demo.pts Demo.cells Demo.flds
    BVars.LegalRun (bsem make (fsem (quadOps ℚ))) [.declBody, .newBody 0 ()] ⟨[], []⟩ ∧
    ((FieldMem.run make (fsem (quadOps ℚ)) [.declBody, .newBody 0 ()] FieldMem.start).2.step make (fsem (quadOps ℚ)) (.deleteBody 0)).1 =
      .error (.ub .badDelete) := by
  obtain ⟨b, lo, hi, qs, hb, h2⟩ := load_ok quadLaw Demo.rect Demo.lens
  refine ⟨b, hb, ?_⟩
  intro make
  have hl : BVars.LegalRun (bsem make (fsem (quadOps ℚ))) [.declBody, .newBody 0 ()] ⟨[], []⟩ := ⟨trivial, rfl, trivial⟩
  refine ⟨hl, C88_delete_body_violated make (fsem (quadOps ℚ)) _ hl 0 b ?_ ?_⟩
  · simp [BVars.run, BVars.step, bsem, make, hb]
  · intro h0
    have := (holds_of quadLaw h2).2.2.1 0 _ rfl
    simp [h0] at this
end Verif
