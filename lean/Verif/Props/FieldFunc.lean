import Verif.Props.BodyExtern

/-!
# Property C97: a field used as a `PFuncBase`

`PField` derives from `PFuncBase`: generic code (a `PFunction` holding a clone, a piece of a piecewise function) calls it with
`double*` points through the virtual members. The object is the field together with the mesh of its body.
-/

namespace Verif
open Spec Bin Mesh PField Body FieldMem
variable {K : Type} [Field K] [LinearOrder K] [FloorRing K]

namespace Spec

/-- Points given to a call are in the half-open binned region or outside the closed one; directions exist. -/
def FCall.OkFor {d : Nat} (pts : List (Fin d → K)) (c : FCall (List K)) : Prop :=
  c.InRange d ∧ ∀ v cs, c.evaluates d = some (v, cs) → ∃ x, PointAt v x ∧ (InBins pts x ∨ OutOfBins pts x)

end Spec

/-- A call through the virtual members on field number `i` of a body. -/
def Body.fcall {d : Nat} (E : ElemOps K d) (ic : Nat × FCall (List K)) (b : Body K d) : Res (FOut (List K) K) × Body K d :=
  Body.callIn (fieldCls E).sem ic.2 b ic.1

/-- What a field called `name` with values `data` over a mesh must answer: its metadata; at every point of the body (or outside the bins)
what a body read afresh computes (`b0`); what was evaluated last at a point of the binned region; `std::runtime_error` for what a field does
not have. -/
structure FieldAnswers {d : Nat} (E : ElemOps K d) {n : Nat} (unit : Fin n → Fin d → K) (pts : List (Fin d → K)) (cells : List (List Nat))
    (name : String) (b0 : Body K d) (call : FCall (List K) → Res (FOut (List K) K))
    (call2 : FCall (List K) → FCall (List K) → Res (FOut (List K) K)) : Prop where
  name_eq : call .name = .ok (.str name)
  size_eq : call .size = .ok (.size d)
  vars : call .varNames = .ok (.strs (["x", "y", "z"].take d)) ∧
    call .varDescs = .ok (.strs (["x coordinate", "y coordinate", "z coordinate"].take d))
  value : ∀ v c, PointAt v c → Covered unit pts cells c ∨ OutOfBins pts c →
    call (.evalAt v) = (b0.value E 0 c).map .num ∧
    (∀ di : Fin d, call (.gradAt v di) = (b0.grad E 0 c di).map .num) ∧
    ∀ di dj : Fin d, call (.hessAt v di dj) = (b0.hess E 0 c di dj).map .num
  void : ∀ v (c : Fin d → K), PointAt v c → InBins pts c →
    call (.eval v) = .ok .void ∧ call (.evalGrad v) = .ok .void ∧ call (.evalHess v) = .ok .void
  outside : ∀ v (c : Fin d → K), PointAt v c → OutOfBins pts c →
    call (.eval v) = .error .domainError ∧ call (.evalGrad v) = .error .domainError ∧ call (.evalHess v) = .error .domainError
  get : ∀ v (c : Fin d → K), PointAt v c → InBins pts c →
    (call2 (.evalAt v) .get = call (.evalAt v) ∧ call2 (.eval v) .get = call (.evalAt v)) ∧
    (∀ di : Fin d, call2 (.gradAt v di) (.getGrad di) = call (.gradAt v di) ∧ call2 (.evalGrad v) (.getGrad di) = call (.gradAt v di)) ∧
    ∀ di dj : Fin d, call2 (.hessAt v di dj) (.getHess di dj) = call (.hessAt v di dj) ∧
      call2 (.evalHess v) (.getHess di dj) = call (.hessAt v di dj)
  simple : call .simple = .error .runtimeError ∧ (∀ di, call (.gradSimple di) = .error .runtimeError) ∧
    ∀ di dj, call (.hessSimple di dj) = .error .runtimeError

section
variable {d : Nat} (E : ElemOps K d)

theorem cls_evalAt {v : List K} {c : Fin d → K} (h : PointAt v c) (m : Mesh K d) (f : PField K) :
    (fieldCls E).sem (.evalAt v) (m, f) = ((f.value E m c).1.map .num, (f.value E m c).2) := by
  simp only [FClass.sem, fieldCls, FBase.sem, PField.ov, withCoord, coordOf_eq h, numF]

theorem cls_gradAt {v : List K} {c : Fin d → K} (h : PointAt v c) (hd : d ≤ 3) (di : Fin d) (m : Mesh K d) (f : PField K) :
    (fieldCls E).sem (.gradAt v di) (m, f) = ((f.gradAt E m c di).1.map .num, (f.gradAt E m c di).2) := by
  simp only [FClass.sem, fieldCls, FBase.sem, PField.ov, withCoord, coordOf_eq h, numF,
    sizeType_eq hd (show (0 : Int) ≤ di by omega) (by have := di.isLt; omega), Int.toNat_natCast]

theorem cls_hessAt {v : List K} {c : Fin d → K} (h : PointAt v c) (hd : d ≤ 3) (di dj : Fin d) (m : Mesh K d) (f : PField K) :
    (fieldCls E).sem (.hessAt v di dj) (m, f) = ((f.hessAt E m c di dj).1.map .num, (f.hessAt E m c di dj).2) := by
  simp only [FClass.sem, fieldCls, FBase.sem, PField.ov, withCoord, coordOf_eq h, numF,
    sizeType_eq hd (show (0 : Int) ≤ di by omega) (by have := di.isLt; omega),
    sizeType_eq hd (show (0 : Int) ≤ dj by omega) (by have := dj.isLt; omega), Int.toNat_natCast]

theorem cls_eval {v : List K} {c : Fin d → K} (h : PointAt v c) (m : Mesh K d) (f : PField K) :
    (fieldCls E).sem (.eval v) (m, f) = ((f.value E m c).1.map fun _ => .void, (f.value E m c).2) := by
  simp only [FClass.sem, fieldCls, FBase.sem, PField.ov, withCoord, coordOf_eq h, voidF]

theorem cls_evalGrad {v : List K} {c : Fin d → K} (h : PointAt v c) (m : Mesh K d) (f : PField K) :
    (fieldCls E).sem (.evalGrad v) (m, f) = ((f.evalGrad E m c).1.map fun _ => .void, (f.evalGrad E m c).2) := by
  simp only [FClass.sem, fieldCls, FBase.sem, PField.ov, withCoord, coordOf_eq h, voidF]

theorem cls_evalHess {v : List K} {c : Fin d → K} (h : PointAt v c) (m : Mesh K d) (f : PField K) :
    (fieldCls E).sem (.evalHess v) (m, f) = ((f.evalHess E m c).1.map fun _ => .void, (f.evalHess E m c).2) := by
  simp only [FClass.sem, fieldCls, FBase.sem, PField.ov, withCoord, coordOf_eq h, voidF]

theorem cls_getGrad (hd : d ≤ 3) (di : Fin d) (mf : Mesh K d × PField K) :
    (fieldCls E).sem (.getGrad di) mf = ((mf.2.getGrad di).map .num, mf) := by
  simp only [FClass.sem, fieldCls, FBase.sem, PField.ov,
    sizeType_eq hd (show (0 : Int) ≤ di by omega) (by have := di.isLt; omega), Int.toNat_natCast]

theorem cls_getHess (hd : d ≤ 3) (di dj : Fin d) (mf : Mesh K d × PField K) :
    (fieldCls E).sem (.getHess di dj) mf = ((mf.2.getHess di dj).map .num, mf) := by
  simp only [FClass.sem, fieldCls, FBase.sem, PField.ov,
    sizeType_eq hd (show (0 : Int) ≤ di by omega) (by have := di.isLt; omega),
    sizeType_eq hd (show (0 : Int) ≤ dj by omega) (by have := dj.isLt; omega), Int.toNat_natCast]

end

section
variable [IsStrictOrderedRing K] {d n : Nat} {E : ElemOps K d} {unit : Fin n → Fin d → K} {R : (a h c : Fin d → K) → Prop}
  {pts : List (Fin d → K)} {cells : List (List Nat)} {lo hi : Fin d → K} {qs : List (Interp K d)}

/-- Any allowed call leaves the mesh and the field in a good state. -/
theorem cls_ok (L : ElemLaw E unit R) (T : ElemTotal E) (hd : d ≤ 3) {m : Mesh K d} (hb : Built E unit pts cells lo hi qs m) {f : PField K}
    (hf : FOk pts lo hi qs f) {c : FCall (List K)} (hc : c.OkFor pts) :
    StOk E unit pts cells lo hi qs f m ((fieldCls E).sem c (m, f)).2.1 ((fieldCls E).sem c (m, f)).2.2 := by
  have same : StOk E unit pts cells lo hi qs f m m f := ⟨hb, rfl, hf, Same.refl f⟩
  have pt : ∀ {v cs}, c.evaluates d = some (v, cs) → ∃ x, PointAt v x ∧ (InBins pts x ∨ OutOfBins pts x) := fun h => hc.2 _ _ h
  have key : ∀ (op : Body.Call K d), InBins pts op.coord ∨ OutOfBins pts op.coord → ∀ {α : Type} {r : Res α} {m' f'},
      (callField E m f op).2 = (m', f') → StOk E unit pts cells lo hi qs f m m' f' := by
    intro op hx α r m' f' h
    obtain ⟨r0, m1, f1, h1, h2, _⟩ := callField_ok L T hb hf op hx
    rw [h1] at h; cases h; exact h2
  cases c with
  | evalAt v =>
    obtain ⟨x, h1, h2⟩ := pt rfl
    rw [cls_evalAt E h1]; exact key (.value x) h2 (r := .ok ()) rfl
  | gradAt v di =>
    obtain ⟨x, h1, h2⟩ := pt rfl
    obtain ⟨h3, h4⟩ := hc.1
    obtain ⟨k, rfl⟩ := Int.eq_ofNat_of_zero_le h3
    rw [cls_gradAt E h1 hd ⟨k, by omega⟩]
    exact key (.grad x ⟨k, by omega⟩) h2 (r := .ok ()) rfl
  | hessAt v di dj =>
    obtain ⟨x, h1, h2⟩ := pt rfl
    obtain ⟨⟨h3, h4⟩, h5, h6⟩ := hc.1
    obtain ⟨k, rfl⟩ := Int.eq_ofNat_of_zero_le h3
    obtain ⟨l, rfl⟩ := Int.eq_ofNat_of_zero_le h5
    rw [cls_hessAt E h1 hd ⟨k, by omega⟩ ⟨l, by omega⟩]
    exact key (.hess x ⟨k, by omega⟩ ⟨l, by omega⟩) h2 (r := .ok ()) rfl
  | eval v =>
    obtain ⟨x, h1, h2⟩ := pt rfl
    rw [cls_eval E h1]; exact key (.value x) h2 (r := .ok ()) rfl
  | evalGrad v =>
    obtain ⟨x, h1, h2⟩ := pt rfl
    rw [cls_evalGrad E h1]; exact key (.evalGrad x) h2 (r := .ok ()) rfl
  | evalHess v =>
    obtain ⟨x, h1, h2⟩ := pt rfl
    rw [cls_evalHess E h1]; exact key (.evalHess x) h2 (r := .ok ()) rfl
  | _ => simp only [FClass.sem, FBase.sem, fieldCls, PField.ov]; exact same


theorem runCalls_bok (L : ElemLaw E unit R) (T : ElemTotal E) (hd : d ≤ 3) {flds : List (String × List K)}
    (calls : List (Nat × FCall (List K))) (hc : ∀ c ∈ calls, c.2.OkFor pts) {b : Body K d} (hb : BOk E unit pts cells lo hi qs flds b) :
    BOk E unit pts cells lo hi qs flds (runCalls (Body.fcall E) calls b).2 := by
  induction calls generalizing b with
  | nil => exact hb
  | cons ic cs ih =>
    simp only [runCalls]
    refine ih (fun c h => hc c (by simp [h])) ?_
    simp only [Body.fcall, Body.callIn]
    cases hf : b.fields[ic.1]? with
    | none => exact hb
    | some f =>
      obtain ⟨hlt, hfe⟩ := List.getElem?_eq_some_iff.mp hf
      have hl := hb.fields.length_eq
      have hfi := (List.forall₂_iff_get.mp hb.fields).2 ic.1 hlt (by omega)
      simp only [List.get_eq_getElem, hfe] at hfi
      exact bok_set (D := ⟨pts, cells, flds⟩) hb hf (cls_ok L T hd hb.mesh hfi.2.2.2 (hc ic (by simp)))

theorem map_eq_ok {α β : Type} {r : Res α} {f : α → β} {a : α} (h : r = .ok a) : r.map f = .ok (f a) := by rw [h]; rfl

theorem answers_of (L : ElemLaw E unit R) (T : ElemTotal E) (hd : d = 2 ∨ d = 3) {name : String} {data : List K} {m : Mesh K d}
    {f : PField K} {b0 : Body K d} (h2 : BOk E unit pts cells lo hi qs [(name, data)] b0)
    (h3 : BOk E unit pts cells lo hi qs [(name, data)] ⟨m, [f]⟩) :
    FieldAnswers E unit pts cells name b0 (fun c => ((fieldCls E).sem c (m, f)).1)
      (fun c c' => ((fieldCls E).sem c' ((fieldCls E).sem c (m, f)).2).1) := by
  have hd3 : d ≤ 3 := by rcases hd with rfl | rfl <;> decide
  have hf := h3.fields
  cases hf with
  | cons hf0 _ =>
  obtain ⟨f1, f2, f3, f4⟩ := hf0
  have hb : Built E unit pts cells lo hi qs m := h3.mesh
  refine ⟨?_, ?_, ?_, ?_, ?_, ?_, ?_, ?_⟩
  · simp only [FClass.sem, fieldCls, FBase.sem, PField.base, f1]
  · rcases hd with rfl | rfl <;> rfl
  · rcases hd with rfl | rfl <;> exact ⟨rfl, rfl⟩
  · intro v c hv hcc
    obtain ⟨e1, e2, e3⟩ := same_eval L T h3 h2 hcc
    refine ⟨?_, fun di => ?_, fun di dj => ?_⟩
    · simp only [cls_evalAt E hv]; rw [← e1]; rfl
    · simp only [cls_gradAt E hv hd3]; rw [← e2]; rfl
    · simp only [cls_hessAt E hv hd3]; rw [← e3]; rfl
  · intro v c hv hcc
    refine ⟨?_, ?_, ?_⟩
    · obtain ⟨r, m', f', g1, _, g3, _⟩ := callField_ok L T hb f4 (.value c) (Or.inl hcc)
      have := congrArg Prod.fst g1
      rw [g3 hcc] at this
      simp only [cls_eval E hv]
      simp only [callField] at this
      cases h : (f.value E m c).1 with
      | ok y => rfl
      | error e => rw [h] at this; cases this
    · obtain ⟨r, m', f', g1, _, g3, _⟩ := callField_ok L T hb f4 (.evalGrad c) (Or.inl hcc)
      have := congrArg Prod.fst g1
      rw [g3 hcc] at this
      simp only [cls_evalGrad E hv]
      exact map_eq_ok this
    · obtain ⟨r, m', f', g1, _, g3, _⟩ := callField_ok L T hb f4 (.evalHess c) (Or.inl hcc)
      have := congrArg Prod.fst g1
      rw [g3 hcc] at this
      simp only [cls_evalHess E hv]
      exact map_eq_ok this
  · intro v c hv hcc
    refine ⟨?_, ?_, ?_⟩
    · obtain ⟨r, m', f', g1, _, _, g3⟩ := callField_ok L T hb f4 (.value c) (Or.inr hcc)
      have := congrArg Prod.fst g1
      rw [(g3 hcc).1] at this
      simp only [cls_eval E hv]
      simp only [callField] at this
      cases h : (f.value E m c).1 with
      | ok y => rw [h] at this; cases this
      | error e => rw [h] at this; cases this; rfl
    · obtain ⟨r, m', f', g1, _, _, g3⟩ := callField_ok L T hb f4 (.evalGrad c) (Or.inr hcc)
      have := congrArg Prod.fst g1
      rw [(g3 hcc).1] at this
      simp only [callField] at this
      simp only [cls_evalGrad E hv, this]; rfl
    · obtain ⟨r, m', f', g1, _, _, g3⟩ := callField_ok L T hb f4 (.evalHess c) (Or.inr hcc)
      have := congrArg Prod.fst g1
      rw [(g3 hcc).1] at this
      simp only [callField] at this
      simp only [cls_evalHess E hv, this]; rfl
  · intro v c hv hcc
    refine ⟨?_, fun di => ?_, fun di dj => ?_⟩
    · obtain ⟨r, m', f', g1, g2, _⟩ := call_getters L T hb f4 (.value c) hcc
      simp only [valueCall] at g2
      have e : (f.value E m c).2 = (m', f') := congrArg Prod.snd g1
      have : ((fieldCls E).sem .get (m', f')).1 = (f.value E m c).1.map .num := by
        simp only [FClass.sem, fieldCls, FBase.sem, PField.ov, g2]
      constructor
      · simp only [cls_evalAt E hv, e, this]
      · simp only [cls_evalAt E hv, cls_eval E hv, e, this]
    · constructor
      · obtain ⟨r, m', f', g1, _, g2, _⟩ := call_getters L T hb f4 (.grad c di) hcc
        have g2 := g2 di
        simp only [gradCall, if_true] at g2
        have e : (f.gradAt E m c di).2 = (m', f') := congrArg Prod.snd g1
        simp only [cls_gradAt E hv hd3, cls_getGrad E hd3, e, g2]
      · obtain ⟨r, m', f', g1, _, g2, _⟩ := call_getters L T hb f4 (.evalGrad c) hcc
        have g2 := g2 di
        simp only [gradCall] at g2
        have e : (f.evalGrad E m c).2 = (m', f') := congrArg Prod.snd g1
        simp only [cls_gradAt E hv hd3, cls_evalGrad E hv, cls_getGrad E hd3, e, g2]
    · constructor
      · obtain ⟨r, m', f', g1, _, _, g2⟩ := call_getters L T hb f4 (.hess c di dj) hcc
        have g2 := g2 di dj
        simp only [hessCall, and_self, if_true] at g2
        have e : (f.hessAt E m c di dj).2 = (m', f') := congrArg Prod.snd g1
        simp only [cls_hessAt E hv hd3, cls_getHess E hd3, e, g2]
      · obtain ⟨r, m', f', g1, _, _, g2⟩ := call_getters L T hb f4 (.evalHess c) hcc
        have g2 := g2 di dj
        simp only [hessCall] at g2
        have e : (f.evalHess E m c).2 = (m', f') := congrArg Prod.snd g1
        simp only [cls_hessAt E hv hd3, cls_evalHess E hv, cls_getHess E hd3, e, g2]
  · exact ⟨rfl, fun _ => rfl, fun _ _ => rfl⟩

/-- A field as a function, for any kind of cell. -/
theorem c97_generic (L : ElemLaw E unit R) (T : ElemTotal E) (hd : d = 2 ∨ d = 3) {flds : List (String × List K)}
    (hm : RectMesh unit pts cells) (hl : ∀ fl ∈ flds, fl.2.length = pts.length) {b : Body K d} (hb : Body.load E pts cells flds = .ok b)
    (calls : List (Nat × FCall (List K))) (hc : ∀ c ∈ calls, c.2.OkFor pts) {i : Nat} {name : String} {data : List K}
    (hi : flds[i]? = some (name, data)) :
    ∃ b0, Body.load E pts cells [(name, data)] = .ok b0 ∧ let r := (runCalls (Body.fcall E) calls b).2
      FieldAnswers E unit pts cells name b0 (fun c => (Body.fcall E (i, c) r).1)
        (fun c c' => (Body.fcall E (i, c') (Body.fcall E (i, c) r).2).1) := by
  have hd3 : d ≤ 3 := by rcases hd with rfl | rfl <;> decide
  obtain ⟨los, his, qss, hG⟩ := ghost (E := E) (K := K) L
  obtain ⟨b', h1, h2⟩ := hG ⟨pts, cells, flds⟩ hm flds hl
  rw [hb] at h1; cases h1
  obtain ⟨b0, g1, g2⟩ := hG ⟨pts, cells, flds⟩ hm [(name, data)] (by
    intro z hz
    rw [List.mem_singleton] at hz; subst hz
    exact hl _ (List.mem_of_getElem? hi))
  refine ⟨b0, g1, ?_⟩
  intro r
  have hr := runCalls_bok L T hd3 calls hc h2
  change BOk _ _ _ _ _ _ _ _ r at hr
  obtain ⟨f, hf, f1, f2, f3, f4⟩ := loaded_field hr hi
  have hlt := (List.getElem?_eq_some_iff.mp hf).1
  have A := answers_of L T hd g2 (m := r.mesh) (f := f) ⟨hr.mesh, .cons ⟨f1, f2, f3, f4⟩ .nil⟩
  have e1 : (fun c => (Body.fcall E (i, c) r).1) = fun c => ((fieldCls E).sem c (r.mesh, f)).1 := by
    funext c; simp only [Body.fcall, Body.callIn, hf]
  have e2 : (fun c c' => (Body.fcall E (i, c') (Body.fcall E (i, c) r).2).1) =
      fun c c' => ((fieldCls E).sem c' ((fieldCls E).sem c (r.mesh, f)).2).1 := by
    funext c c'
    simp only [Body.fcall, Body.callIn, hf, List.getElem?_set_self hlt]
  rw [e1, e2]
  exact A

/-- **C97** (2D) Fields of a body used through the members of `PFuncBase`, any of them called in any order with `double*` points in the binned
region or outside it, exceptions caught: a field always reports its name and the variables x and y; `operator()(var)`, `grad(var,di)`,
`hess(var,di,dj)` give at every point of the body what a body read afresh with that single field gives, and its exception outside the bins;
`eval`, `eval_grad`, `eval_hess` at a point of the binned region return normally and the getters then return those values, all components;
the simple functions a field does not have throw `std::runtime_error`. -/
theorem C97_field_function_2d (pts : List (Fin 2 → K)) (cells : List (List Nat)) (flds : List (String × List K))
    (hm : RectMesh quadUnit pts cells) (hl : ∀ fl ∈ flds, fl.2.length = pts.length) (b : Body K 2)
    (hb : Body.load (quadOps K) pts cells flds = .ok b) (calls : List (Nat × FCall (List K))) (hc : ∀ c ∈ calls, c.2.OkFor pts)
    (i : Nat) (name : String) (data : List K) (hi : flds[i]? = some (name, data)) :
    ∃ b0, Body.load (quadOps K) pts cells [(name, data)] = .ok b0 ∧ let r := (runCalls (Body.fcall (quadOps K)) calls b).2
      FieldAnswers (quadOps K) quadUnit pts cells name b0 (fun c => (Body.fcall (quadOps K) (i, c) r).1)
        (fun c c' => (Body.fcall (quadOps K) (i, c') (Body.fcall (quadOps K) (i, c) r).2).1) :=
  c97_generic quadLaw quadTotal (Or.inl rfl) hm hl hb calls hc hi

/-- **C97** (3D) The same for bodies of hexahedra, with the variables x, y and z. -/
theorem C97_field_function_3d (pts : List (Fin 3 → K)) (cells : List (List Nat)) (flds : List (String × List K))
    (hm : RectMesh hexUnit pts cells) (hl : ∀ fl ∈ flds, fl.2.length = pts.length) (b : Body K 3)
    (hb : Body.load (hexOps K) pts cells flds = .ok b) (calls : List (Nat × FCall (List K))) (hc : ∀ c ∈ calls, c.2.OkFor pts)
    (i : Nat) (name : String) (data : List K) (hi : flds[i]? = some (name, data)) :
    ∃ b0, Body.load (hexOps K) pts cells [(name, data)] = .ok b0 ∧ let r := (runCalls (Body.fcall (hexOps K)) calls b).2
      FieldAnswers (hexOps K) hexUnit pts cells name b0 (fun c => (Body.fcall (hexOps K) (i, c) r).1)
        (fun c c' => (Body.fcall (hexOps K) (i, c') (Body.fcall (hexOps K) (i, c) r).2).1) :=
  c97_generic hexLaw hexTotal (Or.inr rfl) hm hl hb calls hc hi

end

/-- The demo body: after an evaluation of one field inside and of another outside the bins, the theorem applies. -/
example : ∃ b, Body.load (quadOps ℚ) Demo.pts Demo.cells Demo.flds = .ok b ∧
    ∀ i name data, Demo.flds[i]? = some (name, data) →
    (Body.fcall (quadOps ℚ) (i, .evalHess [9, 0]) (runCalls (Body.fcall (quadOps ℚ)) [(0, .evalHess [1, 0]), (1, .evalAt [9, 0])] b).2).1 =
      .error .domainError := by
  obtain ⟨b, lo, hi, qs, hb, h2⟩ := load_ok quadLaw Demo.rect Demo.lens
  refine ⟨b, hb, fun i name data hi => ?_⟩
  obtain ⟨b0, _, A⟩ := C97_field_function_2d Demo.pts Demo.cells Demo.flds Demo.rect Demo.lens b hb
    [(0, .evalHess [1, 0]), (1, .evalAt [9, 0])] (by
      intro c hc
      simp only [List.mem_cons, List.not_mem_nil, or_false] at hc
      rcases hc with rfl | rfl
      · refine ⟨trivial, fun v cs h => ⟨![1, 0], ?_, Or.inl (Demo.inBins _ ?_)⟩⟩
        · cases h; intro i; fin_cases i <;> rfl
        · decide +kernel
      · refine ⟨trivial, fun v cs h => ⟨![9, 0], ?_, Or.inr (Demo.outOfBins _ (by simp; norm_num))⟩⟩
        cases h; intro i; fin_cases i <;> rfl) i name data hi
  exact (A.outside [9, 0] ![9, 0] (by intro i; fin_cases i <;> rfl) (Demo.outOfBins _ (by simp; norm_num))).2.2

end Verif
