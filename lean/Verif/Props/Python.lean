import Verif.Props.Extern
import Verif.Lemmas.Python

/-!
# The Python classes (C84, C85)
-/

namespace Verif
open Spec

/-- What a Python method returns for a C result that is a number. -/
def pyOf {K : Type} (r : Res K) : Except PyErr (PyVal K) :=
  match r with
  | .ok y => .ok (.num y)
  | .error e => .error (.cpp e)

/-! ### C84: functions -/

section
variable {K : Type}

/-- The Python method for a call. -/
def Spec.CCall.toPy : CCall (List K) → PyFn K
  | .calc v .f => .calc v
  | .calc v (.g i) => .calcGrad v i
  | .calc v (.h i j) => .calcHess v i j
  | .eval v .f => .eval v
  | .eval v (.g i) => .evalGrad v i
  | .eval v (.h i j) => .evalHess v i j
  | .get .f => .get
  | .get (.g i) => .getGrad i
  | .get (.h i j) => .getHess i j

/-- Not `get_grad` and `get_hess`. -/
def Spec.CCall.NoDerivGetter : CCall (List K) → Prop
  | .get (.g _) | .get (.h _ _) => False
  | _ => True

/-- A Python method on a `PFunc_dsd` made from a `PFlexFunction`. -/
abbrev flexPy (m : PyFn K) : Flex (List K) K → Except PyErr (PyVal K) × Flex (List K) K := m.sem (flexCls (List K) K)

theorem pyCall_fst {Fn Obj : Type} (api : Fn → List (CVal K) → Option (Obj → Res (XOut K) × Obj)) (c : Fn × List (CVal K)) (o : Obj) :
    (pyCall api c o).1 = match (apiSem api c o).1 with | .ok x => x.toPy | .error e => .error (.cpp e) := by
  simp only [pyCall]
  split <;> rename_i h <;> rw [h]

theorem pyCall_snd {Fn Obj : Type} (api : Fn → List (CVal K) → Option (Obj → Res (XOut K) × Obj)) (c : Fn × List (CVal K)) (o : Obj) :
    (pyCall api c o).2 = (apiSem api c o).2 := by
  simp only [pyCall]
  split <;> rename_i h <;> rw [h]

theorem toPy_toC {c : CCall (List K)} (h : c.NoDerivGetter) : c.toPy.toC = c.toC := by
  cases c with
  | «calc» v c => cases c <;> rfl
  | eval v c => cases c <;> rfl
  | get c => cases c <;> first | rfl | exact h.elim

theorem flexPy_run (cs : List (CCall (List K))) (h : ∀ c ∈ cs, c.NoDerivGetter) : ∀ p : Flex (List K) K,
    (pyRun flexPy (cs.map CCall.toPy) p).2 = (runCalls flexC (cs.map CCall.toC) p).2 := by
  induction cs with
  | nil => intro p; rfl
  | cons c cs ih =>
    intro p
    simp only [List.map_cons, pyRun, runCalls]
    rw [ih fun x hx => h x (by simp [hx])]
    have : (flexPy c.toPy p).2 = (flexC c.toC p).2 := by
      rw [show flexPy c.toPy p = pyCall _ c.toPy.toC p from rfl, pyCall_snd, toPy_toC (h c (by simp))]
    rw [this]

/-- **C84** partial: from Python, after any calls of the methods other than `get_grad` and `get_hess`, `calc`, `calc_grad`, `calc_hess`
return the component's value at the given point, `eval`... succeed exactly when it has one, and `get` returns the value where it was last
evaluated. -/
theorem C84_function_partial (b : FBase) (f : SObj (List K) K) (g : List (SObj (List K) K)) (h : List (List (SObj (List K) K)))
    (p : Flex (List K) K) (hp : Flex.make b (some f) (hs g) (h.map hs) = .ok p) (cs : List (CCall (List K)))
    (hcs : ∀ c ∈ cs, c.comp.Exists b.varName.length) (hn : ∀ c ∈ cs, c.NoDerivGetter) :
    let F := compFn f.evalFn (g.map SObj.evalFn) (h.map fun r => r.map SObj.evalFn)
    let q := (pyRun flexPy (cs.map CCall.toPy) p).2
    (∀ v c, c.Exists b.varName.length → (flexPy (CCall.calc v c).toPy q).1 = pyOf (F c v) ∧
      (flexPy (CCall.eval v c).toPy q).1 = match F c v with | .ok _ => .ok .none | .error e => .error (.cpp e)) ∧
    ((flexPy .get q).1 = match CCall.lastPoint F .f cs none with
      | some v => pyOf (F .f v)
      | none => match storedVal f g h .f with | some y => .ok (.num y) | none => .error (.cpp (.ub .uninit))) ∧
    (flexPy .size q).1 = .ok (.int b.varName.length) := by
  intro F q
  have hq : q = (runCalls flexC (cs.map CCall.toC) p).2 := flexPy_run cs hn p
  have e : ∀ (c : CCall (List K)), c.NoDerivGetter → (flexPy c.toPy q).1 =
      match (flexC c.toC q).1 with | .ok x => x.toPy | .error e => .error (.cpp e) := by
    intro c hc
    rw [show flexPy c.toPy q = pyCall _ c.toPy.toC q from rfl, pyCall_fst, toPy_toC hc]
  refine ⟨fun v c hc => ?_, ?_, ?_⟩
  · obtain ⟨h1, h2⟩ := C81_calc b f g h p hp cs hcs v c hc
    rw [← hq] at h1 h2
    rw [e (.calc v c) trivial, e (.eval v c) trivial, h1, h2]
    simp only [F]
    cases compFn f.evalFn (g.map SObj.evalFn) (h.map fun r => r.map SObj.evalFn) c v <;> exact ⟨rfl, rfl⟩
  · have h1 := C81_get b f g h p hp cs hcs .f trivial
    rw [← hq] at h1
    have e' := e (.get .f) trivial
    rw [h1] at e'
    refine Eq.trans e' ?_
    simp only [F]
    cases CCall.lastPoint (compFn f.evalFn (g.map SObj.evalFn) (h.map fun r => r.map SObj.evalFn)) .f cs none with
    | some v => cases hv : compFn f.evalFn (g.map SObj.evalFn) (h.map fun r => r.map SObj.evalFn) .f v <;> simp only [hv] <;> rfl
    | none => cases storedVal f g h .f <;> rfl
  · have h1 := C81_size b f g h p hp cs
    rw [← hq] at h1
    rw [show flexPy PyFn.size q = pyCall _ (FuncFn.size, [CVal.refInt]) q from rfl, pyCall_fst, h1]
    rfl

/-- **C84** violated: `get_grad` and `get_hess` of every function object in every state call the wrong C function with too many
arguments. -/
theorem C84_get_derivatives_violated {F : Type} (C : FClass F (List K) K) (o : F) (di dj : Int) :
    (PyFn.sem C (.getGrad di) o).1 = .error (.cpp (.ub .badCall)) ∧ (PyFn.sem C (.getHess di dj) o).1 = .error (.cpp (.ub .badCall)) :=
  ⟨rfl, rfl⟩

theorem pyName {Fn Obj : Type} (api : Fn → List (CVal K) → Option (Obj → Res (XOut K) × Obj)) (c : Fn × List (CVal K)) (o : Obj)
    (s : String) (h : (apiSem api c o).1 = strcpy 8 s) :
    (pyCall api c o).1 = if s = "" then .ok .none else .error (.cpp (.ub .oob)) := by
  rw [pyCall_fst, h]
  simp only [strcpy]
  by_cases h1 : s.length + 1 ≤ 8
  · rw [if_pos h1]; rfl
  · rw [if_neg h1, if_neg (by rintro rfl; simp at h1)]

/-- **C84** violated: a name that is not empty cannot be obtained from Python at all; an empty one is `None`. -/
theorem C84_names_violated (b : FBase) (f : SFun (List K) K) (g : List (SFun (List K) K)) (h : List (List (SFun (List K) K)))
    (z : K) (x : XBasis K) (o : SObj (List K) K) (o' : SObj K K) :
    let want (s : String) : Except PyErr (PyVal K) := if s = "" then .ok .none else .error (.cpp (.ub .oob))
    (flexPy .name ⟨b, f, g, h⟩).1 = want b.name ∧ (∀ (i : Nat) s, b.varName[i]? = some s → (flexPy (.varName i) ⟨b, f, g, h⟩).1 = want s) ∧
    (∀ (i : Nat) s, b.varDesc[i]? = some s → (flexPy (.varDescription i) ⟨b, f, g, h⟩).1 = want s) ∧
    (PyBasis.sem z .name x).1 = want x.cls.name ∧ (PyBasis.sem z .description x).1 = want x.cls.description ∧
    (pyCall simpleDsd (PySimple.toDsd .name) o).1 = want o.name ∧ (pyCall simpleDd (PySimple.toDd .name) o').1 = want o'.name := by
  intro want
  refine ⟨pyName _ _ _ _ rfl, fun i s hi => ?_, fun i s hi => ?_, pyName _ _ _ _ rfl, pyName _ _ _ _ rfl, pyName _ _ _ _ rfl,
    pyName _ _ _ _ rfl⟩
  · have hv := vget_ok.mpr ⟨Int.natCast_nonneg i, show b.varName[(i : Int).toNat]? = some s by simpa using hi⟩
    refine pyName _ _ _ s ?_
    show ((vget b.varName i).map FOut.str).bind (FOut.strOut (V := List K) 8) = _
    rw [hv]; rfl
  · have hv := vget_ok.mpr ⟨Int.natCast_nonneg i, show b.varDesc[(i : Int).toNat]? = some s by simpa using hi⟩
    refine pyName _ _ _ s ?_
    show ((vget b.varDesc i).map FOut.str).bind (FOut.strOut (V := List K) 8) = _
    rw [hv]; rfl

/-- **C84** partial: `PSimple_dsd` and `PSimple_dd` return the function's value at the point, and `get` the one evaluated last. -/
theorem C84_simple_partial (o : SObj (List K) K) (o' : SObj K K) (v : List K) (x : K) (y : K) :
    ((o.evalFn v = .ok y → ∃ q, pyCall simpleDsd (PySimple.toDsd (.calc v)) o = (.ok (.num y), q) ∧
      (pyCall simpleDsd (PySimple.toDsd .get) q).1 = .ok (.num y))) ∧
    (o'.evalFn x = .ok y → ∃ q, pyCall simpleDd (PySimple.toDd (.calc x)) o' = (.ok (.num y), q) ∧
      (pyCall simpleDd (PySimple.toDd .get) q).1 = .ok (.num y)) := by
  have key : ∀ {V : Type} (o : SObj V K) (v : V), o.evalFn v = .ok y → (o.evalAt v).1 = .ok y ∧ (o.evalAt v).2.get = .ok y := by
    intro V o v h
    simp [SObj.evalAt, h, SObj.get]
  constructor
  · intro h
    obtain ⟨h1, h2⟩ := key o v h
    refine ⟨(o.evalAt v).2, ?_, ?_⟩
    · refine Prod.ext ?_ ?_
      · rw [pyCall_fst]
        show (match ((o.evalAt v).1.map XOut.num) with | .ok x => x.toPy | .error e => .error (.cpp e)) = _
        rw [h1]; rfl
      · rw [pyCall_snd]; rfl
    · rw [pyCall_fst]
      show (match ((o.evalAt v).2.get.map XOut.num) with | .ok x => x.toPy | .error e => .error (.cpp e)) = _
      rw [h2]; rfl
  · intro h
    obtain ⟨h1, h2⟩ := key o' x h
    refine ⟨(o'.evalAt x).2, ?_, ?_⟩
    · refine Prod.ext ?_ ?_
      · rw [pyCall_fst]
        show (match ((o'.evalAt x).1.map XOut.num) with | .ok x => x.toPy | .error e => .error (.cpp e)) = _
        rw [h1]; rfl
      · rw [pyCall_snd]; rfl
    · rw [pyCall_fst]
      show (match ((o'.evalAt x).2.get.map XOut.num) with | .ok x => x.toPy | .error e => .error (.cpp e)) = _
      rw [h2]; rfl

end

/-! ### C84: series -/

section
variable {K : Type} [Field K] [LinearOrder K] [FloorRing K]

/-- The methods that keep the basis sets and do what they say (or raise a Python exception). -/
def PySer.Sound : PySer K → Prop
  | .clear | .calcBasisGrad _ _ _ _ | .calcBasisHess _ _ _ _ _ => False
  | _ => True

theorem pySerC_over {fs : List (Family K)} {s : Series K} (h : s.Over fs) (c : SeriesFn × List (CVal K)) (hc : c.1 ≠ .clear) :
    (pySerC c s).2.Over fs := by
  rw [pySerC, pyCall_snd]
  have := XSeries.over_calls [c] h (by simpa using hc)
  simpa [runCalls] using this

theorem pySer_over {fs : List (Family K)} {s : Series K} (h : s.Over fs) (m : PySer K) (hm : m.Sound) : (m.sem s).2.Over fs := by
  cases m with
  | clear => exact hm.elim
  | calcBasisGrad => exact hm.elim
  | calcBasisHess => exact hm.elim
  | linearIndex => exact h
  | tensorIndices i =>
    simp only [PySer.sem, pyTensorIndices]
    have h1 := pySerC_over h (.order, [.refInt]) (by simp)
    split <;> rename_i e <;> rw [e] at h1
    · exact pySerC_over h1 _ (by simp)
    · exact h1
    · exact h1
  | _ => exact pySerC_over h _ (by simp)

theorem pySer_run {fs : List (Family K)} (ms : List (PySer K)) : ∀ {s : Series K}, s.Over fs → (∀ m ∈ ms, m.Sound) →
    (pyRun PySer.sem ms s).2.Over fs := by
  induction ms with
  | nil => intro s h _; exact h
  | cons m ms ih => intro s h hm; exact ih (pySer_over h m (hm m (by simp))) fun x hx => hm x (by simp [hx])

theorem pySerC_fst (c : SeriesFn × List (CVal K)) (s : Series K) {x : XOut K} (h : (seriesC c s).1 = .ok x) : (pySerC c s).1 = x.toPy := by
  rw [pySerC, pyCall_fst, h]

/-- Two calls. -/
theorem pySer_two (a b : SeriesFn × List (CVal K)) (s : Series K) {x y : XOut K}
    (h : (runCalls seriesC [a, b] s).1 = [.ok x, .ok y]) :
    (pySerC a s).1 = x.toPy ∧ (pySerC b (pySerC a s).2).1 = y.toPy := by
  simp only [runCalls, List.cons.injEq, and_true] at h
  refine ⟨pySerC_fst a s h.1, pySerC_fst b _ ?_⟩
  rw [pySerC, pyCall_snd]; exact h.2

/-- **C84** partial: a `PSeries_dsis` made from basis sets checked out of the library, or one on which `set` was called in any state, and
then used with any methods other than `clear`, `calc_basis_grad` and `calc_basis_hess`: `order`, `volume`, `dim` and `tensor_indices`
describe its shape; `get_tensor_coeff` gives coefficients such that `calc`, and `eval` with `get`, return the sum of the series,
`eval_grad` with `get_grad` and `eval_hess` with `get_hess` the sums with differentiated basis functions. -/
theorem C84_series_partial (fs : List (Family K)) (hg : GoodDims (extents fs)) (s : Series K) (hs : s.Over fs) (ms : List (PySer K))
    (hm : ∀ m ∈ ms, m.Sound) :
    let r := (pyRun PySer.sem ms s).2
    ∃ c : List Int → K, (∀ t, InBox (extents fs) t → (PySer.sem (.getTensorCoeff t) r).1 = .ok (.num (c t))) ∧
      (PySer.sem .order r).1 = .ok (.int fs.length) ∧ (PySer.sem .volume r).1 = .ok (.int (prod (extents fs))) ∧
      (∀ (i : Nat) F, fs[i]? = some F → (PySer.sem (.dim i) r).1 = .ok (.int F.size)) ∧
      (∀ t, InBox (extents fs) t → (PySer.sem (.tensorIndices (rowMajor (extents fs) t)) r).1 = .ok (.ints t) ∧
        (PySer.sem (.getLinearCoeff (rowMajor (extents fs) t)) r).1 = .ok (.num (c t)) ∧
        ∀ y, ∃ r', PySer.sem (.setTensorCoeff t y) r = (.ok .none, r') ∧ PySer.sem (.setLinearCoeff (rowMajor (extents fs) t) y) r = (.ok .none, r') ∧
          (PySer.sem (.getTensorCoeff t) r').1 = .ok (.num y) ∧
          ∀ u, InBox (extents fs) u → u ≠ t → (PySer.sem (.getTensorCoeff u) r').1 = .ok (.num (c u))) ∧
      ∀ x : List K, x.length = fs.length →
        (PySer.sem (.calc x) r).1 = .ok (.num (series fs (value fs.length) c x)) ∧
        ((PySer.sem (.eval x) r).1 = .ok .none ∧ (PySer.sem .get (PySer.sem (.eval x) r).2).1 = .ok (.num (series fs (value fs.length) c x))) ∧
        (∀ di : Nat, di < fs.length → (PySer.sem (.evalGrad x) r).1 = .ok .none ∧
          (PySer.sem (.getGrad di) (PySer.sem (.evalGrad x) r).2).1 = .ok (.num (series fs (gradient fs.length di) c x))) ∧
        ∀ di dj : Nat, di < fs.length → dj < fs.length → (PySer.sem (.evalHess x) r).1 = .ok .none ∧
          (PySer.sem (.getHess di dj) (PySer.sem (.evalHess x) r).2).1 = .ok (.num (series fs (hessian fs.length di dj) c x)) := by
  intro r
  have hr : r.Over fs := pySer_run ms hs hm
  generalize r = r at hr
  obtain ⟨c, gt, gx⟩ := C83_values fs hg r hr [] (by simp)
  simp only [show (runCalls seriesC [] r).2 = r from rfl] at gt gx
  obtain ⟨o1, o2, o3, o4⟩ := C83_coefficients fs hg r hr [] (by simp)
  simp only [runCalls] at o1 o2 o3 o4
  refine ⟨c, fun t ht => pySerC_fst _ _ (gt t ht), pySerC_fst _ _ o1, pySerC_fst _ _ o2, fun i F hF => pySerC_fst _ _ (o3 i F hF),
    fun t ht => ⟨?_, ?_, fun y => ?_⟩, fun x hx => ?_⟩
  · obtain ⟨_, h2, _⟩ := o4 t ht
    have h2 := h2 (List.replicate fs.length 0) (by simp)
    have e : pySerC (.order, [.refInt]) r = (.ok (.int fs.length), r) := Prod.ext (pySerC_fst _ _ o1) (by rw [pySerC, pyCall_snd]; rfl)
    simp only [PySer.sem, pyTensorIndices, e, Int.toNat_natCast]
    exact pySerC_fst _ _ h2
  · obtain ⟨_, _, h3, _⟩ := o4 t ht
    exact pySerC_fst _ _ (h3.trans (gt t ht))
  · obtain ⟨_, _, _, h4⟩ := o4 t ht
    obtain ⟨r', k1, k2, k3, k4⟩ := h4 y
    refine ⟨r', ?_, ?_, pySerC_fst _ _ k3, fun u hu hne => pySerC_fst _ _ ((k4 u hu hne).trans (gt u hu))⟩
    · simp only [PySer.sem, pySerC, pyCall]
      rw [show apiSem XSeries.api _ r = _ from k1]; rfl
    · simp only [PySer.sem, pySerC, pyCall]
      rw [show apiSem XSeries.api _ r = _ from k2]; rfl
  · obtain ⟨g2, g3, g4, g5⟩ := gx x hx
    exact ⟨pySerC_fst _ _ g2, pySer_two _ _ _ g3, fun di hdi => pySer_two _ _ _ (g4 di hdi),
      fun di dj hdi hdj => pySer_two _ _ _ (g5 di dj hdi hdj)⟩

/-- **C84** partial: making a series from basis sets, and `set` on a series in any state. -/
theorem C84_series_set_partial (lib : String → Option (BClass K)) (hl : NamedWell lib) (fs : List (Family K)) (hg : GoodDims (extents fs))
    (bs : List (XBasis K)) (hb : List.Forall₂ (XBasis.Has lib) fs bs) (s0 : Series K) (h0 : XSeries.Reach lib s0) :
    (∃ s, pySeries bs = .ok s ∧ s.Over fs) ∧ ∃ s, pySet lib bs s0 = (.ok .none, s) ∧ s.Over fs := by
  obtain ⟨⟨s, e1, e2, _⟩, s', e3, e4, _⟩ := C83_set lib hl fs hg bs hb s0 h0
  exact ⟨⟨s, by simp [pySeries, e1], e2⟩, s', by simp [pySet, XSeries.voidM, e3]; rfl, e4⟩

/-- **C84** violated: a series without basis sets cannot be made; `linear_index` of every series raises `AttributeError`; the derivatives
of single basis functions call the C function with too many arguments. -/
theorem C84_series_methods_violated (s : Series K) (t : List Int) (x : List K) (b u di dj : Int) :
    pySeries ([] : List (XBasis K)) = .error (.cpp (.ub .oob)) ∧ (PySer.sem (.linearIndex t) s).1 = .error .attributeError ∧
    (PySer.sem (.calcBasisGrad b u x di) s).1 = .error (.cpp (.ub .badCall)) ∧
    (PySer.sem (.calcBasisHess b u x di dj) s).1 = .error (.cpp (.ub .badCall)) := ⟨rfl, rfl, rfl, rfl⟩

/-! ### C85 -/

/-- The values of the series printed by `fmt` are words that `parse` reads back. -/
def PyReads (fmt : K → List Char) (parse : List Char → Option K) (fs : List (Family K)) (s : Series K) : Prop :=
  ∀ t y, InBox (extents fs) t → s.coeff.get t = .ok y → parse (fmt y) = some y ∧ fmt y ≠ [] ∧ ∀ c ∈ fmt y, ¬ Blank c

/-- **C85** Python's `print_coeff` writes the text that `print_coeff` writes in C++ (if `str` formats the values as the stream does). -/
theorem C85_same_text (fmt : K → List Char) (fs : List (Family K)) (hg : GoodDims (extents fs)) (s : Series K) (hs : s.Over fs) :
    ∃ text, s.printCoeff fmt = .ok text ∧ pyPrint fmt s = .ok text := by
  have hw := hs.wf hg
  have hp := prod_pos hg.2.1
  have e1 := Series.printLoop_of fmt hw (prod (extents fs)).toNat 0 (List.replicate fs.length 0)
    (by show ((0 : Nat) : Int) + _ = prod (extents fs); omega) (by simp)
  refine ⟨_, by rw [Series.printCoeff, hw.order, hw.shaped.vol_eq]; exact e1, ?_⟩
  · have e : pyInt (PySer.sem .volume s) = .ok (prod (extents fs)) := by
      simp only [PySer.sem, pySerC, pyCall, apiSem, XSeries.api, XSeries.constM, Except.map, XOut.toPy, pyInt, hw.shaped.vol_eq]
      rfl
    simp only [pyPrint, e]
    exact pyPrintLoop_of fmt hw (prod (extents fs)).toNat 0 (by show ((0 : Nat) : Int) + _ = prod (extents fs); omega)

/-- **C85** Reading the text printed by one series, in C++ or Python, into another of the same shape from Python gives every coefficient
its printed value, and leaves the rest of the file. -/
theorem C85_python_reads (fmt : K → List Char) (parse : List Char → Option K) (fs : List (Family K)) (hg : GoodDims (extents fs))
    (s s' : Series K) (hs : s.Over fs) (hs' : s'.Over fs) (hf : PyReads fmt parse fs s) (text : List Char)
    (ht : s.printCoeff fmt = .ok text) (rest : List Char) :
    ∃ s'', pyRead parse (text ++ rest) s' = (.ok rest, s'') ∧ ∀ t, InBox (extents fs) t → s''.coeff.get t = s.coeff.get t := by
  have hw := hs.wf hg
  have hw' := hs'.wf hg
  have hp := prod_pos hg.2.1
  have e1 := Series.printLoop_of fmt hw (prod (extents fs)).toNat 0 (List.replicate fs.length 0)
    (by show ((0 : Nat) : Int) + _ = prod (extents fs); omega) (by simp)
  rw [Series.printCoeff, hw.order, hw.shaped.vol_eq] at ht
  have ht := Except.ok.inj (e1.symm.trans ht)
  have e : pyInt (PySer.sem .volume s') = .ok (prod (extents fs)) := by
    simp only [PySer.sem, pySerC, pyCall, apiSem, XSeries.api, XSeries.constM, Except.map, XOut.toPy, pyInt, hw'.shaped.vol_eq]
    rfl
  obtain ⟨s'', f1, f2, _, f4⟩ := pyReadLoop_lines (z := 0) (e := 1) (fs := fs) (fmt := fmt) (parse := parse) (fun l => s.coeff.val.getD l 0)
    (fun l => digits (extents fs) (l : Int)) (prod (extents fs)).toNat (fun l hl' => by
      have hl : (l : Int) < prod (extents fs) := by omega
      have hbox := digits_inBox hg.2.1 (l := (l : Int)) (by omega) hl
      obtain ⟨y, hy, hy'⟩ := NDArray.get_of hw.shaped hg hbox
      have hdd : dot (extents fs) (digits (extents fs) (l : Int)) = l := dot_digits hg.2.1 (by omega) hl
      rw [show sizesOf fs = extents fs from rfl, hdd, Int.toNat_natCast] at hy'
      simp only [List.getD_eq_getElem?_getD, hy', Option.getD_some]
      exact hf _ y hbox hy) rest 0 (prod (extents fs)).toNat 0 s' hw' (by show ((0 : Nat) : Int) + _ ≤ prod (extents fs); omega) (by omega)
  refine ⟨s'', ?_, fun t htb => ?_⟩
  · simp only [pyRead, e]
    rw [← ht]
    exact f1
  · obtain ⟨y, hy, hy'⟩ := NDArray.get_of hw.shaped hg htb
    obtain ⟨u, hu, hu'⟩ := NDArray.get_of f2.shaped hg htb
    have h0 := dot_nonneg hg.2.1 htb
    have h1 := dot_lt hg.2.1 htb
    rw [hy, hu]
    rw [show sizesOf fs = extents fs from rfl] at *
    rw [f4 _ (by omega) (by omega)] at hu'
    simp only [List.getD_eq_getElem?_getD, hy', Option.getD_some, Option.some.injEq] at hu'
    rw [hu']

/-- **C85** What Python prints, C++ reads. -/
theorem C85_cpp_reads (fmt : K → List Char) (scan : List Char → Option K × List Char) (fs : List (Family K)) (hg : GoodDims (extents fs))
    (s s' : Series K) (hs : s.Over fs) (hs' : s'.Over fs) (text : List Char) (ht : pyPrint fmt s = .ok text)
    (hfmt : ∀ t y, InBox (extents fs) t → s.coeff.get t = .ok y → Denotes scan (fmt y) y) :
    ∃ sin s'', s'.readCoeff scan (IStream.ofText text) = .ok (sin, s'') ∧ ∀ t, InBox (extents fs) t → s''.coeff.get t = s.coeff.get t := by
  obtain ⟨text', h1, h2⟩ := C85_same_text fmt fs hg s hs
  have := Except.ok.inj (h2.symm.trans ht)
  subst this
  obtain ⟨text'', k1, k2⟩ := C53_round_trip fmt scan fs hg s s' hs hs' hfmt
  have := Except.ok.inj (h1.symm.trans k1)
  subst this
  obtain ⟨sin, s'', w, m1, m2, _⟩ := k2 []
  rw [List.append_nil] at m1
  exact ⟨sin, s'', m1, m2⟩

/-- **C85** A file that ends after fewer lines than there are coefficients raises `IndexError` in Python. -/
theorem C85_truncated (fmt : K → List Char) (parse : List Char → Option K) (fs : List (Family K)) (hg : GoodDims (extents fs))
    (s' : Series K) (hs' : s'.Over fs) (lines : List (List Int × K)) (hlt : (lines.length : Int) < prod (extents fs))
    (hf : ∀ p ∈ lines, parse (fmt p.2) = some p.2 ∧ fmt p.2 ≠ [] ∧ ∀ c ∈ fmt p.2, ¬ Blank c) :
    (pyRead parse (lines.flatMap fun p => Series.printLine fmt p.1 p.2) s').1 = .error .indexError := by
  have hw' := hs'.wf hg
  have e : pyInt (PySer.sem .volume s') = .ok (prod (extents fs)) := by
    simp only [PySer.sem, pySerC, pyCall, apiSem, XSeries.api, XSeries.constM, Except.map, XOut.toPy, pyInt, hw'.shaped.vol_eq]
    rfl
  have hflat : (lines.flatMap fun p => Series.printLine fmt p.1 p.2) = ((List.range lines.length).flatMap fun l =>
      Series.printLine fmt (lines.getD (0 + l) ([], 0)).1 (lines.getD (0 + l) ([], 0)).2) ++ [] := by
    have hr : lines = (List.range lines.length).map fun l => lines.getD (0 + l) ([], 0) := by
      refine List.ext_getElem (by simp) fun i h1 h2 => ?_
      simp [h1]
    conv_lhs => rw [hr]
    rw [List.flatMap_map, List.append_nil]
  obtain ⟨s'', f1, _⟩ := pyReadLoop_lines (z := 0) (e := 1) (fs := fs) (fmt := fmt) (parse := parse) (fun l => (lines.getD l ([], 0)).2)
    (fun l => (lines.getD l ([], 0)).1) lines.length (fun l hl => hf _ (by simp [hl])) []
    ((prod (extents fs)).toNat - lines.length) lines.length 0 s' hw' (by show ((0 : Nat) : Int) + _ ≤ prod (extents fs); omega) (by omega)
  simp only [pyRead, e]
  rw [hflat]
  rw [show lines.length + ((prod (extents fs)).toNat - lines.length) = (prod (extents fs)).toNat by omega] at f1
  rw [f1]
  obtain ⟨k, hk⟩ : ∃ k, (prod (extents fs)).toNat - lines.length = k + 1 := ⟨_, (Nat.succ_pred_eq_of_pos (by omega)).symm⟩
  rw [hk]
  rfl

end

/-! ### Non-vacuity -/

open ExternDemo

/-- **C84** applies to `x^2`: after `eval([3])` and `calc_grad([5], 0)`, `get()` is 9. -/
example : (flexPy (CCall.calc [3] (.g 0)).toPy sq).1 = .ok (.num 6) ∧
    (flexPy .get (pyRun flexPy ([CCall.eval [3] .f, .calc [5] (.g 0)].map CCall.toPy) sq).2).1 = .ok (.num 9) ∧
    (flexPy .name sq).1 = .error (.cpp (.ub .oob)) := by
  refine ⟨?_, ?_, ?_⟩
  · refine ((C84_function_partial _ _ _ _ _ sq_make [] (by simp) (by simp)).1 [3] (.g 0) (by simp [Comp.Exists])).1.trans ?_
    decide +kernel
  · refine (C84_function_partial _ _ _ _ _ sq_make [.eval [3] .f, .calc [5] (.g 0)] (by simp [CCall.comp, Comp.Exists])
      (by simp [CCall.NoDerivGetter])).2.1.trans ?_
    decide +kernel
  · rfl

/-- **C84** applies to `x^2` as a `PSimple_dsd`. -/
example : ∃ q, pyCall simpleDsd (PySimple.toDsd (.calc [3])) (obj fun x => x * x) = (.ok (.num 9), q) ∧
    (pyCall simpleDsd (PySimple.toDsd .get) q).1 = .ok (.num 9) :=
  (C84_simple_partial (obj fun x => x * x) ⟨"", some fun x => .ok x, none, none, none, none⟩ [3] 0 9).1 (by decide +kernel)

/-- **C84** applies: a series made in Python, one coefficient set; `order()` and `volume()`. -/
example : ∃ s, pySeries [b2, b3] = .ok s ∧ (PySer.sem .volume (pyRun PySer.sem [.setTensorCoeff [1, 2] 5, .eval [2, 3]] s).2).1 = .ok (.int 6) ∧
    (PySer.sem .order (pyRun PySer.sem [.setTensorCoeff [1, 2] 5, .eval [2, 3]] s).2).1 = .ok (.int 2) := by
  obtain ⟨⟨s, e1, e2⟩, _⟩ := C84_series_set_partial lib lib_named _ (Demo.good ℚ) _ has XSeries.fresh .new
  obtain ⟨c, _, h2, h3, _⟩ := C84_series_partial _ (Demo.good ℚ) s e2 [.setTensorCoeff [1, 2] 5, .eval [2, 3]] (by simp [PySer.Sound])
  exact ⟨s, e1, h3.trans (by decide +kernel), h2⟩

/-- A format for natural numbers and `float` of it. -/
example : ∃ (fmt : ℚ → List Char) (parse : List Char → Option ℚ), PyReads fmt parse (Demo.fams ℚ) (Demo.ser ℚ) ∧
    pyPrint fmt (Demo.ser ℚ) = .ok "0 0 0\n0 1 0\n0 2 0\n1 0 0\n1 1 0\n1 2 5\n".toList ∧
    (∃ s'', pyRead parse ("0 0 0\n0 1 0\n0 2 0\n1 0 0\n1 1 0\n1 2 5\nend".toList) (Demo.ser0 ℚ) = (.ok "end".toList, s'')) ∧
    (pyRead parse ("0 0 0\n0 1 0\n".toList) (Demo.ser0 ℚ)).1 = .error .indexError := by
  refine ⟨fun y => if y = 5 then ['5'] else ['0'], fun t => if t = ['5'] then some 5 else if t = ['0'] then some 0 else none, ?_, ?_,
    ⟨_, rfl⟩, ?_⟩
  · intro t y ht hy
    rw [Demo.ser_coeffs t ht] at hy
    cases hy
    dsimp only
    by_cases h : t = [1, 2] <;> simp [h, Blank]
  · decide +kernel
  · decide +kernel

end Verif
