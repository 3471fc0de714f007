import Verif.Lemmas.Func
import Verif.Props.Handle

/-!
# Properties C42-C44, C72: functions with gradient and Hessian
-/

namespace Verif
open Spec
variable {V O : Type}

/-- Handles holding the given functions. -/
abbrev hs (l : List (SObj V O)) : List (SFun V O) := l.map some

/-- **C42** Constructing a `PFlexFunction` from functions, or setting one that exists (in whatever state), succeeds iff descriptions,
gradient, Hessian rows and the entries of every row are as many as the variables; otherwise the program exits with status 1. -/
theorem C42_accepts_iff (old : Flex V O) (b : FBase) (f : SObj V O) (g : List (SObj V O)) (h : List (List (SObj V O))) :
    let n := b.varName.length
    let consistent := b.varDesc.length = n ∧ g.length = n ∧ h.length = n ∧ ∀ r ∈ h, r.length = n
    (consistent → ∃ p, Flex.make b (some f) (hs g) (h.map hs) = .ok p ∧ old.set b (some f) (hs g) (h.map hs) = .ok p ∧
      (Flex.sem .size p).1 = .ok (.size n)) ∧
    (¬ consistent → Flex.make b (some f) (hs g) (h.map hs) = .error (.exit 1) ∧
      old.set b (some f) (hs g) (h.map hs) = .error (.exit 1)) := by
  have hv : ∀ (old : List (SFun V O)) (l : List (SObj V O)), SFun.vecAssign old (hs l) = .ok (hs l) := by
    intro old l
    induction l generalizing old with
    | nil => simp [SFun.vecAssign]
    | cons a l ih => cases old <;> simp_all [SFun.vecAssign, SFun.assign, hs]
  have hv2 : ∀ (old : List (List (SFun V O))) (l : List (List (SObj V O))), SFun.vecAssign2 old (l.map hs) = .ok (l.map hs) := by
    intro old l
    induction l generalizing old with
    | nil => simp [SFun.vecAssign2]
    | cons a l ih => cases old with
      | nil => simp [SFun.vecAssign2]
      | cons o old =>
        simp only [List.map_cons, SFun.vecAssign2, hv, ok_bind]
        rw [ih]; rfl
  have hset : old.set b (some f) (hs g) (h.map hs) = Flex.make b (some f) (hs g) (h.map hs) := by
    simp only [Flex.set, SFun.assign, hv, hv2, ok_bind, Flex.make]
    cases (Flex.check ⟨b, some f, hs g, h.map hs⟩) <;> rfl
  intro n consistent
  have hc : consistent ↔ sizesOk b (hs g) (h.map hs) := by
    simp only [consistent, n, sizesOk, hs, List.length_map, List.mem_map, forall_exists_index, and_imp, forall_apply_eq_imp_iff₂]
  have hck := check_eq (⟨b, some f, hs g, h.map hs⟩ : Flex V O)
  rw [hset]
  constructor
  · intro h1
    refine ⟨⟨b, some f, hs g, h.map hs⟩, ?_, ?_, rfl⟩ <;> simp only [Flex.make, hck.1 (hc.mp h1)]
  · intro h1
    constructor <;> simp only [Flex.make, hck.2 fun h2 => h1 (hc.mpr h2)]

/-- **C42** After a successful construction every component can be evaluated, at any time: the result is the component function's
value (or its exception). -/
theorem C42_components (b : FBase) (f : SObj V O) (g : List (SObj V O)) (h : List (List (SObj V O))) (p : Flex V O)
    (hp : Flex.make b (some f) (hs g) (h.map hs) = .ok p) (calls : List (FCall V)) (hcalls : ∀ c ∈ calls, c.InRange b.varName.length)
    (v : V) (c : Comp) (hc : (getter c : FCall V).InRange b.varName.length) :
    (Flex.sem (single v c) (runCalls Flex.sem calls p).2).1 =
      (compFn f.evalFn (g.map SObj.evalFn) (h.map fun r => r.map SObj.evalFn) c v).map .num := by
  have hck := check_eq (⟨b, some f, hs g, h.map hs⟩ : Flex V O)
  have hs' : sizesOk b (hs g) (h.map hs) ∧ p = ⟨b, some f, hs g, h.map hs⟩ := by
    by_cases hs' : sizesOk b (hs g) (h.map hs)
    · simp only [Flex.make, hck.1 hs'] at hp; cases hp; exact ⟨hs', rfl⟩
    · simp only [Flex.make, hck.2 hs'] at hp; cases hp
  obtain ⟨⟨_, h2, h3, h4⟩, rfl⟩ := hs'
  have hrep := flexRep_mk b f g h (by simpa [hs] using h2) (by simpa using h3) (fun r hr => by simpa [hs] using h4 (hs r) (List.mem_map_of_mem hr))
  exact ((hrep.run calls hcalls).single v c hc)

/-- **C43** The getters return the last evaluation: after any history of calls, `operator()()`, `grad(di)`, `hess(di,dj)` return the
component function's value at the point where that component was last evaluated. If it never was, they return the value stored in
the function given to the constructor (`SObj.get`, uninitialised for a function that was never evaluated). -/
theorem C43_getters (b : FBase) (f : SObj V O) (g : List (SObj V O)) (h : List (List (SObj V O))) (p : Flex V O)
    (hp : Flex.make b (some f) (hs g) (h.map hs) = .ok p) (calls : List (FCall V)) (hcalls : ∀ c ∈ calls, c.InRange b.varName.length)
    (c : Comp) (hc : (getter c : FCall V).InRange b.varName.length) :
    let F := compFn f.evalFn (g.map SObj.evalFn) (h.map fun r => r.map SObj.evalFn)
    (runCalls Flex.sem (calls ++ [getter c]) p).1.getLast? =
      match lastEval F b.varName.length c calls none with
      | some v => some ((F c v).map .num)
      | none => some (Except.map .num (match storedVal f g h c with | some y => .ok y | none => .error (.ub .uninit))) := by
  have hck := check_eq (⟨b, some f, hs g, h.map hs⟩ : Flex V O)
  have hs' : sizesOk b (hs g) (h.map hs) ∧ p = ⟨b, some f, hs g, h.map hs⟩ := by
    by_cases hs' : sizesOk b (hs g) (h.map hs)
    · simp only [Flex.make, hck.1 hs'] at hp; cases hp; exact ⟨hs', rfl⟩
    · simp only [Flex.make, hck.2 hs'] at hp; cases hp
  obtain ⟨⟨_, h2, h3, h4⟩, rfl⟩ := hs'
  have hrep := flexRep_mk b f g h (by simpa [hs] using h2) (by simpa using h3) (fun r hr => by simpa [hs] using h4 (hs r) (List.mem_map_of_mem hr))
  intro F
  rw [run_snoc, (hrep.run calls hcalls).getter c hc]
  have hl := foldl_lastEval (n := b.varName.length) (F := F) c calls (storedVal f g h) (storedVal f g h) none rfl
  cases he : lastEval F b.varName.length c calls none with
  | none => rw [he] at hl; simp only at hl; rw [hl]; rfl
  | some v =>
    rw [he] at hl
    obtain ⟨y, hy, hst⟩ := hl
    simp only
    rw [hst, hy]

/-- **C44** A member of a function class that is not overridden throws `std::runtime_error` and changes nothing, whatever the class
(`ov`), its state and the arguments. -/
theorem C44_undefined_throws {σ : Type} (base : σ → FBase) (ov : Overrides σ V O) (c : FCall V) (s : σ)
    (hc : c ∉ ([.name, .size, .varNames, .varDescs] : List (FCall V))) (hi : ∀ i, c ≠ .varName i ∧ c ≠ .varDesc i)
    (hov : ov c = none) : FBase.sem base ov c s = (.error .runtimeError, s) := by
  cases c <;> simp_all [FBase.sem]

/-- **C44** A `PFuncBase` itself reports its name and variables, throws `std::runtime_error` for everything else, and never changes, in every
history of calls. -/
theorem C44_plain (calls : List (FCall V)) (b : FBase) :
    (runCalls (FBase.plain (O := O)) calls b).2 = b ∧
    (runCalls (FBase.plain (O := O)) calls b).1 = calls.map fun
      | .name => .ok (.str b.name)
      | .size => .ok (.size b.varName.length)
      | .varNames => .ok (.strs b.varName)
      | .varDescs => .ok (.strs b.varDesc)
      | .varName i => (vget b.varName i).map .str
      | .varDesc i => (vget b.varDesc i).map .str
      | _ => .error .runtimeError := by
  induction calls with
  | nil => exact ⟨rfl, rfl⟩
  | cons c cs ih =>
    have h : ((FBase.plain (V := V) (O := O)) c b).2 = b := by cases c <;> rfl
    simp only [runCalls, h]
    refine ⟨ih.1, ?_⟩
    rw [List.map_cons, ← ih.2]
    congr 1
    cases c <;> rfl

example : (runCalls (FBase.plain (V := Int) (O := Int)) [.size, .evalAt 3, .name] ⟨"f", ["x"], ["a variable"]⟩).1 =
    [.ok (.size 1), .error .runtimeError, .ok (.str "f")] := rfl

/-- **C44** The same for simple functions: `eval`, `csrc`, `sym`, `latex`. -/
theorem C44_simple_undefined (o : SObj V O) :
    (o.fn = none → ∀ v, SObj.sem (.evalAt v) o = (.error .runtimeError, o) ∧ SObj.sem (.eval v) o = (.error .runtimeError, o)) ∧
    (o.csrc = none → SObj.sem .csrc o = (.error .runtimeError, o)) ∧
    (o.sym = none → SObj.sem .sym o = (.error .runtimeError, o)) ∧
    (o.latex = none → SObj.sem .latex o = (.error .runtimeError, o)) := by
  refine ⟨fun h v => ?_, fun h => ?_, fun h => ?_, fun h => ?_⟩
  · simp [SObj.sem, SObj.evalAt, SObj.evalFn, h, Except.map]
  all_goals simp [SObj.sem, SObj.text, h]

/-- **C44** Through a handle: an undefined member called on a `PFunction` throws, and the history goes on as if it had not been
called. -/
theorem C44_through_handle {σ : Type} (base : σ → FBase) (ov : Overrides σ V O) (c : FCall V)
    (hc : c ∉ ([.name, .size, .varNames, .varDescs] : List (FCall V))) (hi : ∀ i, c ≠ .varName i ∧ c ≠ .varDesc i)
    (hov : ov c = none) (s : σ) (later : List (FCall V)) :
    (Mem.start.run (FBase.sem base ov) (.ofObj s :: .call 0 c :: later.map (.call 0))).1 =
      .ok none :: .error .runtimeError ::
        (Mem.start.run (FBase.sem base ov) (.ofObj s :: later.map (.call 0))).1.tail := by
  simp [Mem.run, Mem.step, Mem.start, Mem.objCtor, Mem.alloc, Mem.push, Mem.forward, Mem.ptr, Mem.deref,
    C44_undefined_throws base ov c s hc hi hov, Except.map]

/-- **C72** (full statement) The operations that manage a `PFlexFunction` work: `clear()` gives the state of a default-constructed one,
`p = q` makes `p` equal to `q`, copying gives an equal function. -/
def C72_statement (V O : Type) : Prop :=
  ∀ p q : Flex V O, p.clear = .ok Flex.empty ∧ p.assign q = .ok q ∧ q.copyCtor = .ok q

/-- **C72** violated: `clear()` dereferences NULL on every function. -/
theorem C72_clear_violated (p : Flex V O) : p.clear = .error (.ub .nullDeref) := rfl

/-- **C72** violated: assignment never returns (it flows off the end, or dereferences NULL before). -/
theorem C72_assign_violated (p q : Flex V O) : ∃ u, p.assign q = .error (.ub u) := by
  have hv : ∀ (a b : List (SFun V O)) e, SFun.vecAssign a b = .error e → ∃ u, e = .ub u := by
    intro a b
    induction b generalizing a with
    | nil => intro e he; simp [SFun.vecAssign] at he
    | cons x b ih =>
      intro e he
      cases a with
      | nil => simp [SFun.vecAssign] at he
      | cons y a =>
        simp only [SFun.vecAssign] at he
        cases x with
        | none => simp only [SFun.assign, err_bind] at he; cases he; exact ⟨_, rfl⟩
        | some o =>
          simp only [SFun.assign, ok_bind] at he
          cases hr : SFun.vecAssign a b with
          | error e' => rw [hr] at he; simp only [err_bind] at he; cases he; exact ih a _ hr
          | ok l => rw [hr] at he; cases he
  have hv2 : ∀ (a b : List (List (SFun V O))) e, SFun.vecAssign2 a b = .error e → ∃ u, e = .ub u := by
    intro a b
    induction b generalizing a with
    | nil => intro e he; simp [SFun.vecAssign2] at he
    | cons x b ih =>
      intro e he
      cases a with
      | nil => simp [SFun.vecAssign2] at he
      | cons y a =>
        simp only [SFun.vecAssign2] at he
        cases hx : SFun.vecAssign y x with
        | error e' => rw [hx] at he; simp only [err_bind] at he; cases he; exact hv _ _ _ hx
        | ok l =>
          rw [hx] at he; simp only [ok_bind] at he
          cases hr : SFun.vecAssign2 a b with
          | error e' => rw [hr] at he; simp only [err_bind] at he; cases he; exact ih a _ hr
          | ok l => rw [hr] at he; cases he
  simp only [Flex.assign]
  cases h1 : p.val.assign q.val with
  | error e =>
    cases hq : q.val <;> rw [hq] at h1 <;> simp only [SFun.assign] at h1 <;> cases h1
    exact ⟨_, rfl⟩
  | ok f =>
    simp only [ok_bind]
    cases h2 : SFun.vecAssign p.grad q.grad with
    | error e => obtain ⟨u, rfl⟩ := hv _ _ _ h2; exact ⟨u, rfl⟩
    | ok g =>
      simp only [ok_bind]
      cases h3 : SFun.vecAssign2 p.hess q.hess with
      | error e => obtain ⟨u, rfl⟩ := hv2 _ _ _ h3; exact ⟨u, rfl⟩
      | ok h => exact ⟨_, rfl⟩

/-- **C72** violated: a default-constructed function cannot be copied. -/
theorem C72_copy_violated : (Flex.empty : Flex V O).copyCtor = .error (.ub .nullDeref) := rfl

/-- **C72** partial: a function with a value part is copied faithfully (and so can be put into a `PFunction`, which clones). -/
theorem C72_copy_partial (q : Flex V O) (hq : q.val ≠ none) : q.copyCtor = .ok q := by
  obtain ⟨b, f, g, h⟩ := q
  cases f with
  | none => simp at hq
  | some f =>
    cases g <;> cases h <;> rfl

/-- A quadratic with its derivatives. -/
def Demo.quad : Flex Int Int :=
  ⟨⟨"quad", ["x"], ["x variable"]⟩, some Demo.square, [some ⟨"dq", some fun x => .ok (2 * x), none, none, none, none⟩],
    [[some ⟨"ddq", some fun _ => .ok 2, none, none, none, none⟩]]⟩

/-- The constructor accepts it; after `grad(3,0)`, `eval_hess(7)`, `eval(5)`, reading a Hessian entry: the getter of the gradient gives 6. -/
example : Flex.make Demo.quad.base Demo.quad.val Demo.quad.grad Demo.quad.hess = .ok Demo.quad ∧
    (runCalls Flex.sem ([.gradAt 3 0, .evalHess 7, .eval 5, .getHess 0 0] ++ [getter (.g 0)]) Demo.quad).1.getLast?
      = some (.ok (.num 6)) := by
  refine ⟨rfl, ?_⟩
  refine (C43_getters Demo.quad.base Demo.square [⟨"dq", some fun x => .ok (2 * x), none, none, none, none⟩]
    [[⟨"ddq", some fun _ => .ok 2, none, none, none, none⟩]] Demo.quad rfl _ ?_ (.g 0) ?_).trans ?_
  · simp [FCall.InRange, Demo.quad]
  · simp [FCall.InRange, Demo.quad, getter]
  · rfl

/-- Non-vacuity of C72: a copy of it behaves like it. -/
example : Demo.quad.copyCtor = .ok Demo.quad := C72_copy_partial _ (by simp [Demo.quad])

/-- A second variable without derivatives is refused. -/
example : Flex.make ⟨"quad", ["x", "y"], ["", ""]⟩ Demo.quad.val Demo.quad.grad Demo.quad.hess = .error (.exit 1) := by rfl

/-- A plain `PFuncBase` overrides nothing. -/
example : (FBase.plain (V := Int) (O := Int) (.gradAt 3 0) ⟨"f", ["x"], [""]⟩).1 = .error .runtimeError :=
  by rw [FBase.plain, C44_undefined_throws] <;> simp

end Verif
