import Verif.Lemmas.ElemObject
import Verif.Props.Interp
import Verif.Props.TestlibPiecewise

/-!
# Property C103: the element functions `Quad` and `Hexahedron` as functions of `(r, n, h, s)`

The specification is `Spec/ElemFn.lean`. `runCalls Elem.sem calls Elem.quad` is the history `calls` on a new `Quad`.
-/

namespace Verif
open Spec
section
variable {K : Type} [Field K]

/-- The call that asks for the simple function of a component. -/
def componentOf {V : Type} : Comp → FCall V
  | .f => .simple
  | .g i => .gradSimple i
  | .h i j => .hessSimple i j

/-- **C103** (full statement) After any history of calls on a new object `o` of an element class of dimension `d`: evaluation gives the
element function and its derivatives; a getter gives the component where it was evaluated last, by `grad(var,i)`, `eval_grad(var)` etc.;
`eval`, `eval_grad` and `eval_hess` return; the simple functions are the components, holding what the getter returns; and the name and the
variables are those of the class. -/
def C103_statement (d : Nat) (name : String) (o : Flex (List (Fin d → K)) K) : Prop :=
  ∀ calls : List (FCall (List (Fin d → K))), (∀ c ∈ calls, c.ElemOk d List.length) →
    let now := (runCalls Elem.sem calls o).2
    (∀ c, (getter c : FCall (List (Fin d → K))).InRange d →
      (∀ r n h s rest, (Elem.sem (single (r :: n :: h :: s :: rest) c) now).1 = .ok (.num (tentPart r n h s c))) ∧
      (∀ r n h s rest, lastAt d c calls none = some (r :: n :: h :: s :: rest) →
        (Elem.sem (getter c) now).1 = .ok (.num (tentPart r n h s c))) ∧
      ∃ f, (Elem.sem (componentOf c) now).1 = .ok (.simple (some f)) ∧ (Elem.sem (getter c) now).1 = f.get.map .num ∧
        ∀ r n h s rest, (f.evalAt (r :: n :: h :: s :: rest)).1 = .ok (tentPart r n h s c)) ∧
    (∀ v : List (Fin d → K), 4 ≤ v.length → (Elem.sem (.eval v) now).1 = .ok .void ∧ (Elem.sem (.evalGrad v) now).1 = .ok .void ∧
      (Elem.sem (.evalHess v) now).1 = .ok .void) ∧
    (Elem.sem .name now).1 = .ok (.str name) ∧ (Elem.sem .varNames now).1 = .ok (.strs ["r", "n", "h", "s"]) ∧
    (Elem.sem .size now).1 = .ok (.size 4)

theorem Elem.base_step {V O : Type} (c : FCall V) (p : Flex V O) : (Elem.sem c p).2.base = p.base := by
  have hg : ∀ (p : Flex V O) v i, (p.gradAt v i).2.base = p.base := by
    intro p v i; simp only [Flex.gradAt]; split <;> rfl
  have hh : ∀ (p : Flex V O) v i j, (p.hessAt v i j).2.base = p.base := by
    intro p v i j; simp only [Flex.hessAt]; split
    · rfl
    · split <;> rfl
  have hst : ∀ (fs : List (Flex V O → Res O × Flex V O)), (∀ f ∈ fs, ∀ p, (f p).2.base = p.base) → ∀ p, (Elem.stmts fs p).2.base = p.base := by
    intro fs
    induction fs with
    | nil => intro _ p; rfl
    | cons f fs ih =>
      intro hf p
      simp only [Elem.stmts]
      have h1 := hf f (by simp) p
      cases hfp : f p with
      | mk r p' =>
        rw [hfp] at h1
        cases r with
        | ok _ => simp only; rw [ih (fun g hg => hf g (by simp [hg])) p']; exact h1
        | error e => exact h1
  cases c with
  | evalGrad v => exact hst _ (by simp [hg]) p
  | evalHess v => exact hst _ (by simp [hh]) p
  | gradAt v i => exact hg p v i
  | hessAt v i j => exact hh p v i j
  | _ => rfl

theorem Elem.base_run {V O : Type} (cs : List (FCall V)) : ∀ p : Flex V O, (runCalls Elem.sem cs p).2.base = p.base := by
  induction cs with
  | nil => intro p; rfl
  | cons c cs ih => intro p; exact (ih _).trans (Elem.base_step c p)

/-- What holds of both classes; `part` are the components as computed, and `lastAt 2`: `eval_grad` and `eval_hess` evaluate in two
directions. -/
theorem Elem.facts {d : Nat} (hd : 2 ≤ d) {F : Comp → List (Fin d → K) → Res K} {o : Flex (List (Fin d → K)) K} {nm : String}
    (hb : o.base = Elem.base nm) (hrep : FlexRep d F (fun _ => none) o) (hT : Elem.Total d List.length F)
    (part : (r n h s : Fin d → K) → Comp → K)
    (hp : ∀ r n h s rest c, (getter c : FCall (List (Fin d → K))).InRange d → F c (r :: n :: h :: s :: rest) = .ok (part r n h s c))
    (calls : List (FCall (List (Fin d → K)))) (hc : ∀ c ∈ calls, c.ElemOk d List.length) :
    let now := (runCalls Elem.sem calls o).2
    (∀ c, (getter c : FCall (List (Fin d → K))).InRange d →
      (∀ r n h s rest, (Elem.sem (single (r :: n :: h :: s :: rest) c) now).1 = .ok (.num (part r n h s c))) ∧
      (∀ r n h s rest, lastAt 2 c calls none = some (r :: n :: h :: s :: rest) →
        (Elem.sem (getter c) now).1 = .ok (.num (part r n h s c))) ∧
      ∃ f, (Elem.sem (componentOf c) now).1 = .ok (.simple (some f)) ∧ (Elem.sem (getter c) now).1 = f.get.map .num ∧
        ∀ r n h s rest, (f.evalAt (r :: n :: h :: s :: rest)).1 = .ok (part r n h s c)) ∧
    (∀ v : List (Fin d → K), 4 ≤ v.length → (Elem.sem (.eval v) now).1 = .ok .void ∧ (Elem.sem (.evalGrad v) now).1 = .ok .void ∧
      (Elem.sem (.evalHess v) now).1 = .ok .void) ∧
    (Elem.sem .name now).1 = .ok (.str nm) ∧ (Elem.sem .varNames now).1 = .ok (.strs ["r", "n", "h", "s"]) ∧
    (Elem.sem .size now).1 = .ok (.size 4) := by
  intro now
  have hr := Elem.run_rep hd hT calls hrep hc
  have hbase : now.base = Elem.base nm := (Elem.base_run calls o).trans hb
  refine ⟨fun c hcr => ⟨fun r n h s rest => ?_, fun r n h s rest hl => ?_, ?_⟩, fun v hv => ⟨?_, ?_, ?_⟩, ?_, ?_, ?_⟩
  · have e := hr.single (r :: n :: h :: s :: rest) c hcr
    rw [hp r n h s rest c hcr] at e
    cases c <;> exact e
  · have e := Elem.run_getter hd hT calls hrep (fun _ => rfl) hc c hcr
    rw [hl] at e
    simp only [hp r n h s rest c hcr] at e
    exact e
  · obtain ⟨b, ⟨f, rfl, h2, h3⟩, e⟩ := Elem.rep_handle hr c hcr
    refine ⟨f, by cases c <;> exact e, ?_, fun r n h s rest => ?_⟩
    · have hs : ∀ q : Flex (List (Fin d → K)) K, Elem.sem (getter c) q = Flex.sem (getter c) q := fun q => by cases c <;> rfl
      rw [hs, hr.getter c hcr, SObj.get, h3]
      cases (calls.foldl (fun st c => callUpd 2 F c st) fun _ => none) c <;> rfl
    · simp only [SObj.evalAt, h2, hp r n h s rest c hcr]
  · obtain ⟨y, hy⟩ := hT .f v trivial hv
    have e := hr.single v .f trivial
    rw [hy] at e
    simp only [single, Flex.sem, FBase.sem, Flex.ov, Except.map] at e
    simp only [Elem.sem, FBase.sem, Elem.ov, Flex.ov]
    show Except.map _ (Flex.evalAt now v).1 = _
    cases hx : (Flex.evalAt now v).1 with
    | ok z => rfl
    | error er => rw [hx] at e; cases e
  · exact (Elem.evalGrad_rep hd hT hr hv).1
  · exact (Elem.evalHess_rep hd hT hr hv).1
  · simp only [Elem.sem, FBase.sem, hbase]; rfl
  · simp only [Elem.sem, FBase.sem, hbase]; rfl
  · simp only [Elem.sem, FBase.sem, hbase]; rfl

/-- **C103** for `Quad`. -/
theorem C103_quad : C103_statement 2 "Quad" (Elem.quad : Flex (List (Fin 2 → K)) K) := by
  intro calls hc
  exact Elem.facts (le_refl _) rfl Elem.quad_rep Elem.quad_total tentPart (fun r n h s rest c hcr => Elem.quadFn_eq r n h s rest c hcr) calls hc

/-- **C103** for `Hexahedron`, partial: values and gradients are right, pure second derivatives are 0 and the mixed ones lack the third
factor; the getters of derivatives in direction 2 are not updated by `eval_grad` and `eval_hess` (`lastAt 2`). -/
theorem C103_hex_partial (calls : List (FCall (List (Fin 3 → K)))) (hc : ∀ c ∈ calls, c.ElemOk 3 List.length) :
    let now := (runCalls Elem.sem calls (Elem.hex : Flex (List (Fin 3 → K)) K)).2
    let part (r n h s : Fin 3 → K) : Comp → K
      | .h i j => if hij : i < 3 ∧ j < 3 then (if i = j then 0 else s ⟨i, hij.1⟩ / h ⟨i, hij.1⟩ * (s ⟨j, hij.2⟩ / h ⟨j, hij.2⟩)) else 0
      | c => tentPart r n h s c
    (∀ c, (getter c : FCall (List (Fin 3 → K))).InRange 3 →
      (∀ r n h s rest, (Elem.sem (single (r :: n :: h :: s :: rest) c) now).1 = .ok (.num (part r n h s c))) ∧
      (∀ r n h s rest, lastAt 2 c calls none = some (r :: n :: h :: s :: rest) →
        (Elem.sem (getter c) now).1 = .ok (.num (part r n h s c))) ∧
      ∃ f, (Elem.sem (componentOf c) now).1 = .ok (.simple (some f)) ∧ (Elem.sem (getter c) now).1 = f.get.map .num ∧
        ∀ r n h s rest, (f.evalAt (r :: n :: h :: s :: rest)).1 = .ok (part r n h s c)) ∧
    (∀ v : List (Fin 3 → K), 4 ≤ v.length → (Elem.sem (.eval v) now).1 = .ok .void ∧ (Elem.sem (.evalGrad v) now).1 = .ok .void ∧
      (Elem.sem (.evalHess v) now).1 = .ok .void) ∧
    (Elem.sem .name now).1 = .ok (.str "Hexahedron") ∧ (Elem.sem .varNames now).1 = .ok (.strs ["r", "n", "h", "s"]) ∧
    (Elem.sem .size now).1 = .ok (.size 4) := by
  intro now part
  have hpart : part = Elem.hexPart := by
    funext r n h s c; cases c <;> rfl
  rw [hpart]
  exact Elem.facts (by omega) rfl Elem.hex_rep Elem.hex_total Elem.hexPart (fun r n h s rest c hcr => Elem.hexFn_eq r n h s rest c hcr) calls hc

/-- **C103** violated by `Hexahedron`: after `grad(v,2)` and `eval_grad(w)` the getter `grad(2)` still returns the derivative at `v`; and the
mixed second derivative lacks a factor at every point where that factor is not 1. -/
theorem C103_hex_violated (r n h s r' n' h' s' : Fin 3 → K) :
    (runCalls Elem.sem [.gradAt [r, n, h, s] 2, .evalGrad [r', n', h', s'], .getGrad 2] (Elem.hex : Flex (List (Fin 3 → K)) K)).1 =
      [.ok (.num (tentGrad r n h s 2)), .ok .void, .ok (.num (tentGrad r n h s 2))] ∧
    (h 0 ≠ 0 → h 1 ≠ 0 → s 0 ≠ 0 → s 1 ≠ 0 → s 2 * (r 2 - n 2) / h 2 ≠ 0 →
      (Elem.sem (.hessAt [r, n, h, s] 0 1) (Elem.hex : Flex (List (Fin 3 → K)) K)).1 ≠ .ok (.num (tentHess r n h s 0 1))) := by
  have hfacts := fun cs hc => Elem.facts (nm := "Hexahedron") (by omega : 2 ≤ 3) rfl Elem.hex_rep Elem.hex_total (Elem.hexPart (K := K))
    (fun r n h s rest c hcr => Elem.hexFn_eq r n h s rest c hcr) cs hc
  have r2 : (getter (.g 2) : FCall (List (Fin 3 → K))).InRange 3 := by simp [getter, FCall.InRange]
  have t2 : ∀ r n h s : Fin 3 → K, Elem.hexPart r n h s (.g 2) = tentGrad r n h s 2 := fun r n h s => by simp [Elem.hexPart, tentPart]
  have ok1 : ∀ c ∈ ([.gradAt [r, n, h, s] 2] : List (FCall (List (Fin 3 → K)))), c.ElemOk 3 List.length := by simp [FCall.ElemOk]
  have ok2 : ∀ c ∈ ([.gradAt [r, n, h, s] 2, .evalGrad [r', n', h', s']] : List (FCall (List (Fin 3 → K)))), c.ElemOk 3 List.length := by
    simp [FCall.ElemOk]
  refine ⟨?_, fun h0 h1 s0 s1 hz => ?_⟩
  · have e1 := ((hfacts [] (by simp)).1 (.g 2) r2).1 r n h s []
    have e2 := ((hfacts _ ok1).2.1 [r', n', h', s'] (by simp)).2.1
    have e3 := ((hfacts _ ok2).1 (.g 2) r2).2.1 r n h s [] (by simp [lastAt, FCall.evaluates])
    rw [t2] at e1 e3
    simp only [runCalls, single, getter] at e1 e2 e3 ⊢
    rw [List.cons.injEq, List.cons.injEq, List.cons.injEq]
    exact ⟨e1, e2, e3, rfl⟩
  · have e1 := ((hfacts [] (by simp)).1 (.h 0 1) (by simp [getter, FCall.InRange])).1 r n h s []
    simp only [runCalls, single, Nat.cast_zero, Nat.cast_one] at e1
    rw [e1]
    intro e
    have u : ((Finset.univ : Finset (Fin 3)).erase 0).erase 1 = {2} := by decide
    simp only [Elem.hexPart, tentHess, u, Finset.prod_singleton, Except.ok.injEq, FOut.num.injEq] at e
    norm_num at e
    have h2 : s 0 / h 0 * (s 1 / h 1) ≠ 0 := mul_ne_zero (div_ne_zero s0 h0) (div_ne_zero s1 h1)
    have h3 : s 0 / h 0 * (s 1 / h 1) * (s 2 * (r 2 - n 2) / h 2) = 0 := by linear_combination e
    rcases mul_eq_zero.mp h3 with h4 | h4
    · exact h2 h4
    · exact hz h4

/-- **C103** violated by both classes: four variables are reported, but the derivative in direction `size()-1` does not exist. -/
theorem C103_directions_violated (v : List (Fin 2 → K)) (w : List (Fin 3 → K)) :
    (Elem.sem .size (Elem.quad : Flex (List (Fin 2 → K)) K)).1 = .ok (.size 4) ∧
    (Elem.sem (.gradAt v 3) (Elem.quad : Flex (List (Fin 2 → K)) K)).1 = .error (.ub .oob) ∧
    (Elem.sem .size (Elem.hex : Flex (List (Fin 3 → K)) K)).1 = .ok (.size 4) ∧
    (Elem.sem (.gradAt w 3) (Elem.hex : Flex (List (Fin 3 → K)) K)).1 = .error (.ub .oob) := ⟨rfl, rfl, rfl, rfl⟩

end

open Function in
/-- **C103** The specification's gradient and Hessian are the partial derivatives with respect to `r`. -/
theorem C103_derivatives {d : Nat} (r n h s : Fin d → ℝ) (i j : Fin d) :
    HasDerivAt (fun t => tent (update r i t) n h s) (tentGrad r n h s i) (r i) ∧
    HasDerivAt (fun t => tentGrad (update r j t) n h s i) (tentHess r n h s i j) (r j) := by
  have hconst : ∀ (S : Finset (Fin d)) (k : Fin d), k ∉ S → ∀ t,
      ∏ x ∈ S, (1 - s x * (update r k t x - n x) / h x) = ∏ x ∈ S, (1 - s x * (r x - n x) / h x) := by
    intro S k hk t
    refine Finset.prod_congr rfl fun x hx => ?_
    rw [update_of_ne (by rintro rfl; exact hk hx)]
  constructor
  · apply hasDerivAt_affine ((1 + s i * n i / h i) * ∏ k ∈ Finset.univ.erase i, (1 - s k * (r k - n k) / h k))
    intro t
    rw [tent, ← Finset.mul_prod_erase _ _ (Finset.mem_univ i), hconst _ i (by simp), update_self, tentGrad]
    ring
  · by_cases hij : i = j
    · subst hij
      rw [tentHess, if_pos rfl]
      apply hasDerivAt_affine (tentGrad r n h s i)
      intro t
      rw [tentGrad, hconst _ i (by simp), tentGrad]
      ring
    · rw [tentHess, if_neg hij]
      apply hasDerivAt_affine (-(s i / h i) * ((1 + s j * n j / h j) * ∏ k ∈ (Finset.univ.erase i).erase j, (1 - s k * (r k - n k) / h k)))
      intro t
      rw [tentGrad, ← Finset.mul_prod_erase _ _ (Finset.mem_erase.mpr ⟨fun e => hij e.symm, Finset.mem_univ j⟩), hconst _ j (by simp), update_self]
      ring

/-! ### Copies and assignment -/

section
variable {Obj Call Out : Type}

theorem elem_mrun_eq (fresh : Obj) (sem : Call → Obj → Res Out × Obj) : ∀ (ops : List (GOp Call)) (m : Mem Obj),
    (∀ op ∈ ops, ∀ h g, op ≠ .assign h g) → Elem.mrun fresh sem ops m = GenMem.run fresh sem ops m := by
  intro ops
  induction ops with
  | nil => intro m _; rfl
  | cons op ops ih =>
    intro m h
    have hstep : Elem.mstep fresh sem m op = GenMem.step fresh sem m op := by
      cases op with
      | assign a b => exact absurd rfl (h _ (by simp) a b)
      | _ => rfl
    simp only [Elem.mrun, GenMem.run, hstep]
    rw [ih _ fun op hop => h op (by simp [hop])]

theorem legal_noAssign (fresh : Obj) (sem : Call → Obj → Res Out × Obj) : ∀ (ops : List (GOp Call)) (s : Vals Obj),
    GOp.LegalRun fresh sem ops s → ∀ op ∈ ops, ∀ h g, op ≠ .assign h g := by
  intro ops
  induction ops with
  | nil => intro s _ op hop; cases hop
  | cons o ops ih =>
    intro s hl op hop
    rcases List.mem_cons.mp hop with rfl | hop
    · exact hl.1
    · exact ih _ hl.2.2 op hop

/-- **C103** (full statement) Histories of construction, copying, cloning, assignment, calls and destruction of element functions behave as
if each were a value of its own. -/
def C103_copies_statement (fresh : Obj) (sem : Call → Obj → Res Out × Obj) : Prop :=
  ∀ ops : List (GOp Call), Vals.LegalRun sem (ops.map (GOp.asValue fresh)) Vals.start →
    (Elem.mrun fresh sem ops Mem.start).1 = (Vals.start.run sem (ops.map (GOp.asValue fresh))).1

/-- **C103** partial: without assignment each object behaves as a value of its own, where a copy or clone is a new object (it computes the
same functions, but has not been evaluated); no memory error occurs and nothing leaks. -/
theorem C103_copies_partial (fresh : Obj) (sem : Call → Obj → Res Out × Obj) (ops : List (GOp Call))
    (hl : GOp.LegalRun fresh sem ops Vals.start) :
    let vals := Vals.start.run sem (ops.map (GOp.asFresh fresh))
    (Elem.mrun fresh sem ops Mem.start).1 = vals.1 ∧
    (∀ e, .error e ∈ (Elem.mrun fresh sem ops Mem.start).1 → ∃ c o, (sem c o).1 = .error e) ∧
    ((∀ v ∈ vals.2.handles, v = none) → ∀ x ∈ (Elem.mrun fresh sem ops Mem.start).2.heap, x = none) := by
  rw [elem_mrun_eq fresh sem ops _ (legal_noAssign fresh sem ops _ hl)]
  exact C79_copies_partial fresh sem ops hl

/-- **C103** violated: after the assignment of one live object to another both are the same object: what is evaluated in one is read in the
other; destroying both deletes the components of the source twice, and those of the target are never deleted. -/
theorem C103_assign_violated (fresh : Obj) (sem : Call → Obj → Res Out × Obj) (ops : List (GOp Call)) (h g : Nat)
    (hl : GOp.LegalRun fresh sem ops Vals.start) (hne : h ≠ g) (a b : Obj)
    (hh : (Vals.start.run sem (ops.map (GOp.asFresh fresh))).2.handles[h]? = some (some (some a)))
    (hg : (Vals.start.run sem (ops.map (GOp.asFresh fresh))).2.handles[g]? = some (some (some b))) (c c' : Call) :
    let m := (Elem.mrun fresh sem ops Mem.start).2
    (Elem.mrun fresh sem [.assign h g, .call h c, .call g c'] m).1 =
      [.ok none, (sem c b).1.map some, (sem c' (sem c b).2).1.map some] ∧
    (Elem.mrun fresh sem [.assign h g, .destroy h, .destroy g] m).1 = [.ok none, .ok none, .error (.ub .doubleFree)] ∧
    ∃ p : Nat, m.handles[h]? = some (some (some p)) ∧
      (Elem.mrun fresh sem [.assign h g, .destroy h, .destroy g] m).2.heap[p]? = some (some a) := by
  intro m
  obtain ⟨_, hr, _, _⟩ := gen_run_rel fresh sem ops _ _ Mem.rel_start hl
  rw [← elem_mrun_eq fresh sem ops _ (legal_noAssign fresh sem ops _ hl)] at hr
  change Mem.Rel m _ at hr
  have get : ∀ (i : Nat) o, (Vals.start.run sem (ops.map (GOp.asFresh fresh))).2.handles[i]? = some (some (some o)) →
      ∃ p : Nat, m.handles[i]? = some (some (some p)) ∧ m.heap[p]? = some (some o) := by
    intro i o hi
    have hlt : i < m.handles.length := by rw [hr.hlen]; exact (List.getElem?_eq_some_iff.mp hi).1
    have := hr.hrel i _ _ (List.getElem?_eq_getElem hlt) hi
    rw [List.getElem?_eq_getElem hlt]
    cases hx : m.handles[i] with
    | none => rw [hx] at this; simp [Mem.HRel] at this
    | some p => cases p with
      | none => rw [hx] at this; simp [Mem.HRel] at this
      | some p => rw [hx] at this; exact ⟨p, rfl, this⟩
  obtain ⟨p, hp, hpa⟩ := get h a hh
  obtain ⟨q, hq, hqb⟩ := get g b hg
  have hpq : p ≠ q := by
    intro e; subst e
    have := hr.inj (.inl h) (.inl g) p hp hq
    exact hne (Sum.inl.inj this)
  have l1 := (List.getElem?_eq_some_iff.mp hp).1
  have l3 := (List.getElem?_eq_some_iff.mp hqb).1
  have e1 : Elem.mstep fresh sem m (.assign h g) = (.ok none, m.setPtr h (some (some q))) := by
    simp only [Elem.mstep, Mem.ptr_eq hp, Mem.ptr_eq hq]
  have p1 : (m.setPtr h (some (some q))).handles[h]? = some (some (some q)) := by simp [Mem.setPtr, l1]
  have p2 : (m.setPtr h (some (some q))).handles[g]? = some (some (some q)) := by
    simp only [Mem.setPtr, List.getElem?_set_ne hne, hq]
  refine ⟨?_, ?_⟩
  · have e2 : Elem.mstep fresh sem (m.setPtr h (some (some q))) (.call h c) =
        ((sem c b).1.map some, { m.setPtr h (some (some q)) with heap := m.heap.set q (some (sem c b).2) }) := by
      have hd : (m.setPtr h (some (some q))).heap[q]? = some (some b) := hqb
      simp only [Elem.mstep, GenMem.step, Mem.forward, Mem.ptr_eq p1, Mem.deref, hd]
      rfl
    have p3 : ({ m.setPtr h (some (some q)) with heap := m.heap.set q (some (sem c b).2) } : Mem Obj).handles[g]? = some (some (some q)) := p2
    have p4 : (m.heap.set q (some (sem c b).2))[q]? = some (some (sem c b).2) := List.getElem?_set_self l3
    simp only [Elem.mrun, e1, e2]
    simp only [Elem.mstep, GenMem.step, Mem.forward, Mem.ptr_eq p3, Mem.deref, p4]
  have e2 : Elem.mstep fresh sem (m.setPtr h (some (some q))) (.destroy h) =
      (.ok none, ⟨m.heap.set q none, (m.handles.set h (some (some q))).set h none, m.raws⟩) := by
    simp only [Elem.mstep, GenMem.step, Mem.dtor]
    rw [Mem.ptr_eq p1]
    simp only [ok_bind, Mem.delPtr, Mem.del, Mem.setPtr, hqb, Mem.done]
  have p3 : (⟨m.heap.set q none, (m.handles.set h (some (some q))).set h none, m.raws⟩ : Mem Obj).handles[g]? =
      some (some (some q)) := by simp only [List.getElem?_set_ne hne, hq]
  have p4 : (m.heap.set q none)[q]? = some none := List.getElem?_set_self l3
  have e3 : Elem.mstep fresh sem (⟨m.heap.set q none, (m.handles.set h (some (some q))).set h none, m.raws⟩ : Mem Obj) (.destroy g) =
      (.error (.ub .doubleFree), ⟨m.heap.set q none, (m.handles.set h (some (some q))).set h none, m.raws⟩) := by
    simp only [Elem.mstep, GenMem.step, Mem.dtor, Mem.ptr_eq p3, ok_bind, Mem.delPtr, Mem.del, p4, err_bind, Mem.done]
  simp only [Elem.mrun, e1, e2, e3, true_and]
  exact ⟨p, hp, by rw [List.getElem?_set_ne hpq.symm, hpa]⟩

end

/-- Non-vacuity: a history on a `Quad` with all kinds of calls; the node at the lower left corner of the cell from (1,2) with extents (2,4). -/
example : let v (x y : ℚ) : List (Fin 2 → ℚ) := [![x, y], ![1, 2], ![2, 4], ![1, 1]]
    let calls : List (FCall (List (Fin 2 → ℚ))) := [.evalAt (v 2 3), .evalGrad (v 2 3), .evalHess (v 1 2), .gradAt (v 1 2) 1, .varName 3]
    (∀ c ∈ calls, c.ElemOk 2 List.length) ∧
    (runCalls Elem.sem (calls ++ [.get, .getGrad 0, .getGrad 1, .getHess 0 1]) Elem.quad).1.drop 5 =
      [.ok (.num (3 / 8)), .ok (.num (-3 / 8)), .ok (.num (-1 / 4)), .ok (.num (1 / 8))] ∧
    lastAt 2 (.g 1) calls none = some (v 1 2) ∧ tentPart ![1, 2] ![1, 2] ![2, 4] ![1, 1] (.g 1) = (-1 / 4 : ℚ) := by
  refine ⟨?_, ?_, ?_, ?_⟩
  · simp [FCall.ElemOk]
  · simp [runCalls, Elem.sem, Elem.ov, FBase.sem, Flex.ov, Elem.stmts, Flex.gradAt, Flex.hessAt, Flex.evalAt, Elem.quad, Elem.part, vget,
      SFun.evalAt, SFun.get, SObj.evalAt, SObj.get, SObj.evalFn, Elem.onVar, quadF, quadGrad, quadHess, Except.map]
    norm_num
    exact ⟨rfl, rfl, rfl⟩
  · simp [lastAt, FCall.evaluates, List.range, List.range.loop]
  · have u1 : (Finset.univ : Finset (Fin 2)).erase 1 = {0} := by decide
    simp [tentPart, tentGrad, u1]; norm_num

/-- Non-vacuity of the histories of objects: two `Quad`s, one a clone, evaluated and destroyed; and two that can be assigned. -/
example : let v : List (Fin 2 → ℚ) := [![2, 3], ![1, 2], ![2, 4], ![1, 1]]
    GOp.LegalRun Elem.quad Elem.sem [.new, .call 0 (.evalAt v), .copy 0, .call 1 (.evalAt v), .destroy 0, .destroy 1] Vals.start ∧
    ∃ a b, (Vals.start.run Elem.sem (([.new, .copy 0] : List (GOp (FCall (List (Fin 2 → ℚ))))).map (GOp.asFresh Elem.quad))).2.handles =
      [some (some a), some (some b)] := by
  refine ⟨?_, _, _, rfl⟩
  simp [GOp.LegalRun, GOp.asValue, GOp.asFresh, Vals.Legal, Vals.start, Vals.step, Vals.fn]

end Verif
