import Verif.Lemmas.Func
import Verif.Model.ElemObject
import Verif.Spec.ElemFn
import Mathlib.Algebra.BigOperators.Fin
import Mathlib.Tactic.FinCases
import Mathlib.Tactic.Ring
import Mathlib.Data.Fintype.Basic

/-! Helper lemmas about the element functions as objects. -/

namespace Verif
open Spec
namespace Elem
section
variable {V O : Type} {d : Nat} {F : Comp → V → Res O} {st : Comp → Option O} {p : Flex V O} {len : V → Nat}

/-- Every component in range has a value at every long enough argument. -/
def Total (d : Nat) (len : V → Nat) (F : Comp → V → Res O) : Prop :=
  ∀ (c : Comp) v, (getter c : FCall V).InRange d → 4 ≤ len v → ∃ y, F c v = .ok y

theorem upd_two {v : V} {c : Comp} (cs : List Comp) (h : isValue (F c v) = true) (hc : c ∉ cs) :
    upd F v cs (upd F v [c] st) = upd F v (c :: cs) st := by
  funext e
  by_cases he : e = c
  · subst he
    have : e ∉ cs.takeWhile (fun c' => isValue (F c' v)) := fun hm => hc (List.takeWhile_subset _ hm)
    simp [upd, h, this]
  · rw [upd_cons_ok cs h st e he]
    simp only [upd]
    split
    · cases hF : F e v <;> simp_all
    · simp_all

theorem sem_eq {c : FCall V} (h1 : ∀ v, c ≠ .evalGrad v) (h2 : ∀ v, c ≠ .evalHess v) : Elem.sem c p = Flex.sem c p := by
  cases c <;> first | rfl | exact absurd rfl (h1 _) | exact absurd rfl (h2 _)

theorem gradAt_ok {v : V} (h : FlexRep d F st p) (i : Nat) (hi : i < d) {y : O} (hy : F (.g i) v = .ok y) :
    ∃ p', p.gradAt v i = (.ok y, p') ∧ FlexRep d F (upd F v [.g i] st) p' := by
  have h1 := h.single v (.g i) ⟨by omega, by simpa using hi⟩
  have h2 := h.call (.gradAt v i) ⟨by omega, by simpa using hi⟩
  simp only [single, Flex.sem, FBase.sem, Flex.ov, hy] at h1 h2
  cases hp : p.gradAt v i with
  | mk r p' =>
    rw [hp] at h1 h2
    refine ⟨p', ?_, by simpa [callUpd, FCall.evaluates] using h2⟩
    cases r with
    | ok z => simp only [Except.map] at h1; cases h1; rfl
    | error e => simp [Except.map] at h1

theorem hessAt_ok {v : V} (h : FlexRep d F st p) (i j : Nat) (hi : i < d) (hj : j < d) {y : O} (hy : F (.h i j) v = .ok y) :
    ∃ p', p.hessAt v i j = (.ok y, p') ∧ FlexRep d F (upd F v [.h i j] st) p' := by
  have h1 := h.single v (.h i j) ⟨⟨by omega, by simpa using hi⟩, by omega, by simpa using hj⟩
  have h2 := h.call (.hessAt v i j) ⟨⟨by omega, by simpa using hi⟩, by omega, by simpa using hj⟩
  simp only [single, Flex.sem, FBase.sem, Flex.ov, hy] at h1 h2
  cases hp : p.hessAt v i j with
  | mk r p' =>
    rw [hp] at h1 h2
    refine ⟨p', ?_, by simpa [callUpd, FCall.evaluates] using h2⟩
    cases r with
    | ok z => simp only [Except.map] at h1; cases h1; rfl
    | error e => simp [Except.map] at h1

theorem isValue_of {c : Comp} {v : V} {y : O} (h : F c v = .ok y) : isValue (F c v) = true := by rw [h]; rfl

theorem evalGrad_rep {v : V} (hd : 2 ≤ d) (hT : Total d len F) (h : FlexRep d F st p) (hv : 4 ≤ len v) :
    (Elem.sem (.evalGrad v) p).1 = .ok .void ∧ FlexRep d F (upd F v [.g 0, .g 1] st) (Elem.sem (.evalGrad v) p).2 := by
  obtain ⟨y0, e0⟩ := hT (.g 0) v ⟨by omega, by simpa using (by omega : 0 < d)⟩ hv
  obtain ⟨y1, e1⟩ := hT (.g 1) v ⟨by omega, by simpa using (by omega : 1 < d)⟩ hv
  obtain ⟨p1, h1, r1⟩ := gradAt_ok h 0 (by omega) e0
  obtain ⟨p2, h2, r2⟩ := gradAt_ok r1 1 (by omega) e1
  have : Elem.sem (.evalGrad v) p = (.ok .void, p2) := by
    simp only [Elem.sem, FBase.sem, ov, stmts]
    rw [show p.gradAt v 0 = _ from h1]; simp only
    rw [show p1.gradAt v 1 = _ from h2]
  rw [this]
  refine ⟨rfl, ?_⟩
  rw [upd_two [.g 1] (isValue_of e0) (by simp)] at r2
  exact r2

theorem evalHess_rep {v : V} (hd : 2 ≤ d) (hT : Total d len F) (h : FlexRep d F st p) (hv : 4 ≤ len v) :
    (Elem.sem (.evalHess v) p).1 = .ok .void ∧
      FlexRep d F (upd F v [.h 0 0, .h 0 1, .h 1 0, .h 1 1] st) (Elem.sem (.evalHess v) p).2 := by
  have rng : ∀ i j : Nat, i < 2 → j < 2 → (getter (.h i j) : FCall V).InRange d := fun i j hi hj =>
    ⟨⟨by omega, by simpa using (by omega : i < d)⟩, by omega, by simpa using (by omega : j < d)⟩
  obtain ⟨y0, e0⟩ := hT (.h 0 0) v (rng _ _ (by omega) (by omega)) hv
  obtain ⟨y1, e1⟩ := hT (.h 0 1) v (rng _ _ (by omega) (by omega)) hv
  obtain ⟨y2, e2⟩ := hT (.h 1 0) v (rng _ _ (by omega) (by omega)) hv
  obtain ⟨y3, e3⟩ := hT (.h 1 1) v (rng _ _ (by omega) (by omega)) hv
  obtain ⟨p1, h1, r1⟩ := hessAt_ok h 0 0 (by omega) (by omega) e0
  obtain ⟨p2, h2, r2⟩ := hessAt_ok r1 0 1 (by omega) (by omega) e1
  obtain ⟨p3, h3, r3⟩ := hessAt_ok r2 1 0 (by omega) (by omega) e2
  obtain ⟨p4, h4, r4⟩ := hessAt_ok r3 1 1 (by omega) (by omega) e3
  have : Elem.sem (.evalHess v) p = (.ok .void, p4) := by
    simp only [Elem.sem, FBase.sem, ov, stmts]
    rw [show p.hessAt v 0 0 = _ from h1]; simp only
    rw [show p1.hessAt v 0 1 = _ from h2]; simp only
    rw [show p2.hessAt v 1 0 = _ from h3]; simp only
    rw [show p3.hessAt v 1 1 = _ from h4]
  rw [this]
  refine ⟨rfl, ?_⟩
  have c1 : upd F v [.h 1 1] (upd F v [.h 1 0] (upd F v [.h 0 1] (upd F v [.h 0 0] st))) = upd F v [.h 0 0, .h 0 1, .h 1 0, .h 1 1] st := by
    rw [upd_two [.h 1 1] (isValue_of e2) (by simp), upd_two [.h 1 0, .h 1 1] (isValue_of e1) (by simp),
      upd_two [.h 0 1, .h 1 0, .h 1 1] (isValue_of e0) (by simp)]
  rw [c1] at r4
  exact r4

theorem call_rep (hd : 2 ≤ d) (hT : Total d len F) (h : FlexRep d F st p) (c : FCall V) (hc : c.ElemOk d len) :
    FlexRep d F (callUpd 2 F c st) (Elem.sem c p).2 := by
  cases c with
  | evalGrad v => exact (evalGrad_rep hd hT h hc).2
  | evalHess v => exact (evalHess_rep hd hT h hc).2
  | varName i => exact h
  | varDesc i => exact h
  | gradAt v di => exact h.call (.gradAt v di) hc.2
  | hessAt v di dj => exact h.call (.hessAt v di dj) hc.2
  | evalAt v => exact h.call (.evalAt v) trivial
  | eval v => exact h.call (.eval v) trivial
  | get => exact h
  | getGrad di => exact h
  | getHess di dj => exact h
  | simple => exact h
  | gradSimple di => exact h
  | hessSimple di dj => exact h
  | name => exact h
  | size => exact h
  | varNames => exact h
  | varDescs => exact h

theorem run_rep (hd : 2 ≤ d) (hT : Total d len F) (cs : List (FCall V)) : ∀ {st : Comp → Option O} {p : Flex V O}, FlexRep d F st p →
    (∀ c ∈ cs, c.ElemOk d len) → FlexRep d F (cs.foldl (fun st c => callUpd 2 F c st) st) (runCalls Elem.sem cs p).2 := by
  induction cs with
  | nil => intro st p h _; exact h
  | cons c cs ih =>
    intro st p h hc
    exact ih (call_rep hd hT h c (hc c (by simp))) fun c' hc' => hc c' (by simp [hc'])

/-- The evaluated components of a call in range. -/
theorem evaluates_ok (hd : 2 ≤ d) {c : FCall V} (hc : c.ElemOk d len) {v : V} {cs : List Comp} (he : c.evaluates 2 = some (v, cs)) :
    4 ≤ len v ∧ ∀ e ∈ cs, (getter e : FCall V).InRange d := by
  cases c <;> simp only [FCall.evaluates, Option.some.injEq, Prod.mk.injEq, reduceCtorEq] at he <;> obtain ⟨rfl, rfl⟩ := he
  · exact ⟨hc, by simp [getter, FCall.InRange]⟩
  · rename_i di
    obtain ⟨h1, h2, h3⟩ := hc
    refine ⟨h1, ?_⟩
    intro e he; simp only [List.mem_singleton] at he; subst he
    simp only [getter, FCall.InRange]; omega
  · rename_i di dj
    obtain ⟨h1, h2, h3⟩ := hc
    refine ⟨h1, ?_⟩
    intro e he; simp only [List.mem_singleton] at he; subst he
    simp only [getter, FCall.InRange]; omega
  · exact ⟨hc, by simp [getter, FCall.InRange]⟩
  · refine ⟨hc, ?_⟩
    intro e he
    simp only [List.mem_map, List.mem_range] at he
    obtain ⟨i, hi, rfl⟩ := he
    simp only [getter, FCall.InRange]; omega
  · refine ⟨hc, ?_⟩
    intro e he
    simp only [List.mem_flatMap, List.mem_map, List.mem_range] at he
    obtain ⟨i, hi, j, hj, rfl⟩ := he
    simp only [getter, FCall.InRange]; omega

theorem takeWhile_all {α : Type} {f : α → Bool} : ∀ {l : List α}, (∀ x ∈ l, f x = true) → l.takeWhile f = l
  | [], _ => rfl
  | a :: l, h => by rw [List.takeWhile_cons, if_pos (h a (by simp)), takeWhile_all fun x hx => h x (by simp [hx])]

theorem lastEval_eq (hd : 2 ≤ d) (hT : Total d len F) (c : Comp) (cs : List (FCall V)) : ∀ last, (∀ e ∈ cs, e.ElemOk d len) →
    lastEval F 2 c cs last = lastAt 2 c cs last := by
  induction cs with
  | nil => intro last _; rfl
  | cons call cs ih =>
    intro last hc
    simp only [lastEval, lastAt]
    rw [ih _ fun e he => hc e (by simp [he])]
    cases he : call.evaluates 2 with
    | none => rfl
    | some vc =>
      obtain ⟨v, es⟩ := vc
      obtain ⟨h1, h2⟩ := evaluates_ok hd (hc call (by simp)) he
      have : es.takeWhile (fun c' => isValue (F c' v)) = es := by
        refine takeWhile_all fun e hm => ?_
        obtain ⟨y, hy⟩ := hT e v (h2 e hm) h1
        exact isValue_of hy
      simp only [this]

/-- The point of the last evaluation is a long enough argument. -/
theorem lastAt_len (hd : 2 ≤ d) (c : Comp) (cs : List (FCall V)) : ∀ last v, (∀ e ∈ cs, e.ElemOk d len) → (∀ w, last = some w → 4 ≤ len w) →
    lastAt 2 c cs last = some v → 4 ≤ len v := by
  induction cs with
  | nil => intro last v _ hl h; exact hl v h
  | cons call cs ih =>
    intro last v hc hl h
    refine ih _ v (fun e he => hc e (by simp [he])) ?_ h
    intro w hw
    cases he : call.evaluates 2 with
    | none => rw [he] at hw; exact hl w hw
    | some vc =>
      obtain ⟨v', es⟩ := vc
      rw [he] at hw
      simp only at hw
      split at hw
      · cases hw; exact (evaluates_ok hd (hc call (by simp)) he).1
      · exact hl w hw

theorem run_getter (hd : 2 ≤ d) (hT : Total d len F) (cs : List (FCall V)) (h : FlexRep d F st p) (hst : ∀ c, st c = none)
    (hc : ∀ c ∈ cs, c.ElemOk d len) (c : Comp) (hr : (getter c : FCall V).InRange d) :
    (Elem.sem (getter c) (runCalls Elem.sem cs p).2).1 =
      match lastAt 2 c cs none with
      | some v => (F c v).map .num
      | none => .error (.ub .uninit) := by
  have hrep := run_rep hd hT cs h hc
  have hs : ∀ q : Flex V O, Elem.sem (getter c) q = Flex.sem (getter c) q := fun q => by cases c <;> rfl
  rw [hs, hrep.getter c hr]
  have hl := foldl_lastEval (n := 2) (F := F) c cs st st none rfl
  rw [lastEval_eq hd hT c cs none hc] at hl
  cases he : lastAt 2 c cs none with
  | none => rw [he] at hl; simp only at hl; rw [hl, hst]; rfl
  | some v =>
    rw [he] at hl
    obtain ⟨y, hy, hst'⟩ := hl
    simp only
    rw [hst', hy]

theorem rep_handle (h : FlexRep d F st p) (c : Comp) (hr : (getter c : FCall V).InRange d) :
    ∃ b, Rep F st c b ∧
      (match c with
      | .f => (Elem.sem .simple p : Res (FOut V O) × Flex V O)
      | .g i => Elem.sem (.gradSimple i) p
      | .h i j => Elem.sem (.hessSimple i j) p).1 = .ok (.simple b) := by
  have hgl : p.grad.length = d := by have := h.grad.length; simpa using this.symm
  have hhl : p.hess.length = d := by have := h.hess.length; simpa [hessComps] using this.symm
  cases c with
  | f => exact ⟨p.val, h.val, rfl⟩
  | g i =>
    simp only [getter, FCall.InRange] at hr
    have hi : ((List.range d).map Comp.g)[i]? = some (.g i) := by
      rw [List.getElem?_map, List.getElem?_range (by omega)]; rfl
    obtain ⟨b, hb, hR⟩ := h.grad.getElem? hi
    refine ⟨b, hR, ?_⟩
    have : vget p.grad (i : Int) = .ok b := vget_ok.mpr ⟨by omega, by simpa using hb⟩
    simp only [Elem.sem, FBase.sem, ov, Flex.ov, this]; rfl
  | h i j =>
    simp only [getter, FCall.InRange] at hr
    have hi : (hessComps d)[i]? = some ((List.range d).map (Comp.h i)) := by
      simp only [hessComps]; rw [List.getElem?_map, List.getElem?_range (by omega)]; rfl
    obtain ⟨row, hb, hR⟩ := h.hess.getElem? hi
    have hj : ((List.range d).map (Comp.h i))[j]? = some (.h i j) := by
      rw [List.getElem?_map, List.getElem?_range (by omega)]; rfl
    obtain ⟨b, hb', hR'⟩ := hR.getElem? hj
    refine ⟨b, hR', ?_⟩
    have e1 : vget p.hess (i : Int) = .ok row := vget_ok.mpr ⟨by omega, by simpa using hb⟩
    have e2 : vget row (j : Int) = .ok b := vget_ok.mpr ⟨by omega, by simpa using hb'⟩
    simp only [Elem.sem, FBase.sem, ov, Flex.ov, e1]
    show (vget row (j : Int)).map FOut.simple = _
    rw [e2]; rfl

end

/-! ### The two classes -/

section
variable {K : Type} [Field K]

/-- The component functions of a new `Quad`. -/
def quadFn (K : Type) [Field K] : Comp → List (Fin 2 → K) → Res K :=
  compFn (onVar fun r n h s => .ok (quadF r n h s)) [onVar fun r n h s => quadGrad r n h s 0, onVar fun r n h s => quadGrad r n h s 1]
    [[fun _ => .ok 0, onVar fun r n h s => quadHess r n h s 0 1], [onVar fun r n h s => quadHess r n h s 1 0, fun _ => .ok 0]]

/-- The component functions of a new `Hexahedron`. -/
def hexFn (K : Type) [Field K] : Comp → List (Fin 3 → K) → Res K :=
  compFn (onVar fun r n h s => .ok (hexF r n h s))
    [onVar fun r n h s => hexGrad r n h s 0, onVar fun r n h s => hexGrad r n h s 1, onVar fun r n h s => hexGrad r n h s 2]
    [[fun _ => .ok 0, onVar fun r n h s => hexHess r n h s 0 1, onVar fun r n h s => hexHess r n h s 0 2],
      [onVar fun r n h s => hexHess r n h s 1 0, fun _ => .ok 0, onVar fun r n h s => hexHess r n h s 1 2],
      [onVar fun r n h s => hexHess r n h s 2 0, onVar fun r n h s => hexHess r n h s 2 1, fun _ => .ok 0]]

theorem quad_rep : FlexRep 2 (quadFn K) (fun _ => none) (quad : Flex (List (Fin 2 → K)) K) := by
  have := flexRep_mk (n := 2) (base "Quad") (⟨"Quad_f", some (onVar fun r n h s => .ok (quadF r n h s)), none, none, none, none⟩)
    [⟨"Quad_grad_0", some (onVar fun r n h s => quadGrad r n h s 0), none, none, none, none⟩,
      ⟨"Quad_grad_1", some (onVar fun r n h s => quadGrad r n h s 1), none, none, none, none⟩]
    [[⟨"Quad_hess_0_0", some (fun _ => .ok 0), none, none, none, none⟩,
      ⟨"Quad_hess_0_1", some (onVar fun r n h s => quadHess r n h s 0 1), none, none, none, none⟩],
      [⟨"Quad_hess_1_0", some (onVar fun r n h s => quadHess r n h s 1 0), none, none, none, none⟩,
      ⟨"Quad_hess_1_1", some (fun _ => .ok (0 : K)), none, none, none, none⟩]] rfl rfl (by simp)
  refine this.congr ?_
  funext c
  match c with
  | .f => rfl
  | .g 0 => rfl
  | .g 1 => rfl
  | .g (i + 2) => simp [storedVal]
  | .h 0 0 => rfl
  | .h 0 1 => rfl
  | .h 1 0 => rfl
  | .h 1 1 => rfl
  | .h 0 (j + 2) => simp [storedVal]
  | .h 1 (j + 2) => simp [storedVal]
  | .h (i + 2) j => simp [storedVal]

theorem hex_rep : FlexRep 3 (hexFn K) (fun _ => none) (hex : Flex (List (Fin 3 → K)) K) := by
  have := flexRep_mk (n := 3) (base "Hexahedron") (⟨"Hexahedron_f", some (onVar fun r n h s => .ok (hexF r n h s)), none, none, none, none⟩)
    [⟨"Hexahedron_grad_0", some (onVar fun r n h s => hexGrad r n h s 0), none, none, none, none⟩,
      ⟨"Hexahedron_grad_1", some (onVar fun r n h s => hexGrad r n h s 1), none, none, none, none⟩,
      ⟨"Hexahedron_grad_2", some (onVar fun r n h s => hexGrad r n h s 2), none, none, none, none⟩]
    [[⟨"Hexahedron_hess_0_0", some (fun _ => .ok 0), none, none, none, none⟩,
      ⟨"Hexahedron_hess_0_1", some (onVar fun r n h s => hexHess r n h s 0 1), none, none, none, none⟩,
      ⟨"Hexahedron_hess_0_2", some (onVar fun r n h s => hexHess r n h s 0 2), none, none, none, none⟩],
      [⟨"Hexahedron_hess_1_0", some (onVar fun r n h s => hexHess r n h s 1 0), none, none, none, none⟩,
      ⟨"Hexahedron_hess_1_1", some (fun _ => .ok 0), none, none, none, none⟩,
      ⟨"Hexahedron_hess_1_2", some (onVar fun r n h s => hexHess r n h s 1 2), none, none, none, none⟩],
      [⟨"Hexahedron_hess_2_0", some (onVar fun r n h s => hexHess r n h s 2 0), none, none, none, none⟩,
      ⟨"Hexahedron_hess_2_1", some (onVar fun r n h s => hexHess r n h s 2 1), none, none, none, none⟩,
      ⟨"Hexahedron_hess_2_2", some (fun _ => .ok (0 : K)), none, none, none, none⟩]] rfl rfl (by simp)
  refine this.congr ?_
  funext c
  match c with
  | .f => rfl
  | .g 0 => rfl
  | .g 1 => rfl
  | .g 2 => rfl
  | .g (i + 3) => simp [storedVal]
  | .h 0 0 => rfl
  | .h 0 1 => rfl
  | .h 0 2 => rfl
  | .h 1 0 => rfl
  | .h 1 1 => rfl
  | .h 1 2 => rfl
  | .h 2 0 => rfl
  | .h 2 1 => rfl
  | .h 2 2 => rfl
  | .h 0 (j + 3) => simp [storedVal]
  | .h 1 (j + 3) => simp [storedVal]
  | .h 2 (j + 3) => simp [storedVal]
  | .h (i + 3) j => simp [storedVal]

theorem onVar_cons {d : Nat} (f : (r n h s : Fin d → K) → Res K) (r n h s : Fin d → K) (rest : List (Fin d → K)) :
    onVar f (r :: n :: h :: s :: rest) = f r n h s := by
  have e0 : vget (r :: n :: h :: s :: rest) 0 = .ok r := vget_nat _ 0 (by simp)
  have e1 : vget (r :: n :: h :: s :: rest) 1 = .ok n := vget_nat _ 1 (by simp)
  have e2 : vget (r :: n :: h :: s :: rest) 2 = .ok h := vget_nat _ 2 (by simp)
  have e3 : vget (r :: n :: h :: s :: rest) 3 = .ok s := vget_nat _ 3 (by simp)
  simp only [onVar, e0, e1, e2, e3, ok_bind]

theorem quadFn_eq (r n h s : Fin 2 → K) (rest : List (Fin 2 → K)) (c : Comp)
    (hc : (getter c : FCall (List (Fin 2 → K))).InRange 2) : quadFn K c (r :: n :: h :: s :: rest) = .ok (tentPart r n h s c) := by
  have u0 : (Finset.univ : Finset (Fin 2)).erase 0 = {1} := by decide
  have u1 : (Finset.univ : Finset (Fin 2)).erase 1 = {0} := by decide
  have u2 : ({1} : Finset (Fin 2)).erase 1 = ∅ := by decide
  have u3 : ({0} : Finset (Fin 2)).erase 0 = ∅ := by decide
  match c, hc with
  | .f, _ => simp [quadFn, compFn, onVar_cons, tentPart, tent, quadF, Fin.prod_univ_two]
  | .g 0, _ => simp [quadFn, compFn, onVar_cons, tentPart, tentGrad, quadGrad, u0]; ring
  | .g 1, _ => simp [quadFn, compFn, onVar_cons, tentPart, tentGrad, quadGrad, u1]; ring
  | .h 0 0, _ => simp [quadFn, compFn, tentPart, tentHess]
  | .h 0 1, _ => simp [quadFn, compFn, onVar_cons, tentPart, tentHess, quadHess, u0, u2]; ring
  | .h 1 0, _ => simp [quadFn, compFn, onVar_cons, tentPart, tentHess, quadHess, u1, u3]; ring
  | .h 1 1, _ => simp [quadFn, compFn, tentPart, tentHess]
  | .g (i + 2), hc => simp [getter, FCall.InRange] at hc; omega
  | .h (i + 2) j, hc => simp [getter, FCall.InRange] at hc; omega
  | .h 0 (j + 2), hc => simp [getter, FCall.InRange] at hc; omega
  | .h 1 (j + 2), hc => simp [getter, FCall.InRange] at hc; omega

/-- What `Hexahedron` computes: the second derivatives lack a factor. -/
def hexPart (r n h s : Fin 3 → K) : Comp → K
  | .h i j => if hij : i < 3 ∧ j < 3 then (if i = j then 0 else s ⟨i, hij.1⟩ / h ⟨i, hij.1⟩ * (s ⟨j, hij.2⟩ / h ⟨j, hij.2⟩)) else 0
  | c => tentPart r n h s c

theorem hexFn_eq (r n h s : Fin 3 → K) (rest : List (Fin 3 → K)) (c : Comp)
    (hc : (getter c : FCall (List (Fin 3 → K))).InRange 3) : hexFn K c (r :: n :: h :: s :: rest) = .ok (hexPart r n h s c) := by
  have u0 : (Finset.univ : Finset (Fin 3)).erase 0 = {1, 2} := by decide
  have u1 : (Finset.univ : Finset (Fin 3)).erase 1 = {0, 2} := by decide
  have u2 : (Finset.univ : Finset (Fin 3)).erase 2 = {0, 1} := by decide
  match c, hc with
  | .f, _ => simp [hexFn, compFn, onVar_cons, hexPart, tentPart, tent, hexF, Fin.prod_univ_three]
  | .g 0, _ =>
    simp only [hexFn, compFn, onVar_cons, hexPart, tentPart, tentGrad, hexGrad, List.getElem?_cons_zero, Option.getD_some,
      show (0 : Nat) < 3 from by decide, dif_pos, Fin.zero_eta, u0]
    rw [Finset.prod_pair (by decide)]; congr 1; ring
  | .g 1, _ =>
    simp only [hexFn, compFn, onVar_cons, hexPart, tentPart, tentGrad, hexGrad, List.getElem?_cons_zero, List.getElem?_cons_succ,
      Option.getD_some, Nat.one_lt_ofNat, dif_pos, Fin.mk_one, u1]
    rw [Finset.prod_pair (by decide)]; congr 1; ring
  | .g 2, _ =>
    simp only [hexFn, compFn, onVar_cons, hexPart, tentPart, tentGrad, hexGrad, List.getElem?_cons_zero, List.getElem?_cons_succ,
      Option.getD_some, Nat.lt_add_one, dif_pos, Fin.reduceFinMk, u2]
    rw [Finset.prod_pair (by decide)]; congr 1; ring
  | .h 0 0, _ => simp [hexFn, compFn, hexPart]
  | .h 0 1, _ => simp [hexFn, compFn, onVar_cons, hexPart, hexHess]; ring
  | .h 0 2, _ => simp [hexFn, compFn, onVar_cons, hexPart, hexHess]; ring
  | .h 1 0, _ => simp [hexFn, compFn, onVar_cons, hexPart, hexHess]; ring
  | .h 1 1, _ => simp [hexFn, compFn, hexPart]
  | .h 1 2, _ => simp [hexFn, compFn, onVar_cons, hexPart, hexHess]; ring
  | .h 2 0, _ => simp [hexFn, compFn, onVar_cons, hexPart, hexHess]; ring
  | .h 2 1, _ => simp [hexFn, compFn, onVar_cons, hexPart, hexHess]; ring
  | .h 2 2, _ => simp [hexFn, compFn, hexPart]
  | .g (i + 3), hc => simp [getter, FCall.InRange] at hc; omega
  | .h (i + 3) j, hc => simp [getter, FCall.InRange] at hc; omega
  | .h 0 (j + 3), hc => simp [getter, FCall.InRange] at hc; omega
  | .h 1 (j + 3), hc => simp [getter, FCall.InRange] at hc; omega
  | .h 2 (j + 3), hc => simp [getter, FCall.InRange] at hc; omega

theorem four {α : Type} {v : List α} (h : 4 ≤ v.length) : ∃ a b c d rest, v = a :: b :: c :: d :: rest := by
  match v, h with
  | a :: b :: c :: d :: rest, _ => exact ⟨a, b, c, d, rest, rfl⟩

theorem quad_total : Total 2 List.length (quadFn K) := by
  intro c v hc hv
  obtain ⟨r, n, h, s, rest, rfl⟩ := four hv
  exact ⟨_, quadFn_eq r n h s rest c hc⟩

theorem hex_total : Total 3 List.length (hexFn K) := by
  intro c v hc hv
  obtain ⟨r, n, h, s, rest, rfl⟩ := four hv
  exact ⟨_, hexFn_eq r n h s rest c hc⟩

end
end Elem
end Verif
