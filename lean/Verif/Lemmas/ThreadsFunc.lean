import Verif.Model.ThreadsFunc
import Verif.Lemmas.Func

/-! Helper lemmas about evaluations of functions by several threads. -/

namespace Verif
open Spec
namespace FPar
variable {V O : Type}

/-- The component exists. -/
def Has (n : Nat) : Comp → Prop
  | .f => True
  | .g i => i < n
  | .h i j => i < n ∧ j < n

theorem idx_g {n i : Nat} (h : i < n) : ((List.range n).map Comp.g)[i]? = some (.g i) := by
  rw [List.getElem?_map, List.getElem?_range h]; rfl

theorem idx_h {n i : Nat} (h : i < n) : (hessComps n)[i]? = some ((List.range n).map (Comp.h i)) := by
  rw [hessComps, List.getElem?_map, List.getElem?_range h]; rfl

theorem idx_hj {n i j : Nat} (h : j < n) : ((List.range n).map (Comp.h i))[j]? = some (.h i j) := by
  rw [List.getElem?_map, List.getElem?_range h]; rfl

theorem idx_inv {α : Type} {f : Nat → α} {n j : Nat} {a : α} (h : ((List.range n).map f)[j]? = some a) : a = f j ∧ j < n := by
  rw [List.getElem?_map] at h
  cases hj' : (List.range n)[j]? with
  | none => rw [hj'] at h; cases h
  | some k =>
    rw [hj'] at h; cases h
    obtain ⟨h1, hk⟩ := List.getElem?_eq_some_iff.mp hj'
    simp at hk h1
    subst hk
    exact ⟨rfl, h1⟩

theorem comp_of {n : Nat} {F : Comp → V → Res O} {st : Comp → Option O} {p : Flex V O} (h : FlexRep n F st p) {c : Comp} (hc : Has n c) :
    ∃ o, comp p c = .ok o ∧ o.evalFn = F c ∧ o.val = st c := by
  cases c with
  | f =>
    obtain ⟨o, h1, h2, h3⟩ := h.val
    exact ⟨o, by simp only [comp, h1, comp.deref], h2, h3⟩
  | g i =>
    obtain ⟨b, hb, o, h1, h2, h3⟩ := h.grad.getElem? (idx_g hc)
    obtain ⟨hl, _⟩ := List.getElem?_eq_some_iff.mp hb
    obtain ⟨a, e1, e2⟩ := vget_of_lt p.grad i (by omega) (by omega)
    rw [Int.toNat_natCast, hb] at e2; cases e2
    exact ⟨o, by simp only [comp, e1, ok_bind, h1, comp.deref], h2, h3⟩
  | h i j =>
    obtain ⟨row, hb, hrow⟩ := h.hess.getElem? (idx_h hc.1)
    obtain ⟨b, hb', o, h1, h2, h3⟩ := hrow.getElem? (idx_hj hc.2)
    obtain ⟨hl, _⟩ := List.getElem?_eq_some_iff.mp hb
    obtain ⟨hl', _⟩ := List.getElem?_eq_some_iff.mp hb'
    obtain ⟨a, e1, e2⟩ := vget_of_lt p.hess i (by omega) (by omega)
    rw [Int.toNat_natCast, hb] at e2; cases e2
    obtain ⟨a, e3, e4⟩ := vget_of_lt row j (by omega) (by omega)
    rw [Int.toNat_natCast, hb'] at e4; cases e4
    exact ⟨o, by simp only [comp, e1, ok_bind, e3, h1, comp.deref], h2, h3⟩

theorem rd_of {n : Nat} {F : Comp → V → Res O} {st : Comp → Option O} {p : Flex V O} (h : FlexRep n F st p) {c : Comp} (hc : Has n c) {y : O}
    (hy : st c = some y) : rd p c = .ok y := by
  obtain ⟨o, h1, h2, h3⟩ := comp_of h hc
  simp only [rd, h1, ok_bind, SObj.get, h3, hy]

/-- The stored numbers after a write. -/
def put (st : Comp → Option O) (c : Comp) (y : O) (d : Comp) : Option O := if d = c then some y else st d

theorem put_ne {st : Comp → Option O} {c d : Comp} {y : O} (h : d ≠ c) : put st c y d = st d := by simp [put, h]

theorem put_self {st : Comp → Option O} {c : Comp} {y : O} : put st c y c = some y := by simp [put]

theorem wr_of {n : Nat} {F : Comp → V → Res O} {st : Comp → Option O} {p : Flex V O} (h : FlexRep n F st p) {c : Comp} (hc : Has n c) (y : O) :
    ∃ p', wr p c y = .ok p' ∧ FlexRep n F (put st c y) p' := by
  obtain ⟨o, h1, h2, h3⟩ := comp_of h hc
  simp only [wr, h1, ok_bind]
  have hnew : Rep F (put st c y) c (some { o with val := some y }) := ⟨_, rfl, by rw [← h2]; rfl, by simp [put_self]⟩
  refine ⟨_, rfl, ?_⟩
  cases c with
  | f =>
    refine ⟨hnew, h.grad.mono fun d hd b hb => hb.congr (put_ne ?_), h.hess.mono fun ds hds b hb => hb.mono fun d hd b hb => hb.congr (put_ne ?_)⟩
    · simp only [List.mem_map] at hd; obtain ⟨i, _, rfl⟩ := hd; simp
    · obtain ⟨i, j, _, _, rfl⟩ := mem_hess hds hd; simp
  | g i =>
    refine ⟨h.val.congr (put_ne (by simp)), h.grad.set ?_ ?_, h.hess.mono fun ds hds b hb => hb.mono fun d hd b hb => hb.congr (put_ne ?_)⟩
    · intro a ha; rw [idx_g hc] at ha; cases ha; exact hnew
    · intro j a c hj ha hac
      obtain ⟨rfl, _⟩ := idx_inv ha
      exact hac.congr (put_ne (by simpa using hj))
    · obtain ⟨i, j, _, _, rfl⟩ := mem_hess hds hd; simp
  | h i j =>
    obtain ⟨row, hb, hrow⟩ := h.hess.getElem? (idx_h hc.1)
    refine ⟨h.val.congr (put_ne (by simp)), h.grad.mono fun d hd b hb => hb.congr (put_ne ?_), h.hess.set ?_ ?_⟩
    · simp only [List.mem_map] at hd; obtain ⟨i, _, rfl⟩ := hd; simp
    · intro a ha; rw [idx_h hc.1] at ha; cases ha
      simp only [hb, Option.getD_some]
      refine hrow.set ?_ ?_
      · intro a ha; rw [idx_hj hc.2] at ha; cases ha; exact hnew
      · intro k a c hk ha hac
        obtain ⟨rfl, _⟩ := idx_inv ha
        exact hac.congr (put_ne (by simpa using hk))
    · intro k ds c hk hds hac
      obtain ⟨rfl, _⟩ := idx_inv hds
      refine hac.mono fun d hd b hb => hb.congr (put_ne ?_)
      simp only [List.mem_map] at hd
      obtain ⟨l, _, rfl⟩ := hd
      simp [hk]

/-! ### The programs, in terms of the component functions -/

/-- `evalP`. -/
def evalF (F : Comp → V → Res O) (v : V) (c : Comp) (k : O → Prog O) : Prog O :=
  match F c v with
  | .error e => .done (.error e)
  | .ok y => .write c y (.read c k)

/-- `loopP`. -/
def loopF (F : Comp → V → Res O) (v : V) : List Comp → Prog O → Prog O
  | [], next => next
  | c :: cs, next => evalF F v c fun _ => loopF F v cs next

/-- `prog`. -/
def progF (n : Nat) (F : Comp → V → Res O) (q : FQuery V) : Prog O :=
  match q with
  | .one c v => evalF F v c fun y => .done (.ok y)
  | .kept c v => loopF F v (q.computes n) (.read c fun y => .done (.ok y))

theorem evalP_of {n : Nat} {F : Comp → V → Res O} {st : Comp → Option O} {p : Flex V O} (h : FlexRep n F st p) {c : Comp} (hc : Has n c) (v : V)
    (k : O → Prog O) : evalP p v c k = evalF F v c k := by
  obtain ⟨o, h1, h2, h3⟩ := comp_of h hc
  simp only [evalP, h1, h2, evalF]
  cases F c v <;> rfl

theorem loopP_of {n : Nat} {F : Comp → V → Res O} {st : Comp → Option O} {p : Flex V O} (h : FlexRep n F st p) (v : V) (next : Prog O) (cs : List Comp)
    (hc : ∀ c ∈ cs, Has n c) : loopP p v cs next = loopF F v cs next := by
  induction cs with
  | nil => rfl
  | cons c cs ih =>
    simp only [loopP, loopF]
    rw [evalP_of h (hc c (by simp)), ih fun d hd => hc d (by simp [hd])]

theorem family_of {n : Nat} {F : Comp → V → Res O} {st : Comp → Option O} {p : Flex V O} (h : FlexRep n F st p) (c : Comp) (v : V) :
    family p c = (FQuery.kept c v).computes n := by
  have hgl : p.grad.length = n := by have := h.grad.length; simpa using this.symm
  have hhl : p.hess.length = n := by have := h.hess.length; simpa [hessComps] using this.symm
  cases c with
  | f => rfl
  | g i => simp only [family, FQuery.computes, hgl]
  | h i j =>
    simp only [family, FQuery.computes, hhl]
    have : ∀ i ∈ List.range n, (List.range ((p.hess[i]?).getD []).length).map (Comp.h i) = (List.range n).map (Comp.h i) := by
      intro i hi
      obtain ⟨row, hb, hrow⟩ := h.hess.getElem? (idx_h (List.mem_range.mp hi))
      have hl := hrow.length
      simp only [List.length_map, List.length_range] at hl
      rw [hb, Option.getD_some, ← hl]
    simp only [List.flatMap]
    rw [List.map_congr_left this]

theorem mem_computes {n : Nat} {q : FQuery V} (hq : q.Fits n) {c : Comp} (h : c ∈ q.computes n) : Has n c := by
  cases q with
  | one d v =>
    simp only [FQuery.computes, List.mem_singleton] at h
    subst h
    cases c <;> exact hq
  | kept d v =>
    cases d with
    | f => simp only [FQuery.computes, List.mem_singleton] at h; subst h; trivial
    | g i =>
      simp only [FQuery.computes, List.mem_map, List.mem_range] at h
      obtain ⟨j, hj, rfl⟩ := h
      exact hj
    | h i j =>
      simp only [FQuery.computes, List.mem_flatMap, List.mem_map, List.mem_range] at h
      obtain ⟨a, ha, b, hb, rfl⟩ := h
      exact ⟨ha, hb⟩

theorem comp_mem {n : Nat} {q : FQuery V} (hq : q.Fits n) : q.comp ∈ q.computes n := by
  cases q with
  | one d v => simp [FQuery.computes, FQuery.comp]
  | kept d v =>
    cases d with
    | f => simp [FQuery.computes, FQuery.comp]
    | g i => simpa [FQuery.computes, FQuery.comp] using (show i < n from hq)
    | h i j => simpa [FQuery.computes, FQuery.comp] using (show i < n ∧ j < n from hq)

theorem prog_of {n : Nat} {F : Comp → V → Res O} {st : Comp → Option O} {p : Flex V O} (h : FlexRep n F st p) {q : FQuery V} (hq : q.Fits n) :
    prog p q = progF n F q := by
  cases q with
  | one c v => exact evalP_of h (mem_computes hq (comp_mem hq)) v _
  | kept c v =>
    simp only [prog, progF]
    rw [family_of h c v]
    exact loopP_of h v _ _ fun d hd => mem_computes hq hd

/-! ### What a program writes -/

/-- Every component the program touches exists, and every write is allowed. -/
def Writes (n : Nat) (W : Comp → O → Prop) : Prog O → Prop
  | .done _ => True
  | .read c k => Has n c ∧ ∀ y, Writes n W (k y)
  | .write c y next => Has n c ∧ W c y ∧ Writes n W next

theorem writes_mono {n : Nat} {W W' : Comp → O → Prop} (h : ∀ c y, W c y → W' c y) {p : Prog O} (hp : Writes n W p) : Writes n W' p := by
  induction p with
  | done r => trivial
  | read c k ih => exact ⟨hp.1, fun y => ih y (hp.2 y)⟩
  | write c y next ih => exact ⟨hp.1, h _ _ hp.2.1, ih hp.2.2⟩

theorem loopF_writes {n : Nat} (F : Comp → V → Res O) (v : V) (next : Prog O) (all : List Comp) (hh : ∀ c ∈ all, Has n c)
    (hn : Writes n (fun c y => c ∈ all ∧ F c v = .ok y) next) (cs : List Comp) (hs : ∀ c ∈ cs, c ∈ all) :
    Writes n (fun c y => c ∈ all ∧ F c v = .ok y) (loopF F v cs next) := by
  induction cs with
  | nil => exact hn
  | cons c cs ih =>
    simp only [loopF, evalF]
    cases e : F c v with
    | error er => trivial
    | ok y => exact ⟨hh c (hs c (by simp)), ⟨hs c (by simp), e⟩, hh c (hs c (by simp)), fun _ => ih fun d hd => hs d (by simp [hd])⟩

theorem progF_writes {n : Nat} (F : Comp → V → Res O) {q : FQuery V} (hq : q.Fits n) :
    Writes n (fun c y => c ∈ q.computes n ∧ F c q.point = .ok y) (progF n F q) := by
  have hh : ∀ c ∈ q.computes n, Has n c := fun c hc => mem_computes hq hc
  have hm := comp_mem hq
  cases q with
  | one c v =>
    simp only [progF, evalF]
    cases e : F c v with
    | error er => trivial
    | ok y => exact ⟨hh c hm, ⟨hm, e⟩, hh c hm, fun _ => trivial⟩
  | kept c v => exact loopF_writes F v (.read c fun y => .done (.ok y)) _ hh ⟨hh c hm, fun _ => trivial⟩ _ fun d hd => hd

/-! ### Why a program ends with the right result -/

/-- From a state in which the numbers `D` are known, the program ends with `res`, if nobody else writes anything but `W`. -/
def Sound (n : Nat) (W : Comp → O → Prop) (res : Res O) : Prog O → (Comp → Option O) → Prop
  | .done r, _ => r = res
  | .read c k, D => Has n c ∧ ∃ y, D c = some y ∧ Sound n W res (k y) D
  | .write c y next, D => Has n c ∧ (∀ z, W c z → z = y) ∧ Sound n W res next (put D c y)

theorem loopF_sound {n : Nat} (F : Comp → V → Res O) (v : V) (W : Comp → O → Prop) (c : Comp) (cs : List Comp) : ∀ (D : Comp → Option O),
    (∀ d ∈ cs, Has n d ∧ ∀ y z, F d v = .ok y → W d z → z = y) → Has n c → (c ∈ cs ∨ ∃ y, F c v = .ok y ∧ D c = some y) →
    Sound n W (do for d in cs do { let _ ← F d v }; F c v) (loopF F v cs (.read c fun y => .done (.ok y))) D := by
  induction cs with
  | nil =>
    intro D _ hc h
    obtain h | ⟨y, h1, h2⟩ := h
    · simp at h
    · exact ⟨hc, y, h2, by simp [Sound, h1, pure, Except.pure]⟩
  | cons d cs ih =>
    intro D hs hc h
    simp only [loopF, evalF]
    cases e : F d v with
    | error er => simp [Sound, e]
    | ok y =>
      have := ih (put D d y) (fun a ha => hs a (by simp [ha])) hc (by
        by_cases hcd : c = d
        · subst hcd; exact .inr ⟨y, e, put_self⟩
        · rcases h with h | ⟨z, h1, h2⟩
          · rcases List.mem_cons.mp h with h | h
            · exact absurd h hcd
            · exact .inl h
          · exact .inr ⟨z, h1, by rw [put_ne hcd]; exact h2⟩)
      refine ⟨(hs d (by simp)).1, fun z hz => (hs d (by simp)).2 y z e hz, (hs d (by simp)).1, y, put_self, ?_⟩
      simpa [e] using this

theorem progF_sound {n : Nat} (F : Comp → V → Res O) {q : FQuery V} (hq : q.Fits n) (W : Comp → O → Prop)
    (hW : ∀ d ∈ q.computes n, ∀ y z, F d q.point = .ok y → W d z → z = y) (D : Comp → Option O) : Sound n W (q.meant n F) (progF n F q) D := by
  have hh : ∀ c ∈ q.computes n, Has n c := fun c hc => mem_computes hq hc
  have hm := comp_mem hq
  cases q with
  | one c v =>
    simp only [progF, evalF]
    cases e : F c v with
    | error er => simp [Sound, FQuery.meant, FQuery.computes, FQuery.point, FQuery.comp, e]
    | ok y =>
      refine ⟨hh c hm, fun z hz => hW c hm y z e hz, hh c hm, y, put_self, ?_⟩
      simp [Sound, FQuery.meant, FQuery.computes, FQuery.point, FQuery.comp, e]
  | kept c v => exact loopF_sound F v W c _ D (fun d hd => ⟨hh d hd, hW d hd⟩) (hh c hm) (.inl hm)

end FPar
end Verif
