import Verif.Model.ThreadsSeries
import Verif.Lemmas.SeriesOps

/-! Helper lemmas: an evaluation of a series made by a thread undisturbed is the evaluation of the sequential model. -/

namespace Verif
open Spec
namespace SPar
variable {K : Type} [Field K] [LinearOrder K] [FloorRing K]

/-! ### The loops over basis functions -/

/-- `eval`, `eval_grad`, `eval_hess` in one. -/
def kLoop (k : Kind) (x : K) : Nat → Nat → BasisSet K → Res (BasisSet K)
  | 0, _, b => .ok b
  | n + 1, i, b => do
    let r ← Series.termMember k b i x
    kLoop k x n (i + 1) r.2

theorem evMember_eq (k : Kind) (b : BasisSet K) (x : K) : Series.evMember k b x = kLoop k x b.val.length 0 b := by
  have h1 : ∀ n i b, BasisSet.evalLoop x n i b = kLoop (K := K) .v x n i b := by
    intro n; induction n with
    | zero => intros; rfl
    | succ n ih => intro i b; simp only [BasisSet.evalLoop, kLoop, ih]; rfl
  have h2 : ∀ n i b, BasisSet.gradLoop x n i b = kLoop (K := K) .g x n i b := by
    intro n; induction n with
    | zero => intros; rfl
    | succ n ih => intro i b; simp only [BasisSet.gradLoop, kLoop, ih]; rfl
  have h3 : ∀ n i b, BasisSet.hessLoop x n i b = kLoop (K := K) .h x n i b := by
    intro n; induction n with
    | zero => intros; rfl
    | succ n ih => intro i b; simp only [BasisSet.hessLoop, kLoop, ih]; rfl
  cases k
  · exact h1 _ _ _
  · exact h2 _ _ _
  · exact h3 _ _ _

/-- What no evaluation changes in a basis set. -/
def fixed (b : BasisSet K) : (Option (Nat → K → K)) × (Option (Nat → K → K)) × (Option (Nat → K → K)) × Nat :=
  (b.phi, b.dphi, b.ddphi, b.val.length)

theorem member_fixed {b b' : BasisSet K} (h : fixed b' = fixed b) (k : Kind) : member k b' = member k b := by
  simp only [fixed, Prod.mk.injEq] at h
  cases k <;> simp [member, h]

theorem termMember_ok {k : Kind} {b b' : BasisSet K} {t : Int} {x y : K} (h : Series.termMember k b t x = .ok (y, b')) :
    BasisSet.virt (member k b) t x = .ok y ∧ putMember k b t y = .ok b' ∧ fixed b' = fixed b := by
  cases k
  · simp only [Series.termMember, BasisSet.evalTerm, bind_eq_ok] at h
    obtain ⟨y', h1, l, h2, h3⟩ := h
    cases h3
    refine ⟨h1, by simp only [putMember, h2, ok_bind], ?_⟩
    simp only [fixed, Prod.mk.injEq, true_and]
    rw [(vset_ok.mp h2).2.2]; simp
  · simp only [Series.termMember, BasisSet.gradTerm, bind_eq_ok] at h
    obtain ⟨y', h1, l, h2, h3⟩ := h
    cases h3
    exact ⟨h1, by simp only [putMember, h2, ok_bind], rfl⟩
  · simp only [Series.termMember, BasisSet.hessTerm, bind_eq_ok] at h
    obtain ⟨y', h1, l, h2, h3⟩ := h
    cases h3
    exact ⟨h1, by simp only [putMember, h2, ok_bind], rfl⟩

theorem basisAt_nat {s : Series K} {i : Nat} {b : BasisSet K} : s.basisAt (i : Int) = .ok b ↔ s.basis[i]? = some (some b) := by
  constructor
  · intro h
    simp only [Series.basisAt, bind_eq_ok] at h
    obtain ⟨o, h1, h2⟩ := h
    have := (vget_ok.mp h1).2
    cases o with
    | none => simp at h2
    | some b' => simp only [Except.ok.injEq] at h2; subst h2; simpa using this
  · intro h
    have hg : vget s.basis (i : Int) = .ok (some b) := vget_ok.mpr ⟨by omega, by simpa using h⟩
    simp only [Series.basisAt, hg, ok_bind]

theorem basisAt_put {s : Series K} {i : Nat} {b b' : BasisSet K} (h : s.basisAt (i : Int) = .ok b) (j : Nat) :
    (s.putBasis i b').basisAt (j : Int) = if j = i then .ok b' else s.basisAt (j : Int) := by
  have hi := basisAt_nat.mp h
  have hl : i < s.basis.length := (List.getElem?_eq_some_iff.mp hi).1
  split
  · subst_vars
    rw [basisAt_nat]
    simp [Series.putBasis, hl]
  · rename_i hne
    simp only [Series.basisAt, Series.putBasis, vget]
    have : (s.basis.set i (some b'))[j]? = s.basis[j]? := by simp [List.getElem?_set, Ne.symm hne]
    simp [this]

theorem put_self {s : Series K} {i : Nat} {b : BasisSet K} (h : s.basisAt (i : Int) = .ok b) : s.putBasis i b = s := by
  have hi := basisAt_nat.mp h
  have : s.basis.set ((i : Int)).toNat (some b) = s.basis := by
    apply List.ext_getElem?
    intro j
    rw [List.getElem?_set]
    split
    · rename_i he; simp at he; subst he
      split
      · exact hi.symm
      · rename_i h2; rw [List.getElem?_eq_none (by simpa using h2)]
    · rfl
  simp only [Series.putBasis, this]

theorem put_put (s : Series K) (i : Nat) (b b' : BasisSet K) : (s.putBasis i b).putBasis i b' = s.putBasis i b' := by
  simp [Series.putBasis]

theorem termsP_exec (k : Kind) (i : Nat) (x : K) (next : Prog K) (n : Nat) : ∀ (t : Nat) (b b' : BasisSet K) (s : Series K), s.basisAt (i : Int) = .ok b →
    kLoop k x n t b = .ok b' → (termsP (member k b) k i x n t next).exec s = next.exec (s.putBasis i b') ∧ fixed b' = fixed b := by
  induction n with
  | zero =>
    intro t b b' s hb h
    cases h
    rw [termsP, put_self hb]
    exact ⟨rfl, rfl⟩
  | succ n ih =>
    intro t b b' s hb h
    simp only [kLoop, bind_eq_ok] at h
    obtain ⟨⟨y, b1⟩, h1, h2⟩ := h
    obtain ⟨e1, e2, e3⟩ := termMember_ok h1
    have hb1 : (s.putBasis i b1).basisAt (i : Int) = .ok b1 := by rw [basisAt_put hb]; simp
    obtain ⟨f1, f2⟩ := ih (t + 1) b1 b' (s.putBasis i b1) hb1 h2
    refine ⟨?_, f2.trans e3⟩
    rw [termsP, e1]
    simp only [Prog.exec, wr, hb, ok_bind, e2]
    rw [← member_fixed e3, f1, put_put]

/-! ### What no evaluation changes -/

/-- The two series differ in stored values of basis functions and results only. -/
structure Same (s s' : Series K) : Prop where
  coeff : s'.coeff = s.coeff
  zero : s'.zeroVal = s.zeroVal
  len : s'.basis.length = s.basis.length
  basis : ∀ i : Nat, (s'.basis[i]?).map (Option.map fixed) = (s.basis[i]?).map (Option.map fixed)

theorem Same.refl (s : Series K) : Same s s := ⟨rfl, rfl, rfl, fun _ => rfl⟩
theorem Same.trans {s s' s'' : Series K} (h : Same s s') (h' : Same s' s'') : Same s s'' :=
  ⟨h'.coeff.trans h.coeff, h'.zero.trans h.zero, h'.len.trans h.len, fun i => (h'.basis i).trans (h.basis i)⟩

theorem same_put {s : Series K} {i : Nat} {b b' : BasisSet K} (h : s.basisAt (i : Int) = .ok b) (hf : fixed b' = fixed b) : Same s (s.putBasis i b') := by
  refine ⟨rfl, rfl, by simp [Series.putBasis], fun j => ?_⟩
  have hi := basisAt_nat.mp h
  have hl : i < s.basis.length := (List.getElem?_eq_some_iff.mp hi).1
  simp only [Series.putBasis, Int.toNat_natCast, List.getElem?_set]
  split
  · subst_vars
    rw [hi]
    simp [hf]
  · rfl

theorem Same.at {s s' : Series K} (h : Same s s') (i : Nat) :
    (∃ b b', s.basisAt (i : Int) = .ok b ∧ s'.basisAt (i : Int) = .ok b' ∧ fixed b' = fixed b) ∨
    ∃ e, s.basisAt (i : Int) = .error e ∧ s'.basisAt (i : Int) = .error e := by
  have hb := h.basis i
  simp only [Series.basisAt, vget]
  cases h1 : s.basis[i]? with
  | none =>
    rw [h1] at hb
    cases h2 : s'.basis[i]? with
    | some o => rw [h2] at hb; simp at hb
    | none => right; exact ⟨.ub .oob, by simp [h1], by simp [h2]⟩
  | some o =>
    rw [h1] at hb
    cases h2 : s'.basis[i]? with
    | none => rw [h2] at hb; simp at hb
    | some o' =>
      rw [h2] at hb
      cases o with
      | none =>
        cases o' with
        | some b' => simp at hb
        | none => right; exact ⟨.ub .nullDeref, by simp [h1], by simp [h2]⟩
      | some b =>
        cases o' with
        | none => simp at hb
        | some b' =>
          left
          exact ⟨b, b', by simp [h1], by simp [h2], by simpa using hb⟩

theorem basisP_same {s s' : Series K} (h : Same s s') (k : Kind) (var : List K) (n : Nat) : ∀ (i : Nat) (next : Prog K),
    basisP s' k var n i next = basisP s k var n i next := by
  induction n with
  | zero => intros; rfl
  | succ n ih =>
    intro i next
    simp only [basisP, ih]
    rcases h.at i with ⟨b, b', e1, e2, e3⟩ | ⟨e, e1, e2⟩
    · rw [e1, e2]
      cases vget var (i : Int) with
      | error e => rfl
      | ok x =>
        simp only [member_fixed e3]
        have : b'.val.length = b.val.length := by simp only [fixed, Prod.mk.injEq] at e3; exact e3.2.2.2
        rw [this]
    · rw [e1, e2]

theorem sumP_same {s s' : Series K} (h : s'.coeff = s.coeff) (a : Cell) (n : Nat) : ∀ (i : Nat) (ti : List Int) (next : Prog K),
    sumP s' a n i ti next = sumP s a n i ti next := by
  induction n with
  | zero => intros; rfl
  | succ n ih => intro i ti next; simp only [sumP, ih, h]

theorem calcP_same {s s' : Series K} (h : Same s s') (a : Cell) (next : Prog K) : calcP s' a next = calcP s a next := by
  simp only [calcP, h.coeff, h.zero, sumP_same h.coeff]

theorem gradsP_same {s s' : Series K} (h : Same s s') (n : Nat) : ∀ (i : Nat) (next : Prog K), gradsP s' n i next = gradsP s n i next := by
  induction n with
  | zero => intros; rfl
  | succ n ih => intro i next; simp only [gradsP, ih, calcP_same h]

theorem hessRowP_same {s s' : Series K} (h : Same s s') (i n : Nat) : ∀ (j : Nat) (next : Prog K), hessRowP s' i n j next = hessRowP s i n j next := by
  induction n with
  | zero => intros; rfl
  | succ n ih => intro j next; simp only [hessRowP, ih, calcP_same h]

theorem hesssP_same {s s' : Series K} (h : Same s s') (n : Nat) : ∀ (i : Nat) (next : Prog K), hesssP s' n i next = hesssP s n i next := by
  induction n with
  | zero => intros; rfl
  | succ n ih => intro i next; simp only [hesssP, ih, hessRowP_same h, h.coeff]

theorem prog_same {s s' : Series K} (h : Same s s') (q : Query K) : prog s' q = prog s q := by
  cases q <;> simp only [prog, basisP_same h, calcP_same h, gradsP_same h, hesssP_same h, h.coeff]

theorem basisP_exec (k : Kind) (var : List K) (next : Prog K) (n : Nat) : ∀ (i : Nat) (s s' : Series K),
    Series.basisLoop (Series.evMember k) var n i s = .ok s' → (basisP s k var n i next).exec s = next.exec s' ∧ Same s s' := by
  induction n with
  | zero => intro i s s' h; cases h; exact ⟨rfl, Same.refl _⟩
  | succ n ih =>
    intro i s s' h
    simp only [Series.basisLoop, bind_eq_ok] at h
    obtain ⟨b, h1, x, h2, b', h3, h4⟩ := h
    rw [evMember_eq] at h3
    obtain ⟨e1, e2⟩ := termsP_exec k i x (basisP s k var n (i + 1) next) _ 0 b b' s h1 h3
    have hs := same_put h1 e2
    obtain ⟨f1, f2⟩ := ih (i + 1) _ s' h4
    refine ⟨?_, hs.trans f2⟩
    simp only [basisP, h1, h2]
    rw [e1, ← basisP_same hs, f1]

/-! ### The sums -/

/-- The cells of results. -/
def Result : Cell → Prop
  | .basis _ _ _ => False
  | _ => True

/-- The factors that belong to a cell. -/
def facOf : Cell → Int → BasisSet K → Int → Res K
  | .grad di => Series.facGrad di
  | .hess di dj => Series.facHess di dj
  | _ => Series.facVal

theorem fac_sel (a : Cell) (j : Int) (b : BasisSet K) (t : Int) : facOf a j b t = getMember (sel a j) b t := by
  cases a with
  | basis => rfl
  | val => rfl
  | grad di => simp only [facOf, Series.facGrad, sel]; split <;> rfl
  | hess di dj => simp only [facOf, Series.facHess, sel]; split <;> [split; skip] <;> rfl

theorem wr_result {a : Cell} (ha : Result a) {s s1 : Series K} {y : K} (h : wr s a y = .ok s1) :
    s1.basis = s.basis ∧ Same s s1 ∧ rd s1 a = .ok y ∧ ∀ z, ∃ s2, wr s1 a z = .ok s2 ∧ wr s a z = .ok s2 := by
  cases a with
  | basis => exact ha.elim
  | val => cases h; exact ⟨rfl, ⟨rfl, rfl, rfl, fun _ => rfl⟩, rfl, fun z => ⟨_, rfl, rfl⟩⟩
  | grad di =>
    simp only [wr, bind_eq_ok] at h
    obtain ⟨g, h1, h2⟩ := h
    cases h2
    obtain ⟨h0, hl, rfl⟩ := vset_ok.mp h1
    refine ⟨rfl, ⟨rfl, rfl, rfl, fun _ => rfl⟩, ?_, fun z => ?_⟩
    · simp only [rd, Series.getGrad]
      exact vget_ok.mpr ⟨h0, by simp [hl]⟩
    · have e1 : vset (s.gradVal.set di.toNat y) di z = .ok (s.gradVal.set di.toNat z) := vset_ok.mpr ⟨h0, by simpa using hl, by simp⟩
      have e2 : vset s.gradVal di z = .ok (s.gradVal.set di.toNat z) := vset_ok.mpr ⟨h0, hl, rfl⟩
      exact ⟨{ s with gradVal := s.gradVal.set di.toNat z }, by simp only [wr, e1, ok_bind], by simp only [wr, e2, ok_bind]⟩
  | hess di dj =>
    simp only [wr, bind_eq_ok] at h
    obtain ⟨row, h1, row', h2, g, h3, h4⟩ := h
    cases h4
    obtain ⟨h0, hl, rfl⟩ := vset_ok.mp h2
    obtain ⟨g0, gl, rfl⟩ := vset_ok.mp h3
    have hr : vget (s.hessVal.set di.toNat (row.set dj.toNat y)) di = .ok (row.set dj.toNat y) := vget_ok.mpr ⟨g0, by simp [gl]⟩
    refine ⟨rfl, ⟨rfl, rfl, rfl, fun _ => rfl⟩, ?_, fun z => ?_⟩
    · simp only [rd, Series.getHess, hr, ok_bind]
      exact vget_ok.mpr ⟨h0, by simp [hl]⟩
    · have e1 : vset (row.set dj.toNat y) dj z = .ok (row.set dj.toNat z) := vset_ok.mpr ⟨h0, by simpa using hl, by simp⟩
      have e2 : vset row dj z = .ok (row.set dj.toNat z) := vset_ok.mpr ⟨h0, hl, rfl⟩
      have e3 : vset (s.hessVal.set di.toNat (row.set dj.toNat y)) di (row.set dj.toNat z) = .ok (s.hessVal.set di.toNat (row.set dj.toNat z)) :=
        vset_ok.mpr ⟨g0, by simpa using gl, by simp⟩
      have e4 : vset s.hessVal di (row.set dj.toNat z) = .ok (s.hessVal.set di.toNat (row.set dj.toNat z)) := vset_ok.mpr ⟨g0, gl, rfl⟩
      exact ⟨{ s with hessVal := s.hessVal.set di.toNat (row.set dj.toNat z) }, by simp only [wr, hr, e1, e3, ok_bind], by simp only [wr, h1, e2, e4, ok_bind]⟩

theorem basisAt_congr {s s1 : Series K} (h : s1.basis = s.basis) (j : Int) : s1.basisAt j = s.basisAt j := by
  simp only [Series.basisAt, h]

theorem prodP_exec (a : Cell) (ti : List Int) (k : K → Prog K) {s s1 : Series K} (hb : s1.basis = s.basis) (n : Nat) : ∀ (j : Nat) (tmp p : K),
    Series.prodLoop (facOf a) s ti n j tmp = .ok p → (prodP a ti n j tmp k).exec s1 = (k p).exec s1 := by
  induction n with
  | zero => intro j tmp p h; cases h; rfl
  | succ n ih =>
    intro j tmp p h
    simp only [Series.prodLoop, bind_eq_ok] at h
    obtain ⟨b, h1, t, h2, y, h3, h4⟩ := h
    rw [fac_sel] at h3
    simp only [prodP, h2, Prog.exec, rd, basisAt_congr hb, h1, ok_bind, h3]
    exact ih _ _ _ h4

theorem sumP_exec {a : Cell} (ha : Result a) (next : Prog K) {s : Series K} (n : Nat) : ∀ (i : Nat) (ti : List Int) (acc y : K) (s1 : Series K),
    wr s a acc = .ok s1 → Series.calcLoop (facOf a) s n i ti acc = .ok y →
    ∃ s2, wr s a y = .ok s2 ∧ (sumP s a n i ti next).exec s1 = next.exec s2 := by
  induction n with
  | zero => intro i ti acc y s1 h1 h2; cases h2; exact ⟨s1, h1, rfl⟩
  | succ n ih =>
    intro i ti acc y s1 h1 h2
    simp only [Series.calcLoop, bind_eq_ok] at h2
    obtain ⟨c, e1, ti', e2, p, e3, e4⟩ := h2
    obtain ⟨f1, f2, f3, f4⟩ := wr_result ha h1
    obtain ⟨s2, g1, g2⟩ := f4 (acc + p)
    obtain ⟨s3, k1, k2⟩ := ih (i + 1) ti' (acc + p) y s2 g2 e4
    refine ⟨s3, k1, ?_⟩
    simp only [sumP, e1, e2]
    rw [prodP_exec a ti' _ f1 _ 0 c p e3]
    simp only [Prog.exec, f3, g1]
    exact k2

theorem calcP_exec {a : Cell} (ha : Result a) (next : Prog K) {s s0 : Series K} {y : K} (h0 : wr s a s.zeroVal = .ok s0)
    (h : s.calcSum (facOf a) = .ok y) : ∃ s2, wr s a y = .ok s2 ∧ (calcP s a next).exec s = next.exec s2 ∧ Same s s2 := by
  obtain ⟨s2, e1, e2⟩ := sumP_exec ha next _ 0 _ _ y s0 h0 h
  refine ⟨s2, e1, ?_, (wr_result ha e1).2.1⟩
  simp only [calcP, Prog.exec, h0]
  exact e2

theorem calcVal_exec (next : Prog K) {s s' : Series K} {y : K} (h : s.calcVal = .ok (y, s')) :
    (calcP s .val next).exec s = next.exec s' ∧ Same s s' ∧ rd s' .val = .ok y := by
  simp only [Series.calcVal, bind_eq_ok] at h
  obtain ⟨y', h1, h2⟩ := h
  cases h2
  obtain ⟨s2, e1, e2, e3⟩ := calcP_exec (a := .val) trivial next rfl h1
  cases e1
  exact ⟨e2, e3, rfl⟩

theorem calcGrad_exec (next : Prog K) {s s' : Series K} {di : Int} {y : K} (h : s.calcGrad di = .ok (y, s')) :
    (calcP s (.grad di) next).exec s = next.exec s' ∧ Same s s' := by
  simp only [Series.calcGrad, bind_eq_ok] at h
  obtain ⟨g0, h0, y', h1, g, h2, h3⟩ := h
  cases h3
  have hw : wr s (.grad di) s.zeroVal = .ok { s with gradVal := g0 } := by simp only [wr, h0, ok_bind]
  obtain ⟨s2, e1, e2, e3⟩ := calcP_exec (a := .grad di) trivial next hw h1
  simp only [wr, h2, ok_bind] at e1
  cases e1
  exact ⟨e2, e3⟩

theorem calcHess_exec (next : Prog K) {s s' : Series K} {di dj : Int} {y : K} (h : s.calcHess di dj = .ok (y, s')) :
    (calcP s (.hess di dj) next).exec s = next.exec s' ∧ Same s s' := by
  simp only [Series.calcHess, bind_eq_ok] at h
  obtain ⟨row, h0, row0, h1, y', h2, row', h3, H, h4, h5⟩ := h
  cases h5
  obtain ⟨hl, hl', _⟩ := vset_ok.mp h4
  have hw : wr s (.hess di dj) s.zeroVal = .ok { s with hessVal := s.hessVal.set di.toNat row0 } := by
    have : vset s.hessVal di row0 = .ok (s.hessVal.set di.toNat row0) := vset_ok.mpr ⟨hl, hl', rfl⟩
    simp only [wr, h0, h1, this, ok_bind]
  obtain ⟨s2, e1, e2, e3⟩ := calcP_exec (a := .hess di dj) trivial next hw h2
  simp only [wr, h0, h3, h4, ok_bind] at e1
  cases e1
  exact ⟨e2, e3⟩

theorem gradsP_exec (next : Prog K) (n : Nat) : ∀ (i : Nat) (s s' : Series K), Series.calcGrads n i s = .ok s' →
    (gradsP s n i next).exec s = next.exec s' ∧ Same s s' := by
  induction n with
  | zero => intro i s s' h; cases h; exact ⟨rfl, Same.refl _⟩
  | succ n ih =>
    intro i s s' h
    simp only [Series.calcGrads, bind_eq_ok] at h
    obtain ⟨⟨y, s1⟩, h1, h2⟩ := h
    obtain ⟨e1, e2⟩ := calcGrad_exec (gradsP s n (i + 1) next) h1
    obtain ⟨f1, f2⟩ := ih (i + 1) s1 s' h2
    exact ⟨by rw [gradsP, e1, ← gradsP_same e2, f1], e2.trans f2⟩

theorem hessRowP_exec (i : Nat) (next : Prog K) (n : Nat) : ∀ (j : Nat) (s s' : Series K), Series.calcHessRow i n j s = .ok s' →
    (hessRowP s i n j next).exec s = next.exec s' ∧ Same s s' := by
  induction n with
  | zero => intro j s s' h; cases h; exact ⟨rfl, Same.refl _⟩
  | succ n ih =>
    intro j s s' h
    simp only [Series.calcHessRow, bind_eq_ok] at h
    obtain ⟨⟨y, s1⟩, h1, h2⟩ := h
    obtain ⟨e1, e2⟩ := calcHess_exec (hessRowP s i n (j + 1) next) h1
    obtain ⟨f1, f2⟩ := ih (j + 1) s1 s' h2
    exact ⟨by rw [hessRowP, e1, ← hessRowP_same e2, f1], e2.trans f2⟩

theorem hesssP_exec (next : Prog K) (n : Nat) : ∀ (i : Nat) (s s' : Series K), Series.calcHesss n i s = .ok s' →
    (hesssP s n i next).exec s = next.exec s' ∧ Same s s' := by
  induction n with
  | zero => intro i s s' h; cases h; exact ⟨rfl, Same.refl _⟩
  | succ n ih =>
    intro i s s' h
    simp only [Series.calcHesss, bind_eq_ok] at h
    obtain ⟨s1, h1, h2⟩ := h
    obtain ⟨e1, e2⟩ := hessRowP_exec i (hesssP s n (i + 1) next) _ 0 s s1 h1
    obtain ⟨f1, f2⟩ := ih (i + 1) s1 s' h2
    exact ⟨by rw [hesssP, e1, ← hesssP_same e2, f1], e2.trans f2⟩

/-- The sequential model's answer to a query, and the series after it. -/
def ask (s : Series K) : Query K → Res (K × Series K)
  | .value x => s.evalAt x
  | .grad x di => do let s' ← s.evalGrad x; let y ← s'.getGrad di; .ok (y, s')
  | .hess x di dj => do let s' ← s.evalHess x; let y ← s'.getHess di dj; .ok (y, s')

/-- An evaluation made undisturbed is that of the sequential model. -/
theorem prog_exec {s s' : Series K} {q : Query K} {y : K} (h : ask s q = .ok (y, s')) : (prog s q).exec s = (.ok y, s') ∧ Same s s' := by
  cases q with
  | value x =>
    simp only [ask, Series.evalAt, bind_eq_ok] at h
    obtain ⟨s1, h1, h2⟩ := h
    obtain ⟨e1, e2⟩ := basisP_exec .v x (calcP s .val (getP .val)) _ 0 s s1 h1
    obtain ⟨f1, f2, f3⟩ := calcVal_exec (getP .val) h2
    refine ⟨?_, e2.trans f2⟩
    rw [prog, e1, ← calcP_same e2, f1]
    simp only [getP, Prog.exec, f3]
  | grad x di =>
    simp only [ask, Series.evalGrad, bind_eq_ok] at h
    obtain ⟨s3, ⟨s1, h1, s2, h2, h3⟩, y', h4, h5⟩ := h
    cases h5
    obtain ⟨e1, e2⟩ := basisP_exec .v x (basisP s .g x s.coeff.order.toNat 0 (gradsP s s.coeff.order.toNat 0 (getP (.grad di)))) _ 0 s s1 h1
    obtain ⟨f1, f2⟩ := basisP_exec .g x (gradsP s s.coeff.order.toNat 0 (getP (.grad di))) _ 0 s1 s2 h2
    obtain ⟨g1, g2⟩ := gradsP_exec (getP (.grad di)) _ 0 s2 s' h3
    refine ⟨?_, (e2.trans f2).trans g2⟩
    rw [basisP_same e2, e2.coeff] at f1
    rw [gradsP_same (e2.trans f2), (e2.trans f2).coeff] at g1
    rw [prog, e1, f1, g1]
    simp only [getP, Prog.exec, rd, h4]
  | hess x di dj =>
    simp only [ask, Series.evalHess, bind_eq_ok] at h
    obtain ⟨s4, ⟨s1, h1, s2, h2, s3, h3, h3'⟩, y', h4, h5⟩ := h
    cases h5
    have e := basisP_exec .v x (basisP s .g x s.coeff.order.toNat 0 (basisP s .h x s.coeff.order.toNat 0
      (hesssP s s.coeff.order.toNat 0 (getP (.hess di dj))))) _ 0 s s1 h1
    have f := basisP_exec .g x (basisP s .h x s.coeff.order.toNat 0 (hesssP s s.coeff.order.toNat 0 (getP (.hess di dj)))) _ 0 s1 s2 h2
    have g := basisP_exec .h x (hesssP s s.coeff.order.toNat 0 (getP (.hess di dj))) _ 0 s2 s3 h3
    have k := hesssP_exec (getP (.hess di dj)) _ 0 s3 s' h3'
    have hsf := e.2.trans f.2
    have hsg := hsf.trans g.2
    refine ⟨?_, hsg.trans k.2⟩
    have f1 := f.1
    have g1 := g.1
    have k1 := k.1
    rw [basisP_same e.2, e.2.coeff] at f1
    rw [basisP_same hsf, hsf.coeff] at g1
    rw [hesssP_same hsg, hsg.coeff] at k1
    rw [prog, e.1, f1, g1, k1]
    simp only [getP, Prog.exec, rd, h4]

end SPar
end Verif
