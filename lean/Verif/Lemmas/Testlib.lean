import Verif.Model.Testlib
import Verif.Lemmas.Basis
import Verif.Lemmas.Core

/-! # Basis sets of generated functions behave like the basis set of the functions their texts denote -/

namespace Verif
open Spec Testlib

theorem compute_eval {K : Type} [Field K] (v : Nat → K) : ∀ a : Ast, a.compute v = a.eval v
  | .num q => rfl
  | .var i => rfl
  | .add a b => by rw [Ast.compute, Ast.eval, compute_eval v a, compute_eval v b]; rfl
  | .sub a b => by rw [Ast.compute, Ast.eval, compute_eval v a, compute_eval v b]; rfl
  | .mul a b => by rw [Ast.compute, Ast.eval, compute_eval v a, compute_eval v b]; rfl
  | .neg a => by rw [Ast.compute, Ast.eval, compute_eval v a]; rfl
  | .pow a n => by
    rw [Ast.compute, Ast.eval, compute_eval v a]
    induction n with
    | zero => simp [Arith.lit]
    | succ n ih => rw [pow_succ, ← ih]; rfl

variable {K : Type} [Arith K] [Zero K]

/-- The functions a class computes, in range of the class: term `k` has a case, and its three texts are expressions with the values of
`F`. -/
def TermClass.Denotes (cls : TermClass) (F : Family K) : Prop :=
  ∀ k < 30, ∃ t a b c, cls.terms[k]? = some t ∧
    (readCpp1 t.f.eval = some a ∧ ∀ x, a.compute (fun _ => x) = F.phi k x) ∧
    (readCpp1 t.grad.eval = some b ∧ ∀ x, b.compute (fun _ => x) = F.dphi k x) ∧
    (readCpp1 t.hess.eval = some c ∧ ∀ x, c.compute (fun _ => x) = F.ddphi k x)

/-- A function object of term `k`. -/
structure FlexFor (F : Family K) (k : Nat) (b : FBase) (p : Flex K K) : Prop where
  base : p.base = b
  val : ∃ o : SObj K K, p.val = some o ∧ o.fn = some fun v => .ok (F.phi k v)
  grad : ∃ o : SObj K K, p.grad = [some o] ∧ o.fn = some fun v => .ok (F.dphi k v)
  hess : ∃ o : SObj K K, p.hess = [[some o]] ∧ o.fn = some fun v => .ok (F.ddphi k v)

namespace FlexFor
variable {F : Family K} {k : Nat} {b : FBase} {p : Flex K K}

theorem copy (h : FlexFor F k b p) : p.copyCtor = .ok p := by
  obtain ⟨_, ⟨o, h1, _⟩, ⟨g, h2, _⟩, ⟨q, h3, _⟩⟩ := h
  cases p
  simp only at h1 h2 h3
  subst h1 h2 h3
  rfl

theorem evalAt (h : FlexFor F k b p) (x : K) : ∃ p', p.evalAt x = (.ok (F.phi k x), p') ∧ FlexFor F k b p' := by
  obtain ⟨h0, ⟨o, h1, e1⟩, h2, h3⟩ := h
  refine ⟨{ p with val := some { o with val := some (F.phi k x) } }, ?_, ⟨h0, ⟨_, rfl, e1⟩, h2, h3⟩⟩
  simp [Flex.evalAt, h1, SFun.evalAt, SObj.evalAt, SObj.evalFn, e1]

theorem gradAt (h : FlexFor F k b p) (x : K) : ∃ p', p.gradAt x 0 = (.ok (F.dphi k x), p') ∧ FlexFor F k b p' := by
  obtain ⟨h0, h1, ⟨o, h2, e2⟩, h3⟩ := h
  refine ⟨{ p with grad := [some { o with val := some (F.dphi k x) }] }, ?_, ⟨h0, h1, ⟨_, rfl, e2⟩, h3⟩⟩
  simp [Flex.gradAt, h2, vget, SFun.evalAt, SObj.evalAt, SObj.evalFn, e2]

theorem hessAt (h : FlexFor F k b p) (x : K) : ∃ p', p.hessAt x 0 0 = (.ok (F.ddphi k x), p') ∧ FlexFor F k b p' := by
  obtain ⟨h0, h1, h2, ⟨o, h3, e3⟩⟩ := h
  refine ⟨{ p with hess := [[some { o with val := some (F.ddphi k x) }]] }, ?_, ⟨h0, h1, h2, ⟨_, rfl, e3⟩⟩⟩
  simp [Flex.hessAt, h3, vget, SFun.evalAt, SObj.evalAt, SObj.evalFn, e3]

end FlexFor

namespace TermSet

/-- Name and variables of term `k`. -/
def termBase (cls : TermClass) (k : Nat) : FBase := ⟨((cls.terms[k]?).map (·.name)).getD "", ["x"], ["x"]⟩

theorem basisFunction_of {cls : TermClass} {F : Family K} (hd : cls.Denotes F) {k : Nat} (hk : k < 30) :
    ∃ p, basisFunction cls k = .ok (some p) ∧ FlexFor F k (termBase cls k) p := by
  obtain ⟨t, a, b, c, ht, ⟨ra, va⟩, ⟨rb, vb⟩, ⟨rc, vc⟩⟩ := hd k hk
  refine ⟨⟨⟨t.name, ["x"], ["x"]⟩, some t.f.obj1, [some t.grad.obj1], [[some t.hess.obj1]]⟩, ?_, ?_⟩
  · simp only [basisFunction, TermClass.maxSize, ge_iff_le, show ¬ 30 ≤ k by omega, if_false, ht]
    rfl
  · refine ⟨by simp [termBase, ht], ⟨_, rfl, ?_⟩, ⟨_, rfl, ?_⟩, ⟨_, rfl, ?_⟩⟩
    · simp [ClassText.obj1, ClassText.obj, ra, va]
    · simp [ClassText.obj1, ClassText.obj, rb, vb]
    · simp [ClassText.obj1, ClassText.obj, rc, vc]

theorem basisFunction_big (cls : TermClass) {k : Nat} (hk : 30 ≤ k) :
    (basisFunction cls k : Res (Option (Flex K K))) = .error (.exit 1) := by
  simp [basisFunction, TermClass.maxSize, hk]

/-- The functions of a set. -/
def FnGood (cls : TermClass) (F : Family K) (l : List (Option (Flex K K))) (n : Nat) : Prop :=
  ∀ k < n, ∃ p, l[k]? = some (some p) ∧ FlexFor F k (termBase cls k) p

/-- A set of `n` terms. -/
structure Good (F : Family K) (n : Nat) (s : TermSet K) : Prop where
  den : s.cls.Denotes F
  le : n ≤ 30
  name : s.name = s.cls.name
  desc : s.description = s.cls.description
  vlen : s.val.length = n
  glen : s.grad.length = n
  hlen : s.hess.length = n
  flen : s.fn.length = n
  fns : FnGood s.cls F s.fn n

theorem constructLoop_of {F : Family K} : ∀ (n i : Nat) (s : TermSet K), s.cls.Denotes F → s.fn.length = i + n → i + n ≤ 30 →
    FnGood s.cls F s.fn i → ∃ fn, constructLoop n i s = .ok { s with fn := fn } ∧ fn.length = i + n ∧ FnGood s.cls F fn (i + n)
  | 0, i, s, _, hl, _, hg => ⟨s.fn, rfl, hl, hg⟩
  | n + 1, i, s, hd, hl, hle, hg => by
    obtain ⟨p, hp, gp⟩ := basisFunction_of hd (k := i) (by omega)
    have hi : i < s.fn.length := by omega
    have := constructLoop_of n (i + 1) { s with fn := s.fn.set i (some p) } hd (by simp; omega) (by omega) (by
      intro k hk
      by_cases e : k = i
      · subst e; exact ⟨p, by simp [hi], gp⟩
      · obtain ⟨q, hq, gq⟩ := hg k (by omega)
        exact ⟨q, by simp [List.getElem?_set_ne (Ne.symm e), hq], gq⟩)
    obtain ⟨fn, h1, h2, h3⟩ := this
    refine ⟨fn, ?_, by omega, by rw [show i + (n + 1) = i + 1 + n by omega]; exact h3⟩
    simp only [constructLoop, hp, ok_bind, vget_nat _ _ hi, assignFn, gp.copy, vset_nat _ _ _ hi]
    exact h1

theorem construct_of {F : Family K} (s : TermSet K) (hd : s.cls.Denotes F) {n : Nat} (hn : n ≤ 30) :
    ∃ fn, s.construct n = .ok { s with
      name := s.cls.name, description := s.cls.description
      val := vresize s.val n 0, grad := vresize s.grad n 0, hess := vresize s.hess n 0, fn := fn } ∧
      fn.length = n ∧ FnGood s.cls F fn n := by
  unfold construct
  rw [if_neg (by simp [TermClass.maxSize]; omega)]
  have := constructLoop_of (F := F) n 0 { s with
      name := s.cls.name, description := s.cls.description
      val := vresize s.val n 0, grad := vresize s.grad n 0, hess := vresize s.hess n 0
      fn := vresize s.fn n none } hd (by simp) (by omega) (by intro k hk; omega)
  obtain ⟨fn, h1, h2, h3⟩ := this
  refine ⟨fn, ?_, by omega, by simpa using h3⟩
  simp only [vresize_length]
  exact h1

theorem construct_big (s : TermSet K) {n : Nat} (hn : 30 < n) : s.construct n = .error (.exit 1) := by
  simp [construct, TermClass.maxSize, hn]

/-- The first `n` elements of `r`, then those of `l`. -/
def over {α : Type} (n : Nat) (r l : List α) : List α := r.take n ++ l.drop n

theorem over_zero {α : Type} (r l : List α) : over 0 r l = l := by simp [over]

theorem over_length {α : Type} {n : Nat} {r l : List α} (h1 : n ≤ r.length) (h2 : n ≤ l.length) : (over n r l).length = l.length := by
  simp [over]; omega

theorem over_set {α : Type} {i : Nat} {r l : List α} {a : α} (h1 : r[i]? = some a) (h2 : i < l.length) :
    (over i r l).set i a = over (i + 1) r l := by
  have hr : i < r.length := by
    by_contra h
    rw [List.getElem?_eq_none_iff.mpr (by omega)] at h1
    cases h1
  apply List.ext_getElem?
  intro j
  have l1 : (over i r l).length = l.length := over_length (by omega) (by omega)
  simp only [over] at l1 ⊢
  by_cases e : j = i
  · subst e
    rw [List.getElem?_set_self (by omega), List.getElem?_append_left (by simp; omega), List.getElem?_take]
    simp [h1]
  · rw [List.getElem?_set_ne (Ne.symm e)]
    by_cases hj : j < i
    · rw [List.getElem?_append_left (by simp; omega), List.getElem?_append_left (by simp; omega), List.getElem?_take, List.getElem?_take]
      simp [hj, show j < i + 1 by omega]
    · rw [List.getElem?_append_right (by simp; omega), List.getElem?_append_right (by simp; omega)]
      simp only [List.length_take, List.getElem?_drop]
      congr 1; omega

theorem over_get {α : Type} {n : Nat} {r l : List α} (h1 : n ≤ r.length) (i : Nat) :
    (over n r l)[i]? = if i < n then r[i]? else l[i]? := by
  unfold over
  split
  · next h => rw [List.getElem?_append_left (by simp; omega), List.getElem?_take, if_pos h]
  · rw [List.getElem?_append_right (by simp; omega)]
    simp only [List.length_take, List.getElem?_drop]
    congr 1; omega

theorem copyLoop_of {F : Family K} {rhs : TermSet K} (hg : FnGood rhs.cls F rhs.fn rhs.fn.length) : ∀ (n i : Nat) (s : TermSet K),
    i + n ≤ rhs.val.length → i + n ≤ rhs.grad.length → i + n ≤ rhs.hess.length → i + n ≤ rhs.fn.length →
    i + n ≤ s.val.length → i + n ≤ s.grad.length → i + n ≤ s.hess.length → i + n ≤ s.fn.length →
    ∀ v g h f, s.val.length = v.length → s.grad.length = g.length → s.hess.length = h.length → s.fn.length = f.length →
      s.val = over i rhs.val v → s.grad = over i rhs.grad g → s.hess = over i rhs.hess h → s.fn = over i rhs.fn f →
    copyLoop rhs n i s = .ok { s with
      val := over (i + n) rhs.val v, grad := over (i + n) rhs.grad g, hess := over (i + n) rhs.hess h, fn := over (i + n) rhs.fn f }
  | 0, i, s, _, _, _, _, _, _, _, _, v, g, h, f, _, _, _, _, e1, e2, e3, e4 => by
    cases s; simp only at e1 e2 e3 e4; subst e1 e2 e3 e4; rfl
  | n + 1, i, s, a1, a2, a3, a4, b1, b2, b3, b4, v, g, h, f, l1, l2, l3, l4, e1, e2, e3, e4 => by
    obtain ⟨p, hp, gp⟩ := hg i (by omega)
    have hpi : rhs.fn[i]'(by omega) = some p := by
      have := List.getElem?_eq_getElem (l := rhs.fn) (i := i) (by omega)
      rw [hp] at this; exact (Option.some.inj this).symm
    have := copyLoop_of hg n (i + 1)
      { s with
        val := s.val.set i (rhs.val[i]'(by omega)), grad := s.grad.set i (rhs.grad[i]'(by omega))
        hess := s.hess.set i (rhs.hess[i]'(by omega)), fn := s.fn.set i (some p) }
      (by omega) (by omega) (by omega) (by omega) (by simp; omega) (by simp; omega) (by simp; omega) (by simp; omega)
      v g h f (by simpa using l1) (by simpa using l2) (by simpa using l3) (by simpa using l4)
      (by simp only; rw [e1]; exact over_set (by simp) (by omega))
      (by simp only; rw [e2]; exact over_set (by simp) (by omega))
      (by simp only; rw [e3]; exact over_set (by simp) (by omega))
      (by simp only; rw [e4]; exact over_set hp (by omega))
    simp only [copyLoop, vget_nat _ _ (show i < rhs.val.length by omega), vget_nat _ _ (show i < rhs.grad.length by omega),
      vget_nat _ _ (show i < rhs.hess.length by omega), vget_nat _ _ (show i < rhs.fn.length by omega),
      vget_nat _ _ (show i < s.fn.length by omega), ok_bind, vset_nat _ _ _ (show i < s.val.length by omega),
      vset_nat _ _ _ (show i < s.grad.length by omega), vset_nat _ _ _ (show i < s.hess.length by omega), hpi, assignFn, gp.copy,
      vset_nat _ _ _ (show i < s.fn.length by omega)]
    rw [this]
    simp only [show i + 1 + n = i + (n + 1) by omega]

theorem copy_of {F : Family K} {rhs s : TermSet K} {n : Nat} (hr : Good F n rhs) {m : Nat} (h1 : s.val.length = m)
    (h2 : s.grad.length = m) (h3 : s.hess.length = m) (h4 : s.fn.length = m) :
    s.copy rhs = .ok { s with
      name := rhs.name, description := rhs.description
      val := over (min n m) rhs.val s.val, grad := over (min n m) rhs.grad s.grad, hess := over (min n m) rhs.hess s.hess
      fn := over (min n m) rhs.fn s.fn } := by
  have hm : (if rhs.val.length < s.val.length then rhs.val.length else s.val.length) = min n m := by
    rw [hr.vlen, h1]; split <;> omega
  simp only [copy, hm]
  have a := hr.vlen; have b := hr.glen; have c := hr.hlen; have d := hr.flen
  have hf := hr.fns
  rw [← hr.flen] at hf
  have := copyLoop_of hf (min n m) 0 { s with name := rhs.name, description := rhs.description }
    (by omega) (by omega) (by omega) (by omega) (by simp only; omega) (by simp only; omega) (by simp only; omega) (by simp only; omega)
    s.val s.grad s.hess s.fn rfl rfl rfl rfl (over_zero _ _).symm (over_zero _ _).symm (over_zero _ _).symm (over_zero _ _).symm
  rw [this]
  simp only [Nat.zero_add]

theorem over_all {α : Type} {r l : List α} (h : l.length ≤ r.length) (hn : l.length = r.length) : over r.length r l = r := by
  simp [over, List.drop_eq_nil_of_le (by omega : l.length ≤ r.length)]

theorem make_of {F : Family K} {cls : TermClass} (hd : cls.Denotes F) {n : Nat} (hn : n ≤ 30) :
    ∃ s, make cls n = .ok s ∧ Good F n s ∧ s.cls = cls ∧ s.val = List.replicate n 0 ∧ s.grad = List.replicate n 0 ∧
      s.hess = List.replicate n 0 := by
  obtain ⟨fn, h1, h2, h3⟩ := construct_of (base (K := K) cls n) hd hn
  have hv : vresize (List.replicate n (0 : K)) n 0 = List.replicate n 0 := by
    have := vresize_same (List.replicate n (0 : K)) 0
    simpa using this
  exact ⟨_, h1, ⟨hd, hn, rfl, rfl, by simp, by simp, by simp, h2, h3⟩, rfl, hv, hv, hv⟩

theorem make_big {cls : TermClass} {n : Nat} (hn : 30 < n) : (make cls n : Res (TermSet K)) = .error (.exit 1) :=
  construct_big _ hn

theorem copyCtor_of {F : Family K} {s : TermSet K} {n : Nat} (h : Good F n s) : s.copyCtor = .ok s := by
  obtain ⟨fn, h1, h2, h3⟩ := construct_of (base (K := K) s.cls s.val.length) h.den (n := s.val.length) (by rw [h.vlen]; exact h.le)
  unfold copyCtor
  rw [h1, ok_bind, copy_of h (m := n) (by simp [h.vlen]) (by simp [h.vlen]) (by simp [h.vlen]) (by simpa [h.vlen] using h2)]
  have e1 := h.vlen; have e2 := h.glen; have e3 := h.hlen; have e4 := h.flen
  have hs := h.vlen.symm
  cases s
  simp only [Nat.min_self, base, Except.ok.injEq, TermSet.mk.injEq, true_and] at *
  refine ⟨?_, ?_, ?_, ?_⟩
  · rw [← e1, over_all (by simp) (by simp)]
  · rw [← e2, over_all (by simp; omega) (by simp; omega)]
  · rw [← e3, over_all (by simp; omega) (by simp; omega)]
  · rw [← e4, over_all (by omega) (by omega)]

theorem over_vresize {α : Type} (l : List α) (n : Nat) (d : α) : over (min l.length n) l (vresize l n d) = vresize l n d := by
  apply List.ext_getElem?
  intro i
  rw [over_get (by omega)]
  split
  · next h => rw [vresize_getElem? _ _ _ _ (by omega), List.getElem?_eq_getElem (by omega)]; simp
  · rfl

theorem Good.over {F : Family K} {cls : TermClass} {r l : List (Option (Flex K K))} {n m : Nat} (h1 : r.length = n)
    (hr : FnGood cls F r n) (hl : FnGood cls F l m) : FnGood cls F (over (min n m) r l) m := by
  intro k hk
  rw [over_get (by omega)]
  split
  · exact hr k (by omega)
  · exact hl k hk

theorem resize_of {F : Family K} {s : TermSet K} {n m : Nat} (h : Good F n s) (hm : m ≤ 30) :
    ∃ s', s.resize m = .ok s' ∧ Good F m s' ∧ s'.cls = s.cls ∧ s'.val = vresize s.val m 0 ∧ s'.grad = vresize s.grad m 0 ∧
      s'.hess = vresize s.hess m 0 ∧ ∀ k < min n m, s'.fn[k]? = s.fn[k]? := by
  obtain ⟨fn, h1, h2, h3⟩ := construct_of s h.den hm
  unfold resize
  rw [copyCtor_of h, ok_bind, h1, ok_bind, copy_of h (m := m) (by simp) (by simp) (by simp) (by simpa using h2)]
  have e1 := h.vlen; have e2 := h.glen; have e3 := h.hlen; have e4 := h.flen
  have f1 := over_vresize s.val m 0; have f2 := over_vresize s.grad m 0; have f3 := over_vresize s.hess m 0
  rw [e1] at f1; rw [e2] at f2; rw [e3] at f3
  simp only [f1, f2, f3]
  refine ⟨_, rfl, ⟨h.den, hm, h.name, h.desc, by simp, by simp, by simp, ?_, ?_⟩, rfl, rfl, rfl, rfl, ?_⟩
  · simp only; rw [over_length (by omega) (by omega), h2]
  · exact Good.over h.flen h.fns h3
  · intro k hk; simp only; rw [over_get (by omega), if_pos hk]

theorem resize_big {F : Family K} {s : TermSet K} {n m : Nat} (h : Good F n s) (hm : 30 < m) : s.resize m = .error (.exit 1) := by
  unfold resize
  rw [copyCtor_of h, ok_bind, construct_big _ hm, err_bind]

theorem assign_of {F : Family K} {s r : TermSet K} {n m : Nat} (h : Good F n s) (hr : Good F m r) (hc : s.cls = r.cls) :
    s.assign r = .ok r := by
  obtain ⟨fn, h1, h2, h3⟩ := construct_of s h.den (n := r.val.length) (by rw [hr.vlen]; exact hr.le)
  unfold assign
  rw [h1, ok_bind, copy_of hr (m := m) (by simp [hr.vlen]) (by simp [hr.vlen]) (by simp [hr.vlen]) (by simpa [hr.vlen] using h2)]
  have e1 := hr.vlen; have e2 := hr.glen; have e3 := hr.hlen; have e4 := hr.flen
  cases r
  simp only [Nat.min_self, Except.ok.injEq, TermSet.mk.injEq, true_and] at *
  refine ⟨hc, ?_, ?_, ?_, ?_⟩
  · rw [← e1, over_all (by simp) (by simp)]
  · rw [← e2, over_all (by simp; omega) (by simp; omega)]
  · rw [← e3, over_all (by simp; omega) (by simp; omega)]
  · rw [← e4, over_all (by omega) (by omega)]

/-- A generated basis set and the basis set of `Model/Series` with the functions of `F`. -/
structure Rel (F : Family K) (s : TermSet K) (b : BasisSet K) : Prop where
  good : ∃ n, Good F n s
  phi : b.phi = some F.phi
  dphi : b.dphi = some F.dphi
  ddphi : b.ddphi = some F.ddphi
  val : b.val = s.val
  grad : b.grad = s.grad
  hess : b.hess = s.hess

/-- Related results. -/
inductive RelRes {α β : Type} (R : α → β → Prop) : Res α → Res β → Prop where
  | ok {a b} : R a b → RelRes R (.ok a) (.ok b)
  | err {e} : RelRes R (.error e) (.error e)

theorem FnGood.set {cls : TermClass} {F : Family K} {l : List (Option (Flex K K))} {n : Nat} (h : FnGood cls F l n) {k : Nat} {p : Flex K K}
    (hp : FlexFor F k (termBase cls k) p) (hk : k < l.length) : FnGood cls F (l.set k (some p)) n := by
  intro j hj
  by_cases e : j = k
  · subst e; exact ⟨p, by simp [hk], hp⟩
  · rw [List.getElem?_set_ne (Ne.symm e)]; exact h j hj

theorem onTerm_in {F : Family K} {n : Nat} {s : TermSet K} (h : Good F n s) {t : Int} (h0 : 0 ≤ t) (h1 : t < n)
    {call : Flex K K → Res K × Flex K K} {y : K}
    (hc : ∀ p b, FlexFor F t.toNat b p → ∃ p', call p = (.ok y, p') ∧ FlexFor F t.toNat b p') :
    ∃ fn, s.onTerm t call = .ok (y, { s with fn := fn }) ∧ Good F n { s with fn := fn } := by
  obtain ⟨p, hp, gp⟩ := h.fns t.toNat (by omega)
  obtain ⟨p', e, gp'⟩ := hc p _ gp
  refine ⟨s.fn.set t.toNat (some p'), ?_, { h with flen := by simpa using h.flen, fns := FnGood.set h.fns gp' (by rw [h.flen]; omega) }⟩
  simp [onTerm, vget_ok.mpr ⟨h0, hp⟩, e]

theorem onTerm_out {F : Family K} {n : Nat} {s : TermSet K} (h : Good F n s) {t : Int} (ht : ¬ (0 ≤ t ∧ t < n))
    (call : Flex K K → Res K × Flex K K) : s.onTerm t call = .error (.ub .oob) := by
  simp only [onTerm]
  rw [vget_err (by rw [h.flen]; exact ht), err_bind]

theorem vset_err {α : Type} {l : List α} {t : Int} {a : α} (ht : ¬ (0 ≤ t ∧ t < l.length)) : vset l t a = .error (.ub .oob) := by
  unfold vset; rw [if_neg (by omega)]

theorem evalTerm_rel {F : Family K} {s : TermSet K} {b : BasisSet K} (h : Rel F s b) (t : Int) (x : K) :
    RelRes (fun p q => p.1 = q.1 ∧ Rel F p.2 q.2) (s.evalTerm t x) (b.evalTerm t x) := by
  obtain ⟨⟨n, g⟩, h1, h2, h3, h4, h5, h6⟩ := h
  by_cases ht : 0 ≤ t ∧ t < n
  · obtain ⟨fn, e, gf⟩ := onTerm_in g ht.1 ht.2 (call := fun p => p.evalAt x) (y := F.phi t.toNat x) fun p b hp => hp.evalAt x
    have hv : vset s.val t (F.phi t.toNat x) = .ok (s.val.set t.toNat (F.phi t.toNat x)) :=
      vset_ok.mpr ⟨ht.1, by rw [g.vlen]; omega, rfl⟩
    simp only [evalTerm, e, ok_bind, hv, BasisSet.evalTerm, BasisSet.virt, h1, h4]
    exact .ok ⟨rfl, ⟨n, { gf with vlen := by simpa using g.vlen }⟩, rfl, h2, h3, rfl, h5, h6⟩
  · simp only [evalTerm, onTerm_out g ht, err_bind, BasisSet.evalTerm, BasisSet.virt, h1, h4, ok_bind]
    rw [vset_err (by rw [g.vlen]; exact ht), err_bind]
    exact .err

theorem gradTerm_rel {F : Family K} {s : TermSet K} {b : BasisSet K} (h : Rel F s b) (t : Int) (x : K) :
    RelRes (fun p q => p.1 = q.1 ∧ Rel F p.2 q.2) (s.gradTerm t x) (b.gradTerm t x) := by
  obtain ⟨⟨n, g⟩, h1, h2, h3, h4, h5, h6⟩ := h
  by_cases ht : 0 ≤ t ∧ t < n
  · obtain ⟨fn, e, gf⟩ := onTerm_in g ht.1 ht.2 (call := fun p => p.gradAt x 0) (y := F.dphi t.toNat x) fun p b hp => hp.gradAt x
    have hv : vset s.grad t (F.dphi t.toNat x) = .ok (s.grad.set t.toNat (F.dphi t.toNat x)) :=
      vset_ok.mpr ⟨ht.1, by rw [g.glen]; omega, rfl⟩
    simp only [gradTerm, e, ok_bind, hv, BasisSet.gradTerm, BasisSet.virt, h2, h5]
    exact .ok ⟨rfl, ⟨n, { gf with glen := by simpa using g.glen }⟩, h1, rfl, h3, h4, rfl, h6⟩
  · simp only [gradTerm, onTerm_out g ht, err_bind, BasisSet.gradTerm, BasisSet.virt, h2, h5, ok_bind]
    rw [vset_err (by rw [g.glen]; exact ht), err_bind]
    exact .err

theorem hessTerm_rel {F : Family K} {s : TermSet K} {b : BasisSet K} (h : Rel F s b) (t : Int) (x : K) :
    RelRes (fun p q => p.1 = q.1 ∧ Rel F p.2 q.2) (s.hessTerm t x) (b.hessTerm t x) := by
  obtain ⟨⟨n, g⟩, h1, h2, h3, h4, h5, h6⟩ := h
  by_cases ht : 0 ≤ t ∧ t < n
  · obtain ⟨fn, e, gf⟩ := onTerm_in g ht.1 ht.2 (call := fun p => p.hessAt x 0 0) (y := F.ddphi t.toNat x) fun p b hp => hp.hessAt x
    have hv : vset s.hess t (F.ddphi t.toNat x) = .ok (s.hess.set t.toNat (F.ddphi t.toNat x)) :=
      vset_ok.mpr ⟨ht.1, by rw [g.hlen]; omega, rfl⟩
    simp only [hessTerm, e, ok_bind, hv, BasisSet.hessTerm, BasisSet.virt, h3, h6]
    exact .ok ⟨rfl, ⟨n, { gf with hlen := by simpa using g.hlen }⟩, h1, h2, rfl, h4, h5, rfl⟩
  · simp only [hessTerm, onTerm_out g ht, err_bind, BasisSet.hessTerm, BasisSet.virt, h3, h6, ok_bind]
    rw [vset_err (by rw [g.hlen]; exact ht), err_bind]
    exact .err

theorem RelRes.drop {F : Family K} {r : Res (K × TermSet K)} {q : Res (K × BasisSet K)}
    (h : RelRes (fun p q => p.1 = q.1 ∧ Rel F p.2 q.2) r q) :
    RelRes (Rel F) (r >>= fun p => .ok p.2) (q >>= fun p => .ok p.2) := by
  cases h with
  | ok h => exact .ok h.2
  | err => exact .err

theorem evalLoop_rel {F : Family K} (x : K) : ∀ (n i : Nat) (s : TermSet K) (b : BasisSet K), Rel F s b →
    RelRes (Rel F) (evalLoop x n i s) (BasisSet.evalLoop x n i b)
  | 0, _, _, _, h => .ok h
  | n + 1, i, s, b, h => by
    have := evalTerm_rel h i x
    simp only [evalLoop, BasisSet.evalLoop]
    cases e1 : s.evalTerm i x <;> cases e2 : b.evalTerm i x <;> rw [e1, e2] at this <;> cases this
    · exact .err
    · next hh => exact evalLoop_rel x n (i + 1) _ _ hh.2

theorem gradLoop_rel {F : Family K} (x : K) : ∀ (n i : Nat) (s : TermSet K) (b : BasisSet K), Rel F s b →
    RelRes (Rel F) (gradLoop x n i s) (BasisSet.gradLoop x n i b)
  | 0, _, _, _, h => .ok h
  | n + 1, i, s, b, h => by
    have := gradTerm_rel h i x
    simp only [gradLoop, BasisSet.gradLoop]
    cases e1 : s.gradTerm i x <;> cases e2 : b.gradTerm i x <;> rw [e1, e2] at this <;> cases this
    · exact .err
    · next hh => exact gradLoop_rel x n (i + 1) _ _ hh.2

theorem hessLoop_rel {F : Family K} (x : K) : ∀ (n i : Nat) (s : TermSet K) (b : BasisSet K), Rel F s b →
    RelRes (Rel F) (hessLoop x n i s) (BasisSet.hessLoop x n i b)
  | 0, _, _, _, h => .ok h
  | n + 1, i, s, b, h => by
    have := hessTerm_rel h i x
    simp only [hessLoop, BasisSet.hessLoop]
    cases e1 : s.hessTerm i x <;> cases e2 : b.hessTerm i x <;> rw [e1, e2] at this <;> cases this
    · exact .err
    · next hh => exact hessLoop_rel x n (i + 1) _ _ hh.2

/-- The sizes asked for are within the maximum. -/
def FitsMax : BCall K → Prop
  | .resize n => n ≤ 30
  | _ => True

theorem step_rel {F : Family K} {s : TermSet K} {b : BasisSet K} (h : Rel F s b) (c : BCall K) (hc : FitsMax c) :
    RelRes (Rel F) (s.step c) (b.step 0 c) := by
  cases c with
  | evalTerm t x => exact (evalTerm_rel h t x).drop
  | gradTerm t x => exact (gradTerm_rel h t x).drop
  | hessTerm t x => exact (hessTerm_rel h t x).drop
  | eval x => simp only [step, BasisSet.step, eval, BasisSet.eval, h.val]; exact evalLoop_rel x _ _ _ _ h
  | evalGrad x => simp only [step, BasisSet.step, evalGrad, BasisSet.evalGrad, h.val]; exact gradLoop_rel x _ _ _ _ h
  | evalHess x => simp only [step, BasisSet.step, evalHess, BasisSet.evalHess, h.val]; exact hessLoop_rel x _ _ _ _ h
  | resize m =>
    obtain ⟨⟨n, g⟩, h1, h2, h3, h4, h5, h6⟩ := h
    obtain ⟨s', e, g', _, e1, e2, e3, _⟩ := resize_of g hc
    simp only [step, e, BasisSet.step, BasisSet.resize]
    exact .ok ⟨⟨m, g'⟩, h1, h2, h3, by simp [e1, h4], by simp [e2, h5], by simp [e3, h6]⟩

theorem run_rel {F : Family K} : ∀ (cs : List (BCall K)) (s : TermSet K) (b : BasisSet K), Rel F s b → (∀ c ∈ cs, FitsMax c) →
    RelRes (Rel F) (s.run cs) (b.run 0 cs)
  | [], _, _, h, _ => .ok h
  | c :: cs, s, b, h, hs => by
    have := step_rel h c (hs c (by simp))
    simp only [run, BasisSet.run]
    cases e1 : s.step c <;> cases e2 : b.step 0 c <;> rw [e1, e2] at this <;> cases this
    · exact .err
    · next hh => exact run_rel cs _ _ hh fun c hc => hs c (by simp [hc])

theorem make_rel {F : Family K} {cls : TermClass} (hd : cls.Denotes F) {n : Nat} (hn : n ≤ 30) :
    ∃ s, make cls n = .ok s ∧ s.cls = cls ∧ Good F n s ∧ Rel F s (BasisSet.make 0 n (some F.phi) (some F.dphi) (some F.ddphi)) := by
  obtain ⟨s, e, g, hc, h1, h2, h3⟩ := make_of hd hn
  refine ⟨s, e, hc, g, ⟨n, g⟩, rfl, rfl, rfl, ?_, ?_, ?_⟩ <;> simp [BasisSet.make, BasisSet.resize, vresize, *]

end TermSet
end Verif
