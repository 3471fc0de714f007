import Verif.Model.Series
import Verif.Spec.Series
import Verif.Lemmas.Func
import Verif.Lemmas.NDArray

/-! Helper lemmas about basis sets. -/

namespace Verif
open Spec

section
variable {K : Type} [CommRing K]

/-- A basis set implements family `F`. -/
structure Impl (F : Family K) (b : BasisSet K) : Prop where
  phi : b.phi = some F.phi
  dphi : b.dphi = some F.dphi
  ddphi : b.ddphi = some F.ddphi
  vlen : b.val.length = F.size
  glen : b.grad.length = F.size
  hlen : b.hess.length = F.size

namespace BasisSet

theorem evalTerm_of {b : BasisSet K} {F : Family K} (h : Impl F b) {t : Int} (h0 : 0 ≤ t) (h1 : t < F.size) (x : K) :
    b.evalTerm t x = .ok (F.phi t.toNat x, { b with val := b.val.set t.toNat (F.phi t.toNat x) }) := by
  simp [evalTerm, virt, h.phi, vset, h0, show t.toNat < b.val.length by rw [h.vlen]; omega]

theorem gradTerm_of {b : BasisSet K} {F : Family K} (h : Impl F b) {t : Int} (h0 : 0 ≤ t) (h1 : t < F.size) (x : K) :
    b.gradTerm t x = .ok (F.dphi t.toNat x, { b with grad := b.grad.set t.toNat (F.dphi t.toNat x) }) := by
  simp [gradTerm, virt, h.dphi, vset, h0, show t.toNat < b.grad.length by rw [h.glen]; omega]

theorem hessTerm_of {b : BasisSet K} {F : Family K} (h : Impl F b) {t : Int} (h0 : 0 ≤ t) (h1 : t < F.size) (x : K) :
    b.hessTerm t x = .ok (F.ddphi t.toNat x, { b with hess := b.hess.set t.toNat (F.ddphi t.toNat x) }) := by
  simp [hessTerm, virt, h.ddphi, vset, h0, show t.toNat < b.hess.length by rw [h.hlen]; omega]

theorem evalTerm_inv {b b' : BasisSet K} {F : Family K} (h : Impl F b) {t : Int} {x y : K} (e : b.evalTerm t x = .ok (y, b')) :
    Impl F b' ∧ (0 ≤ t ∧ t < F.size) ∧ y = F.phi t.toNat x ∧ b' = { b with val := b.val.set t.toNat y } := by
  have hv : virt b.phi t x = .ok (F.phi t.toNat x) := by simp [virt, h.phi]
  simp only [evalTerm, hv, ok_bind, bind_eq_ok] at e
  obtain ⟨l, hl, e⟩ := e
  obtain ⟨h0, h1, rfl⟩ := vset_ok.mp hl
  cases e
  rw [h.vlen] at h1
  exact ⟨⟨h.phi, h.dphi, h.ddphi, by simp [h.vlen], h.glen, h.hlen⟩, ⟨h0, by omega⟩, rfl, rfl⟩

theorem gradTerm_inv {b b' : BasisSet K} {F : Family K} (h : Impl F b) {t : Int} {x y : K} (e : b.gradTerm t x = .ok (y, b')) :
    Impl F b' ∧ (0 ≤ t ∧ t < F.size) ∧ y = F.dphi t.toNat x ∧ b' = { b with grad := b.grad.set t.toNat y } := by
  have hv : virt b.dphi t x = .ok (F.dphi t.toNat x) := by simp [virt, h.dphi]
  simp only [gradTerm, hv, ok_bind, bind_eq_ok] at e
  obtain ⟨l, hl, e⟩ := e
  obtain ⟨h0, h1, rfl⟩ := vset_ok.mp hl
  cases e
  rw [h.glen] at h1
  exact ⟨⟨h.phi, h.dphi, h.ddphi, h.vlen, by simp [h.glen], h.hlen⟩, ⟨h0, by omega⟩, rfl, rfl⟩

theorem hessTerm_inv {b b' : BasisSet K} {F : Family K} (h : Impl F b) {t : Int} {x y : K} (e : b.hessTerm t x = .ok (y, b')) :
    Impl F b' ∧ (0 ≤ t ∧ t < F.size) ∧ y = F.ddphi t.toNat x ∧ b' = { b with hess := b.hess.set t.toNat y } := by
  have hv : virt b.ddphi t x = .ok (F.ddphi t.toNat x) := by simp [virt, h.ddphi]
  simp only [hessTerm, hv, ok_bind, bind_eq_ok] at e
  obtain ⟨l, hl, e⟩ := e
  obtain ⟨h0, h1, rfl⟩ := vset_ok.mp hl
  cases e
  rw [h.hlen] at h1
  exact ⟨⟨h.phi, h.dphi, h.ddphi, h.vlen, h.glen, by simp [h.hlen]⟩, ⟨h0, by omega⟩, rfl, rfl⟩

theorem evalLoop_of {F : Family K} (x : K) (n : Nat) : ∀ (i : Nat) (b : BasisSet K), Impl F b → i + n = F.size →
    ∃ l, evalLoop x n i b = .ok { b with val := l } ∧ l.length = F.size ∧ (∀ t, t < i → l[t]? = b.val[t]?) ∧
      ∀ t, i ≤ t → t < F.size → l[t]? = some (F.phi t x) := by
  induction n with
  | zero => intro i b h hi; exact ⟨b.val, rfl, h.vlen, fun _ _ => rfl, fun t h1 h2 => by omega⟩
  | succ n ih =>
    intro i b h hi
    have e := evalTerm_of h (t := i) (by omega) (by omega) x
    have h' := (evalTerm_inv h e).1
    obtain ⟨l, e1, e2, e3, e4⟩ := ih (i + 1) _ h' (by omega)
    refine ⟨l, ?_, e2, fun t ht => ?_, fun t h1 h2 => ?_⟩
    · simp only [evalLoop, e, ok_bind]; exact e1
    · rw [e3 t (by omega)]; simp [List.getElem?_set]; intro he; omega
    · rcases Nat.eq_or_lt_of_le h1 with rfl | hlt
      · rw [e3 i (by omega)]; simp [List.getElem?_set, show i < b.val.length by rw [h.vlen]; omega]
      · exact e4 t hlt h2

theorem gradLoop_of {F : Family K} (x : K) (n : Nat) : ∀ (i : Nat) (b : BasisSet K), Impl F b → i + n = F.size →
    ∃ l, gradLoop x n i b = .ok { b with grad := l } ∧ l.length = F.size ∧ (∀ t, t < i → l[t]? = b.grad[t]?) ∧
      ∀ t, i ≤ t → t < F.size → l[t]? = some (F.dphi t x) := by
  induction n with
  | zero => intro i b h hi; exact ⟨b.grad, rfl, h.glen, fun _ _ => rfl, fun t h1 h2 => by omega⟩
  | succ n ih =>
    intro i b h hi
    have e := gradTerm_of h (t := i) (by omega) (by omega) x
    have h' := (gradTerm_inv h e).1
    obtain ⟨l, e1, e2, e3, e4⟩ := ih (i + 1) _ h' (by omega)
    refine ⟨l, ?_, e2, fun t ht => ?_, fun t h1 h2 => ?_⟩
    · simp only [gradLoop, e, ok_bind]; exact e1
    · rw [e3 t (by omega)]; simp [List.getElem?_set]; intro he; omega
    · rcases Nat.eq_or_lt_of_le h1 with rfl | hlt
      · rw [e3 i (by omega)]; simp [List.getElem?_set, show i < b.grad.length by rw [h.glen]; omega]
      · exact e4 t hlt h2

theorem hessLoop_of {F : Family K} (x : K) (n : Nat) : ∀ (i : Nat) (b : BasisSet K), Impl F b → i + n = F.size →
    ∃ l, hessLoop x n i b = .ok { b with hess := l } ∧ l.length = F.size ∧ (∀ t, t < i → l[t]? = b.hess[t]?) ∧
      ∀ t, i ≤ t → t < F.size → l[t]? = some (F.ddphi t x) := by
  induction n with
  | zero => intro i b h hi; exact ⟨b.hess, rfl, h.hlen, fun _ _ => rfl, fun t h1 h2 => by omega⟩
  | succ n ih =>
    intro i b h hi
    have e := hessTerm_of h (t := i) (by omega) (by omega) x
    have h' := (hessTerm_inv h e).1
    obtain ⟨l, e1, e2, e3, e4⟩ := ih (i + 1) _ h' (by omega)
    refine ⟨l, ?_, e2, fun t ht => ?_, fun t h1 h2 => ?_⟩
    · simp only [hessLoop, e, ok_bind]; exact e1
    · rw [e3 t (by omega)]; simp [List.getElem?_set]; intro he; omega
    · rcases Nat.eq_or_lt_of_le h1 with rfl | hlt
      · rw [e3 i (by omega)]; simp [List.getElem?_set, show i < b.hess.length by rw [h.hlen]; omega]
      · exact e4 t hlt h2

theorem eval_of {F : Family K} {b : BasisSet K} (h : Impl F b) (x : K) :
    ∃ l, b.eval x = .ok { b with val := l } ∧ l.length = F.size ∧ ∀ t, t < F.size → l[t]? = some (F.phi t x) := by
  obtain ⟨l, e1, e2, _, e4⟩ := evalLoop_of x F.size 0 b h (by omega)
  exact ⟨l, by rw [eval, h.vlen, e1], e2, fun t ht => e4 t (by omega) ht⟩

theorem evalGrad_of {F : Family K} {b : BasisSet K} (h : Impl F b) (x : K) :
    ∃ l, b.evalGrad x = .ok { b with grad := l } ∧ l.length = F.size ∧ ∀ t, t < F.size → l[t]? = some (F.dphi t x) := by
  obtain ⟨l, e1, e2, _, e4⟩ := gradLoop_of x F.size 0 b h (by omega)
  exact ⟨l, by rw [evalGrad, h.vlen, e1], e2, fun t ht => e4 t (by omega) ht⟩

theorem evalHess_of {F : Family K} {b : BasisSet K} (h : Impl F b) (x : K) :
    ∃ l, b.evalHess x = .ok { b with hess := l } ∧ l.length = F.size ∧ ∀ t, t < F.size → l[t]? = some (F.ddphi t x) := by
  obtain ⟨l, e1, e2, _, e4⟩ := hessLoop_of x F.size 0 b h (by omega)
  exact ⟨l, by rw [evalHess, h.vlen, e1], e2, fun t ht => e4 t (by omega) ht⟩

theorem vresize_length {α : Type} (v : List α) (n : Nat) (d : α) : (vresize v n d).length = n := by
  simp [vresize]; omega

/-- Sizes of a family may change by `resize`. -/
def resizeFamily (F : Family K) (n : Nat) : Family K := { F with size := n }

theorem resize_impl {F : Family K} {b : BasisSet K} (z : K) (h : Impl F b) (n : Nat) : Impl (resizeFamily F n) (b.resize z n) :=
  ⟨h.phi, h.dphi, h.ddphi, vresize_length _ _ _, vresize_length _ _ _, vresize_length _ _ _⟩

theorem make_impl (z : K) (F : Family K) : Impl F (make z F.size (some F.phi) (some F.dphi) (some F.ddphi)) :=
  ⟨rfl, rfl, rfl, vresize_length _ _ _, vresize_length _ _ _, vresize_length _ _ _⟩

theorem step_impl_size {F : Family K} {b b' : BasisSet K} (z : K) (h : Impl F b) (c : BCall K) (e : b.step z c = .ok b') :
    ∃ n, Impl (resizeFamily F n) b' ∧ (n = F.size ∨ c = .resize n) := by
  have hsame : ∀ {b'' : BasisSet K}, Impl F b'' → ∃ n, Impl (resizeFamily F n) b'' ∧ (n = F.size ∨ c = .resize n) :=
    fun hb => ⟨F.size, hb, Or.inl rfl⟩
  cases c with
  | evalTerm t x =>
    simp only [step, bind_eq_ok] at e
    obtain ⟨⟨y, b1⟩, e1, e2⟩ := e; cases e2
    exact hsame (evalTerm_inv h e1).1
  | gradTerm t x =>
    simp only [step, bind_eq_ok] at e
    obtain ⟨⟨y, b1⟩, e1, e2⟩ := e; cases e2
    exact hsame (gradTerm_inv h e1).1
  | hessTerm t x =>
    simp only [step, bind_eq_ok] at e
    obtain ⟨⟨y, b1⟩, e1, e2⟩ := e; cases e2
    exact hsame (hessTerm_inv h e1).1
  | eval x =>
    obtain ⟨l, e1, e2, _⟩ := eval_of h x
    simp only [step, e1] at e; cases e
    exact hsame ⟨h.phi, h.dphi, h.ddphi, e2, h.glen, h.hlen⟩
  | evalGrad x =>
    obtain ⟨l, e1, e2, _⟩ := evalGrad_of h x
    simp only [step, e1] at e; cases e
    exact hsame ⟨h.phi, h.dphi, h.ddphi, h.vlen, e2, h.hlen⟩
  | evalHess x =>
    obtain ⟨l, e1, e2, _⟩ := evalHess_of h x
    simp only [step, e1] at e; cases e
    exact hsame ⟨h.phi, h.dphi, h.ddphi, h.vlen, h.glen, e2⟩
  | resize n => cases e; exact ⟨n, resize_impl z h n, Or.inr rfl⟩

theorem step_impl {F : Family K} {b b' : BasisSet K} (z : K) (h : Impl F b) (c : BCall K) (e : b.step z c = .ok b') :
    ∃ n, Impl (resizeFamily F n) b' := by
  obtain ⟨n, h, _⟩ := step_impl_size z h c e
  exact ⟨n, h⟩

theorem run_impl {F : Family K} (z : K) (cs : List (BCall K)) : ∀ {b b' : BasisSet K}, (∃ n, Impl (resizeFamily F n) b) →
    BasisSet.run z cs b = .ok b' → ∃ n, Impl (resizeFamily F n) b' := by
  induction cs with
  | nil => intro b b' h e; cases e; exact h
  | cons c cs ih =>
    intro b b' h e
    simp only [run, bind_eq_ok] at e
    obtain ⟨b1, e1, e2⟩ := e
    obtain ⟨n, hn⟩ := h
    obtain ⟨m, hm⟩ := step_impl z hn c e1
    exact ih ⟨m, hm⟩ e2

end BasisSet
end
end Verif
