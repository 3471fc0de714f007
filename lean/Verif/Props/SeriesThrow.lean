import Verif.Model.SeriesThrow
import Verif.Props.ThreadsSeries
import Mathlib.Tactic.ByContra

/-!
# C137: basis functions that throw
-/

namespace Verif
open Spec
namespace SPar
section
variable {K : Type} [Field K] [LinearOrder K] [FloorRing K]

/-- The point of a query. -/
def Query.point : Query K → List K
  | .value x => x
  | .grad x _ => x
  | .hess x _ _ => x

/-- The query evaluates the basis functions (`.v`), their first (`.g`) and their second derivatives (`.h`). -/
def Query.kinds : Query K → List Kind
  | .value _ => [.v]
  | .grad _ _ => [.v, .g]
  | .hess _ _ _ => [.v, .g, .h]

/-- How often a function of this kind is differentiated. -/
def orderOf : Kind → Nat
  | .v => 0
  | .g => 1
  | .h => 2

/-- Where the functions do not throw, they are those of the families. -/
def Thrower.Agrees (th : Thrower K) (fs : List (Family K)) : Prop :=
  ∀ i F k t x y, fs[i]? = some F → t < F.size → th i k t x = .ok y → y = F.deriv (orderOf k) t x

/-- One of the functions the query evaluates throws `e`. -/
def Thrower.Throws (th : Thrower K) (fs : List (Family K)) (q : Query K) (e : Err) : Prop :=
  ∃ i F k t x, fs[i]? = some F ∧ t < F.size ∧ k ∈ q.kinds ∧ q.point[i]? = some x ∧ th i k t x = .error e

/-! ### Helper lemmas -/

/-- The second series differs in stored values of basis functions only. -/
structure Kept (m m' : Series K) : Prop where
  coeff : m'.coeff = m.coeff
  ident : m'.identityVal = m.identityVal
  zero : m'.zeroVal = m.zeroVal
  val : m'.val = m.val
  grad : m'.gradVal = m.gradVal
  hess : m'.hessVal = m.hessVal

theorem Kept.refl (m : Series K) : Kept m m := ⟨rfl, rfl, rfl, rfl, rfl, rfl⟩
theorem Kept.trans {m m' m'' : Series K} (h : Kept m m') (h' : Kept m' m'') : Kept m m'' :=
  ⟨h'.coeff.trans h.coeff, h'.ident.trans h.ident, h'.zero.trans h.zero, h'.val.trans h.val, h'.grad.trans h.grad, h'.hess.trans h.hess⟩

theorem kept_put (m : Series K) (i : Int) (b : BasisSet K) : Kept m (m.putBasis i b) := ⟨rfl, rfl, rfl, rfl, rfl, rfl⟩

theorem impl_put {F : Family K} {b b' : BasisSet K} (h : Impl F b) {k : Kind} {t : Int} {y : K} (hp : putMember k b t y = .ok b') : Impl F b' := by
  cases k <;> simp only [putMember, bind_eq_ok] at hp <;> obtain ⟨l, h1, h2⟩ := hp <;> cases h2 <;> have hl := (vset_ok.mp h1).2.2 <;> subst hl
  · exact ⟨h.phi, h.dphi, h.ddphi, by simpa using h.vlen, h.glen, h.hlen⟩
  · exact ⟨h.phi, h.dphi, h.ddphi, h.vlen, by simpa using h.glen, h.hlen⟩
  · exact ⟨h.phi, h.dphi, h.ddphi, h.vlen, h.glen, by simpa using h.hlen⟩

theorem put_ok {F : Family K} {b : BasisSet K} (h : Impl F b) (k : Kind) {t : Nat} (ht : t < F.size) (y : K) : ∃ b', putMember k b t y = .ok b' := by
  cases k
  · have : vset b.val (t : Int) y = .ok (b.val.set t y) := vset_ok.mpr ⟨by omega, by simpa [h.vlen] using ht, by simp⟩
    exact ⟨_, by simp only [putMember, this, ok_bind]; rfl⟩
  · have : vset b.grad (t : Int) y = .ok (b.grad.set t y) := vset_ok.mpr ⟨by omega, by simpa [h.glen] using ht, by simp⟩
    exact ⟨_, by simp only [putMember, this, ok_bind]; rfl⟩
  · have : vset b.hess (t : Int) y = .ok (b.hess.set t y) := vset_ok.mpr ⟨by omega, by simpa [h.hlen] using ht, by simp⟩
    exact ⟨_, by simp only [putMember, this, ok_bind]; rfl⟩

theorem virt_impl {F : Family K} {b : BasisSet K} (h : Impl F b) (k : Kind) (t : Nat) (x : K) :
    BasisSet.virt (member k b) t x = .ok (F.deriv (orderOf k) t x) := by
  cases k
  · simp [member, BasisSet.virt, h.phi, orderOf, Family.deriv]
  · simp [member, BasisSet.virt, h.dphi, orderOf, Family.deriv]
  · simp [member, BasisSet.virt, h.ddphi, orderOf, Family.deriv]

theorem termsT_eq {th : Thrower K} {fs : List (Family K)} (ha : th.Agrees fs) {i : Nat} {F : Family K} (hF : fs[i]? = some F) {b : BasisSet K} (hb : Impl F b)
    (k : Kind) (x : K) (next : Prog K) (n : Nat) : ∀ t, t + n = F.size → (∀ t' e, t ≤ t' → t' < F.size → th i k t' x ≠ .error e) →
    termsT th k i x n t next = termsP (member k b) k i x n t next := by
  induction n with
  | zero => intros; rfl
  | succ n ih =>
    intro t ht hok
    simp only [termsT, termsP]
    rw [virt_impl hb]
    cases h : th i k t x with
    | error e => exact absurd h (hok t e (le_refl _) (by omega))
    | ok y =>
      rw [ha i F k t x y hF (by omega) h]
      simp only
      rw [ih (t + 1) (by omega) fun t' e h1 h2 => hok t' e (by omega) h2]

theorem termsT_throw {th : Thrower K} {fs : List (Family K)} {i : Nat} {F : Family K} (hF : fs[i]? = some F) (k : Kind) (x : K) (next : Prog K) (n : Nat) :
    ∀ (t : Nat) (m : Series K), Series.WF 0 1 fs m → t + n = F.size → (∃ t' e, t ≤ t' ∧ t' < F.size ∧ th i k t' x = .error e) →
    ∃ t' e m', t ≤ t' ∧ t' < F.size ∧ th i k t' x = .error e ∧ (termsT th k i x n t next).exec m = (.error e, m') ∧ Kept m m' ∧ Series.WF 0 1 fs m' := by
  induction n with
  | zero => rintro t m _ h1 ⟨t', e, h2, h3, _⟩; omega
  | succ n ih =>
    rintro t m hm ht ⟨t', e, h1, h2, h3⟩
    simp only [termsT]
    cases h : th i k t x with
    | error e => exact ⟨t, e, m, le_refl _, by omega, h, rfl, Kept.refl _, hm⟩
    | ok y =>
      obtain ⟨b, _, hb, hI⟩ := hm.at hF
      obtain ⟨b', hb'⟩ := put_ok hI k (show t < F.size by omega) y
      have hm' := hm.put hF (impl_put hI hb')
      have hne : t ≠ t' := by rintro rfl; rw [h] at h3; simp at h3
      obtain ⟨t2, e2, m2, g1, g2, g3, g4, g5, g6⟩ := ih (t + 1) (m.putBasis i b') hm' (by omega) ⟨t', e, by omega, h2, h3⟩
      refine ⟨t2, e2, m2, by omega, g2, g3, ?_, (kept_put _ _ _).trans g5, g6⟩
      simp only [Prog.exec, wr, hb, ok_bind, hb']
      exact g4

theorem basisT_eq {th : Thrower K} {fs : List (Family K)} (ha : th.Agrees fs) {m : Series K} (hm : Series.WF 0 1 fs m) (k : Kind) (x : List K)
    (hx : x.length = fs.length) (next : Prog K) (n : Nat) : ∀ i, i + n = fs.length →
    (∀ j F t y e, i ≤ j → fs[j]? = some F → t < F.size → x[j]? = some y → th j k t y ≠ .error e) →
    basisT m th k x n i next = basisP m k x n i next := by
  induction n with
  | zero => intros; rfl
  | succ n ih =>
    intro i hi hok
    have hF : fs[i]? = some fs[i] := List.getElem?_eq_getElem (by omega)
    have hy : x[i]? = some x[i] := List.getElem?_eq_getElem (by omega)
    obtain ⟨b, _, hb, hI⟩ := hm.at hF
    have hg : vget x (i : Int) = .ok x[i] := vget_ok.mpr ⟨by omega, by simpa using hy⟩
    simp only [basisT, basisP, hb, hg]
    rw [ih (i + 1) (by omega) fun j F t y e h1 => hok j F t y e (by omega)]
    exact termsT_eq ha hF hI k _ _ _ 0 (by rw [hI.vlen]; omega) fun t' e _ h2 => hok i _ t' _ e (le_refl _) hF h2 hy

theorem basisT_throw {th : Thrower K} {fs : List (Family K)} (ha : th.Agrees fs) {m0 : Series K} (h0 : Series.WF 0 1 fs m0) (k : Kind) (x : List K)
    (hx : x.length = fs.length) (next : Prog K) (n : Nat) : ∀ (i : Nat) (m : Series K), Series.WF 0 1 fs m → i + n = fs.length →
    (∃ j F t y e, i ≤ j ∧ fs[j]? = some F ∧ t < F.size ∧ x[j]? = some y ∧ th j k t y = .error e) →
    ∃ j F t y e m', fs[j]? = some F ∧ t < F.size ∧ x[j]? = some y ∧ th j k t y = .error e ∧
      (basisT m0 th k x n i next).exec m = (.error e, m') ∧ Kept m m' ∧ Series.WF 0 1 fs m' := by
  induction n with
  | zero =>
    rintro i m _ hi ⟨j, F, t, y, e, h1, h2, _⟩
    have := (List.getElem?_eq_some_iff.mp h2).1
    omega
  | succ n ih =>
    rintro i m hm hi ⟨j, F, t, y, e, h1, h2, h3, h4, h5⟩
    have hF : fs[i]? = some fs[i] := List.getElem?_eq_getElem (by omega)
    have hy : x[i]? = some x[i] := List.getElem?_eq_getElem (by omega)
    obtain ⟨b0, _, hb0, hI0⟩ := h0.at hF
    obtain ⟨b, _, hb, hI⟩ := hm.at hF
    have hg : vget x (i : Int) = .ok x[i] := vget_ok.mpr ⟨by omega, by simpa using hy⟩
    simp only [basisT, hb0, hg]
    by_cases hthr : ∃ t' e, 0 ≤ t' ∧ t' < fs[i].size ∧ th i k t' x[i] = .error e
    · obtain ⟨t', e, m', _, g2, g3, g4, g5, g6⟩ := termsT_throw hF k x[i] (basisT m0 th k x n (i + 1) next) b0.val.length 0 m hm (by rw [hI0.vlen]; omega) hthr
      exact ⟨i, _, t', _, e, m', hF, g2, hy, g3, g4, g5, g6⟩
    · have hne : i ≠ j := by
        rintro rfl
        rw [hF, Option.some.injEq] at h2
        rw [hy, Option.some.injEq] at h4
        exact hthr ⟨t, e, by omega, by rw [h2]; exact h3, by rw [h4]; exact h5⟩
      have hIb : member k b0 = member k b := by cases k <;> simp [member, hI0.phi, hI.phi, hI0.dphi, hI.dphi, hI0.ddphi, hI.ddphi]
      rw [termsT_eq ha hF hI0 k _ _ _ 0 (by rw [hI0.vlen]; omega) fun t' e h1 h2 h3 => hthr ⟨t', e, h1, h2, h3⟩, hIb, hI0.vlen, ← hI.vlen]
      have hok : ∃ b', kLoop k x[i] b.val.length 0 b = .ok b' ∧ Impl fs[i] b' := by
        rw [← evMember_eq]
        have hex : ∃ b', Series.evMember k b x[i] = .ok b' := by
          cases k
          · obtain ⟨l, e1, _⟩ := BasisSet.eval_of hI x[i]; exact ⟨_, e1⟩
          · obtain ⟨l, e1, _⟩ := BasisSet.evalGrad_of hI x[i]; exact ⟨_, e1⟩
          · obtain ⟨l, e1, _⟩ := BasisSet.evalHess_of hI x[i]; exact ⟨_, e1⟩
        obtain ⟨b', hb'⟩ := hex
        exact ⟨b', hb', Series.evMember_keeps k hI hb'⟩
      obtain ⟨b', hb', hI'⟩ := hok
      rw [(termsP_exec k i x[i] (basisT m0 th k x n (i + 1) next) _ 0 b b' m hb hb').1]
      obtain ⟨j', F', t', y', e', m', g1, g2, g3, g4, g5, g6, g7⟩ := ih (i + 1) (m.putBasis i b') (hm.put hF hI') (by omega) ⟨j, F, t, y, e, by omega, h2, h3, h4, h5⟩
      exact ⟨j', F', t', y', e', m', g1, g2, g3, g4, g5, (kept_put _ _ _).trans g6, g7⟩

/-- The evaluations of all basis functions, one kind after the other. -/
def stages (m : Series K) (th : Thrower K) (x : List K) (n : Nat) : List Kind → Prog K → Prog K
  | [], next => next
  | k :: ks, next => basisT m th k x n 0 (stages m th x n ks next)

theorem basisLoop_ok {fs : List (Family K)} {m : Series K} (hm : Series.WF 0 1 fs m) (k : Kind) (x : List K) (hx : x.length = fs.length) :
    ∃ m', Series.basisLoop (Series.evMember k) x m.coeff.order.toNat 0 m = .ok m' ∧ Series.WF 0 1 fs m' ∧ Kept m m' := by
  have key : ∀ (n i : Nat) (m : Series K), Series.WF 0 1 fs m → i + n = fs.length →
      ∃ m', Series.basisLoop (Series.evMember k) x n i m = .ok m' ∧ Series.WF 0 1 fs m' ∧ Kept m m' := by
    intro n
    induction n with
    | zero => intro i m hm _; exact ⟨m, rfl, hm, Kept.refl _⟩
    | succ n ih =>
      intro i m hm hi
      have hF : fs[i]? = some fs[i] := List.getElem?_eq_getElem (by omega)
      have hy : x[i]? = some x[i] := List.getElem?_eq_getElem (by omega)
      obtain ⟨b, _, hb, hI⟩ := hm.at hF
      have hg : vget x (i : Int) = .ok x[i] := vget_ok.mpr ⟨by omega, by simpa using hy⟩
      have hex : ∃ b', Series.evMember k b x[i] = .ok b' := by
        cases k
        · obtain ⟨l, e1, _⟩ := BasisSet.eval_of hI x[i]; exact ⟨_, e1⟩
        · obtain ⟨l, e1, _⟩ := BasisSet.evalGrad_of hI x[i]; exact ⟨_, e1⟩
        · obtain ⟨l, e1, _⟩ := BasisSet.evalHess_of hI x[i]; exact ⟨_, e1⟩
      obtain ⟨b', hb'⟩ := hex
      obtain ⟨m', e1, e2, e3⟩ := ih (i + 1) (m.putBasis i b') (hm.put hF (Series.evMember_keeps k hI hb')) (by omega)
      exact ⟨m', by simp only [Series.basisLoop, hb, hg, hb', ok_bind]; exact e1, e2, (kept_put _ _ _).trans e3⟩
  exact key _ 0 m hm (by rw [hm.order]; omega)

theorem stages_throw {th : Thrower K} {fs : List (Family K)} (ha : th.Agrees fs) (x : List K) (hx : x.length = fs.length) {m0 : Series K}
    (h0 : Series.WF 0 1 fs m0) (next : Prog K) (ks : List Kind) : ∀ m, Series.WF 0 1 fs m → Same m0 m →
    (∃ j F k t y e, fs[j]? = some F ∧ t < F.size ∧ k ∈ ks ∧ x[j]? = some y ∧ th j k t y = .error e) →
    ∃ j F k t y e m', fs[j]? = some F ∧ t < F.size ∧ k ∈ ks ∧ x[j]? = some y ∧ th j k t y = .error e ∧
      (stages m0 th x m0.coeff.order.toNat ks next).exec m = (.error e, m') ∧ Kept m m' ∧ Series.WF 0 1 fs m' := by
  induction ks with
  | nil => rintro m _ _ ⟨j, F, k, t, y, e, _, _, h, _⟩; simp at h
  | cons k ks ih =>
    rintro m hm hs ⟨j, F, k', t, y, e, h1, h2, h3, h4, h5⟩
    simp only [stages]
    by_cases hthr : ∃ j F t y e, 0 ≤ j ∧ fs[j]? = some F ∧ t < F.size ∧ x[j]? = some y ∧ th j k t y = .error e
    · obtain ⟨j, F, t, y, e, m', g1, g2, g3, g4, g5, g6, g7⟩ := basisT_throw ha h0 k x hx (stages m0 th x m0.coeff.order.toNat ks next)
        m0.coeff.order.toNat 0 m hm (by rw [h0.order]; omega) hthr
      exact ⟨j, F, k, t, y, e, m', g1, g2, by simp, g3, g4, g5, g6, g7⟩
    · have hne : k' ≠ k := by
        rintro rfl
        exact hthr ⟨j, F, t, y, e, by omega, h1, h2, h4, h5⟩
      rw [basisT_eq ha h0 k x hx _ _ 0 (by rw [h0.order]; omega) fun j F t y e h1 h2 h3 h4 h5 => hthr ⟨j, F, t, y, e, h1, h2, h3, h4, h5⟩]
      obtain ⟨m1, e1, e2, e3⟩ := basisLoop_ok hm k x hx
      obtain ⟨f1, f2⟩ := basisP_exec k x (stages m0 th x m0.coeff.order.toNat ks next) _ 0 m m1 e1
      rw [basisP_same hs, hs.coeff] at f1
      rw [f1]
      obtain ⟨j, F, k2, t, y, e, m', g1, g2, g2', g3, g4, g5, g6, g7⟩ := ih m1 e2 (hs.trans f2)
        ⟨j, F, k', t, y, e, h1, h2, by simpa [hne] using h3, h4, h5⟩
      exact ⟨j, F, k2, t, y, e, m', g1, g2, by simp [g2'], g3, g4, g5, e3.trans g6, g7⟩

theorem progT_stages (m : Series K) (th : Thrower K) (q : Query K) : ∃ next, progT m th q = stages m th q.point m.coeff.order.toNat q.kinds next := by
  cases q <;> exact ⟨_, rfl⟩

theorem progT_eq {th : Thrower K} {fs : List (Family K)} (ha : th.Agrees fs) {m : Series K} (hm : Series.WF 0 1 fs m) (q : Query K)
    (hx : q.point.length = fs.length) (hn : ∀ e, ¬ th.Throws fs q e) : progT m th q = prog m q := by
  have hok : ∀ k ∈ q.kinds, ∀ j F t y e, 0 ≤ j → fs[j]? = some F → t < F.size → q.point[j]? = some y → th j k t y ≠ .error e := by
    intro k hk j F t y e _ h1 h2 h3 h4
    exact hn e ⟨j, F, k, t, y, h1, h2, hk, h3, h4⟩
  have hord : 0 + m.coeff.order.toNat = fs.length := by rw [hm.order]; omega
  cases q with
  | value x => exact basisT_eq ha hm .v x hx _ _ 0 hord (hok .v (by simp [Query.kinds]))
  | grad x di =>
    have e1 := fun next => basisT_eq ha hm .v x hx next _ 0 hord (hok .v (by simp [Query.kinds]))
    have e2 := fun next => basisT_eq ha hm .g x hx next _ 0 hord (hok .g (by simp [Query.kinds]))
    simp only [progT, prog, e1, e2]
  | hess x di dj =>
    have e1 := fun next => basisT_eq ha hm .v x hx next _ 0 hord (hok .v (by simp [Query.kinds]))
    have e2 := fun next => basisT_eq ha hm .g x hx next _ 0 hord (hok .g (by simp [Query.kinds]))
    have e3 := fun next => basisT_eq ha hm .h x hx next _ 0 hord (hok .h (by simp [Query.kinds]))
    simp only [progT, prog, e1, e2, e3]

theorem fits_point {n : Nat} {q : Query K} (h : q.Fits n) : q.point.length = n := by
  cases q with
  | value x => exact h
  | grad x di => exact h.1
  | hess x di dj => exact h.1

theorem evalT_of {fs : List (Family K)} {c : List Int → K} {s0 m : Series K} (hc : s0.Coeffs fs c) (h : Inv fs s0 m) {th : Thrower K} (ha : th.Agrees fs)
    (q : Query K) (hq : q.Fits fs.length) :
    ((∀ e, ¬ th.Throws fs q e) → (evalT m th q).1 = .ok (q.meant fs c)) ∧
    ((∃ e, th.Throws fs q e) → ∃ e, th.Throws fs q e ∧ (evalT m th q).1 = .error e ∧ Kept m (evalT m th q).2) ∧ Inv fs s0 (evalT m th q).2 := by
  have hx := fits_point hq
  by_cases ht : ∃ e, th.Throws fs q e
  · obtain ⟨e, j, F, k, t, y, h1, h2, h3, h4, h5⟩ := ht
    obtain ⟨next, hp⟩ := progT_stages m th q
    obtain ⟨j', F', k', t', y', e', m', g1, g2, g3, g4, g5, g6, g7, g8⟩ := stages_throw ha q.point hx h.1 next q.kinds m h.1 (Same.refl _)
      ⟨j, F, k, t, y, e, h1, h2, h3, h4, h5⟩
    have he : evalT m th q = (.error e', m') := by rw [evalT, hp, g6]
    rw [he]
    exact ⟨fun hn => absurd ⟨j, F, k, t, y, h1, h2, h3, h4, h5⟩ (hn e), fun _ => ⟨e', ⟨j', F', k', t', y', g1, g2, g3, g4, g5⟩, rfl, g7⟩, g8, g7.coeff.trans h.2⟩
  · have hn : ∀ e, ¬ th.Throws fs q e := fun e he => ht ⟨e, he⟩
    obtain ⟨m', e1, e2⟩ := ask_of hc h q hq
    have he : evalT m th q = (.ok (q.meant fs c), m') := by rw [evalT, progT_eq ha h.1 q hx hn, (prog_exec e1).1]
    rw [he]
    exact ⟨fun _ => rfl, fun h => absurd h ht, e2⟩

theorem afterT_of {fs : List (Family K)} {c : List Int → K} {s0 : Series K} (hc : s0.Coeffs fs c) {th : Thrower K} (ha : th.Agrees fs)
    (hist : List (Query K)) : ∀ m, (∀ q ∈ hist, q.Fits fs.length) → Inv fs s0 m → Inv fs s0 (afterT th hist m) := by
  induction hist with
  | nil => intro m _ h; exact h
  | cons q qs ih => intro m hq h; exact ih _ (fun q' h' => hq q' (by simp [h'])) (evalT_of hc h ha q (hq q (by simp))).2.2

end
end SPar

open SPar
section
variable {K : Type} [Field K] [LinearOrder K] [FloorRing K]

/-- **C137** A series with basis functions some of which throw at some arguments, after any history of evaluations, failed ones included: when none of the functions
an evaluation needs throws at the point, its result is the value or derivative of the series. -/
theorem C137_value (fs : List (Family K)) (hg : GoodDims (extents fs)) (s : Series K) (hs : s.Over fs) (c : List Int → K) (hc : s.Coeffs fs c)
    (th : Thrower K) (ha : th.Agrees fs) (hist : List (SPar.Query K)) (hh : ∀ q ∈ hist, q.Fits fs.length) (q : SPar.Query K) (hq : q.Fits fs.length)
    (hn : ∀ e, ¬ th.Throws fs q e) : (evalT (afterT th hist s) th q).1 = .ok (q.meant fs c) :=
  (evalT_of hc (afterT_of hc ha hist s hh ⟨hs.wf hg, rfl⟩) ha q hq).1 hn

/-- **C137** When one of the functions throws, the caller gets the exception of one of them and no number; the stored results and the coefficients are as they were. -/
theorem C137_exception (fs : List (Family K)) (hg : GoodDims (extents fs)) (s : Series K) (hs : s.Over fs) (c : List Int → K) (hc : s.Coeffs fs c)
    (th : Thrower K) (ha : th.Agrees fs) (hist : List (SPar.Query K)) (hh : ∀ q ∈ hist, q.Fits fs.length) (q : SPar.Query K) (hq : q.Fits fs.length)
    (ht : ∃ e, th.Throws fs q e) :
    ∃ e, th.Throws fs q e ∧ (evalT (afterT th hist s) th q).1 = .error e ∧
      (evalT (afterT th hist s) th q).2.get = (afterT th hist s).get ∧
      (∀ di, (evalT (afterT th hist s) th q).2.getGrad di = (afterT th hist s).getGrad di) ∧
      (∀ di dj, (evalT (afterT th hist s) th q).2.getHess di dj = (afterT th hist s).getHess di dj) ∧
      (evalT (afterT th hist s) th q).2.Coeffs fs c := by
  have hi := afterT_of hc ha hist s hh ⟨hs.wf hg, rfl⟩
  obtain ⟨e, h1, h2, h3⟩ := (evalT_of hc hi ha q hq).2.1 ht
  refine ⟨e, h1, h2, ?_, fun di => ?_, fun di dj => ?_, fun t htb => ?_⟩
  · simp only [Series.get, h3.val]
  · simp only [Series.getGrad, h3.grad]
  · simp only [Series.getHess, h3.hess]
  · rw [h3.coeff, hi.2]; exact hc t htb

end

/-! ### Non-vacuity -/

namespace ThrowDemo

/-- The monomials of the example, with `domain_error` for negative arguments of the second variable. -/
def th : Thrower ℚ := fun i k t x => if i = 1 ∧ x < 0 then .error .domainError else .ok ((Demo.mono ℚ 3).deriv (orderOf k) t x)

theorem agrees : th.Agrees (Demo.fams ℚ) := by
  intro i F k t x y hF ht h
  have he : y = (Demo.mono ℚ 3).deriv (orderOf k) t x := by
    simp only [th] at h
    split at h
    · simp at h
    · exact (Except.ok.inj h).symm
  rw [he]
  match i with
  | 0 => simp only [Demo.fams, List.getElem?_cons_zero, Option.some.injEq] at hF; subst hF; rfl
  | 1 => simp only [Demo.fams, List.getElem?_cons_succ, List.getElem?_cons_zero, Option.some.injEq] at hF; subst hF; rfl
  | i + 2 => simp [Demo.fams] at hF

end ThrowDemo

open ThrowDemo in
/-- `5 x y^2`, evaluated at (2,3), (2,-1) and (3,1): 90, an exception, and 15; between the second and the third the stored value is 90. -/
example : (evalT (Demo.ser ℚ) th (.value [2, 3])).1 = .ok 90 ∧
    (evalT (afterT th [.value [2, 3]] (Demo.ser ℚ)) th (.value [2, -1])).1 = .error .domainError ∧
    (afterT th [.value [2, 3], .value [2, -1]] (Demo.ser ℚ)).get = .ok 90 ∧
    (evalT (afterT th [.value [2, 3], .value [2, -1]] (Demo.ser ℚ)) th (.value [3, 1])).1 = .ok 15 := by
  have hfit : ∀ x y : ℚ, (SPar.Query.value [x, y]).Fits (Demo.fams ℚ).length := fun _ _ => rfl
  have hpos : ∀ x y : ℚ, 0 ≤ y → ∀ e, ¬ th.Throws (Demo.fams ℚ) (.value [x, y]) e := by
    rintro x y hy e ⟨i, F, k, t, z, h1, h2, h3, h4, h5⟩
    simp only [th] at h5
    split at h5
    · rename_i hc
      obtain ⟨rfl, hz⟩ := hc
      simp only [Query.point, List.getElem?_cons_succ, List.getElem?_cons_zero, Option.some.injEq] at h4
      subst h4
      exact absurd hz (not_lt.mpr hy)
    · simp at h5
  have hthr : ∃ e, th.Throws (Demo.fams ℚ) (.value [2, -1]) e :=
    ⟨.domainError, 1, _, .v, 0, -1, rfl, by decide, by simp [Query.kinds], rfl, by decide +kernel⟩
  have hv := C137_value _ (Demo.good ℚ) _ Demo.ser_over _ Demo.ser_coeffs th agrees
  refine ⟨?_, ?_, ?_, ?_⟩
  · refine (hv [] (by simp) (.value [2, 3]) (hfit _ _) (hpos _ _ (by norm_num))).trans ?_
    congr 1; decide +kernel
  · obtain ⟨e, h1, h2, _⟩ := C137_exception _ (Demo.good ℚ) _ Demo.ser_over _ Demo.ser_coeffs th agrees [.value [2, 3]]
      (by intro q hq; simp only [List.mem_singleton] at hq; subst hq; exact hfit _ _) (.value [2, -1]) (hfit _ _) hthr
    obtain ⟨i, F, k, t, z, _, _, _, _, h5⟩ := h1
    simp only [th] at h5
    split at h5
    · rw [h2]; exact h5.symm ▸ rfl
    · simp at h5
  · decide +kernel
  · refine (hv [.value [2, 3], .value [2, -1]] ?_ (.value [3, 1]) (hfit _ _) (hpos _ _ (by norm_num))).trans ?_
    · intro q hq
      simp only [List.mem_cons, List.not_mem_nil, or_false] at hq
      rcases hq with rfl | rfl <;> exact hfit _ _
    · congr 1; decide +kernel

end Verif
