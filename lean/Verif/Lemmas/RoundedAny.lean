import Verif.Lemmas.RoundedField
import Verif.Lemmas.Core
import Mathlib.Tactic.Ring

/-! Helper lemmas: what an evaluation remembers of earlier evaluations, for any file and position. -/

namespace Verif
namespace Fl
variable {K : Type} {d : Nat} [Field K] [LinearOrder K] [FloorRing K] {rnd : K → K}

/-! ### Indices -/

theorem idxLoop_len (min max incr coord : List K) (n : Nat) : ∀ (i : Nat) (term : List Int),
    (idxLoop rnd min max incr coord n i term).2.length = term.length ∧
    ∀ j, i + n ≤ j → (idxLoop rnd min max incr coord n i term).2[j]? = term[j]? := by
  induction n with
  | zero => intro i term; simp [idxLoop]
  | succ n ih =>
    intro i term
    unfold idxLoop
    cases idxAt rnd min max incr coord i with
    | error e => simp
    | ok k =>
      simp only
      cases h : vset term (i : Nat) k with
      | error e => simp
      | ok term' =>
        obtain ⟨_, h2, rfl⟩ := vset_ok.mp h
        simp only [Int.toNat_natCast] at h2 ⊢
        obtain ⟨g1, g2⟩ := ih (i + 1) (term.set i k)
        refine ⟨by rw [g1]; simp, fun j hj => ?_⟩
        rw [g2 j (by omega), List.getElem?_set_ne (by omega)]

theorem vset_same {α : Type} {v v' : List α} (h : v.length = v'.length) (i : Int) (a a' : α) :
    (∃ e, vset v i a = .error e ∧ vset v' i a' = .error e) ∨ (0 ≤ i ∧ i.toNat < v.length ∧ vset v i a = .ok (v.set i.toNat a) ∧ vset v' i a' = .ok (v'.set i.toNat a')) := by
  unfold vset
  rw [← h]
  by_cases hh : 0 ≤ i ∧ i.toNat < v.length
  · right
    refine ⟨hh.1, by omega, ?_⟩
    simp [hh]
  · left
    simp [hh]

theorem idxLoop_same (min max incr coord : List K) (n : Nat) : ∀ (i : Nat) (term term' : List Int), term.length = term'.length →
    (∀ j, i + n ≤ j → term[j]? = term'[j]?) → (∀ j, j < i → term[j]? = term'[j]?) →
    (idxLoop rnd min max incr coord n i term).1 = (idxLoop rnd min max incr coord n i term').1 ∧
    ((idxLoop rnd min max incr coord n i term).1 = .ok () →
      (idxLoop rnd min max incr coord n i term).2 = (idxLoop rnd min max incr coord n i term').2) := by
  induction n with
  | zero =>
    intro i term term' _ h1 h2
    refine ⟨rfl, fun _ => List.ext_getElem? fun j => ?_⟩
    rcases Nat.lt_or_ge j i with h | h
    · exact h2 j h
    · exact h1 j h
  | succ n ih =>
    intro i term term' hl h1 h2
    unfold idxLoop
    cases idxAt rnd min max incr coord i with
    | error e => exact ⟨rfl, fun h => by simp at h⟩
    | ok k =>
      simp only
      rcases vset_same hl (i : Nat) k k with ⟨e, e1, e2⟩ | ⟨_, hi, e1, e2⟩
      · rw [e1, e2]; exact ⟨rfl, fun h => by simp at h⟩
      · rw [e1, e2]
        simp only [Int.toNat_natCast] at hi ⊢
        refine ih (i + 1) _ _ (by simp [hl]) (fun j hj => ?_) (fun j hj => ?_)
        · rw [List.getElem?_set_ne (by omega), List.getElem?_set_ne (by omega)]; exact h1 j (by omega)
        · by_cases e : i = j
          · subst e
            rw [List.getElem?_set_self hi, List.getElem?_set_self (hl ▸ hi)]
          · rw [List.getElem?_set_ne e, List.getElem?_set_ne e]; exact h2 j (by omega)

/-- Two grids that differ in the scratch indices only. -/
def SameBin {T : Type} (b b' : Bin T K) : Prop :=
  b' = { b with indices := b'.indices } ∧ b.indices.length = b'.indices.length ∧ ∀ j, b.item.order.toNat ≤ j → b.indices[j]? = b'.indices[j]?

theorem contents_same {T : Type} {b b' : Bin T K} (h : SameBin b b') (c : List K) :
    (contents rnd b c).1 = (contents rnd b' c).1 ∧ SameBin b (contents rnd b' c).2 := by
  obtain ⟨h1, h2, h3⟩ := h
  obtain ⟨k1, k2⟩ := idxLoop_same (rnd := rnd) b.min b.max b.incr c b.item.order.toNat 0 b.indices b'.indices h2 (by simpa using h3) (by simp)
  obtain ⟨l1, l2⟩ := idxLoop_len (rnd := rnd) b.min b.max b.incr c b.item.order.toNat 0 b'.indices
  generalize b'.indices = t at h1 h2 h3 k1 k2 l1 l2
  subst h1
  unfold contents indicesOf
  simp only [Nat.zero_add] at *
  revert k1 k2 l1 l2
  rcases idxLoop rnd b.min b.max b.incr c b.item.order.toNat 0 b.indices with ⟨r, t1⟩
  rcases idxLoop rnd b.min b.max b.incr c b.item.order.toNat 0 t with ⟨r', t2⟩
  intro k1 k2 l1 l2
  simp only at k1 k2 l1 l2
  subst k1
  cases r with
  | error e => exact ⟨rfl, rfl, by simp [l1, h2], fun j hj => by simp only; rw [l2 j hj, h3 j hj]⟩
  | ok _ =>
    have := k2 rfl
    subst this
    exact ⟨rfl, rfl, by simp [l1, h2], fun j hj => by simp only; rw [l2 j hj, h3 j hj]⟩

/-! ### Buffers -/

/-- Two buffers of the same size. -/
def SameBuf (b b' : Mesh.Buf K) : Prop := b.bf.length = b'.bf.length ∧ b.ni.length = b'.ni.length

omit [LinearOrder K] [FloorRing K] in
theorem fillLoop_same (w : Interp K d → Res K) (el : Nat) (l : List (Interp K d)) : ∀ (i : Nat) (b b' : Mesh.Buf K), SameBuf b b' →
    (∀ j, j < i → b.bf[j]? = b'.bf[j]? ∧ b.ni[j]? = b'.ni[j]?) →
    (Mesh.fillLoop w el l i b).1 = (Mesh.fillLoop w el l i b').1 ∧ SameBuf b (Mesh.fillLoop w el l i b').2 ∧
    ((Mesh.fillLoop w el l i b).1 = .ok () → ∀ j, j < i + l.length →
      (Mesh.fillLoop w el l i b).2.bf[j]? = (Mesh.fillLoop w el l i b').2.bf[j]? ∧
      (Mesh.fillLoop w el l i b).2.ni[j]? = (Mesh.fillLoop w el l i b').2.ni[j]?) := by
  induction l with
  | nil => intro i b b' h hj; exact ⟨rfl, h, fun _ => by simpa [Mesh.fillLoop] using hj⟩
  | cons q qs ih =>
    intro i b b' h hj
    unfold Mesh.fillLoop
    cases (if q.element = el then w q else .ok 0) with
    | error e => exact ⟨rfl, h, fun h => by simp at h⟩
    | ok v =>
      simp only
      rcases vset_same h.1 (i : Nat) v v with ⟨e, e1, e2⟩ | ⟨_, hi, e1, e2⟩
      · rw [e1, e2]; exact ⟨rfl, h, fun h => by simp at h⟩
      · rw [e1, e2]
        simp only [Int.toNat_natCast] at hi ⊢
        rcases vset_same h.2 (i : Nat) q.node q.node with ⟨e, e3, e4⟩ | ⟨_, hn, e3, e4⟩
        · rw [e3, e4]
          exact ⟨rfl, ⟨by simpa using h.1, h.2⟩, fun h => by simp at h⟩
        · rw [e3, e4]
          simp only [Int.toNat_natCast] at hn ⊢
          have step := ih (i + 1) ⟨b.bf.set i v, b.ni.set i q.node⟩ ⟨b'.bf.set i v, b'.ni.set i q.node⟩
            ⟨by simpa using h.1, by simpa using h.2⟩ (fun j hj' => by
              by_cases e : i = j
              · subst e
                simp only [List.getElem?_set_self hi, List.getElem?_set_self (h.1 ▸ hi), List.getElem?_set_self hn,
                  List.getElem?_set_self (h.2 ▸ hn), and_self]
              · simp only [List.getElem?_set_ne e]; exact hj j (by omega))
          refine ⟨step.1, ⟨?_, ?_⟩, fun hok j hj' => step.2.2 hok j (by simp only [List.length_cons] at hj'; omega)⟩
          · rw [← step.2.1.1]; simp
          · rw [← step.2.1.2]; simp

omit [LinearOrder K] [FloorRing K] in
theorem sumLoop_same (data : List K) {b b' : Mesh.Buf K} (n : Nat) : ∀ (i : Nat) (acc : K),
    (∀ j, j < i + n → b.bf[j]? = b'.bf[j]? ∧ b.ni[j]? = b'.ni[j]?) → sumLoop rnd data b n i acc = sumLoop rnd data b' n i acc := by
  induction n with
  | zero => intro i acc _; rfl
  | succ n ih =>
    intro i acc h
    unfold sumLoop
    have g : ∀ {α : Type} {v v' : List α}, v[i]? = v'[i]? → vget v (i : Nat) = vget v' (i : Nat) := by
      intro α v v' hv
      simp [vget, hv]
    rw [g (h i (by omega)).1, g (h i (by omega)).2]
    congr 1; funext w
    congr 1; funext k
    congr 1; funext v
    exact ih _ _ fun j hj => h j (by omega)

/-! ### Fields -/

/-- Two fields that differ in the buffers and stored results only. -/
def SameField (f f' : PField K) : Prop :=
  f'.name = f.name ∧ f'.data = f.data ∧ f'.zero = f.zero ∧ SameBuf f.buf f'.buf ∧ f.grad.length = f'.grad.length ∧
  f.hess.map List.length = f'.hess.map List.length

/-- Two meshes that differ in the scratch indices only. -/
def SameMesh (m m' : Mesh K d) : Prop := m' = { m with bin := m'.bin } ∧ SameBin m.bin m'.bin

/-- A position whose bin has no interpolator that accepts it. -/
def Gap (rnd : K → K) (E : ElemOps K d) (m : Mesh K d) (c : Fin d → K) : Prop :=
  ∃ content, (contents rnd m.bin (List.ofFn c)).1 = .ok content ∧ Mesh.firstInRange E c content = none

theorem fill_same {E : ElemOps K d} {w : Interp K d → Res K} {m m' : Mesh K d} (hm : SameMesh m m') (c : Fin d → K) {b b' : Mesh.Buf K} (hb : SameBuf b b') :
    SameMesh m (fill rnd E w m' c b').2.1 ∧ SameBuf b (fill rnd E w m' c b').2.2 ∧
    (¬ Gap rnd E m c → (fill rnd E w m c b).1 = (fill rnd E w m' c b').1 ∧ ∀ n, (fill rnd E w m c b).1 = .ok n → ∀ j, j < n →
      (fill rnd E w m c b).2.2.bf[j]? = (fill rnd E w m' c b').2.2.bf[j]? ∧ (fill rnd E w m c b).2.2.ni[j]? = (fill rnd E w m' c b').2.2.ni[j]?) := by
  obtain ⟨k1, k2⟩ := contents_same (rnd := rnd) hm.2 (List.ofFn c)
  unfold fill Gap
  revert k1 k2
  rcases contents rnd m.bin (List.ofFn c) with ⟨r, t⟩
  rcases contents rnd m'.bin (List.ofFn c) with ⟨r', t'⟩
  intro k1 k2
  simp only at k1 k2
  subst k1
  have hm2 : SameMesh m { m' with bin := t' } := ⟨by obtain ⟨h1, _⟩ := hm; rw [h1], k2⟩
  cases r with
  | error e => exact ⟨hm2, hb, fun _ => ⟨rfl, by simp⟩⟩
  | ok content =>
    simp only
    cases hf : Mesh.firstInRange E c content with
    | none => exact ⟨hm2, hb, fun h => absurd ⟨content, rfl, hf⟩ h⟩
    | some q =>
      simp only
      obtain ⟨g1, g2, g3⟩ := fillLoop_same w q.element content 0 b b' hb (by simp)
      revert g1 g2 g3
      rcases Mesh.fillLoop w q.element content 0 b with ⟨r, x⟩
      rcases Mesh.fillLoop w q.element content 0 b' with ⟨r', x'⟩
      intro g1 g2 g3
      simp only at g1 g2 g3
      subst g1
      cases r with
      | error e => exact ⟨hm2, g2, fun _ => ⟨rfl, by simp⟩⟩
      | ok _ => exact ⟨hm2, g2, fun _ => ⟨rfl, fun n hn j hj => g3 rfl j (by simp at hn; omega)⟩⟩

section
variable {E : ElemOps K d} {m m' : Mesh K d} {f f' : PField K}

theorem value_same (hm : SameMesh m m') (hf : SameField f f') (c : Fin d → K) :
    SameMesh m (value rnd E m' f' c).2.1 ∧ SameField f (value rnd E m' f' c).2.2 ∧
    (¬ Gap rnd E m c → (value rnd E m f c).1 = (value rnd E m' f' c).1) := by
  obtain ⟨a1, a2, a3, a4, a5, a6⟩ := hf
  obtain ⟨k1, k2, k3⟩ := fill_same (rnd := rnd) (E := E) (w := fun q => E.value q c) hm c a4
  unfold value basisFunctions
  rw [a2, a3]
  revert k1 k2 k3
  rcases fill rnd E (fun q => E.value q c) m c f.buf with ⟨r, m1, x⟩
  rcases fill rnd E (fun q => E.value q c) m' c f'.buf with ⟨r', m1', x'⟩
  intro k1 k2 k3
  simp only at k1 k2 k3
  refine ⟨?_, ?_, fun hg => ?_⟩
  · cases r' with
    | error e => exact k1
    | ok n => simp only; cases sumLoop rnd f.data x' n 0 f.zero <;> exact k1
  · cases r' with
    | error e => exact ⟨a1, rfl, rfl, k2, a5, a6⟩
    | ok n => simp only; cases sumLoop rnd f.data x' n 0 f.zero <;> exact ⟨a1, rfl, rfl, k2, a5, a6⟩
  · obtain ⟨h1, h2⟩ := k3 hg
    subst h1
    cases r with
    | error e => rfl
    | ok n =>
      simp only
      rw [sumLoop_same (rnd := rnd) f.data n 0 f.zero (by simpa using h2 n rfl)]
      cases sumLoop rnd f.data x' n 0 f.zero <;> rfl

theorem gradAt_same (hm : SameMesh m m') (hf : SameField f f') (c : Fin d → K) (di : Nat) :
    SameMesh m (gradAt rnd E m' f' c di).2.1 ∧ SameField f (gradAt rnd E m' f' c di).2.2 ∧
    (¬ Gap rnd E m c → (gradAt rnd E m f c di).1 = (gradAt rnd E m' f' c di).1) := by
  obtain ⟨a1, a2, a3, a4, a5, a6⟩ := hf
  obtain ⟨k1, k2, k3⟩ := fill_same (rnd := rnd) (E := E) (w := fun q => E.grad q c di) hm c a4
  unfold gradAt gradBasisFunctions
  rw [a2, a3]
  revert k1 k2 k3
  rcases fill rnd E (fun q => E.grad q c di) m c f.buf with ⟨r, m1, x⟩
  rcases fill rnd E (fun q => E.grad q c di) m' c f'.buf with ⟨r', m1', x'⟩
  intro k1 k2 k3
  simp only at k1 k2 k3
  refine ⟨?_, ?_, fun hg => ?_⟩
  · cases r' with
    | error e => exact k1
    | ok n =>
      simp only
      cases sumLoop rnd f.data x' n 0 f.zero with
      | error e => exact k1
      | ok v => simp only; cases vset f'.grad (di : Nat) v <;> exact k1
  · cases r' with
    | error e => exact ⟨a1, rfl, rfl, k2, a5, a6⟩
    | ok n =>
      simp only
      cases sumLoop rnd f.data x' n 0 f.zero with
      | error e => exact ⟨a1, rfl, rfl, k2, a5, a6⟩
      | ok v =>
        simp only
        cases hv : vset f'.grad (di : Nat) v with
        | error e => exact ⟨a1, rfl, rfl, k2, a5, a6⟩
        | ok g =>
          obtain ⟨_, _, rfl⟩ := vset_ok.mp hv
          exact ⟨a1, rfl, rfl, k2, by simpa using a5, a6⟩
  · obtain ⟨h1, h2⟩ := k3 hg
    subst h1
    cases r with
    | error e => rfl
    | ok n =>
      simp only
      rw [sumLoop_same (rnd := rnd) f.data n 0 f.zero (by simpa using h2 n rfl)]
      cases sumLoop rnd f.data x' n 0 f.zero with
      | error e => rfl
      | ok v =>
        simp only
        rcases vset_same a5 (di : Nat) v v with ⟨e, e1, e2⟩ | ⟨_, _, e1, e2⟩ <;> rw [e1, e2]

omit [Field K] [LinearOrder K] [FloorRing K] in
/-- Writing an entry of a matrix. -/
theorem put_same {h h' : List (List K)} (hh : h.map List.length = h'.map List.length) (di dj : Nat) (v : K) :
    (∃ e, (do let row ← vget h (di : Nat); let row' ← vset row (dj : Nat) v; vset h (di : Nat) row') = .error e ∧
      (do let row ← vget h' (di : Nat); let row' ← vset row (dj : Nat) v; vset h' (di : Nat) row') = .error e) ∨
    ∃ g g', (do let row ← vget h (di : Nat); let row' ← vset row (dj : Nat) v; vset h (di : Nat) row') = .ok g ∧
      (do let row ← vget h' (di : Nat); let row' ← vset row (dj : Nat) v; vset h' (di : Nat) row') = .ok g' ∧
      h.map List.length = g'.map List.length := by
  have hl : h.length = h'.length := by simpa using congrArg List.length hh
  by_cases hd : di < h.length
  · have hd' : di < h'.length := hl ▸ hd
    have hr : h[di].length = h'[di].length := by
      have := congrArg (·[di]?) hh
      simpa [hd, hd'] using this
    rw [vget_nat h di hd, vget_nat h' di hd']
    simp only [ok_bind]
    rcases vset_same hr (dj : Nat) v v with ⟨e, e1, e2⟩ | ⟨_, _, e1, e2⟩
    · left; rw [e1, e2]; exact ⟨e, rfl, rfl⟩
    · right
      rw [e1, e2]
      simp only [ok_bind]
      rw [vset_nat h di _ hd, vset_nat h' di _ hd']
      refine ⟨_, _, rfl, rfl, ?_⟩
      rw [hh, List.map_set, List.length_set]
      apply List.ext_getElem?
      intro j
      by_cases e : di = j
      · subst e; simp [hd']
      · rw [List.getElem?_set_ne e]
  · left
    have hd' : ¬ di < h'.length := hl ▸ hd
    rw [vget_err (by omega), vget_err (v := h') (by omega)]
    exact ⟨_, rfl, rfl⟩

theorem hessAt_same (hm : SameMesh m m') (hf : SameField f f') (c : Fin d → K) (di dj : Nat) :
    SameMesh m (hessAt rnd E m' f' c di dj).2.1 ∧ SameField f (hessAt rnd E m' f' c di dj).2.2 ∧
    (¬ Gap rnd E m c → (hessAt rnd E m f c di dj).1 = (hessAt rnd E m' f' c di dj).1) := by
  obtain ⟨a1, a2, a3, a4, a5, a6⟩ := hf
  obtain ⟨k1, k2, k3⟩ := fill_same (rnd := rnd) (E := E) (w := fun q => E.hess q c di dj) hm c a4
  unfold hessAt hessBasisFunctions
  rw [a2, a3]
  revert k1 k2 k3
  rcases fill rnd E (fun q => E.hess q c di dj) m c f.buf with ⟨r, m1, x⟩
  rcases fill rnd E (fun q => E.hess q c di dj) m' c f'.buf with ⟨r', m1', x'⟩
  intro k1 k2 k3
  simp only at k1 k2 k3
  refine ⟨?_, ?_, fun hg => ?_⟩
  · cases r' with
    | error e => exact k1
    | ok n =>
      simp only
      cases sumLoop rnd f.data x' n 0 f.zero with
      | error e => exact k1
      | ok v => simp only; rcases put_same a6 di dj v with ⟨e, _, e2⟩ | ⟨g, g', _, e2, _⟩ <;> rw [e2] <;> exact k1
  · cases r' with
    | error e => exact ⟨a1, rfl, rfl, k2, a5, a6⟩
    | ok n =>
      simp only
      cases sumLoop rnd f.data x' n 0 f.zero with
      | error e => exact ⟨a1, rfl, rfl, k2, a5, a6⟩
      | ok v =>
        simp only
        rcases put_same a6 di dj v with ⟨e, _, e2⟩ | ⟨g, g', _, e2, e3⟩ <;> rw [e2]
        · exact ⟨a1, rfl, rfl, k2, a5, a6⟩
        · exact ⟨a1, rfl, rfl, k2, a5, e3⟩
  · obtain ⟨h1, h2⟩ := k3 hg
    subst h1
    cases r with
    | error e => rfl
    | ok n =>
      simp only
      rw [sumLoop_same (rnd := rnd) f.data n 0 f.zero (by simpa using h2 n rfl)]
      cases sumLoop rnd f.data x' n 0 f.zero with
      | error e => rfl
      | ok v =>
        simp only
        rcases put_same a6 di dj v with ⟨e, e1, e2⟩ | ⟨g, g', e1, e2, _⟩ <;> rw [e1, e2]

theorem evalGradLoop_same (c : Fin d → K) (l : List Nat) : ∀ (m' : Mesh K d) (f' : PField K), SameMesh m m' → SameField f f' →
    SameMesh m (evalGradLoop rnd E c l m' f').2.1 ∧ SameField f (evalGradLoop rnd E c l m' f').2.2 := by
  induction l with
  | nil => intro m' f' hm hf; exact ⟨hm, hf⟩
  | cons di ds ih =>
    intro m' f' hm hf
    obtain ⟨k1, k2, _⟩ := gradAt_same (rnd := rnd) (E := E) hm hf c di
    unfold evalGradLoop
    revert k1 k2
    rcases gradAt rnd E m' f' c di with ⟨_ | _, m1, f1⟩ <;> intro k1 k2
    · exact ⟨k1, k2⟩
    · exact ih _ _ k1 k2

theorem evalHessLoop_same (c : Fin d → K) (l : List (Nat × Nat)) : ∀ (m' : Mesh K d) (f' : PField K), SameMesh m m' → SameField f f' →
    SameMesh m (evalHessLoop rnd E c l m' f').2.1 ∧ SameField f (evalHessLoop rnd E c l m' f').2.2 := by
  induction l with
  | nil => intro m' f' hm hf; exact ⟨hm, hf⟩
  | cons di ds ih =>
    intro m' f' hm hf
    obtain ⟨i, j⟩ := di
    obtain ⟨k1, k2, _⟩ := hessAt_same (rnd := rnd) (E := E) hm hf c i j
    unfold evalHessLoop
    revert k1 k2
    rcases hessAt rnd E m' f' c i j with ⟨_ | _, m1, f1⟩ <;> intro k1 k2
    · exact ⟨k1, k2⟩
    · exact ih _ _ k1 k2

theorem callField_same (hm : SameMesh m m') (hf : SameField f f') (op : Body.Call K d) :
    SameMesh m (callField rnd E m' f' op).2.1 ∧ SameField f (callField rnd E m' f' op).2.2 := by
  cases op with
  | value c => exact ⟨(value_same hm hf c).1, (value_same hm hf c).2.1⟩
  | grad c di => exact ⟨(gradAt_same hm hf c di).1, (gradAt_same hm hf c di).2.1⟩
  | hess c di dj => exact ⟨(hessAt_same hm hf c di dj).1, (hessAt_same hm hf c di dj).2.1⟩
  | evalGrad c => exact evalGradLoop_same c _ _ _ hm hf
  | evalHess c => exact evalHessLoop_same c _ _ _ hm hf

theorem queryField_same (hm : SameMesh m m') (hf : SameField f f') (op : Call K d) (hg : ¬ Gap rnd E m op.coord) :
    (queryField rnd E m f op).1 = (queryField rnd E m' f' op).1 := by
  cases op with
  | value c => exact (value_same hm hf c).2.2 hg
  | grad c di => exact (gradAt_same hm hf c di).2.2 hg
  | hess c di dj => exact (hessAt_same hm hf c di dj).2.2 hg
end

/-! ### Bodies -/

/-- Two bodies that differ in scratch memory and stored results only. -/
def SameBody (b b' : Body K d) : Prop :=
  SameMesh b.mesh b'.mesh ∧ b.fields.length = b'.fields.length ∧ ∀ (i : Nat) f f', b.fields[i]? = some f → b'.fields[i]? = some f' → SameField f f'

theorem sameBody_refl (b : Body K d) : SameBody b b := by
  refine ⟨⟨rfl, rfl, rfl, fun _ _ => rfl⟩, rfl, fun i f f' h h' => ?_⟩
  rw [h] at h'; cases h'
  exact ⟨rfl, rfl, rfl, ⟨rfl, rfl⟩, rfl, rfl⟩

theorem evals_same {E : ElemOps K d} {b : Body K d} (ops : List (Nat × Body.Call K d)) : ∀ b' : Body K d, SameBody b b' → SameBody b (evals rnd E b' ops) := by
  induction ops with
  | nil => intro b' h; exact h
  | cons o ops ih =>
    intro b' h
    obtain ⟨i, op⟩ := o
    simp only [evals]
    apply ih
    unfold call
    cases hi : b'.fields[i]? with
    | none => exact h
    | some f' =>
      obtain ⟨h1, h2, h3⟩ := h
      have hi' := (List.getElem?_eq_some_iff.mp hi).1
      have hib : b.fields[i]? = some b.fields[i] := List.getElem?_eq_getElem (h2 ▸ hi')
      obtain ⟨k1, k2⟩ := callField_same (rnd := rnd) (E := E) h1 (h3 i _ _ hib hi) op
      revert k1 k2
      simp only
      rcases callField rnd E b'.mesh f' op with ⟨_, m1, f1⟩
      intro k1 k2
      refine ⟨k1, by simpa using h2, fun j f g hf hg => ?_⟩
      by_cases e : i = j
      · subst e
        simp only [List.getElem?_set_self hi', Option.some.injEq] at hg
        subst hg
        rw [hib] at hf; cases hf
        exact k2
      · simp only [List.getElem?_set_ne e] at hg
        exact h3 j f g hf hg

/-- Away from gaps evaluations remember nothing. -/
theorem eval_any {E : ElemOps K d} (b : Body K d) (ops : List (Nat × Body.Call K d)) (i : Nat) (op : Call K d) (hg : ¬ Gap rnd E b.mesh op.coord) :
    eval rnd E (evals rnd E b ops) i op = eval rnd E b i op := by
  obtain ⟨h1, h2, h3⟩ := evals_same (rnd := rnd) (E := E) ops b (sameBody_refl b)
  unfold eval
  cases hi : b.fields[i]? with
  | none =>
    have : (evals rnd E b ops).fields[i]? = none := by
      rw [List.getElem?_eq_none_iff] at hi ⊢; omega
    rw [this]
  | some f =>
    have hi' : i < (evals rnd E b ops).fields.length := h2 ▸ (List.getElem?_eq_some_iff.mp hi).1
    rw [List.getElem?_eq_getElem hi']
    exact (queryField_same h1 (h3 i _ _ hi (List.getElem?_eq_getElem hi')) op hg).symm

/-- In a gap a body that has just been read gives 0 (or runs out of data). -/
theorem eval_gap {E : ElemOps K d} (h0 : rnd 0 = 0) {b : Body K d} (hn : ∀ f ∈ b.fields, f.zero = 0 ∧ ∀ x ∈ f.buf.bf, x = 0) (i : Nat) (op : Call K d)
    (hg : Gap rnd E b.mesh op.coord) : eval rnd E b i op = .ok 0 ∨ eval rnd E b i op = .error (.ub .oob) := by
  unfold eval
  cases hi : b.fields[i]? with
  | none => exact Or.inr rfl
  | some f =>
    obtain ⟨z, zb⟩ := hn f (List.mem_of_getElem? hi)
    obtain ⟨content, g1, g2⟩ := hg
    have hfill : ∀ w : Interp K d → Res K, (fill rnd E w b.mesh op.coord f.buf).1 = .ok content.length ∧ (fill rnd E w b.mesh op.coord f.buf).2.2 = f.buf := by
      intro w
      unfold fill
      revert g1
      rcases contents rnd b.mesh.bin (List.ofFn op.coord) with ⟨r, t⟩
      intro g1
      simp only at g1
      subst g1
      simp only [g2, and_self]
    have hsum : ∀ n i, sumLoop rnd f.data f.buf n i 0 = .ok 0 ∨ sumLoop rnd f.data f.buf n i 0 = .error (.ub .oob) := by
      intro n
      induction n with
      | zero => intro i; exact Or.inl rfl
      | succ n ih =>
        intro i
        unfold sumLoop
        cases h1 : vget f.buf.bf (i : Nat) with
        | error e => rw [vget_error h1]; exact Or.inr rfl
        | ok w =>
          have hw := zb w (List.mem_of_getElem? (vget_ok.mp h1).2)
          simp only [ok_bind]
          cases h2 : vget f.buf.ni (i : Nat) with
          | error e => rw [vget_error h2]; exact Or.inr rfl
          | ok k =>
            simp only [ok_bind]
            cases h3 : vget f.data (k : Nat) with
            | error e => rw [vget_error h3]; exact Or.inr rfl
            | ok v =>
              simp only [ok_bind]
              rw [hw, zero_mul, h0, add_zero, h0]
              exact ih (i + 1)
    cases op with
    | value c =>
      obtain ⟨k1, k2⟩ := hfill fun q => E.value q c
      simp only [queryField, value, basisFunctions, Call.coord] at k1 k2 ⊢
      revert k1 k2
      rcases fill rnd E (fun q => E.value q c) b.mesh c f.buf with ⟨r, m1, x⟩
      intro k1 k2
      simp only at k1 k2
      subst k1; subst k2
      simp only [z]
      rcases hsum content.length 0 with h | h <;> rw [h]
      · exact Or.inl rfl
      · exact Or.inr rfl
    | grad c di =>
      obtain ⟨k1, k2⟩ := hfill fun q => E.grad q c di
      simp only [queryField, gradAt, gradBasisFunctions, Call.coord] at k1 k2 ⊢
      revert k1 k2
      rcases fill rnd E (fun q => E.grad q c di) b.mesh c f.buf with ⟨r, m1, x⟩
      intro k1 k2
      simp only at k1 k2
      subst k1; subst k2
      simp only [z]
      rcases hsum content.length 0 with h | h <;> rw [h]
      · simp only
        cases hv : vset f.grad (di : Nat) 0 with
        | error e => rw [vset_error hv]; exact Or.inr rfl
        | ok g => exact Or.inl rfl
      · exact Or.inr rfl
    | hess c di dj =>
      obtain ⟨k1, k2⟩ := hfill fun q => E.hess q c di dj
      simp only [queryField, hessAt, hessBasisFunctions, Call.coord] at k1 k2 ⊢
      revert k1 k2
      rcases fill rnd E (fun q => E.hess q c di dj) b.mesh c f.buf with ⟨r, m1, x⟩
      intro k1 k2
      simp only at k1 k2
      subst k1; subst k2
      simp only [z]
      rcases hsum content.length 0 with h | h <;> rw [h]
      · simp only
        cases h1 : vget f.hess (di : Nat) with
        | error e => rw [vget_error h1]; exact Or.inr rfl
        | ok row =>
          simp only [ok_bind]
          cases h2 : vset row (dj : Nat) 0 with
          | error e => rw [vset_error h2]; exact Or.inr rfl
          | ok row' =>
            simp only [ok_bind]
            cases h3 : vset f.hess (di : Nat) row' with
            | error e => rw [vset_error h3]; exact Or.inr rfl
            | ok h' => exact Or.inl rfl
      · exact Or.inr rfl

end Fl
end Verif
