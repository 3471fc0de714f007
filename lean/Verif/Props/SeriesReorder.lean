import Verif.Props.Series
import Verif.Lemmas.TensorFlat

/-!
# Property C151: the variables of a series in another order, and longer basis sets
-/

namespace Verif
open Spec NDArray
variable {K : Type} [Field K] [LinearOrder K] [FloorRing K]

theorem series_ofFn {n : Nat} (F : Fin n → Family K) (m : Fin n → Nat) (c : List Int → K) (x : Fin n → K) :
    series (List.ofFn F) (List.ofFn m) c (List.ofFn x) = tensorSum (List.ofFn fun i => ((F i).size, fun k => (F i).deriv (m i) k (x i))) c := by
  unfold series
  congr 1
  refine List.ext_getElem (by simp) fun i h1 h2 => ?_
  simp

theorem value_ofFn (n : Nat) : value n = List.ofFn fun _ : Fin n => 0 := by
  refine List.ext_getElem (by simp [value]) fun i h1 h2 => ?_
  simp [value]

theorem gradient_ofFn {n : Nat} (di : Fin n) : gradient n di = List.ofFn fun k : Fin n => if k = di then 1 else 0 := by
  refine List.ext_getElem (by simp [gradient]) fun i h1 h2 => ?_
  simp [gradient, Fin.ext_iff]

theorem hessian_ofFn {n : Nat} (di dj : Fin n) : hessian n di dj = List.ofFn fun k : Fin n => (if k = di then 1 else 0) + (if k = dj then 1 else 0) := by
  refine List.ext_getElem (by simp [hessian]) fun i h1 h2 => ?_
  simp [hessian, Fin.ext_iff]

theorem series_perm {n : Nat} (F : Fin n → Family K) (σ : Equiv.Perm (Fin n)) (m : Fin n → Nat) (c c' : List Int → K)
    (h : ∀ t : Fin n → Nat, (∀ i, t i < (F i).size) → c' (List.ofFn fun i => (t (σ i) : Int)) = c (List.ofFn fun i => (t i : Int))) (x : Fin n → K) :
    series (List.ofFn fun i => F (σ i)) (List.ofFn fun i => m (σ i)) c' (List.ofFn fun i => x (σ i)) = series (List.ofFn F) (List.ofFn m) c (List.ofFn x) := by
  rw [series_ofFn (fun i => F (σ i)) (fun i => m (σ i)) c' (fun i => x (σ i)), series_ofFn]
  exact tensorSum_perm (fun i => (F i).size) (fun i k => (F i).deriv (m i) k (x i)) σ c c' h

theorem inBox_ofFn : ∀ {n : Nat} (F : Fin n → Family K) (t : Fin n → Nat), (∀ i, t i < (F i).size) → InBox (extents (List.ofFn F)) (List.ofFn fun i => (t i : Int))
  | 0, _, _, _ => by simp [extents, InBox]
  | n + 1, F, t, h => by
    have ih := inBox_ofFn (fun i => F i.succ) (fun i => t i.succ) fun i => h i.succ
    simp only [extents, List.ofFn_succ, List.map_cons, InBox]
    exact ⟨⟨by omega, by exact_mod_cast h 0⟩, ih⟩

/-- **C151** The same series with its variables in another order: variable `i` of the second is variable `σ i` of the first. Values, gradients and Hessians are those of
the first at the corresponding point in the corresponding directions, whatever was done before with either. -/
theorem C151_permuted {n : Nat} (F : Fin n → Family K) (σ : Equiv.Perm (Fin n)) (hg : GoodDims (extents (List.ofFn F))) (hg' : GoodDims (extents (List.ofFn fun i => F (σ i))))
    (s s' : Series K) (hs : s.Over (List.ofFn F)) (hs' : s'.Over (List.ofFn fun i => F (σ i)))
    (hc : ∀ t : Fin n → Nat, (∀ i, t i < (F i).size) → s'.coeff.get (List.ofFn fun i => (t (σ i) : Int)) = s.coeff.get (List.ofFn fun i => (t i : Int))) (x : Fin n → K) :
    (∃ y r r', s.evalAt (List.ofFn x) = .ok (y, r) ∧ s'.evalAt (List.ofFn fun i => x (σ i)) = .ok (y, r')) ∧
    (∃ r r', s.evalGrad (List.ofFn x) = .ok r ∧ s'.evalGrad (List.ofFn fun i => x (σ i)) = .ok r' ∧
      ∀ di : Fin n, ∃ y, r.getGrad (σ di : Nat) = .ok y ∧ r'.getGrad (di : Nat) = .ok y) ∧
    ∃ r r', s.evalHess (List.ofFn x) = .ok r ∧ s'.evalHess (List.ofFn fun i => x (σ i)) = .ok r' ∧
      ∀ di dj : Fin n, ∃ y, r.getHess (σ di : Nat) (σ dj : Nat) = .ok y ∧ r'.getHess (di : Nat) (dj : Nat) = .ok y := by
  obtain ⟨c, hc1⟩ := (hs.wf hg).coeff_exists
  obtain ⟨c', hc1'⟩ := (hs'.wf hg').coeff_exists
  have h : ∀ t : Fin n → Nat, (∀ i, t i < (F i).size) → c' (List.ofFn fun i => (t (σ i) : Int)) = c (List.ofFn fun i => (t i : Int)) := by
    intro t ht
    have e := hc t ht
    rw [hc1 _ (inBox_ofFn F t ht), hc1' _ (inBox_ofFn (fun i => F (σ i)) (fun i => t (σ i)) fun i => ht (σ i))] at e
    exact Except.ok.inj e
  have eq := fun m : Fin n → Nat => series_perm F σ m c c' h x
  refine ⟨?_, ?_, ?_⟩
  · obtain ⟨r, e, _⟩ := C46_value _ hg s hs c hc1 (List.ofFn x) (by simp)
    obtain ⟨r', e', _⟩ := C46_value _ hg' s' hs' c' hc1' (List.ofFn fun i => x (σ i)) (by simp)
    refine ⟨_, r, r', e, e'.trans ?_⟩
    simp only [List.length_ofFn, value_ofFn]
    rw [← eq fun _ => 0]
  · obtain ⟨r, e, k⟩ := C47_gradient _ hg s hs c hc1 (List.ofFn x) (by simp)
    obtain ⟨r', e', k'⟩ := C47_gradient _ hg' s' hs' c' hc1' (List.ofFn fun i => x (σ i)) (by simp)
    refine ⟨r, r', e, e', fun di => ⟨_, k (σ di) (by simp), (k' di (by simp)).trans ?_⟩⟩
    simp only [List.length_ofFn, gradient_ofFn]
    rw [← eq fun k => if k = σ di then 1 else 0]
    simp only [EmbeddingLike.apply_eq_iff_eq]
  · obtain ⟨r, e, k⟩ := C48_hessian _ hg s hs c hc1 (List.ofFn x) (by simp)
    obtain ⟨r', e', k'⟩ := C48_hessian _ hg' s' hs' c' hc1' (List.ofFn fun i => x (σ i)) (by simp)
    refine ⟨r, r', e, e', fun di dj => ⟨_, (k (σ di) (σ dj) (by simp) (by simp)).1, (k' di dj (by simp) (by simp)).1.trans ?_⟩⟩
    simp only [List.length_ofFn, hessian_ofFn]
    rw [← eq fun k => (if k = σ di then 1 else 0) + (if k = σ dj then 1 else 0)]
    simp only [EmbeddingLike.apply_eq_iff_eq]

/-- The second family has the functions of the first, and possibly more. -/
def Longer (F F' : Family K) : Prop := F.size ≤ F'.size ∧ ∀ k < F.size, ∀ x, F'.phi k x = F.phi k x ∧ F'.dphi k x = F.dphi k x ∧ F'.ddphi k x = F.ddphi k x

theorem series_pad {fs fs' : List (Family K)} (h : List.Forall₂ Longer fs fs') (m : List Nat) (hm : m.length = fs.length) (x : List K) (hx : x.length = fs.length)
    (c c' : List Int → K) (h1 : ∀ t, InBox (extents fs) t → c' t = c t) (h2 : ∀ t, InBox (extents fs') t → ¬ InBox (extents fs) t → c' t = 0) :
    series fs' m c' x = series fs m c x := by
  have box : ∀ {fs : List (Family K)} {m : List Nat} (_ : m.length = fs.length) {x : List K} (_ : x.length = fs.length) (t : List Nat),
      List.Forall₂ (fun k (p : Nat × (Nat → K)) => k < p.1) t ((fs.zip (m.zip x)).map fun p => (p.1.size, fun k => p.1.deriv p.2.1 k p.2.2)) ↔
        InBox (extents fs) (t.map Int.ofNat) := by
    intro fs
    induction fs with
    | nil => intro m _ x _ t; cases t <;> simp [extents, InBox]
    | cons F fs ih =>
      intro m hm x hx t
      obtain ⟨a, m, rfl⟩ := List.exists_cons_of_length_eq_add_one hm
      obtain ⟨b, x, rfl⟩ := List.exists_cons_of_length_eq_add_one hx
      cases t with
      | nil => simp [extents, InBox]
      | cons k t =>
        simp only [List.zip_cons_cons, List.map_cons, List.forall₂_cons, extents, InBox]
        rw [ih (by simpa using hm) (by simpa using hx)]
        refine and_congr_left' ?_
        simp
  have hl := h.length_eq
  refine tensorSum_pad ?_ c c' (fun t ht => h1 _ ((box hm hx t).mp ht))
    fun t ht hn => h2 _ ((box (hm.trans hl) (hx.trans hl) t).mp ht) fun k => hn ((box hm hx t).mpr k)
  clear box h1 h2 hl
  induction h generalizing m x with
  | nil => exact .nil
  | @cons F F' fs fs' hF _ ih =>
    obtain ⟨a, m, rfl⟩ := List.exists_cons_of_length_eq_add_one hm
    obtain ⟨b, x, rfl⟩ := List.exists_cons_of_length_eq_add_one hx
    refine .cons ⟨hF.1, fun k hk => ?_⟩ (ih m (by simpa using hm) x (by simpa using hx))
    obtain ⟨e1, e2, e3⟩ := hF.2 k hk b
    simp only [Family.deriv, e1, e2, e3]

/-- **C151** Longer basis sets: a second series over basis sets that begin with those of the first, with the coefficients of the first and 0 for all others. Values,
gradients and Hessians are the same, whatever was done before with either. -/
theorem C151_longer (fs fs' : List (Family K)) (hl : List.Forall₂ Longer fs fs') (hg : GoodDims (extents fs)) (hg' : GoodDims (extents fs'))
    (s s' : Series K) (hs : s.Over fs) (hs' : s'.Over fs') (hc : ∀ t, InBox (extents fs) t → s'.coeff.get t = s.coeff.get t)
    (h0 : ∀ t, InBox (extents fs') t → ¬ InBox (extents fs) t → s'.coeff.get t = .ok 0) (x : List K) (hx : x.length = fs.length) :
    (∃ y r r', s.evalAt x = .ok (y, r) ∧ s'.evalAt x = .ok (y, r')) ∧
    (∃ r r', s.evalGrad x = .ok r ∧ s'.evalGrad x = .ok r' ∧ ∀ di : Nat, di < fs.length → ∃ y, r.getGrad di = .ok y ∧ r'.getGrad di = .ok y) ∧
    ∃ r r', s.evalHess x = .ok r ∧ s'.evalHess x = .ok r' ∧
      ∀ di dj : Nat, di < fs.length → dj < fs.length → ∃ y, r.getHess di dj = .ok y ∧ r'.getHess di dj = .ok y := by
  obtain ⟨c, hc1⟩ := (hs.wf hg).coeff_exists
  obtain ⟨c', hc1'⟩ := (hs'.wf hg').coeff_exists
  have sub : ∀ {fs fs' : List (Family K)}, List.Forall₂ Longer fs fs' → ∀ t, InBox (extents fs) t → InBox (extents fs') t := by
    intro fs fs' h
    induction h with
    | nil => exact fun t ht => ht
    | @cons F F' fs fs' hF _ ih =>
      intro t ht
      cases t with
      | nil => simp [extents, InBox] at ht
      | cons a t =>
        simp only [extents, List.map_cons, InBox] at ht ⊢
        have := hF.1
        exact ⟨⟨ht.1.1, by omega⟩, ih t ht.2⟩
  have h1 : ∀ t, InBox (extents fs) t → c' t = c t := by
    intro t ht
    have e := hc t ht
    rw [hc1 t ht, hc1' t (sub hl t ht)] at e
    exact Except.ok.inj e
  have h2 : ∀ t, InBox (extents fs') t → ¬ InBox (extents fs) t → c' t = 0 := by
    intro t ht hn
    have e := h0 t ht hn
    rw [hc1' t ht] at e
    exact Except.ok.inj e
  have len := hl.length_eq
  have hx' := hx.trans len
  have eq := fun (m : List Nat) (hm : m.length = fs.length) => series_pad hl m hm x hx c c' h1 h2
  refine ⟨?_, ?_, ?_⟩
  · obtain ⟨r, e, _⟩ := C46_value _ hg s hs c hc1 x hx
    obtain ⟨r', e', _⟩ := C46_value _ hg' s' hs' c' hc1' x hx'
    refine ⟨_, r, r', e, e'.trans ?_⟩
    rw [← len, eq _ (by simp [value])]
  · obtain ⟨r, e, k⟩ := C47_gradient _ hg s hs c hc1 x hx
    obtain ⟨r', e', k'⟩ := C47_gradient _ hg' s' hs' c' hc1' x hx'
    refine ⟨r, r', e, e', fun di hd => ⟨_, k di hd, (k' di (len ▸ hd)).trans ?_⟩⟩
    rw [← len, eq _ (by simp [gradient])]
  · obtain ⟨r, e, k⟩ := C48_hessian _ hg s hs c hc1 x hx
    obtain ⟨r', e', k'⟩ := C48_hessian _ hg' s' hs' c' hc1' x hx'
    refine ⟨r, r', e, e', fun di dj hd hd' => ⟨_, (k di dj hd hd').1, (k' di dj (len ▸ hd) (len ▸ hd')).1.trans ?_⟩⟩
    rw [← len, eq _ (by simp [hessian])]

namespace ReorderDemo
open Demo

/-- `5 x^2 y` over three and two monomials. -/
def ser' : Series ℚ :=
  ⟨⟨[3, 2], [2, 1], [0, 0, 0, 0, 0, 5], 2, 6⟩, 1, 0, [some (newBasis (mono ℚ 3)), some (newBasis (mono ℚ 2))], some 0, [0, 0], [[0, 0], [0, 0]]⟩

/-- `5 x y^2` over three and three monomials. -/
def serL : Series ℚ :=
  ⟨⟨[3, 3], [3, 1], [0, 0, 0, 0, 0, 5, 0, 0, 0], 2, 9⟩, 1, 0, [some (newBasis (mono ℚ 3)), some (newBasis (mono ℚ 3))], some 0, [0, 0], [[0, 0], [0, 0]]⟩

theorem good' : GoodDims (extents [mono ℚ 3, mono ℚ 2]) := ⟨by simp [extents], by simp [extents, mono], by simp [extents, mono, prod]⟩
theorem goodL : GoodDims (extents [mono ℚ 3, mono ℚ 3]) := ⟨by simp [extents], by simp [extents, mono], by simp [extents, mono, prod]⟩

theorem ser'_set : (Series.make (0 : ℚ) 1).set [some (newBasis (mono ℚ 3)), some (newBasis (mono ℚ 2))] =
    .ok { ser' with coeff := ⟨[3, 2], [2, 1], [0, 0, 0, 0, 0, 0], 2, 6⟩ } := by
  have h := resize_good (0 : ℚ) (NDArray.clear NDArray.empty) good'
  have hs : Series.sizes [some (newBasis (mono ℚ 3)), some (newBasis (mono ℚ 2))] = .ok (extents [mono ℚ 3, mono ℚ 2]) := by
    simp [Series.sizes, extents, newBasis, mono, BasisSet.size, BasisSet.make, BasisSet.resize]
  have hs' : Series.copyBases [some (newBasis (mono ℚ 3)), some (newBasis (mono ℚ 2))] =
    .ok [some (newBasis (mono ℚ 3)), some (newBasis (mono ℚ 2))] := rfl
  simp only [Series.set, hs, hs', ok_bind, Series.make, Series.clear, h]
  rfl

theorem serL_set : (Series.make (0 : ℚ) 1).set [some (newBasis (mono ℚ 3)), some (newBasis (mono ℚ 3))] =
    .ok { serL with coeff := ⟨[3, 3], [3, 1], [0, 0, 0, 0, 0, 0, 0, 0, 0], 2, 9⟩ } := by
  have h := resize_good (0 : ℚ) (NDArray.clear NDArray.empty) goodL
  have hs : Series.sizes [some (newBasis (mono ℚ 3)), some (newBasis (mono ℚ 3))] = .ok (extents [mono ℚ 3, mono ℚ 3]) := by
    simp [Series.sizes, extents, newBasis, mono, BasisSet.size, BasisSet.make, BasisSet.resize]
  have hs' : Series.copyBases [some (newBasis (mono ℚ 3)), some (newBasis (mono ℚ 3))] =
    .ok [some (newBasis (mono ℚ 3)), some (newBasis (mono ℚ 3))] := rfl
  simp only [Series.set, hs, hs', ok_bind, Series.make, Series.clear, h]
  rfl

theorem ser'_over : ser'.Over [mono ℚ 3, mono ℚ 2] := by
  refine ⟨Series.make 0 1, _, [some (newBasis (mono ℚ 3)), some (newBasis (mono ℚ 2))], [.setCoeff [2, 1] 5], rfl, rfl, ?_, ser'_set, ?_, ?_⟩
  · exact .cons ⟨_, rfl, 3, [], rfl, rfl⟩ (.cons ⟨_, rfl, 2, [], rfl, rfl⟩ .nil)
  · simp [SerOp.KeepsBasis]
  · rfl

theorem serL_over : serL.Over [mono ℚ 3, mono ℚ 3] := by
  refine ⟨Series.make 0 1, _, [some (newBasis (mono ℚ 3)), some (newBasis (mono ℚ 3))], [.setCoeff [1, 2] 5], rfl, rfl, ?_, serL_set, ?_, ?_⟩
  · exact .cons ⟨_, rfl, 3, [], rfl, rfl⟩ (.cons ⟨_, rfl, 3, [], rfl, rfl⟩ .nil)
  · simp [SerOp.KeepsBasis]
  · rfl

/-- `C151_permuted` for `5 x y^2` and `5 x^2 y`. -/
example (x y : ℚ) : ∃ v r r', (Demo.ser ℚ).evalAt [x, y] = .ok (v, r) ∧ ser'.evalAt [y, x] = .ok (v, r') := by
  have h := (C151_permuted (n := 2) ![mono ℚ 2, mono ℚ 3] (Equiv.swap 0 1) (by simpa [Demo.fams] using Demo.good ℚ) (by simpa using good') (Demo.ser ℚ) ser'
    (by simpa [Demo.fams] using Demo.ser_over (K := ℚ)) (by simpa using ser'_over) ?_ ![x, y]).1
  · simpa using h
  · intro t ht
    have h0 := ht 0
    have h1 := ht 1
    simp only [mono, Matrix.cons_val_zero, Matrix.cons_val_one] at h0 h1
    have c0 : t 0 = 0 ∨ t 0 = 1 := by omega
    have c1 : t 1 = 0 ∨ t 1 = 1 ∨ t 1 = 2 := by omega
    simp only [List.ofFn_succ, List.ofFn_zero, Equiv.swap_apply_left, Fin.succ_zero_eq_one, Equiv.swap_apply_right]
    rcases c0 with c0 | c0 <;> rcases c1 with c1 | c1 | c1 <;> rw [c0, c1] <;> decide +kernel

/-- `C151_longer` for `5 x y^2` over two and three, and over three and three monomials. -/
example (x y : ℚ) : ∃ v r r', (Demo.ser ℚ).evalAt [x, y] = .ok (v, r) ∧ serL.evalAt [x, y] = .ok (v, r') := by
  refine (C151_longer (Demo.fams ℚ) [mono ℚ 3, mono ℚ 3] ?_ (Demo.good ℚ) goodL (Demo.ser ℚ) serL Demo.ser_over serL_over ?_ ?_ [x, y] rfl).1
  · exact .cons ⟨by decide, fun _ _ _ => ⟨rfl, rfl, rfl⟩⟩ (.cons ⟨by decide, fun _ _ _ => ⟨rfl, rfl, rfl⟩⟩ .nil)
  · intro t ht
    match t, ht with
    | [a, b], ht =>
      obtain ⟨⟨h1, h2⟩, ⟨h3, h4⟩, _⟩ := ht
      simp only [mono, Nat.cast_ofNat] at h2 h4
      obtain rfl | rfl : a = 0 ∨ a = 1 := by omega
      all_goals obtain rfl | rfl | rfl : b = 0 ∨ b = 1 ∨ b = 2 := by omega
      all_goals rfl
  · intro t ht hn
    match t, ht with
    | [a, b], ht =>
      obtain ⟨⟨h1, h2⟩, ⟨h3, h4⟩, _⟩ := ht
      simp only [mono, Nat.cast_ofNat] at h2 h4
      obtain rfl : a = 2 := by
        by_contra ha
        exact hn ⟨⟨h1, by simp only [mono, Nat.cast_ofNat]; omega⟩, ⟨h3, by simpa [mono] using h4⟩, trivial⟩
      obtain rfl | rfl | rfl : b = 0 ∨ b = 1 ∨ b = 2 := by omega
      all_goals rfl

end ReorderDemo

end Verif
