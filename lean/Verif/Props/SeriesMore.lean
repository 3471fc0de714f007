import Verif.Props.Series
import Verif.Props.Piecewise
import Verif.Lemmas.SeriesText

/-!
# More about basis sets, series and piecewise simple functions (C45, C50-C53, C58)
-/

namespace Verif
open Spec IStream

section
variable {K : Type} [Field K] [LinearOrder K] [FloorRing K]

omit [Field K] [LinearOrder K] [FloorRing K] in
/-- **C45** A basis set whose class does not define the functions (or their derivatives): evaluating any term, and all of them if there is
one, ends the program. -/
theorem C45_undefined (b : BasisSet K) (t : Int) (x : K) :
    (b.phi = none → b.evalTerm t x = .error (.exit 1) ∧ (0 < b.size → b.eval x = .error (.exit 1))) ∧
    (b.dphi = none → b.gradTerm t x = .error (.exit 1) ∧ (0 < b.size → b.evalGrad x = .error (.exit 1))) ∧
    (b.ddphi = none → b.hessTerm t x = .error (.exit 1) ∧ (0 < b.size → b.evalHess x = .error (.exit 1))) := by
  have hn : 0 < b.size → ∃ n, b.val.length = n + 1 := fun h => ⟨b.val.length - 1, by simp only [BasisSet.size] at h; omega⟩
  refine ⟨fun h => ⟨by simp [BasisSet.evalTerm, BasisSet.virt, h], fun hs => ?_⟩,
    fun h => ⟨by simp [BasisSet.gradTerm, BasisSet.virt, h], fun hs => ?_⟩,
    fun h => ⟨by simp [BasisSet.hessTerm, BasisSet.virt, h], fun hs => ?_⟩⟩ <;> obtain ⟨n, hn⟩ := hn hs
  · simp [BasisSet.eval, hn, BasisSet.evalLoop, BasisSet.evalTerm, BasisSet.virt, h]
  · simp [BasisSet.evalGrad, hn, BasisSet.gradLoop, BasisSet.gradTerm, BasisSet.virt, h]
  · simp [BasisSet.evalHess, hn, BasisSet.hessLoop, BasisSet.hessTerm, BasisSet.virt, h]

/-- **C50** partial: through a `PFunction`, `eval_grad(x)` and `eval_hess(x)` do compute the derivatives; the series' own `grad(di)` and
`hess(di,dj)` (but not those of the `PFunction`, C50_through_PFunction_violated) return them. -/
theorem C50_eval_derivatives_partial (fs : List (Family K)) (hg : GoodDims (extents fs)) (s : Series K) (hs : s.Over fs)
    (c : List Int → K) (hc : s.Coeffs fs c) (x : List K) (hx : x.length = fs.length) :
    (∃ s', Series.sem (.evalGrad x) s = (.ok .void, s') ∧ ∀ di : Nat, di < fs.length →
      s'.getGrad di = .ok (series fs (gradient fs.length di) c x)) ∧
    ∃ s', Series.sem (.evalHess x) s = (.ok .void, s') ∧ ∀ di dj : Nat, di < fs.length → dj < fs.length →
      s'.getHess di dj = .ok (series fs (hessian fs.length di dj) c x) := by
  obtain ⟨s1, e1, f1⟩ := C47_gradient fs hg s hs c hc x hx
  obtain ⟨s2, e2, f2⟩ := C48_hessian fs hg s hs c hc x hx
  refine ⟨⟨s1, ?_, f1⟩, s2, ?_, fun di dj hi hj => (f2 di dj hi hj).1⟩
  · simp [Series.sem, FBase.sem, Series.ov, Series.member, e1]
  · simp [Series.sem, FBase.sem, Series.ov, Series.member, e2]

/-- **C51** `basis(j,t,x)`, `basis_grad(j,t,x)`, `basis_hess(j,t,x)` are the `t`-th function of basis set `j` and its derivatives at the
`j`-th coordinate of `x`. -/
theorem C51_single (fs : List (Family K)) (hg : GoodDims (extents fs)) (s : Series K) (hs : s.Over fs) (j : Nat) (F : Family K)
    (hF : fs[j]? = some F) (x : List K) (y : K) (hx : x[j]? = some y) (t : Nat) (ht : t < F.size) :
    (∃ s', s.basis1 BasisSet.evalTerm j t x = .ok (F.phi t y, s')) ∧ (∃ s', s.basis1 BasisSet.gradTerm j t x = .ok (F.dphi t y, s')) ∧
    ∃ s', s.basis1 BasisSet.hessTerm j t x = .ok (F.ddphi t y, s') := by
  obtain ⟨b, _, h2, h3⟩ := (hs.wf hg).at hF
  have hy := vget_ok.mpr ⟨Int.natCast_nonneg j, show x[(j : Int).toNat]? = some y by simpa using hx⟩
  have key : ∀ k, ∃ s', s.basis1 (Series.termMember k) j t x = .ok (F.deriv (Series.ordOf k) t y, s') := by
    intro k
    obtain ⟨b', e, _⟩ := Series.termMember_of k h3 (u := (t : Int)) (by omega) (by omega) y
    exact ⟨s.putBasis j b', by simp [Series.basis1, h2, hy, e]⟩
  exact ⟨key .v, key .g, key .h⟩

/-- **C51** `eval_basis(x,j)`, `eval_basis_grad(x,j)`, `eval_basis_hess(x,j)` evaluate basis set `j` and no other. -/
theorem C51_eval_one (fs : List (Family K)) (hg : GoodDims (extents fs)) (s : Series K) (hs : s.Over fs) (j : Nat) (F : Family K)
    (hF : fs[j]? = some F) (x : List K) (y : K) (hx : x[j]? = some y) :
    (∃ s' b', s.evalBasis1 BasisSet.eval x j = .ok s' ∧ s'.basisAt j = .ok b' ∧ (∀ t : Nat, t < F.size → b'.getVal t = .ok (F.phi t y)) ∧
      ∀ i : Nat, i ≠ j → s'.basisAt i = s.basisAt i) ∧
    (∃ s' b', s.evalBasis1 BasisSet.evalGrad x j = .ok s' ∧ s'.basisAt j = .ok b' ∧
      (∀ t : Nat, t < F.size → b'.getGrad t = .ok (F.dphi t y)) ∧ ∀ i : Nat, i ≠ j → s'.basisAt i = s.basisAt i) ∧
    ∃ s' b', s.evalBasis1 BasisSet.evalHess x j = .ok s' ∧ s'.basisAt j = .ok b' ∧
      (∀ t : Nat, t < F.size → b'.getHess t = .ok (F.ddphi t y)) ∧ ∀ i : Nat, i ≠ j → s'.basisAt i = s.basisAt i := by
  obtain ⟨b, h1, h2, h3⟩ := (hs.wf hg).at hF
  have hy := vget_ok.mpr ⟨Int.natCast_nonneg j, show x[(j : Int).toNat]? = some y by simpa using hx⟩
  have hlt : j < s.basis.length := by
    by_contra h; rw [List.getElem?_eq_none (by omega)] at h1; cases h1
  have put : ∀ b', (s.putBasis j b').basisAt j = .ok b' := by
    intro b'
    have : vget (s.putBasis j b').basis (j : Int) = .ok (some b') :=
      vget_ok.mpr ⟨Int.natCast_nonneg j, by simp [Series.putBasis, hlt]⟩
    simp only [Series.basisAt, this, ok_bind]
  have ne : ∀ b' (i : Nat), i ≠ j → (s.putBasis j b').basisAt i = s.basisAt i := by
    intro b' i hij
    have : vget (s.putBasis j b').basis (i : Int) = vget s.basis (i : Int) := vget_set_ne s.basis j i (some b') (by omega) (by omega)
    simp only [Series.basisAt, this]
  have get : ∀ {l : List K} {f : Nat → K}, (∀ t : Nat, t < F.size → l[t]? = some (f t)) → ∀ t : Nat, t < F.size → vget l t = .ok (f t) :=
    fun h t ht => vget_ok.mpr ⟨Int.natCast_nonneg t, by simpa using h t ht⟩
  obtain ⟨l, e1, _, e3⟩ := BasisSet.eval_of h3 y
  obtain ⟨l', f1, _, f3⟩ := BasisSet.evalGrad_of h3 y
  obtain ⟨l'', g1, _, g3⟩ := BasisSet.evalHess_of h3 y
  exact ⟨⟨s.putBasis j { b with val := l }, { b with val := l }, by simp [Series.evalBasis1, h2, hy, e1], put _, get e3, ne _⟩,
    ⟨s.putBasis j { b with grad := l' }, { b with grad := l' }, by simp [Series.evalBasis1, h2, hy, f1], put _, get f3, ne _⟩,
    s.putBasis j { b with hess := l'' }, { b with hess := l'' }, by simp [Series.evalBasis1, h2, hy, g1], put _, get g3, ne _⟩

/-- **C51** `print_basis`, `print_basis_grad(di)`, `print_basis_hess(di,dj)` after `eval_basis(x)` and its derivatives write one line for
every element, in row-major order, with its indices and the product (differentiated). -/
theorem C51_print (fmt : K → List Char) (fs : List (Family K)) (hg : GoodDims (extents fs)) (s : Series K) (hs : s.Over fs) (x : List K)
    (hx : x.length = fs.length) :
    ∃ terms : Nat → List Int, (∀ t, InBox (extents fs) t → terms (rowMajor (extents fs) t).toNat = t) ∧
    let lines (m : List Nat) := (List.range (prod (extents fs)).toNat).flatMap fun l =>
      Series.printLine fmt (terms l) (tensorBasis fs m (terms l) x)
    ∃ s', Series.run [.basisAll .v x, .basisAll .g x, .basisAll .h x] s = .ok s' ∧
      s'.printBasis fmt Series.facVal = .ok (lines (value fs.length)) ∧
      (∀ di : Nat, s'.printBasis fmt (Series.facGrad di) = .ok (lines (gradient fs.length di))) ∧
      ∀ di dj : Nat, s'.printBasis fmt (Series.facHess di dj) = .ok (lines (hessian fs.length di dj)) := by
  refine ⟨fun l => digits (extents fs) (l : Int), fun t ht => ?_, ?_⟩
  · dsimp only
    rw [rowMajor_eq_dot ht]
    have h0 := dot_nonneg hg.2.1 ht
    rw [Int.toNat_of_nonneg h0]
    exact digits_dot hg.2.1 ht
  intro lines
  obtain ⟨s', e, h⟩ := C51_product_getters fs hg s hs x hx
  have hw := (Series.run_keeps _ (by simp [SerOp.KeepsBasis]) (hs.wf hg) e).1
  have hp := prod_pos hg.2.1
  have ho := hw.order
  have hv : s'.coeff.volume = prod (extents fs) := hw.shaped.vol_eq
  have key : ∀ (fac : Int → BasisSet K → Int → Res K) (m : List Nat),
      (∀ t, InBox (extents fs) t → s'.basisGet fac t = .ok (tensorBasis fs m t x)) → s'.printBasis fmt fac = .ok (lines m) := by
    intro fac m hf
    have := Series.printBasisLoop_of fmt hw (fac := fac) hf (prod (extents fs)).toNat 0
      (List.replicate fs.length 0) (by show ((0 : Nat) : Int) + _ = prod (extents fs); omega) (by simp)
    simp only [Nat.zero_add] at this
    rw [Series.printBasis, ho, hv, this]
    rfl
  exact ⟨s', e, key _ _ fun t ht => (h t ht).1, fun di => key _ _ fun t ht => (h t ht).2.1 di, fun di dj => key _ _ fun t ht => (h t ht).2.2 di dj⟩

omit [FloorRing K] [LinearOrder K] [Field K] in
/-- **C52** After `clear()` a series in any state has no variables, coefficients, basis sets or stored derivatives, its stored value is
zero, and a second `clear()` changes nothing. -/
theorem C52_clear [Field K] (s : Series K) :
    s.clear.coeff.order = 0 ∧ s.clear.coeff.volume = 0 ∧ s.clear.coeff.dim = [] ∧ s.clear.coeff.val = [] ∧ s.clear.get = .ok s.zeroVal ∧
    (∀ i, s.clear.basisAt i = .error (.ub .oob)) ∧ (∀ di, s.clear.getGrad di = .error (.ub .oob)) ∧
    (∀ di dj, s.clear.getHess di dj = .error (.ub .oob)) ∧ s.clear.clear = s.clear := by
  have hv : ∀ {α : Type} (i : Int), vget ([] : List α) i = .error (.ub .oob) := by
    intro α i; simp [vget]
  refine ⟨rfl, rfl, rfl, rfl, rfl, fun i => ?_, fun di => hv di, fun di dj => ?_, rfl⟩
  · simp [Series.basisAt, Series.clear, hv]
  · simp [Series.getHess, Series.clear, hv]

/-- **C53** Reading a file that ends after fewer lines than there are coefficients is not reported: the coefficients for which there are
lines are read, in order and whatever indices the lines give, the others keep their values; only the stream, which has failed, tells. -/
theorem C53_truncated (fmt : K → List Char) (scan : List Char → Option K × List Char) (fs : List (Family K)) (hg : GoodDims (extents fs))
    (s : Series K) (hs : s.Over fs) (lines : List (List Int × K)) (hlt : (lines.length : Int) < prod (extents fs))
    (hl : ∀ p ∈ lines, p.1.length = fs.length ∧ (∀ t ∈ p.1, 0 ≤ t) ∧ Denotes scan (fmt p.2) p.2) :
    ∃ sin s', s.readCoeff scan (ofText (lines.flatMap fun p => Series.printLine fmt p.1 p.2)) = .ok (sin, s') ∧ sin.fail = true ∧
      ∀ t, InBox (extents fs) t → s'.coeff.get t =
        match lines[(rowMajor (extents fs) t).toNat]? with
        | some p => .ok p.2
        | none => s.coeff.get t := by
  have hw := hs.wf hg
  have hflat : (lines.flatMap fun p => Series.printLine fmt p.1 p.2) = [] ++ (((List.range lines.length).flatMap fun l =>
      Series.printLine fmt (lines.getD (0 + l) ([], 0)).1 (lines.getD (0 + l) ([], 0)).2) ++ []) := by
    have hr : lines = (List.range lines.length).map fun l => lines.getD (0 + l) ([], 0) := by
      refine List.ext_getElem (by simp) fun i h1 h2 => ?_
      simp [h1]
    conv_lhs => rw [hr]
    rw [List.flatMap_map, List.append_nil, List.nil_append]
  have hmem : ∀ l, l < lines.length → lines.getD l ([], 0) ∈ lines := fun l h => by simp [h]
  obtain ⟨term', w', s', f1, f2, _, f4, f5, f6, f7⟩ := Series.readLoop_lines (z := 0) (e := 1) (fs := fs) (fmt := fmt) (scan := scan)
    (fun l => (lines.getD l ([], 0)).2) (fun l => (lines.getD l ([], 0)).1) lines.length (fun l h => (hl _ (hmem l h)).2.2)
    (fun l h => ⟨(hl _ (hmem l h)).1, (hl _ (hmem l h)).2.1⟩) [] ((prod (extents fs)).toNat - lines.length) lines.length 0
    (List.replicate fs.length 0) [] s hw (by show ((0 : Nat) : Int) + _ ≤ prod (extents fs); omega) (by omega) (by simp) (by simp)
  have hlen := f2.shaped.len_eq
  have hne : fs ≠ [] := by
    rintro rfl; exact hg.1 rfl
  have hb := Series.readLoop_blank scan ((prod (extents fs)).toNat - lines.length) (0 + lines.length) term' (w' ++ []) s'
    (by simpa using f5) (by omega) (by rintro rfl; exact hne (List.length_eq_zero_iff.mp (by simpa using f4.symm))) (by
      have : (s'.coeff.val.length : Int) = prod (extents fs) := hlen
      omega)
  refine ⟨⟨[], true, true⟩, s', ?_, rfl, fun t ht => ?_⟩
  · rw [Series.readCoeff, hw.order, hw.shaped.vol_eq, hflat]
    rw [show lines.length + ((prod (extents fs)).toNat - lines.length) = (prod (extents fs)).toNat by omega] at f1
    exact f1.trans hb
  · obtain ⟨y, hy, hy'⟩ := NDArray.get_of hw.shaped hg ht
    obtain ⟨u, hu, hu'⟩ := NDArray.get_of f2.shaped hg ht
    have h0 := dot_nonneg hg.2.1 ht
    have hrm : rowMajor (extents fs) t = dot (extents fs) t := rowMajor_eq_dot ht
    rw [hy, hu, hrm]
    rw [show sizesOf fs = extents fs from rfl] at *
    by_cases hk : (dot (extents fs) t).toNat < lines.length
    · rw [f7 _ (by omega) (by omega)] at hu'
      simp only [List.getElem?_eq_getElem hk]
      simp [hk] at hu'
      rw [hu']
    · rw [f6 _ (by omega), hy'] at hu'
      rw [List.getElem?_eq_none (by omega)]
      simp only [Option.some.injEq] at hu'
      rw [hu']

end

/-- **C58** `in_piece(v)` of a piecewise simple function tells whether some piece's conditions all hold, and `piece(v)` gives the first such
piece or throws `std::domain_error`. -/
theorem C58_in_piece {V O : Type} (regions : List (List (V → Bool))) (qs : List (SimplePiece V O))
    (hr : All2 (fun conds (q : SimplePiece V O) => CondsAre conds q.conds) regions qs) (v : V) :
    PWSimple.inPiece qs v = .ok (regions.any fun conds => conds.all fun b => b v) ∧
    PWSimple.piece qs 0 v = match firstPiece regions v with | some i => .ok i | none => .error .domainError := by
  constructor
  · induction hr with
    | nil => rfl
    | @cons r q regions qs hq _ ih =>
      simp only [PWSimple.inPiece, simplePiece_inPiece, piece_inPiece hq, ok_bind, ih, List.any_cons]
      split <;> simp_all
  · have key : ∀ k, PWSimple.piece qs k v = match firstPiece regions v with | some i => .ok (k + i) | none => .error .domainError := by
      induction hr with
      | nil => intro k; rfl
      | @cons r p regions ps hr _ ih =>
        intro k
        simp only [PWSimple.piece, simplePiece_inPiece, piece_inPiece hr, ok_bind, firstPiece, List.findIdx?_cons]
        split
        · simp
        · rw [ih]
          simp only [firstPiece]
          cases List.findIdx? (fun conds => conds.all fun c => c v) regions with
          | none => rfl
          | some i => simp; omega
    rw [key 0]
    cases firstPiece regions v <;> simp

/-! ### Non-vacuity -/

/-- The theorems about single basis functions apply to the demo series: the derivative of `y^2` at `y = 3` is 6. -/
example : ∃ s', (Demo.ser ℚ).basis1 BasisSet.gradTerm 1 2 [2, 3] = .ok (6, s') := by
  obtain ⟨_, ⟨s', h⟩, _⟩ := C51_single _ (Demo.good ℚ) _ Demo.ser_over 1 _ rfl [2, 3] 3 rfl 2 (by decide)
  refine ⟨s', h.trans ?_⟩
  congr 2
  decide +kernel

/-- Printing the products at `(2,3)`. -/
example : ∃ s' text, Series.run [.basisAll .v [2, 3], .basisAll .g [2, 3], .basisAll .h [2, 3]] (Demo.ser ℚ) = .ok s' ∧
    s'.printBasis (fun y => showInt ⌊y⌋) Series.facVal = .ok text := by
  obtain ⟨_, _, s', h1, h2, _⟩ := C51_print (fun y => showInt ⌊y⌋) _ (Demo.good ℚ) _ Demo.ser_over [2, 3] rfl
  exact ⟨s', _, h1, h2⟩

/-- A file with one line, for six coefficients: the first becomes 7, the last stays 5. -/
example : ∃ sin s', (Demo.ser ℚ).readCoeff (fun t => match scanNat t with | (n, r) => (n.map fun k => (k : ℚ), r))
      (ofText "0 0 7\n".toList) = .ok (sin, s') ∧ s'.coeff.get [0, 0] = .ok 7 ∧ s'.coeff.get [1, 2] = .ok 5 ∧ sin.fail = true := by
  obtain ⟨sin, s', h1, h2, h3⟩ := C53_truncated (fun y => dec ⌊y⌋.toNat)
    (fun t => match scanNat t with | (n, r) => (n.map fun k => (k : ℚ), r)) _ (Demo.good ℚ) _ Demo.ser_over [([0, 0], 7)] (by decide)
    (by
      simp only [List.mem_singleton, forall_eq]
      refine ⟨rfl, by simp, ?_⟩
      have hd := denotes_dec 7
      have : ⌊(7 : ℚ)⌋.toNat = 7 := by decide +kernel
      rw [this]
      exact ⟨hd.start, fun w hw => by simp [hd.conv w hw]⟩)
  refine ⟨sin, s', ?_, (h3 [0, 0] (by simp [extents, Demo.fams, Demo.mono, InBox])).trans (by decide +kernel),
    (h3 [1, 2] (by simp [extents, Demo.fams, Demo.mono, InBox])).trans (by decide +kernel), h2⟩
  rw [← h1]
  congr 2

end Verif
