import Verif.Props.FieldStale

/-!
# Property C29: what a point in no cell returns

Beside the concrete witness `C29_stale_violated`: on every mesh, an evaluation at a point in no cell repeats the last number computed from the same bin.
-/

namespace Verif
open Spec Bin Mesh PField Body

namespace Spec
variable {K : Type} [Field K] [LinearOrder K] [FloorRing K] {d : Nat}

/-- Two positions are in the same bin: the bins are boxes whose sides are the margins, starting one margin below the lowest point. -/
def SameBin (pts : List (Fin d → K)) (c c' : Fin d → K) : Prop :=
  ∀ i lo hi, IsLow pts i lo → IsHigh pts i hi →
    ⌊(c i - (lo - margin pts i lo hi)) / margin pts i lo hi⌋ = ⌊(c' i - (lo - margin pts i lo hi)) / margin pts i lo hi⌋

/-- The call, made on field `i` of the body, returns the number `v`. -/
inductive Gives (E : ElemOps K d) (b : Body K d) (i : Nat) : Body.Call K d → K → Prop
  | value {c v} : b.value E i c = .ok v → Gives E b i (.value c) v
  | grad {c v} {di : Fin d} : b.grad E i c di = .ok v → Gives E b i (.grad c di) v
  | hess {c v} {di dj : Fin d} : b.hess E i c di dj = .ok v → Gives E b i (.hess c di dj) v

end Spec

section
variable {K : Type} [Field K] [LinearOrder K] [FloorRing K] [IsStrictOrderedRing K]
variable {d n : Nat} {E : ElemOps K d} {unit : Fin n → Fin d → K} {R : (a h c : Fin d → K) → Prop}
variable {pts : List (Fin d → K)} {cells : List (List Nat)} {lo hi : Fin d → K} {qs : List (Interp K d)}

omit [IsStrictOrderedRing K] in
theorem binAt_same (hg : GridOf pts lo hi) {c c' : Fin d → K} (h : SameBin pts c c') : binAt pts lo hi c = binAt pts lo hi c' := by
  have key : ∀ (k : Nat) (m w x y : Fin k → K), (∀ i, ⌊(x i - m i) / w i⌋ = ⌊(y i - m i) / w i⌋) →
      binOf (List.ofFn m) (List.ofFn w) (List.ofFn x) = binOf (List.ofFn m) (List.ofFn w) (List.ofFn y) := by
    intro k
    induction k with
    | zero => intro m w x y _; simp [binOf]
    | succ k ih =>
      intro m w x y hi
      simp only [List.ofFn_succ, binOf, hi 0, ih _ _ _ _ fun i => hi i.succ]
  exact key d _ _ _ _ fun i => h i (lo i) (hi i) (hg.low i) (hg.high i)

theorem value_comp (L : ElemLaw E unit R) {m : Mesh K d} (hb : Built E unit pts cells lo hi qs m) {f : PField K}
    (hf : FOk pts lo hi qs f) {c : Fin d → K} (hc : InBins pts c) {g : Interp K d → K} (hg : (fun q => E.value q c) = fun q => .ok (g q)) :
    ∃ v m' f', PField.value E m f c = (.ok v, m', f') ∧ comp E pts lo hi qs f.data f.zero c g f.buf = .ok v ∧
      f'.buf = Mesh.after E g c (inBin pts lo hi qs (binAt pts lo hi c)) f.buf := by
  obtain ⟨m', f1, f2, f3⟩ := fill_in hb hf.buf g hc
  obtain ⟨v, hv⟩ := comp_ok L hb hf.data_len hf.buf hc f.zero g
  refine ⟨v, m', { f with buf := Mesh.after E g c (inBin pts lo hi qs (binAt pts lo hi c)) f.buf, val := some v }, ?_, hv, rfl⟩
  have hv' : sumLoop f.data (Mesh.after E g c (inBin pts lo hi qs (binAt pts lo hi c)) f.buf)
    (inBin pts lo hi qs (binAt pts lo hi c)).length 0 f.zero = .ok v := hv
  simp only [PField.value, basisFunctions, hg, f1, hv']

/-- What the buffers of a field give at a position whose bin is that of `c`. -/
def HoldsNums (pts : List (Fin d → K)) (lo hi : Fin d → K) (qs : List (Interp K d)) (c : Fin d → K) (v : K) (f : PField K) : Prop :=
  sumLoop f.data f.buf (inBin pts lo hi qs (binAt pts lo hi c)).length 0 f.zero = .ok v

/-- A call that returns `v` leaves buffers that give `v`. -/
theorem holds_of_gives (L : ElemLaw E unit R) (T : ElemTotal E) {flds : List (String × List K)} {b : Body K d}
    (hb : BOk E unit pts cells lo hi qs flds b) {i : Nat} (hi' : i < flds.length) {op : Body.Call K d} (hc : InBins pts op.coord) {v : K}
    (hv : Gives E b i op v) : ∀ f, (b.call E i op).fields[i]? = some f → HoldsNums pts lo hi qs op.coord v f := by
  have hlen := hb.fields.length_eq
  obtain ⟨f0, g1, hok⟩ := field_at hb (i := i) (by omega)
  have hlt : i < b.fields.length := by omega
  intro f hf
  unfold call at hf
  simp only [g1] at hf
  cases hv with
  | @value c v hv =>
    obtain ⟨g, hg⟩ := T.value c
    obtain ⟨w, m', f', k1, k2, k3⟩ := value_comp L hb.mesh hok hc hg
    obtain ⟨w', m'', f'', k1', k4, _⟩ := value_in L T hb.mesh hok hc
    simp only [Body.Call.coord] at k1 k1'
    rw [k1] at k1'
    simp only [Prod.mk.injEq, Except.ok.injEq] at k1'
    obtain ⟨rfl, rfl, rfl⟩ := k1'
    simp only [callField, k1, List.getElem?_set_self hlt, Option.some.injEq] at hf
    subst hf
    simp only [Body.value, g1, k1, Except.ok.injEq] at hv
    subst hv
    simp only [HoldsNums, k3, k4.2.2.2.data, k4.2.2.2.zero]
    exact k2
  | @grad c v di hv =>
    obtain ⟨g, hg⟩ := T.grad c di
    obtain ⟨w, m', f', k1, k4, _, _, _, k2, k3⟩ := gradAt_comp L hb.mesh hok hc di hg
    simp only [Body.Call.coord] at k1
    simp only [callField, k1, List.getElem?_set_self hlt, Option.some.injEq] at hf
    subst hf
    simp only [Body.grad, g1, k1, Except.ok.injEq] at hv
    subst hv
    simp only [HoldsNums, k3, k4.2.2.2.data, k4.2.2.2.zero]
    exact k2
  | @hess c v di dj hv =>
    obtain ⟨g, hg⟩ := T.hess c di dj
    obtain ⟨w, m', f', k1, k4, _, _, _, k2, k3⟩ := hessAt_comp L hb.mesh hok hc di dj hg
    simp only [Body.Call.coord] at k1
    simp only [callField, k1, List.getElem?_set_self hlt, Option.some.injEq] at hf
    subst hf
    simp only [Body.hess, g1, k1, Except.ok.injEq] at hv
    subst hv
    simp only [HoldsNums, k3, k4.2.2.2.data, k4.2.2.2.zero]
    exact k2

/-- Calls on other fields, and calls on this one at positions in the region of no cell, keep what its buffers give. -/
theorem calls_holds (L : ElemLaw E unit R) (T : ElemTotal E) {flds : List (String × List K)} {i : Nat} {c : Fin d → K} {v : K}
    (ops : List (Nat × Body.Call K d)) (ho : HistOk pts ops)
    (hun : ∀ o ∈ ops, o.1 = i → ¬ CoveredBy R unit pts cells o.2.coord) {b : Body K d}
    (hb : BOk E unit pts cells lo hi qs flds b)
    (hz : ∀ f, b.fields[i]? = some f → HoldsNums pts lo hi qs c v f) :
    ∀ f, (b.calls E ops).fields[i]? = some f → HoldsNums pts lo hi qs c v f := by
  induction ops generalizing b with
  | nil => exact hz
  | cons o os ih =>
    obtain ⟨k, op⟩ := o
    have hop := ho (k, op) (by simp)
    refine ih (fun x hx => ho x (by simp [hx])) (fun x hx => hun x (by simp [hx])) (call_ok L T hb k op hop) ?_
    intro f hf
    unfold call at hf
    cases hk : b.fields[k]? with
    | none => rw [hk] at hf; exact hz f hf
    | some g =>
      simp only [hk] at hf
      by_cases e : k = i
      · subst e
        have hlt := (List.getElem?_eq_some_iff.mp hk).1
        simp only [List.getElem?_set_self hlt, Option.some.injEq] at hf
        have hlen := hb.fields.length_eq
        obtain ⟨g', hg', hok⟩ := field_at hb (i := k) (by omega)
        rw [hk] at hg'; cases hg'
        obtain ⟨r, m', f', h1, h2, _, h4⟩ := callField_ok L T hb.mesh hok op hop
        have hbuf : f.buf = g.buf := by
          rw [← hf]
          rcases hop with hop | hop
          · exact callField_uncovered L T hb.mesh hok op hop (hun (k, op) (by simp) rfl)
          · rw [h1]; simp only; rw [(h4 hop).2]
        have hf' : f = f' := by rw [← hf, h1]
        have := hz g hk
        simp only [HoldsNums, hbuf] at this ⊢
        rw [hf', h2.2.2.2.data, h2.2.2.2.zero]
        exact this
      · rw [List.getElem?_set_ne e] at hf
        exact hz f hf

/-- At a position in the region of no cell every evaluation gives what the buffers give. -/
theorem gives_of_holds (L : ElemLaw E unit R) (T : ElemTotal E) {flds : List (String × List K)} {b : Body K d}
    (hb : BOk E unit pts cells lo hi qs flds b) {i : Nat} (hi' : i < flds.length) {c : Fin d → K} (hc : InBins pts c)
    (hcv : ¬ CoveredBy R unit pts cells c) {v : K} (hz : ∀ f, b.fields[i]? = some f → HoldsNums pts lo hi qs c v f) :
    b.value E i c = .ok v ∧ (∀ di : Fin d, b.grad E i c di = .ok v) ∧ ∀ di dj : Fin d, b.hess E i c di dj = .ok v := by
  have hlen := hb.fields.length_eq
  obtain ⟨f, g1, g3⟩ := field_at hb (i := i) (by omega)
  have hsl := hz f g1
  have hcomp : ∀ g, comp E pts lo hi qs f.data f.zero c g f.buf = .ok v := by
    intro g
    simp only [comp, Mesh.after, none_found L hb.mesh hcv]
    exact hsl
  refine ⟨?_, fun di => ?_, fun di dj => ?_⟩
  · obtain ⟨w, m', f', k1, _, k2⟩ := value_uncovered L T hb.mesh g3 hc hcv
    rw [show sumLoop _ _ _ _ _ = _ from hsl] at k2
    simp only [Body.value, g1, k1, ← k2]
  · obtain ⟨g, hg⟩ := T.grad c di
    obtain ⟨w, m', f', k1, _, _, _, _, k2, _⟩ := gradAt_comp L hb.mesh g3 hc di hg
    rw [hcomp] at k2
    simp only [Body.grad, g1, k1, ← k2]
  · obtain ⟨g, hg⟩ := T.hess c di dj
    obtain ⟨w, m', f', k1, _, _, _, _, k2, _⟩ := hessAt_comp L hb.mesh g3 hc di dj hg
    rw [hcomp] at k2
    simp only [Body.hess, g1, k1, ← k2]

theorem stale_of (L : ElemLaw E unit R) (T : ElemTotal E) {flds : List (String × List K)} {b : Body K d}
    (hb : BOk E unit pts cells lo hi qs flds b) {i : Nat} (hi' : i < flds.length) (op : Body.Call K d) (hop : InBins pts op.coord) {v : K}
    (hv : Gives E b i op v) (ops : List (Nat × Body.Call K d)) (ho : HistOk pts ops)
    (hun : ∀ o ∈ ops, o.1 = i → ¬ CoveredBy R unit pts cells o.2.coord) (c : Fin d → K) (hc : InBins pts c)
    (hcv : ¬ CoveredBy R unit pts cells c) (hs : SameBin pts op.coord c) :
    let b' := (b.call E i op).calls E ops
    b'.value E i c = .ok v ∧ (∀ di : Fin d, b'.grad E i c di = .ok v) ∧ ∀ di dj : Fin d, b'.hess E i c di dj = .ok v := by
  have h1 := call_ok L T hb i op (Or.inl hop)
  refine gives_of_holds L T (calls_ok L T h1 ops ho) hi' hc hcv ?_
  intro f hf
  have := calls_holds L T (i := i) ops ho hun h1 (holds_of_gives L T hb hi' hop hv) f hf
  simpa only [HoldsNums, binAt_same hb.mesh.grid hs] using this

end

section
variable {K : Type} [Field K] [LinearOrder K] [FloorRing K] [IsStrictOrderedRing K]

/-- **C29, violation** (2D, every mesh) Whatever a field last returned, whether a value, a derivative or a second derivative, is what every evaluation of it,
of any kind, returns at every position of the same bin that lies in no cell - until the field is evaluated inside a cell again. -/
theorem C29_repeats_2d_violated (pts : List (Fin 2 → K)) (cells : List (List Nat)) (flds : List (String × List K))
    (hm : RectMesh quadUnit pts cells) (hl : ∀ fl ∈ flds, fl.2.length = pts.length) (b : Body K 2)
    (hb : Body.load (quadOps K) pts cells flds = .ok b) (before : List (Nat × Body.Call K 2)) (ho : HistOk pts before) (i : Nat) (hi : i < flds.length)
    (op : Body.Call K 2) (hop : InBins pts op.coord) (v : K) (hv : Gives (quadOps K) (b.calls (quadOps K) before) i op v)
    (after : List (Nat × Body.Call K 2)) (ho' : HistOk pts after) (hun : ∀ o ∈ after, o.1 = i → ¬ Covered quadUnit pts cells o.2.coord)
    (c : Fin 2 → K) (hc : InBins pts c) (hcv : ¬ Covered quadUnit pts cells c) (hs : SameBin pts op.coord c) :
    let b' := b.calls (quadOps K) (before ++ (i, op) :: after)
    b'.value (quadOps K) i c = .ok v ∧ (∀ di : Fin 2, b'.grad (quadOps K) i c di = .ok v) ∧
      ∀ di dj : Fin 2, b'.hess (quadOps K) i c di dj = .ok v := by
  obtain ⟨b0, lo, hi', qs, h1, h2⟩ := load_ok quadLaw hm hl
  rw [hb] at h1; cases h1
  have e : ∀ (xs ys : List (Nat × Body.Call K 2)) (b : Body K 2), b.calls (quadOps K) (xs ++ ys) = (b.calls (quadOps K) xs).calls (quadOps K) ys := by
    intro xs
    induction xs with
    | nil => intro ys b; rfl
    | cons x xs ih => intro ys b; exact ih _ _
  rw [e]
  exact stale_of quadLaw quadTotal (calls_ok quadLaw quadTotal h2 before ho) hi op hop hv after ho' hun c hc hcv hs

/-- **C29, violation** (3D, every mesh) The same for positions over and under no cell. -/
theorem C29_repeats_3d_violated (pts : List (Fin 3 → K)) (cells : List (List Nat)) (flds : List (String × List K))
    (hm : RectMesh hexUnit pts cells) (hl : ∀ fl ∈ flds, fl.2.length = pts.length) (b : Body K 3)
    (hb : Body.load (hexOps K) pts cells flds = .ok b) (before : List (Nat × Body.Call K 3)) (ho : HistOk pts before) (i : Nat) (hi : i < flds.length)
    (op : Body.Call K 3) (hop : InBins pts op.coord) (v : K) (hv : Gives (hexOps K) (b.calls (hexOps K) before) i op v)
    (after : List (Nat × Body.Call K 3)) (ho' : HistOk pts after)
    (hun : ∀ o ∈ after, o.1 = i → ¬ ∃ cell ∈ cells, ∃ a h, CellAt hexUnit pts cell a h ∧
      (a 0 ≤ o.2.coord 0 ∧ o.2.coord 0 ≤ a 0 + h 0) ∧ (a 1 ≤ o.2.coord 1 ∧ o.2.coord 1 ≤ a 1 + h 1))
    (c : Fin 3 → K) (hc : InBins pts c)
    (hcv : ¬ ∃ cell ∈ cells, ∃ a h, CellAt hexUnit pts cell a h ∧ (a 0 ≤ c 0 ∧ c 0 ≤ a 0 + h 0) ∧ (a 1 ≤ c 1 ∧ c 1 ≤ a 1 + h 1))
    (hs : SameBin pts op.coord c) :
    let b' := b.calls (hexOps K) (before ++ (i, op) :: after)
    b'.value (hexOps K) i c = .ok v ∧ (∀ di : Fin 3, b'.grad (hexOps K) i c di = .ok v) ∧
      ∀ di dj : Fin 3, b'.hess (hexOps K) i c di dj = .ok v := by
  obtain ⟨b0, lo, hi', qs, h1, h2⟩ := load_ok hexLaw hm hl
  rw [hb] at h1; cases h1
  have e : ∀ (xs ys : List (Nat × Body.Call K 3)) (b : Body K 3), b.calls (hexOps K) (xs ++ ys) = (b.calls (hexOps K) xs).calls (hexOps K) ys := by
    intro xs
    induction xs with
    | nil => intro ys b; rfl
    | cons x xs ih => intro ys b; exact ih _ _
  rw [e]
  exact stale_of hexLaw hexTotal (calls_ok hexLaw hexTotal h2 before ho) hi op hop hv after ho' hun c hc hcv hs

end

/-- On the demo mesh: the field is evaluated at the node `(3, 0)`, in the same bin as the position `(3.5, 0.25)`, which lies in no cell; between them another
evaluation in no cell and one of the other field. Value, derivatives and second derivatives there are all 3. -/
example : ∃ b, Body.load (quadOps ℚ) Demo.pts Demo.cells Demo.flds = .ok b ∧
    let b' := b.calls (quadOps ℚ) ([(0, .evalGrad ![1, 1])] ++ (0, .value ![3, 0]) :: [(0, .value ![7 / 2, 1]), (1, .value ![1, 1])])
    b'.value (quadOps ℚ) 0 ![7 / 2, 1 / 4] = .ok 3 ∧ (∀ di : Fin 2, b'.grad (quadOps ℚ) 0 ![7 / 2, 1 / 4] di = .ok 3) ∧
      ∀ di dj : Fin 2, b'.hess (quadOps ℚ) 0 ![7 / 2, 1 / 4] di dj = .ok 3 := by
  obtain ⟨b, hb, _⟩ := C22_load_2d Demo.pts Demo.cells Demo.flds Demo.rect Demo.lens
  have unc : ∀ y : ℚ, ¬ Covered quadUnit Demo.pts Demo.cells ![7 / 2, y] := by
    rintro y ⟨cell, hc, a, h, hah, hin⟩
    simp only [Demo.cells, List.mem_cons, List.not_mem_nil, or_false] at hc
    have h0 := (hin 0).2
    rcases hc with rfl | rfl
    · obtain ⟨rfl, rfl⟩ := Mesh.cellAt_unique quadLaw hah Demo.cell0
      simp at h0; norm_num at h0
    · obtain ⟨rfl, rfl⟩ := Mesh.cellAt_unique quadLaw hah Demo.cell1
      simp at h0; norm_num at h0
  have ok1 : HistOk Demo.pts [(0, .evalGrad ![1, 1])] := by
    intro o ho; rw [List.mem_singleton.mp ho]; exact Or.inl (Demo.inBins _ (by simp [Body.Call.coord]; norm_num))
  have r : (Body.load (quadOps ℚ) Demo.pts Demo.cells Demo.flds >>= fun b =>
      (b.calls (quadOps ℚ) [(0, .evalGrad ![1, 1])]).value (quadOps ℚ) 0 ![3, 0]) = .ok 3 := by decide +kernel
  rw [hb] at r
  refine ⟨b, hb, C29_repeats_2d_violated _ _ _ Demo.rect Demo.lens b hb _ ok1 0 (by decide) (.value ![3, 0])
    (Demo.inBins _ (by simp [Body.Call.coord]; norm_num)) 3 (.value r) _ ?_ ?_ _ (Demo.inBins _ (by simp; norm_num)) (unc _) ?_⟩
  · intro o ho
    simp only [List.mem_cons, List.not_mem_nil, or_false] at ho
    rcases ho with rfl | rfl
    · exact Or.inl (Demo.inBins _ (by simp [Body.Call.coord]; norm_num))
    · exact Or.inl (Demo.inBins _ (by simp [Body.Call.coord]; norm_num))
  · intro o ho h
    simp only [List.mem_cons, List.not_mem_nil, or_false] at ho
    rcases ho with rfl | rfl
    · exact unc _
    · exact absurd h (by decide)
  · intro i lo hi h1 h2
    rw [isLow_unique h1 (Demo.low i), isHigh_unique h2 (Demo.high i)]
    fin_cases i
    · simp only [margin, Demo.nd.1, Body.Call.coord]; decide +kernel
    · simp only [margin, Demo.nd.2, Body.Call.coord]; decide +kernel

end Verif
