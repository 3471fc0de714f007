import Verif.Model.Special
import Verif.Spec.Special
import Verif.Props.Bin
import Verif.Props.FieldState
import Verif.Props.Threads
import Verif.Lemmas.Move
import Verif.Lemmas.Demo

/-!
# C123: coordinates that are infinite or not numbers
-/

namespace Verif
open Spec Mesh Body
namespace Dbl
section finite
variable {K : Type} {d : Nat} [Field K] [LinearOrder K] [FloorRing K]

theorem idxAt_fin (mn mx ic c : List K) (i : Nat) :
    idxAt (mn.map fin) (mx.map fin) (ic.map fin) (c.map fin) i = Bin.idxAt mn mx ic c i := by
  unfold idxAt Bin.idxAt
  simp only [vget_map]
  cases vget c (i : Nat) with
  | error e => rfl
  | ok x =>
    cases vget mn (i : Nat) with
    | error e => rfl
    | ok lo =>
      simp only [Except.map, ok_bind, lt, decide_eq_true_eq]
      split
      · rfl
      · cases vget mx (i : Nat) with
        | error e => rfl
        | ok hi =>
          simp only [ok_bind, decide_eq_true_eq]
          split
          · rfl
          · cases vget ic (i : Nat) with
            | error e => rfl
            | ok w =>
              simp only [ok_bind, sub, divide]
              by_cases hw : w = 0
              · rw [if_pos hw, if_pos hw]
                split
                · rfl
                · split <;> rfl
              · rw [if_neg hw, if_neg hw]; rfl

theorem idxLoop_fin (mn mx ic c : List K) (n : Nat) : ∀ i term,
    idxLoop (mn.map fin) (mx.map fin) (ic.map fin) (c.map fin) n i term = Bin.idxLoop mn mx ic c n i term := by
  induction n with
  | zero => intro i term; rfl
  | succ n ih =>
    intro i term
    unfold idxLoop Bin.idxLoop
    rw [idxAt_fin]
    cases Bin.idxAt mn mx ic c i with
    | error e => rfl
    | ok k =>
      simp only
      cases vset term (i : Nat) k with
      | error e => rfl
      | ok t => exact ih _ _

theorem contents_fin {T : Type} (b : Bin T K) (c : List K) : contents b (c.map fin) = b.contents c := by
  unfold contents Bin.contents Bin.indicesOf
  rw [idxLoop_fin]
  rfl

theorem point_finite (q : Par.Query K d) : List.ofFn (point (finite q)) = (List.ofFn q.coord).map fin := by
  rw [List.map_ofFn]
  cases q <;> rfl

/-- Some pass fails after passes that succeed. -/
theorem idxLoop_stop (mn mx ic c : List (Dbl K)) (e : Err) (k n : Nat) : ∀ i term, i ≤ k → k < i + n → term.length = i + n →
    (∀ j, i ≤ j → j < k → ∃ v, idxAt mn mx ic c j = .ok v) → idxAt mn mx ic c k = .error e →
    (idxLoop mn mx ic c n i term).1 = .error e := by
  induction n with
  | zero => intro i term h1 h2; omega
  | succ n ih =>
    intro i term h1 h2 hl h3 h4
    unfold idxLoop
    by_cases hk : i = k
    · subst hk; rw [h4]
    · obtain ⟨v, hv⟩ := h3 i le_rfl (by omega)
      rw [hv]
      simp only
      rw [vset_nat _ _ _ (by omega)]
      exact ih (i + 1) _ (by omega) (by omega) (by rw [List.length_set]; omega) (fun j h5 h6 => h3 j (by omega) h6) h4

/-- Every pass succeeds or throws `domain_error`, and one throws. -/
theorem idxLoop_refuse (mn mx ic c : List (Dbl K)) (k n : Nat) : ∀ i term, i ≤ k → k < i + n → term.length = i + n →
    (∀ j, i ≤ j → j < k → (∃ v, idxAt mn mx ic c j = .ok v) ∨ idxAt mn mx ic c j = .error .domainError) →
    idxAt mn mx ic c k = .error .domainError → (idxLoop mn mx ic c n i term).1 = .error .domainError := by
  induction n with
  | zero => intro i term h1 h2; omega
  | succ n ih =>
    intro i term h1 h2 hl h3 h4
    unfold idxLoop
    by_cases hk : i = k
    · subst hk; rw [h4]
    · rcases h3 i le_rfl (by omega) with ⟨v, hv⟩ | hv
      · rw [hv]
        simp only
        rw [vset_nat _ _ _ (by omega)]
        exact ih (i + 1) _ (by omega) (by omega) (by rw [List.length_set]; omega) (fun j h5 h6 => h3 j (by omega) h6) h4
      · rw [hv]

end finite
section bins
variable {K : Type} {d n : Nat} [Field K] [LinearOrder K] [FloorRing K] [IsStrictOrderedRing K]

/-- What a pass does with a double. -/
def judge (m M w : K) : Dbl K → Res Int
  | fin y => if y < m ∨ M < y then .error .domainError else .ok ⌊(y - m) / w⌋
  | inf => .error .domainError
  | ninf => .error .domainError
  | nan => .error (.ub .overflow)

/-- One pass, in a bin with positive width. -/
theorem idxAt_cases {mn mx ic : List K} {c : List (Dbl K)} {i : Nat} {m M w : K} {N : Int} {x : Dbl K} (h1 : mn[i]? = some m)
    (h2 : mx[i]? = some M) (h3 : ic[i]? = some w) (hw : 0 < w) (hM : M = m + w * (N : K)) (hN : N ≤ intMax) (h4 : c[i]? = some x) :
    idxAt (mn.map fin) (mx.map fin) (ic.map fin) c i = judge m M w x := by
  unfold idxAt
  rw [vget_ok.mpr ⟨by simp, by simpa using h4⟩, vget_map, vget_map, vget_map, vget_ok.mpr ⟨by simp, by simpa using h1⟩,
    vget_ok.mpr ⟨by simp, by simpa using h2⟩, vget_ok.mpr ⟨by simp, by simpa using h3⟩]
  cases x with
  | fin y =>
    simp only [ok_bind, Except.map, lt, decide_eq_true_eq, judge]
    by_cases a : y < m
    · rw [if_pos a, if_pos (Or.inl a)]
    · rw [if_neg a]
      by_cases b : M < y
      · rw [if_pos b, if_pos (Or.inr b)]
      · rw [if_neg b, if_neg (by simp [a, b])]
        simp only [sub, divide]
        rw [if_neg hw.ne']
        apply ckInt_nonneg
        · exact Int.floor_nonneg.mpr (div_nonneg (by linarith) hw.le)
        · refine le_trans ?_ hN
          apply Int.floor_le_iff.mpr
          rw [div_lt_iff₀ hw]
          nlinarith
  | inf => rfl
  | ninf => rfl
  | nan => rfl

variable {E : ElemOps K d} {unit : Fin n → Fin d → K} {pts : List (Fin d → K)} {cells : List (List Nat)} {lo hi : Fin d → K}
  {qs : List (Interp K d)} {flds : List (String × List K)} {b : Body K d}

/-- One pass in the bins of a mesh. -/
theorem idxAt_mesh {m : Mesh K d} (hb : Built E unit pts cells lo hi qs m) (c : Fin d → Dbl K) (i : Fin d) :
    idxAt (m.bin.min.map fin) (m.bin.max.map fin) (m.bin.incr.map fin) (List.ofFn c) (i : Nat) =
      judge (gMin pts lo hi i) (hi i + gIncr pts lo hi i) (gIncr pts lo hi i) (c i) := by
  have e1 : (List.ofFn (gMin pts lo hi))[(i : Nat)]? = some (gMin pts lo hi i) := by simp
  have e2 : (List.ofFn (gIncr pts lo hi))[(i : Nat)]? = some (gIncr pts lo hi i) := by simp
  have e3 : (List.ofFn (gN pts))[(i : Nat)]? = some (gN pts i) := by simp
  have e4 : (List.ofFn c)[(i : Nat)]? = some (c i) := by simp
  have ht := grid_top (pts := pts) (lo := lo) (hi := hi) i (hb.npos i)
  rw [hb.inv.min_eq, hb.inv.max_eq, hb.inv.incr_eq]
  rw [idxAt_cases (M := hi i + gIncr pts lo hi i) e1 (by rw [gridMax_get _ e1 e2 e3, ht]) e2 (hb.incr_pos i) ht.symm
    (Bin.goodDims_le hb.good.2.2.2 _ (List.mem_of_getElem? e3)) e4]

theorem order_mesh {m : Mesh K d} (hb : Built E unit pts cells lo hi qs m) :
    m.bin.item.order.toNat = d ∧ m.bin.indices.length = d := by
  refine ⟨?_, ?_⟩
  · rw [hb.inv.item_ok.order_eq]; simp
  · rw [hb.inv.idx_len]; simp

theorem contents_error {T : Type} {bn : Bin T K} {c : List (Dbl K)} {e : Err}
    (h : (idxLoop (bn.min.map fin) (bn.max.map fin) (bn.incr.map fin) c bn.item.order.toNat 0 bn.indices).1 = .error e) :
    ∃ bin, contents bn c = (.error e, bin) := by
  unfold contents
  rcases h' : idxLoop (bn.min.map fin) (bn.max.map fin) (bn.incr.map fin) c bn.item.order.toNat 0 bn.indices with ⟨r, idx⟩
  rw [h'] at h
  simp only at h
  subst h
  exact ⟨_, rfl⟩

theorem evaluate_error {after : Par.Query (Dbl K) d → PField K → List (Interp K d) → Res K × PField K} {i : Nat} {q : Par.Query (Dbl K) d}
    {f : PField K} {e : Err} {bin} (hf : b.fields[i]? = some f) (h : contents b.mesh.bin (List.ofFn (point q)) = (.error e, bin)) :
    (evaluate after b i q).1 = .error e ∧ (evaluate after b i q).2.fields = b.fields := by
  simp only [evaluate, hf, h, and_self]

theorem nan_generic (hb : BOk E unit pts cells lo hi qs flds b) {i : Nat} (hi' : i < flds.length)
    (after : Par.Query (Dbl K) d → PField K → List (Interp K d) → Res K × PField K) (q : Par.Query (Dbl K) d) (k : Fin d)
    (hk : point q k = nan) (hj : ∀ j, j < k → ∃ x, point q j = fin x ∧ WithinBins pts j x) :
    (evaluate after b i q).1 = .error (.ub .overflow) := by
  obtain ⟨f, h1, _⟩ := field_at hb hi'
  obtain ⟨o1, o2⟩ := order_mesh hb.mesh
  obtain ⟨bin, hc⟩ := contents_error (bn := b.mesh.bin) (c := List.ofFn (point q)) (e := .ub .overflow) (by
    rw [o1]
    refine idxLoop_stop _ _ _ _ _ k d 0 _ (by omega) (by omega) (by omega) ?_ ?_
    · intro j _ hjk
      obtain ⟨x, e, hx⟩ := hj ⟨j, by omega⟩ hjk
      have := idxAt_mesh hb.mesh (point q) ⟨j, by omega⟩
      rw [e] at this
      have hx' := hx _ _ (hb.mesh.grid.low _) (hb.mesh.grid.high _)
      simp only [judge] at this
      exact ⟨_, this.trans (if_neg (not_or.mpr ⟨not_lt.mpr hx'.1, not_lt.mpr hx'.2⟩))⟩
    · have := idxAt_mesh hb.mesh (point q) k
      rw [hk] at this
      exact this)
  exact (evaluate_error h1 hc).1

theorem refuse_generic (hb : BOk E unit pts cells lo hi qs flds b) {i : Nat} (hi' : i < flds.length)
    (after : Par.Query (Dbl K) d → PField K → List (Interp K d) → Res K × PField K) (q : Par.Query (Dbl K) d) (k : Fin d)
    (hk : point q k = inf ∨ point q k = ninf ∨ ∃ x, point q k = fin x ∧ ¬ WithinBins pts k x) (hn : ∀ j, j < k → point q j ≠ nan) :
    (evaluate after b i q).1 = .error .domainError ∧ (evaluate after b i q).2.fields = b.fields := by
  obtain ⟨f, h1, _⟩ := field_at hb hi'
  obtain ⟨o1, o2⟩ := order_mesh hb.mesh
  obtain ⟨bin, hc⟩ := contents_error (bn := b.mesh.bin) (c := List.ofFn (point q)) (e := .domainError) (by
    rw [o1]
    refine idxLoop_refuse _ _ _ _ k d 0 _ (by omega) (by omega) (by omega) ?_ ?_
    · intro j _ hjk
      have := idxAt_mesh hb.mesh (point q) ⟨j, by omega⟩
      rw [this]
      have hne := hn ⟨j, by omega⟩ hjk
      cases hp : point q ⟨j, by omega⟩ with
      | fin x =>
        simp only [judge]
        split
        · exact Or.inr rfl
        · exact Or.inl ⟨_, rfl⟩
      | inf => exact Or.inr rfl
      | ninf => exact Or.inr rfl
      | nan => exact absurd hp hne
    · rw [idxAt_mesh hb.mesh (point q) k]
      rcases hk with hk | hk | ⟨x, hk, hx⟩
      · rw [hk]; rfl
      · rw [hk]; rfl
      · rw [hk]
        simp only [judge]
        rw [if_pos]
        by_contra hcon
        rw [not_or, not_lt, not_lt] at hcon
        apply hx
        intro l h g1 g2
        have el : l = lo k := isLow_unique g1 (hb.mesh.grid.low k)
        have eh : h = hi k := isHigh_unique g2 (hb.mesh.grid.high k)
        subst el eh
        exact hcon)
  exact evaluate_error h1 hc

end bins
end Dbl

open Dbl

/-- **C123** Evaluations at finite coordinates are those of the model without infinities and NaN: result and body. -/
theorem C123_finite {K : Type} {d : Nat} [Field K] [LinearOrder K] [FloorRing K] (E : ElemOps K d)
    (after : Par.Query (Dbl K) d → PField K → List (Interp K d) → Res K × PField K)
    (ha : ∀ q f content, after (finite q) f content = Par.finish E q f content) (b : Body K d) (i : Nat) (q : Par.Query K d) :
    evaluate after b i (finite q) = (Par.ask E b i q, b.call E i q.call) := by
  unfold evaluate
  cases hf : b.fields[i]? with
  | none => cases q <;> simp [Par.ask, Body.value, Body.grad, Body.hess, Par.Query.call, Body.call, hf]
  | some f =>
    obtain ⟨h1, h2⟩ := Par.ask_eq E b i q f hf
    simp only
    rw [h1, h2, point_finite, contents_fin]
    rcases b.mesh.bin.contents (List.ofFn q.coord) with ⟨e | content, bin⟩
    · rfl
    · simp only [ha]

section
variable {K : Type} [Field K] [LinearOrder K] [FloorRing K] [IsStrictOrderedRing K]

/-- **C123** (2D) Infinite coordinates, and finite ones beyond the limits of the bins, are refused with `std::domain_error`, whatever the other coordinates are as long as
none before it is NaN; no field changes. -/
theorem C123_refused_2d (pts : List (Fin 2 → K)) (cells : List (List Nat)) (flds : List (String × List K)) (hm : RectMesh quadUnit pts cells)
    (hl : ∀ fl ∈ flds, fl.2.length = pts.length) (b : Body K 2) (hb : Body.load (quadOps K) pts cells flds = .ok b)
    (ops : List (Nat × Body.Call K 2)) (ho : HistOk pts ops) (i : Nat) (hi : i < flds.length)
    (after : Par.Query (Dbl K) 2 → PField K → List (Interp K 2) → Res K × PField K) (q : Par.Query (Dbl K) 2) (k : Fin 2)
    (hk : point q k = .inf ∨ point q k = .ninf ∨ ∃ x, point q k = .fin x ∧ ¬ WithinBins pts k x) (hn : ∀ j, j < k → point q j ≠ .nan) :
    (evaluate after (b.calls (quadOps K) ops) i q).1 = .error .domainError ∧
    (evaluate after (b.calls (quadOps K) ops) i q).2.fields = (b.calls (quadOps K) ops).fields := by
  obtain ⟨b0, lo, hi', qs, h1, h2⟩ := load_ok quadLaw hm hl
  rw [hb] at h1; cases h1
  exact refuse_generic (calls_ok quadLaw quadTotal h2 ops ho) hi after q k hk hn

/-- **C123** (3D) The same. -/
theorem C123_refused_3d (pts : List (Fin 3 → K)) (cells : List (List Nat)) (flds : List (String × List K)) (hm : RectMesh hexUnit pts cells)
    (hl : ∀ fl ∈ flds, fl.2.length = pts.length) (b : Body K 3) (hb : Body.load (hexOps K) pts cells flds = .ok b)
    (ops : List (Nat × Body.Call K 3)) (ho : HistOk pts ops) (i : Nat) (hi : i < flds.length)
    (after : Par.Query (Dbl K) 3 → PField K → List (Interp K 3) → Res K × PField K) (q : Par.Query (Dbl K) 3) (k : Fin 3)
    (hk : point q k = .inf ∨ point q k = .ninf ∨ ∃ x, point q k = .fin x ∧ ¬ WithinBins pts k x) (hn : ∀ j, j < k → point q j ≠ .nan) :
    (evaluate after (b.calls (hexOps K) ops) i q).1 = .error .domainError ∧
    (evaluate after (b.calls (hexOps K) ops) i q).2.fields = (b.calls (hexOps K) ops).fields := by
  obtain ⟨b0, lo, hi', qs, h1, h2⟩ := load_ok hexLaw hm hl
  rw [hb] at h1; cases h1
  exact refuse_generic (calls_ok hexLaw hexTotal h2 ops ho) hi after q k hk hn

/-- **C123** is false for NaN (2D): NaN passes the range check, and its conversion to `int` is undefined. On every body and for every kind of evaluation. -/
theorem C123_nan_violated_2d (pts : List (Fin 2 → K)) (cells : List (List Nat)) (flds : List (String × List K)) (hm : RectMesh quadUnit pts cells)
    (hl : ∀ fl ∈ flds, fl.2.length = pts.length) (b : Body K 2) (hb : Body.load (quadOps K) pts cells flds = .ok b)
    (ops : List (Nat × Body.Call K 2)) (ho : HistOk pts ops) (i : Nat) (hi : i < flds.length)
    (after : Par.Query (Dbl K) 2 → PField K → List (Interp K 2) → Res K × PField K) (q : Par.Query (Dbl K) 2) (k : Fin 2)
    (hk : point q k = .nan) (hj : ∀ j, j < k → ∃ x, point q j = .fin x ∧ WithinBins pts j x) :
    (evaluate after (b.calls (quadOps K) ops) i q).1 = .error (.ub .overflow) := by
  obtain ⟨b0, lo, hi', qs, h1, h2⟩ := load_ok quadLaw hm hl
  rw [hb] at h1; cases h1
  exact nan_generic (calls_ok quadLaw quadTotal h2 ops ho) hi after q k hk hj

/-- **C123** is false for NaN (3D). -/
theorem C123_nan_violated_3d (pts : List (Fin 3 → K)) (cells : List (List Nat)) (flds : List (String × List K)) (hm : RectMesh hexUnit pts cells)
    (hl : ∀ fl ∈ flds, fl.2.length = pts.length) (b : Body K 3) (hb : Body.load (hexOps K) pts cells flds = .ok b)
    (ops : List (Nat × Body.Call K 3)) (ho : HistOk pts ops) (i : Nat) (hi : i < flds.length)
    (after : Par.Query (Dbl K) 3 → PField K → List (Interp K 3) → Res K × PField K) (q : Par.Query (Dbl K) 3) (k : Fin 3)
    (hk : point q k = .nan) (hj : ∀ j, j < k → ∃ x, point q j = .fin x ∧ WithinBins pts j x) :
    (evaluate after (b.calls (hexOps K) ops) i q).1 = .error (.ub .overflow) := by
  obtain ⟨b0, lo, hi', qs, h1, h2⟩ := load_ok hexLaw hm hl
  rw [hb] at h1; cases h1
  exact nan_generic (calls_ok hexLaw hexTotal h2 ops ho) hi after q k hk hj

end

/-! ### Non-vacuity -/

/-- What may follow finding a bin: nothing for coordinates that are not finite. -/
def Dbl.demoAfter : Par.Query (Dbl ℚ) 2 → PField ℚ → List (Interp ℚ 2) → Res ℚ × PField ℚ
  | .value c, f, content =>
    match c 0, c 1 with
    | .fin x, .fin y => Par.finish (quadOps ℚ) (.value ![x, y]) f content
    | _, _ => (.error .runtimeError, f)
  | _, f, _ => (.error .runtimeError, f)

/-- A finite point is evaluated; `(1/2, ∞)` and `(-∞, NaN)` are refused; `(1/2, NaN)` and `(NaN, ∞)` are undefined. -/
example : ∃ b, Body.load (quadOps ℚ) Demo.pts Demo.cells Demo.flds = .ok b ∧
    (evaluate demoAfter b 0 (.value ![.fin (1 / 2), .fin (1 / 2)])).1 = .ok 3 ∧
    (evaluate demoAfter b 0 (.value ![.fin (1 / 2), .inf])).1 = .error .domainError ∧
    (evaluate demoAfter b 0 (.value ![.ninf, .nan])).1 = .error .domainError ∧
    (evaluate demoAfter b 0 (.value ![.fin (1 / 2), .nan])).1 = .error (.ub .overflow) ∧
    (evaluate demoAfter b 0 (.value ![.nan, .inf])).1 = .error (.ub .overflow) := by
  obtain ⟨b, hb, _⟩ := C22_load_2d Demo.pts Demo.cells Demo.flds Demo.rect Demo.lens
  refine ⟨b, hb, ?_, ?_, ?_, ?_, ?_⟩
  · have : (Body.load (quadOps ℚ) Demo.pts Demo.cells Demo.flds).map (fun b =>
        (evaluate demoAfter b 0 (.value ![.fin (1 / 2), .fin (1 / 2)])).1) = .ok (.ok 3) := by decide +kernel
    rw [hb] at this
    exact Except.ok.inj this
  · exact (C123_refused_2d _ _ _ Demo.rect Demo.lens b hb [] (by simp [HistOk]) 0 (by decide) demoAfter _ 1 (Or.inl rfl) (by
      intro j hj
      have : j = 0 := by omega
      subst this
      simp [point])).1
  · exact (C123_refused_2d _ _ _ Demo.rect Demo.lens b hb [] (by simp [HistOk]) 0 (by decide) demoAfter _ 0 (Or.inr (Or.inl rfl)) (by
      intro j hj
      omega)).1
  · refine C123_nan_violated_2d _ _ _ Demo.rect Demo.lens b hb [] (by simp [HistOk]) 0 (by decide) demoAfter _ 1 rfl ?_
    intro j hj
    have : j = 0 := by omega
    subst this
    refine ⟨1 / 2, rfl, ?_⟩
    intro lo hi h1 h2
    have l0 : IsLow Demo.pts 0 0 := by unfold IsLow; decide +kernel
    have g0 : IsHigh Demo.pts 0 3 := by unfold IsHigh; decide +kernel
    rw [isLow_unique h1 l0, isHigh_unique h2 g0]
    decide +kernel
  · exact C123_nan_violated_2d _ _ _ Demo.rect Demo.lens b hb [] (by simp [HistOk]) 0 (by decide) demoAfter _ 0 rfl (by
      intro j hj
      omega)

end Verif
