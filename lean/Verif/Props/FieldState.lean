import Verif.Lemmas.Demo
import Verif.Lemmas.FieldGet
import Verif.Lemmas.HexLaw

/-!
# Properties C30, C31, C33, C34, C37: safety, exceptions, getters and lookups, in 2D and 3D
-/

namespace Verif
open Spec Bin Mesh PField Body
variable {K : Type} [Field K] [LinearOrder K] [FloorRing K] [IsStrictOrderedRing K]

section generic
variable {d n : Nat} {E : ElemOps K d} {unit : Fin n → Fin d → K} {R : (a h c : Fin d → K) → Prop}
variable {pts : List (Fin d → K)} {cells : List (List Nat)} {lo hi : Fin d → K} {qs : List (Interp K d)}
variable {flds : List (String × List K)} {b : Body K d}

theorem field_at (hb : BOk E unit pts cells lo hi qs flds b) {i : Nat} (hi' : i < flds.length) :
    ∃ f, b.fields[i]? = some f ∧ FOk pts lo hi qs f := by
  obtain ⟨f, h1, _, _, _, h2⟩ := loaded_field hb (i := i) (name := flds[i].1) (data := flds[i].2)
    (List.getElem?_eq_getElem hi')
  exact ⟨f, h1, h2⟩

theorem not_both (pts : List (Fin d → K)) (c : Fin d → K) (h : InBins pts c) : ¬ OutOfBins pts c := by
  rintro ⟨i, lo', hi', h1, h2, h3⟩
  have := h i lo' hi' h1 h2
  rcases h3 with h3 | h3
  · exact absurd this.1 (not_le.mpr h3)
  · exact absurd this.2 (not_lt.mpr h3.le)

theorem c31_generic (L : ElemLaw E unit R) (T : ElemTotal E) (hb : BOk E unit pts cells lo hi qs flds b) {i : Nat}
    (hi' : i < flds.length) {c : Fin d → K} (hc : InBins pts c) :
    (∀ op : Body.Call K d, op.coord = c → b.outcome E i op = .ok ()) ∧
    (∃ v, b.value E i c = .ok v) ∧ (∀ di : Fin d, ∃ v, b.grad E i c di = .ok v) ∧
    (∀ di dj : Fin d, ∃ v, b.hess E i c di dj = .ok v) := by
  obtain ⟨f, h1, h2⟩ := field_at hb hi'
  refine ⟨?_, ?_, ?_, ?_⟩
  · intro op hop
    obtain ⟨r, m', f', g1, _, g3, _⟩ := callField_ok L T hb.mesh h2 op (Or.inl (hop ▸ hc))
    simp only [outcome, h1, g1]
    exact g3 (hop ▸ hc)
  · obtain ⟨v, m', f', g1, _⟩ := value_in L T hb.mesh h2 hc
    exact ⟨v, by simp only [Body.value, h1, g1]⟩
  · intro di
    obtain ⟨v, m', f', g1, _⟩ := gradAt_in L T hb.mesh h2 hc di
    exact ⟨v, by simp only [Body.grad, h1, g1]⟩
  · intro di dj
    obtain ⟨v, m', f', g1, _⟩ := hessAt_in L T hb.mesh h2 hc di dj
    exact ⟨v, by simp only [Body.hess, h1, g1]⟩

theorem c30_generic (L : ElemLaw E unit R) (T : ElemTotal E) (hb : BOk E unit pts cells lo hi qs flds b) {i : Nat}
    (hi' : i < flds.length) {c : Fin d → K} (hc : OutOfBins pts c) :
    (∀ op : Body.Call K d, op.coord = c → b.outcome E i op = .error .domainError ∧
      ∀ k, (b.call E i op).getVal k = b.getVal k ∧ (∀ di, (b.call E i op).getGrad k di = b.getGrad k di) ∧
        ∀ di dj, (b.call E i op).getHess k di dj = b.getHess k di dj) ∧
    b.value E i c = .error .domainError ∧ (∀ di : Fin d, b.grad E i c di = .error .domainError) ∧
    (∀ di dj : Fin d, b.hess E i c di dj = .error .domainError) := by
  obtain ⟨f, h1, h2⟩ := field_at hb hi'
  obtain ⟨o1, o2, o3⟩ := fill_out' hb.mesh h2 hc
  refine ⟨?_, ?_, ?_, ?_⟩
  · intro op hop
    obtain ⟨r, m', f', g1, _, _, g4⟩ := callField_ok L T hb.mesh h2 op (Or.inr (hop ▸ hc))
    obtain ⟨rfl, rfl⟩ := g4 (hop ▸ hc)
    have hs : b.fields.set i f' = b.fields := by
      apply List.ext_getElem? ; intro j
      rw [List.getElem?_set]
      split
      · next e => subst e; split
                  · exact h1.symm
                  · next hh => rw [List.getElem?_eq_none (by omega)]
      · rfl
    have hcall : b.call E i op = ⟨m', b.fields⟩ := by simp only [call, h1, g1, hs]
    refine ⟨by simp only [outcome, h1, g1], ?_⟩
    intro k
    rw [hcall]
    exact ⟨rfl, fun _ => rfl, fun _ _ => rfl⟩
  · obtain ⟨m', g1, _⟩ := o1
    simp only [Body.value, h1, g1]
  · intro di
    obtain ⟨m', g1, _⟩ := o2 di
    simp only [Body.grad, h1, g1]
  · intro di dj
    obtain ⟨m', g1, _⟩ := o3 di dj
    simp only [Body.hess, h1, g1]

end generic

/-- **C31** (2D) Inside the binned region every kind of evaluation returns normally, after any history: no undefined behaviour. -/
theorem C31_safe_2d (pts : List (Fin 2 → K)) (cells : List (List Nat)) (flds : List (String × List K))
    (hm : RectMesh quadUnit pts cells) (hl : ∀ fl ∈ flds, fl.2.length = pts.length) (b : Body K 2)
    (hb : Body.load (quadOps K) pts cells flds = .ok b) (ops : List (Nat × Body.Call K 2)) (ho : HistOk pts ops)
    (i : Nat) (hi : i < flds.length) (c : Fin 2 → K) (hc : InBins pts c) :
    (∀ op : Body.Call K 2, op.coord = c → (b.calls (quadOps K) ops).outcome (quadOps K) i op = .ok ()) ∧
    (∃ v, (b.calls (quadOps K) ops).value (quadOps K) i c = .ok v) ∧
    (∀ di : Fin 2, ∃ v, (b.calls (quadOps K) ops).grad (quadOps K) i c di = .ok v) ∧
    (∀ di dj : Fin 2, ∃ v, (b.calls (quadOps K) ops).hess (quadOps K) i c di dj = .ok v) := by
  obtain ⟨b0, lo, hi', qs, h1, h2⟩ := load_ok quadLaw hm hl
  rw [hb] at h1; cases h1
  exact c31_generic quadLaw quadTotal (calls_ok quadLaw quadTotal h2 ops ho) hi hc

/-- **C31** (3D) Inside the binned region every kind of evaluation returns normally, after any history: no undefined behaviour. -/
theorem C31_safe_3d (pts : List (Fin 3 → K)) (cells : List (List Nat)) (flds : List (String × List K))
    (hm : RectMesh hexUnit pts cells) (hl : ∀ fl ∈ flds, fl.2.length = pts.length) (b : Body K 3)
    (hb : Body.load (hexOps K) pts cells flds = .ok b) (ops : List (Nat × Body.Call K 3)) (ho : HistOk pts ops)
    (i : Nat) (hi : i < flds.length) (c : Fin 3 → K) (hc : InBins pts c) :
    (∀ op : Body.Call K 3, op.coord = c → (b.calls (hexOps K) ops).outcome (hexOps K) i op = .ok ()) ∧
    (∃ v, (b.calls (hexOps K) ops).value (hexOps K) i c = .ok v) ∧
    (∀ di : Fin 3, ∃ v, (b.calls (hexOps K) ops).grad (hexOps K) i c di = .ok v) ∧
    (∀ di dj : Fin 3, ∃ v, (b.calls (hexOps K) ops).hess (hexOps K) i c di dj = .ok v) := by
  obtain ⟨b0, lo, hi', qs, h1, h2⟩ := load_ok hexLaw hm hl
  rw [hb] at h1; cases h1
  exact c31_generic hexLaw hexTotal (calls_ok hexLaw hexTotal h2 ops ho) hi hc

/-- **C31** (3D) Loading a legal 3D mesh never fails. -/
theorem C31_load_3d (pts : List (Fin 3 → K)) (cells : List (List Nat)) (flds : List (String × List K))
    (hm : RectMesh hexUnit pts cells) (hl : ∀ fl ∈ flds, fl.2.length = pts.length) :
    ∃ b, Body.load (hexOps K) pts cells flds = .ok b ∧ b.mesh.node = pts ∧
      b.fields.map (fun f => (f.name, f.data)) = flds := by
  obtain ⟨b, lo, hi, qs, h1, h2⟩ := load_ok hexLaw hm hl
  refine ⟨b, h1, h2.mesh.node_eq, ?_⟩
  have h3 := h2.fields
  clear h1 h2 hl hm
  generalize b.fields = fs at h3
  induction h3 with
  | nil => rfl
  | cons hd _ ih => simp [hd.1, hd.2.1, ih]

/-- **C30** (2D) Outside the binned region every kind of evaluation throws `std::domain_error` and no stored result of any field
changes. -/
theorem C30_throws_2d (pts : List (Fin 2 → K)) (cells : List (List Nat)) (flds : List (String × List K))
    (hm : RectMesh quadUnit pts cells) (hl : ∀ fl ∈ flds, fl.2.length = pts.length) (b : Body K 2)
    (hb : Body.load (quadOps K) pts cells flds = .ok b) (ops : List (Nat × Body.Call K 2)) (ho : HistOk pts ops)
    (i : Nat) (hi : i < flds.length) (c : Fin 2 → K) (hc : OutOfBins pts c) :
    (∀ op : Body.Call K 2, op.coord = c → (b.calls (quadOps K) ops).outcome (quadOps K) i op = .error .domainError ∧
      ∀ k, ((b.calls (quadOps K) ops).call (quadOps K) i op).getVal k = (b.calls (quadOps K) ops).getVal k ∧
        (∀ di, ((b.calls (quadOps K) ops).call (quadOps K) i op).getGrad k di = (b.calls (quadOps K) ops).getGrad k di) ∧
        ∀ di dj, ((b.calls (quadOps K) ops).call (quadOps K) i op).getHess k di dj =
          (b.calls (quadOps K) ops).getHess k di dj) ∧
    (b.calls (quadOps K) ops).value (quadOps K) i c = .error .domainError ∧
    (∀ di : Fin 2, (b.calls (quadOps K) ops).grad (quadOps K) i c di = .error .domainError) ∧
    (∀ di dj : Fin 2, (b.calls (quadOps K) ops).hess (quadOps K) i c di dj = .error .domainError) := by
  obtain ⟨b0, lo, hi', qs, h1, h2⟩ := load_ok quadLaw hm hl
  rw [hb] at h1; cases h1
  exact c30_generic quadLaw quadTotal (calls_ok quadLaw quadTotal h2 ops ho) hi hc

/-- **C30** (3D) Outside the binned region every kind of evaluation throws `std::domain_error` and no stored result of any field
changes. -/
theorem C30_throws_3d (pts : List (Fin 3 → K)) (cells : List (List Nat)) (flds : List (String × List K))
    (hm : RectMesh hexUnit pts cells) (hl : ∀ fl ∈ flds, fl.2.length = pts.length) (b : Body K 3)
    (hb : Body.load (hexOps K) pts cells flds = .ok b) (ops : List (Nat × Body.Call K 3)) (ho : HistOk pts ops)
    (i : Nat) (hi : i < flds.length) (c : Fin 3 → K) (hc : OutOfBins pts c) :
    (∀ op : Body.Call K 3, op.coord = c → (b.calls (hexOps K) ops).outcome (hexOps K) i op = .error .domainError ∧
      ∀ k, ((b.calls (hexOps K) ops).call (hexOps K) i op).getVal k = (b.calls (hexOps K) ops).getVal k ∧
        (∀ di, ((b.calls (hexOps K) ops).call (hexOps K) i op).getGrad k di = (b.calls (hexOps K) ops).getGrad k di) ∧
        ∀ di dj, ((b.calls (hexOps K) ops).call (hexOps K) i op).getHess k di dj =
          (b.calls (hexOps K) ops).getHess k di dj) ∧
    (b.calls (hexOps K) ops).value (hexOps K) i c = .error .domainError ∧
    (∀ di : Fin 3, (b.calls (hexOps K) ops).grad (hexOps K) i c di = .error .domainError) ∧
    (∀ di dj : Fin 3, (b.calls (hexOps K) ops).hess (hexOps K) i c di dj = .error .domainError) := by
  obtain ⟨b0, lo, hi', qs, h1, h2⟩ := load_ok hexLaw hm hl
  rw [hb] at h1; cases h1
  exact c30_generic hexLaw hexTotal (calls_ok hexLaw hexTotal h2 ops ho) hi hc

/-! ### C33: getters -/

/-- The calls that compute the value, with their coordinate. -/
def valueCall {d : Nat} : Body.Call K d → Option (Fin d → K)
  | .value c => some c
  | _ => none

/-- The calls that compute gradient component `di`. -/
def gradCall {d : Nat} (di : Fin d) : Body.Call K d → Option (Fin d → K)
  | .grad c dj => if dj = di then some c else none
  | .evalGrad c => some c
  | _ => none

/-- The calls that compute Hessian component `(di,dj)`. -/
def hessCall {d : Nat} (di dj : Fin d) : Body.Call K d → Option (Fin d → K)
  | .hess c ei ej => if ei = di ∧ ej = dj then some c else none
  | .evalHess c => some c
  | _ => none

/-- The result of the most recent successful computation, on field `i`, by one of the calls `sel` selects; `look` is what the
evaluating member returns when called in the state in which that call was made. `cur` is the result before the history. -/
def lastOutcome {d : Nat} (E : ElemOps K d) (sel : Body.Call K d → Option (Fin d → K)) (look : Body K d → (Fin d → K) → Res K)
    (i : Nat) : Body K d → List (Nat × Body.Call K d) → Res K → Res K
  | _, [], cur => cur
  | b, (k, op) :: ops, cur =>
    lastOutcome E sel look i (b.call E k op) ops
      (if k = i then
        match sel op with
        | none => cur
        | some c => match look b c with | .ok v => .ok v | .error _ => cur
      else cur)

section generic
variable {d n : Nat} {E : ElemOps K d} {unit : Fin n → Fin d → K} {R : (a h c : Fin d → K) → Prop}
variable {pts : List (Fin d → K)} {cells : List (List Nat)} {lo hi : Fin d → K} {qs : List (Interp K d)}
variable {flds : List (String × List K)}

/-- One call, seen through the getters of the field it was made on. -/
theorem call_getters (L : ElemLaw E unit R) (T : ElemTotal E) {m : Mesh K d} (hb : Built E unit pts cells lo hi qs m) {f : PField K}
    (hf : FOk pts lo hi qs f) (op : Body.Call K d) (hc : InBins pts op.coord) :
    ∃ r m' f', callField E m f op = (r, m', f') ∧
      (f'.getVal = match valueCall op with | none => f.getVal | some c => (f.value E m c).1) ∧
      (∀ di : Fin d, f'.getGrad di = match gradCall di op with | none => f.getGrad di | some c => (f.gradAt E m c di).1) ∧
      (∀ di dj : Fin d, f'.getHess di dj = match hessCall di dj op with
        | none => f.getHess di dj | some c => (f.hessAt E m c di dj).1) := by
  cases op with
  | value c =>
    obtain ⟨v, m', f', h1, _, h3, h4, h5⟩ := value_in L T hb hf (c := c) hc
    refine ⟨_, m', f', by simp only [callField, h1]; rfl, ?_, ?_, ?_⟩
    · simp only [valueCall, PField.getVal, h3, h1]
    · intro di; simp only [gradCall, PField.getGrad, h4]
    · intro di dj; simp only [hessCall, PField.getHess, h5]
  | grad c di =>
    obtain ⟨v, m', f', h1, _, h3, h4, h5⟩ := gradAt_in L T hb hf (c := c) hc di
    refine ⟨_, m', f', by simp only [callField, h1]; rfl, ?_, ?_, ?_⟩
    · simp only [valueCall, PField.getVal, h3]
    · intro dj
      have hl : (dj : Nat) < f.grad.length := by rw [hf.grad_len]; exact dj.isLt
      by_cases e : di = dj
      · subst e
        simp only [gradCall, if_true, h1, PField.getGrad, h4]
        rw [vget_nat _ _ (by simpa using hl)]
        simp
      · have e' : (di : Nat) ≠ dj := fun h => e (Fin.ext h)
        simp only [gradCall, if_neg e, PField.getGrad, h4]
        rw [vget_nat _ _ (by simpa using hl), vget_nat _ _ hl]
        simp [List.getElem_set, e']
    · intro di dj; simp only [hessCall, PField.getHess, h5]
  | hess c ei ej =>
    obtain ⟨v, m', f', h1, _, h3, h4, h5⟩ := hessAt_in L T hb hf (c := c) hc ei ej
    refine ⟨_, m', f', by simp only [callField, h1]; rfl, ?_, ?_, ?_⟩
    · simp only [valueCall, PField.getVal, h3]
    · intro dj; simp only [gradCall, PField.getGrad, h4]
    · intro x w
      have hlx : (x : Nat) < f.hess.length := by rw [hf.hess_len]; exact x.isLt
      have hrow : f.hess[(x : Nat)].length = d := hf.row_len _ (List.getElem_mem _)
      have hlw : (w : Nat) < f.hess[(x : Nat)].length := by rw [hrow]; exact w.isLt
      by_cases e : ei = x
      · subst e
        have eg : f.hess.getD (ei : Nat) [] = f.hess[(ei : Nat)] := by simp [hlx]
        by_cases e2 : ej = w
        · subst e2
          simp only [hessCall, and_self, if_true, h1, PField.getHess, h5]
          rw [vget_nat _ _ (by simpa using hlx)]
          simp only [ok_bind, List.getElem_set_self, eg]
          rw [vget_nat _ _ (by simpa using hlw)]
          simp
        · have e' : (ej : Nat) ≠ w := fun h => e2 (Fin.ext h)
          simp only [hessCall, e2, and_false, if_false, PField.getHess, h5]
          rw [vget_nat _ _ (by simpa using hlx), vget_nat _ _ hlx]
          simp only [ok_bind, List.getElem_set_self, eg]
          rw [vget_nat _ _ (by simpa using hlw), vget_nat _ _ hlw]
          simp [List.getElem_set, e']
      · have e' : (ei : Nat) ≠ x := fun h => e (Fin.ext h)
        simp only [hessCall, e, false_and, if_false, PField.getHess, h5]
        rw [vget_nat _ _ (by simpa using hlx), vget_nat _ _ hlx]
        simp [List.getElem_set, e']
  | evalGrad c =>
    obtain ⟨m', f', h1, _, h3, h4, h5⟩ := evalGradLoop_get L T (c := c) hc (List.range d) (range_lt d) hb hf (b0 := f.buf)
      (fun _ => rfl)
    refine ⟨.ok (), m', f', by simp only [callField, evalGrad, h1], ?_, ?_, ?_⟩
    · simp only [valueCall, PField.getVal, h3]
    · intro di
      obtain ⟨g, hg⟩ := T.grad c di
      obtain ⟨v, _, _, k1, _, _, _, _, k2, _⟩ := gradAt_comp L hb hf (c := c) hc di hg
      have := h5 di g hg
      rw [if_pos (List.mem_range.mpr di.isLt), k2] at this
      simp only [gradCall, this]
      exact (congrArg Prod.fst k1).symm
    · intro di dj; simp only [hessCall, PField.getHess, h4]
  | evalHess c =>
    obtain ⟨m', f', h1, _, h3, h4, h5⟩ := evalHessLoop_get L T (c := c) hc _ (pairs_lt d) hb hf (b0 := f.buf) (fun _ => rfl)
    refine ⟨.ok (), m', f', by simp only [callField, evalHess, h1], ?_, ?_, ?_⟩
    · simp only [valueCall, PField.getVal, h3]
    · intro di; simp only [gradCall, PField.getGrad, h4]
    · intro di dj
      obtain ⟨g, hg⟩ := T.hess c di dj
      obtain ⟨v, _, _, k1, _, _, _, _, k2, _⟩ := hessAt_comp L hb hf (c := c) hc di dj hg
      have := h5 di dj g hg
      rw [if_pos (by simp), k2] at this
      simp only [hessCall, this]
      exact (congrArg Prod.fst k1).symm

/-- One call on the body, seen through the getters of field `i`. -/
theorem body_call_getters (L : ElemLaw E unit R) (T : ElemTotal E) {b : Body K d} (hb : BOk E unit pts cells lo hi qs flds b)
    {i : Nat} (hi' : i < flds.length) (k : Nat) (op : Body.Call K d) (hc : InBins pts op.coord ∨ OutOfBins pts op.coord) :
    ((b.call E k op).getVal i = if k = i then (match valueCall op with
      | none => b.getVal i | some c => match b.value E i c with | .ok v => .ok v | .error _ => b.getVal i) else b.getVal i) ∧
    (∀ di : Fin d, (b.call E k op).getGrad i di = if k = i then (match gradCall di op with
      | none => b.getGrad i di | some c => match b.grad E i c di with | .ok v => .ok v | .error _ => b.getGrad i di)
      else b.getGrad i di) ∧
    (∀ di dj : Fin d, (b.call E k op).getHess i di dj = if k = i then (match hessCall di dj op with
      | none => b.getHess i di dj
      | some c => match b.hess E i c di dj with | .ok v => .ok v | .error _ => b.getHess i di dj) else b.getHess i di dj) := by
  obtain ⟨f, h1, h2⟩ := field_at hb hi'
  have selv : ∀ c, valueCall op = some c → c = op.coord := by
    intro c h; cases op <;> simp [valueCall] at h; exact h.symm
  have selg : ∀ di c, gradCall di op = some c → c = op.coord := by
    intro di c h; cases op <;> simp [gradCall] at h
    · exact h.2.symm
    · exact h.symm
  have selh : ∀ di dj c, hessCall di dj op = some c → c = op.coord := by
    intro di dj c h; cases op <;> simp [hessCall] at h
    · exact h.2.symm
    · exact h.symm
  by_cases hk : k = i
  · subst hk
    simp only [if_true]
    rcases hc with hc | hc
    · obtain ⟨r, m', f', g1, g2, g3, g4⟩ := call_getters L T hb.mesh h2 op hc
      have hlt := (List.getElem?_eq_some_iff.mp h1).1
      have hcall : (b.call E k op).fields[k]? = some f' := by simp only [call, h1, g1]; simp [hlt]
      obtain ⟨_, ⟨v, hv⟩, hg, hh⟩ := c31_generic L T hb hi' hc
      refine ⟨?_, ?_, ?_⟩
      · simp only [Body.getVal, hcall, h1, g2]
        cases hs : valueCall op with
        | none => rfl
        | some c =>
          have := selv c hs; subst this
          have hv' := hv
          simp only [Body.value, h1] at hv'
          simp only [hv, hv']
      · intro di
        simp only [Body.getGrad, hcall, h1, g3]
        cases hs : gradCall di op with
        | none => rfl
        | some c =>
          have := selg di c hs; subst this
          obtain ⟨v, hv⟩ := hg di
          have hv' := hv
          simp only [Body.grad, h1] at hv'
          simp only [hv, hv']
      · intro di dj
        simp only [Body.getHess, hcall, h1, g4]
        cases hs : hessCall di dj op with
        | none => rfl
        | some c =>
          have := selh di dj c hs; subst this
          obtain ⟨v, hv⟩ := hh di dj
          have hv' := hv
          simp only [Body.hess, h1] at hv'
          simp only [hv, hv']
    · obtain ⟨o1, o2, o3, o4⟩ := c30_generic L T hb hi' hc
      obtain ⟨_, o5⟩ := o1 op rfl
      obtain ⟨p1, p2, p3⟩ := o5 k
      refine ⟨?_, ?_, ?_⟩
      · rw [p1]
        cases hs : valueCall op with
        | none => rfl
        | some c => have := selv c hs; subst this; simp only [o2]
      · intro di
        rw [p2]
        cases hs : gradCall di op with
        | none => rfl
        | some c => have := selg di c hs; subst this; simp only [o3]
      · intro di dj
        rw [p3]
        cases hs : hessCall di dj op with
        | none => rfl
        | some c => have := selh di dj c hs; subst this; simp only [o4]
  · have hcall : (b.call E k op).fields[i]? = b.fields[i]? := by
      unfold call
      cases b.fields[k]? with
      | none => rfl
      | some g => simp [hk]
    simp only [if_neg hk, Body.getVal, Body.getGrad, Body.getHess, hcall]
    simp

theorem c33_generic (L : ElemLaw E unit R) (T : ElemTotal E) {b : Body K d} (hb : BOk E unit pts cells lo hi qs flds b)
    {i : Nat} (hi' : i < flds.length) (ops : List (Nat × Body.Call K d)) (ho : HistOk pts ops) :
    (b.calls E ops).getVal i = lastOutcome E valueCall (fun s c => s.value E i c) i b ops (b.getVal i) ∧
    (∀ di : Fin d, (b.calls E ops).getGrad i di =
      lastOutcome E (gradCall di) (fun s c => s.grad E i c di) i b ops (b.getGrad i di)) ∧
    (∀ di dj : Fin d, (b.calls E ops).getHess i di dj =
      lastOutcome E (hessCall di dj) (fun s c => s.hess E i c di dj) i b ops (b.getHess i di dj)) := by
  induction ops generalizing b with
  | nil => exact ⟨rfl, fun _ => rfl, fun _ _ => rfl⟩
  | cons o os ih =>
    obtain ⟨k, op⟩ := o
    have hop := ho (k, op) (by simp)
    obtain ⟨g1, g2, g3⟩ := body_call_getters L T hb hi' k op hop
    obtain ⟨k1, k2, k3⟩ := ih (call_ok L T hb k op hop) (fun x hx => ho x (by simp [hx]))
    refine ⟨?_, ?_, ?_⟩
    · simp only [calls, lastOutcome]
      rw [k1, g1]
    · intro di
      simp only [calls, lastOutcome]
      rw [k2, g2]
    · intro di dj
      simp only [calls, lastOutcome]
      rw [k3, g3]

end generic

/-- **C33** (2D) After any history each getter returns the most recent successful computation of its component (by the
single-component call or by `eval_grad`/`eval_hess`), or what it returned before the history if there was none. -/
theorem C33_getters_2d (pts : List (Fin 2 → K)) (cells : List (List Nat)) (flds : List (String × List K))
    (hm : RectMesh quadUnit pts cells) (hl : ∀ fl ∈ flds, fl.2.length = pts.length) (b : Body K 2)
    (hb : Body.load (quadOps K) pts cells flds = .ok b) (ops0 ops : List (Nat × Body.Call K 2)) (ho0 : HistOk pts ops0)
    (ho : HistOk pts ops) (i : Nat) (hi : i < flds.length) (s : Body K 2) (hs : s = b.calls (quadOps K) ops0) :
    (s.calls (quadOps K) ops).getVal i =
      lastOutcome (quadOps K) valueCall (fun s c => s.value (quadOps K) i c) i s ops (s.getVal i) ∧
    (∀ di : Fin 2, (s.calls (quadOps K) ops).getGrad i di =
      lastOutcome (quadOps K) (gradCall di) (fun s c => s.grad (quadOps K) i c di) i s ops (s.getGrad i di)) ∧
    (∀ di dj : Fin 2, (s.calls (quadOps K) ops).getHess i di dj =
      lastOutcome (quadOps K) (hessCall di dj) (fun s c => s.hess (quadOps K) i c di dj) i s ops (s.getHess i di dj)) := by
  obtain ⟨b0, lo, hi', qs, h1, h2⟩ := load_ok quadLaw hm hl
  rw [hb] at h1; cases h1
  subst hs
  exact c33_generic quadLaw quadTotal (calls_ok quadLaw quadTotal h2 ops0 ho0) hi ops ho

/-- **C33** (3D) -/
theorem C33_getters_3d (pts : List (Fin 3 → K)) (cells : List (List Nat)) (flds : List (String × List K))
    (hm : RectMesh hexUnit pts cells) (hl : ∀ fl ∈ flds, fl.2.length = pts.length) (b : Body K 3)
    (hb : Body.load (hexOps K) pts cells flds = .ok b) (ops0 ops : List (Nat × Body.Call K 3)) (ho0 : HistOk pts ops0)
    (ho : HistOk pts ops) (i : Nat) (hi : i < flds.length) (s : Body K 3) (hs : s = b.calls (hexOps K) ops0) :
    (s.calls (hexOps K) ops).getVal i =
      lastOutcome (hexOps K) valueCall (fun s c => s.value (hexOps K) i c) i s ops (s.getVal i) ∧
    (∀ di : Fin 3, (s.calls (hexOps K) ops).getGrad i di =
      lastOutcome (hexOps K) (gradCall di) (fun s c => s.grad (hexOps K) i c di) i s ops (s.getGrad i di)) ∧
    (∀ di dj : Fin 3, (s.calls (hexOps K) ops).getHess i di dj =
      lastOutcome (hexOps K) (hessCall di dj) (fun s c => s.hess (hexOps K) i c di dj) i s ops (s.getHess i di dj)) := by
  obtain ⟨b0, lo, hi', qs, h1, h2⟩ := load_ok hexLaw hm hl
  rw [hb] at h1; cases h1
  subst hs
  exact c33_generic hexLaw hexTotal (calls_ok hexLaw hexTotal h2 ops0 ho0) hi ops ho

/-! ### C34, C37 -/

/-- **C34** Reading any non-empty list of points (however distributed, even degenerate, as long as the bins fit an `int`)
succeeds; the node list is extended by the points, and `min(i)` and `max(i)` are the least and greatest `i`-th coordinate. -/
theorem C34_min_max {d : Nat} (hd : 0 < d) (m0 : Mesh K d) (pts : List (Fin d → K)) (hne : pts ≠ [])
    (hs : prod (List.ofFn fun i => (nDistinct pts i : Int) + 2) ≤ 2147483647) :
    ∃ m, Mesh.readPoints m0 pts = .ok m ∧ m.node = m0.node ++ pts ∧ ∀ i,
      ∃ lo hi, m.minAt i = .ok lo ∧ m.maxAt i = .ok hi ∧ IsLow pts i lo ∧ IsHigh pts i hi := by
  obtain ⟨lo, hi, hg, hr⟩ := readPoints_eq m0 hne
  have hgd : GoodDims (List.ofFn (gN pts)) := by
    refine ⟨?_, ?_, hs⟩
    · intro he
      have := congrArg List.length he
      simp at this
      omega
    · intro x hx
      obtain ⟨i, rfl⟩ := List.mem_ofFn.mp hx
      simp [gN]; omega
  have hmk := mk'_eq (Interp K d) (K := K) (min := List.ofFn (gMin pts lo hi)) (incr := List.ofFn (gIncr pts lo hi))
    (by simp) (by simp) hgd
  rw [hmk] at hr
  simp only [ok_bind] at hr
  exact ⟨_, hr, rfl, fun i => ⟨lo i, hi i, rfl, rfl, hg.low i, hg.high i⟩⟩

/-- Non-vacuity of C34: the demo points. -/
example : ∃ m, Mesh.readPoints Mesh.empty Demo.pts = .ok m ∧ m.minAt 0 = .ok 0 ∧ m.maxAt 0 = .ok 3 := by
  obtain ⟨m, h1, _, h2⟩ := C34_min_max (by decide) Mesh.empty Demo.pts (by simp [Demo.pts]) Demo.rect.small
  obtain ⟨lo, hi, g1, g2, g3, g4⟩ := h2 0
  have low : IsLow Demo.pts 0 (0 : ℚ) := by
    constructor
    · exact ⟨![0, 0], by simp [Demo.pts], by simp⟩
    · simp [Demo.pts]
  have high : IsHigh Demo.pts 0 (3 : ℚ) := by
    constructor
    · exact ⟨![3, 0], by simp [Demo.pts], by simp⟩
    · simp [Demo.pts]
  rw [isLow_unique g3 low] at g1
  rw [isHigh_unique g4 high] at g2
  exact ⟨m, h1, g1, g2⟩

omit [Field K] [LinearOrder K] [FloorRing K] [IsStrictOrderedRing K] in
theorem findLoop_spec (name : String) (fs : List (PField K)) (i : Nat) :
    (∀ k, findLoop name fs i = .ok k → ∃ j f, k = i + j ∧ fs[j]? = some f ∧ f.name = name ∧
      ∀ j' < j, ∀ f', fs[j']? = some f' → f'.name ≠ name) ∧
    (∀ e, findLoop name fs i = .error e → e = .invalidArgument ∧ ∀ f ∈ fs, f.name ≠ name) := by
  induction fs generalizing i with
  | nil => simp [findLoop]
  | cons f fs ih =>
    unfold findLoop
    by_cases h : f.name = name
    · rw [if_pos h]
      refine ⟨?_, by simp⟩
      intro k hk
      cases hk
      exact ⟨0, f, rfl, rfl, h, by simp⟩
    · rw [if_neg h]
      obtain ⟨g1, g2⟩ := ih (i + 1)
      constructor
      · intro k hk
        obtain ⟨j, f', e1, e2, e3, e4⟩ := g1 k hk
        refine ⟨j + 1, f', by omega, by simpa using e2, e3, ?_⟩
        intro j' hj' f'' hf''
        cases j' with
        | zero => simp at hf''; rw [← hf'']; exact h
        | succ j' => exact e4 j' (by omega) f'' (by simpa using hf'')
      · intro e he
        obtain ⟨e1, e2⟩ := g2 e he
        refine ⟨e1, ?_⟩
        intro f' hf'
        rcases List.mem_cons.mp hf' with rfl | hf'
        · exact h
        · exact e2 f' hf'

omit [Field K] [LinearOrder K] [FloorRing K] [IsStrictOrderedRing K] in
/-- **C37** `find_scalar_field` returns the first field of that name; it throws `std::invalid_argument`, and nothing else, exactly
when there is none. -/
theorem C37_find {d : Nat} (b : Body K d) (name : String) :
    (∀ k, b.findScalarField name = .ok k ↔ ∃ f, b.fields[k]? = some f ∧ f.name = name ∧
      ∀ j < k, ∀ f', b.fields[j]? = some f' → f'.name ≠ name) ∧
    (b.findScalarField name = .error .invalidArgument ↔ ∀ f ∈ b.fields, f.name ≠ name) ∧
    (∀ e, b.findScalarField name = .error e → e = .invalidArgument) := by
  obtain ⟨h1, h2⟩ := findLoop_spec name b.fields 0
  unfold findScalarField
  cases h : findLoop name b.fields 0 with
  | ok k =>
    obtain ⟨j, f, e1, e2, e3, e4⟩ := h1 k h
    rw [Nat.zero_add] at e1; subst e1
    refine ⟨?_, ?_, by simp⟩
    · intro k'
      constructor
      · intro e; cases e; exact ⟨f, e2, e3, e4⟩
      · rintro ⟨f', g1, g2, g3⟩
        rcases lt_trichotomy k k' with hlt | rfl | hlt
        · exact absurd e3 (g3 k hlt f e2)
        · rfl
        · exact absurd g2 (e4 k' hlt f' g1)
    · constructor
      · intro e; cases e
      · intro e; exact absurd e3 (e f (List.mem_of_getElem? e2))
  | error e =>
    obtain ⟨e1, e2⟩ := h2 e h
    subst e1
    refine ⟨?_, ?_, ?_⟩
    · intro k
      constructor
      · intro e; cases e
      · rintro ⟨f', g1, g2, g3⟩
        exact absurd g2 (e2 f' (List.mem_of_getElem? g1))
    · exact ⟨fun _ => e2, fun _ => rfl⟩
    · intro e' h'; cases h'; rfl


/-! ### Non-vacuity -/

namespace Demo

theorem low (i : Fin 2) : IsLow pts i (0 : ℚ) := by
  fin_cases i
  · exact ⟨⟨![0, 0], by simp [pts], by simp⟩, by simp [pts]⟩
  · exact ⟨⟨![0, 0], by simp [pts], by simp⟩, by simp [pts]⟩

theorem high (i : Fin 2) : IsHigh pts i (![3, 1] i : ℚ) := by
  fin_cases i
  · exact ⟨⟨![3, 0], by simp [pts], by simp⟩, by simp [pts]⟩
  · exact ⟨⟨![3, 1], by simp [pts], by simp⟩, by simp [pts]⟩

theorem nd : nDistinct pts 0 = 3 ∧ nDistinct pts 1 = 2 := by constructor <;> decide +kernel

/-- The bins of the demo mesh cover `[-1,4) × [-1/2,3/2)`. -/
theorem inBins (c : Fin 2 → ℚ) (h : -1 ≤ c 0 ∧ c 0 < 4 ∧ -1 / 2 ≤ c 1 ∧ c 1 < 3 / 2) : InBins pts c := by
  intro i lo hi h1 h2
  rw [isLow_unique h1 (low i), isHigh_unique h2 (high i)]
  fin_cases i
  · simp [margin, nd.1]; constructor <;> linarith [h.1, h.2.1]
  · simp [margin, nd.2]; constructor <;> linarith [h.2.2.1, h.2.2.2]

theorem outOfBins (c : Fin 2 → ℚ) (h : 4 < c 0) : OutOfBins pts c := by
  refine ⟨0, 0, 3, low 0, high 0, Or.inr ?_⟩
  simp [margin, nd.1]; linarith

end Demo

/-- A history with an evaluation, a throwing call and an `eval_grad` meets the hypotheses of C30, C31 and C33. -/
example : HistOk Demo.pts [(0, .value ![1, 1 / 2]), (0, .value ![9, 0]), (1, .evalGrad ![7 / 2, -1 / 4])] := by
  intro o ho
  simp only [List.mem_cons, List.not_mem_nil, or_false] at ho
  rcases ho with rfl | rfl | rfl
  · exact Or.inl (Demo.inBins _ (by simp [Body.Call.coord]; norm_num))
  · exact Or.inr (Demo.outOfBins _ (by simp [Body.Call.coord]; norm_num))
  · exact Or.inl (Demo.inBins _ (by simp [Body.Call.coord]; norm_num))

/-- The getter keeps the last successful value (5 at the node `(1,1)`) across a throwing call. -/
example : ∃ b, Body.load (quadOps ℚ) Demo.pts Demo.cells Demo.flds = .ok b ∧
    (b.calls (quadOps ℚ) [(0, .value ![1, 1]), (0, .value ![9, 0])]).getVal 0 = .ok 5 := by
  obtain ⟨b, hb, _⟩ := C22_load_2d Demo.pts Demo.cells Demo.flds Demo.rect Demo.lens
  refine ⟨b, hb, ?_⟩
  have h1 : HistOk Demo.pts [(0, Body.Call.value ![1, 1])] := by
    intro o ho; rw [List.mem_singleton.mp ho]; exact Or.inl (Demo.inBins _ (by simp [Body.Call.coord]; norm_num))
  have hout : OutOfBins Demo.pts ![9, 0] := Demo.outOfBins _ (by simp; norm_num)
  have ho : HistOk Demo.pts [(0, Body.Call.value ![1, 1]), (0, Body.Call.value ![9, 0])] := by
    intro o ho
    simp only [List.mem_cons, List.not_mem_nil, or_false] at ho
    rcases ho with rfl | rfl
    · exact h1 _ (by simp)
    · exact Or.inr hout
  have key := (C33_getters_2d _ _ _ Demo.rect Demo.lens b hb [] _ (by simp [HistOk]) ho 0 (by decide) b rfl).1
  have v1 : b.value (quadOps ℚ) 0 ![1, 1] = .ok 5 := by
    obtain ⟨cell, a, h, g1, g2, g3, g4⟩ := C23_bilinear _ _ _ Demo.rect Demo.lens b hb ![1, 1]
      ⟨_, by simp [Demo.cells], _, _, Demo.cell0, by intro i; fin_cases i <;> decide +kernel⟩
    obtain ⟨v, gv, k⟩ := g4 [] (by simp [HistOk]) 0 _ _ rfl
    have k' : b.value (quadOps ℚ) 0 ![1, 1] = .ok (bilinear a h v ![1, 1]) := k
    simp only [Demo.cells, List.mem_cons, List.not_mem_nil, or_false] at g1
    rcases g1 with rfl | rfl
    · obtain ⟨rfl, rfl⟩ := Mesh.cellAt_unique quadLaw g2 Demo.cell0
      obtain ⟨p, p1, p2⟩ := gv 2
      simp at p1 p2; subst p1; simp at p2
      rw [k']; simp [bilinear, ← p2]
    · obtain ⟨rfl, rfl⟩ := Mesh.cellAt_unique quadLaw g2 Demo.cell1
      obtain ⟨p, p1, p2⟩ := gv 3
      simp at p1 p2; subst p1; simp at p2
      rw [k']; simp [bilinear, ← p2]
  have v2 := (C30_throws_2d _ _ _ Demo.rect Demo.lens b hb _ h1 0 (by decide) _ hout).2.1
  rw [key]
  simp only [calls] at v2
  simp only [lastOutcome, valueCall, if_true, v1, v2]

end Verif
