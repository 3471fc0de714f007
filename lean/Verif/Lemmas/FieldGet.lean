import Verif.Lemmas.Field

/-! Helper lemmas: stored results of a field after a call (getters). -/

namespace Verif
open Spec Bin
namespace PField
open Mesh
variable {K : Type} {d n : Nat} [Field K] [LinearOrder K] [FloorRing K] [IsStrictOrderedRing K]
variable {E : ElemOps K d} {unit : Fin n → Fin d → K} {R : (a h c : Fin d → K) → Prop}
variable {pts : List (Fin d → K)} {cells : List (List Nat)} {lo hi : Fin d → K} {qs : List (Interp K d)} {m : Mesh K d}

/-- What a call at `c` with weights `g` computes from buffers `b`. -/
def comp (E : ElemOps K d) (pts : List (Fin d → K)) (lo hi : Fin d → K) (qs : List (Interp K d)) (data : List K) (z : K)
    (c : Fin d → K) (g : Interp K d → K) (b : Buf K) : Res K :=
  sumLoop data (after E g c (inBin pts lo hi qs (binAt pts lo hi c)) b) (inBin pts lo hi qs (binAt pts lo hi c)).length 0 z

/-- A call at `c` does not change what a further call at `c` computes. -/
theorem comp_after (L : ElemLaw E unit R) (hb : Built E unit pts cells lo hi qs m) {data : List K}
    (hd : data.length = pts.length) {b : Buf K} (hbuf : BufOk pts lo hi qs pts.length b) {c : Fin d → K} (hc : InBins pts c)
    (z : K) (g g' : Interp K d → K) :
    comp E pts lo hi qs data z c g (after E g' c (inBin pts lo hi qs (binAt pts lo hi c)) b) =
      comp E pts lo hi qs data z c g b := by
  have hk := hb.inBox hc
  unfold comp
  cases hf : firstInRange E c (inBin pts lo hi qs (binAt pts lo hi c)) with
  | none => simp [after, hf]
  | some q =>
    have hnode := hb.node_lt L
    have hok := hbuf.after (E := E) hnode g' c hk
    rw [sum_after g hf data z (hok.bf _ hk) (hok.ni _ hk) (by rw [hd]; exact hok.idx)
      (by rw [hd]; intro p hp; exact hnode p (List.mem_of_mem_filter hp))]
    rw [sum_after g hf data z (hbuf.bf _ hk) (hbuf.ni _ hk) (by rw [hd]; exact hbuf.idx)
      (by rw [hd]; intro p hp; exact hnode p (List.mem_of_mem_filter hp))]

theorem comp_ok (L : ElemLaw E unit R) (hb : Built E unit pts cells lo hi qs m) {data : List K}
    (hd : data.length = pts.length) {b : Buf K} (hbuf : BufOk pts lo hi qs pts.length b) {c : Fin d → K} (hc : InBins pts c)
    (z : K) (g : Interp K d → K) : ∃ v, comp E pts lo hi qs data z c g b = .ok v := by
  have hk := hb.inBox hc
  have hok := hbuf.after (E := E) (hb.node_lt L) g c hk
  exact ⟨_, sumLoop_of data _ _ 0 z (by have := hok.bf _ hk; omega) (by have := hok.ni _ hk; omega) (by rw [hd]; exact hok.idx)⟩

theorem gradAt_comp (L : ElemLaw E unit R) (hb : Built E unit pts cells lo hi qs m) {f : PField K}
    (hf : FOk pts lo hi qs f) {c : Fin d → K} (hc : InBins pts c) (di : Fin d) {g : Interp K d → K}
    (hg : (fun q => E.grad q c di) = fun q => .ok (g q)) :
    ∃ v m' f', gradAt E m f c di = (.ok v, m', f') ∧ StOk E unit pts cells lo hi qs f m m' f' ∧ f'.val = f.val ∧
      f'.grad = f.grad.set di v ∧ f'.hess = f.hess ∧ comp E pts lo hi qs f.data f.zero c g f.buf = .ok v ∧
      f'.buf = after E g c (inBin pts lo hi qs (binAt pts lo hi c)) f.buf := by
  obtain ⟨m', f1, f2, f3⟩ := fill_in hb hf.buf g hc
  obtain ⟨v, hv⟩ := comp_ok L hb hf.data_len hf.buf hc f.zero g
  have hs := vset_nat f.grad di v (by rw [hf.grad_len]; exact di.isLt)
  have hok := hf.buf.after (E := E) (hb.node_lt L) g c (hb.inBox hc)
  refine ⟨v, m', { f with buf := after E g c (inBin pts lo hi qs (binAt pts lo hi c)) f.buf, grad := f.grad.set di v }, ?_,
    ⟨f2, f3, ⟨hf.1, by simpa using hf.2, hf.3, hf.4, hok⟩, rfl, rfl, rfl⟩, rfl, rfl, rfl, hv, rfl⟩
  have hv' := hv
  unfold comp at hv'
  simp only [gradAt, gradBasisFunctions, hg, f1, hv', hs]

theorem hessAt_comp (L : ElemLaw E unit R) (hb : Built E unit pts cells lo hi qs m) {f : PField K}
    (hf : FOk pts lo hi qs f) {c : Fin d → K} (hc : InBins pts c) (di dj : Fin d) {g : Interp K d → K}
    (hg : (fun q => E.hess q c di dj) = fun q => .ok (g q)) :
    ∃ v m' f', hessAt E m f c di dj = (.ok v, m', f') ∧ StOk E unit pts cells lo hi qs f m m' f' ∧ f'.val = f.val ∧
      f'.grad = f.grad ∧ f'.hess = f.hess.set di ((f.hess.getD di []).set dj v) ∧
      comp E pts lo hi qs f.data f.zero c g f.buf = .ok v ∧
      f'.buf = after E g c (inBin pts lo hi qs (binAt pts lo hi c)) f.buf := by
  obtain ⟨m', f1, f2, f3⟩ := fill_in hb hf.buf g hc
  obtain ⟨v, hv⟩ := comp_ok L hb hf.data_len hf.buf hc f.zero g
  have hok := hf.buf.after (E := E) (hb.node_lt L) g c (hb.inBox hc)
  have hlt : (di : Nat) < f.hess.length := by rw [hf.hess_len]; exact di.isLt
  have hr := vget_nat f.hess di hlt
  have hrl : f.hess[(di : Nat)].length = d := hf.row_len _ (List.getElem_mem _)
  have hs := vset_nat f.hess[(di : Nat)] dj v (by rw [hrl]; exact dj.isLt)
  have hs2 := vset_nat f.hess di (f.hess[(di : Nat)].set dj v) hlt
  have e : f.hess.getD di [] = f.hess[(di : Nat)] := by simp [hlt]
  refine ⟨v, m', { f with buf := after E g c (inBin pts lo hi qs (binAt pts lo hi c)) f.buf, hess := f.hess.set di (f.hess[(di : Nat)].set dj v) }, ?_,
    ⟨f2, f3, ⟨hf.1, hf.2, by simpa using hf.3, ?_, hok⟩, rfl, rfl, rfl⟩, rfl, rfl, by rw [e], hv, rfl⟩
  · have hv' := hv
    unfold comp at hv'
    simp only [hessAt, hessBasisFunctions, hg, f1, hv', hr, hs, hs2, ok_bind]
  · intro r hr'
    rcases List.mem_or_eq_of_mem_set hr' with h | h
    · exact hf.row_len r h
    · rw [h]; simp [hrl]

/-- Getter of gradient component `x` after `eval_grad`'s loop. -/
theorem evalGradLoop_get (L : ElemLaw E unit R) (T : ElemTotal E) {c : Fin d → K} (hc : InBins pts c) (ds : List Nat)
    (hds : ∀ x ∈ ds, x < d) {b0 : Buf K} {m : Mesh K d} (hb : Built E unit pts cells lo hi qs m) {f : PField K}
    (hf : FOk pts lo hi qs f) (hsame : ∀ g, comp E pts lo hi qs f.data f.zero c g f.buf = comp E pts lo hi qs f.data f.zero c g b0) :
    ∃ m' f', evalGradLoop E c ds m f = (.ok (), m', f') ∧ StOk E unit pts cells lo hi qs f m m' f' ∧ f'.val = f.val ∧
      f'.hess = f.hess ∧ ∀ (x : Fin d) (g : Interp K d → K), (fun q => E.grad q c x) = (fun q => .ok (g q)) →
        getGrad f' x = if (x : Nat) ∈ ds then comp E pts lo hi qs f.data f.zero c g b0 else getGrad f x := by
  induction ds generalizing m f with
  | nil => exact ⟨m, f, rfl, ⟨hb, rfl, hf, Same.refl f⟩, rfl, rfl, fun x g hg => by simp⟩
  | cons y ys ih =>
    have hy := hds y (by simp)
    obtain ⟨gy, hgy⟩ := T.grad c ⟨y, hy⟩
    obtain ⟨v, m1, f1, h1, h2, h3, h4, h5, h6, h7⟩ := gradAt_comp L hb hf hc ⟨y, hy⟩ hgy
    have hsame' : ∀ g, comp E pts lo hi qs f1.data f1.zero c g f1.buf = comp E pts lo hi qs f1.data f1.zero c g b0 := by
      intro g
      rw [h2.2.2.2.data, h2.2.2.2.zero, h7, comp_after L hb hf.data_len hf.buf hc, hsame]
    obtain ⟨m2, f2, g1, g2, g3, g4, g5⟩ := ih (fun y hy => hds y (by simp [hy])) h2.1 h2.2.2.1 hsame'
    refine ⟨m2, f2, ?_, h2.trans g2, g3.trans h3, g4.trans h5, ?_⟩
    · have h1' : gradAt E m f c y = (.ok v, m1, f1) := h1
      simp only [evalGradLoop, h1', g1]
    · intro x g hg
      rw [g5 x g hg, h2.2.2.2.data, h2.2.2.2.zero]
      by_cases hx : (x : Nat) ∈ ys
      · simp [hx]
      · rw [if_neg hx]
        by_cases hxy : (x : Nat) = y
        · have hxe : x = ⟨y, hy⟩ := Fin.ext hxy
          subst hxe
          have hgg : g = gy := by
            funext q
            have := congrFun (hg.symm.trans hgy) q
            exact Except.ok.inj this
          subst hgg
          rw [if_pos (by simp), ← hsame, h6, getGrad, h4]
          have hl : y < (f.grad.set y v).length := by simp [hf.grad_len, hy]
          rw [vget_nat _ _ hl]
          simp
        · rw [if_neg (by simp [hx, hxy]), getGrad, getGrad, h4]
          have hl : (x : Nat) < f.grad.length := by rw [hf.grad_len]; exact x.isLt
          rw [vget_nat _ _ (by simpa using hl), vget_nat _ _ hl]
          simp [List.getElem_set, Ne.symm hxy]

/-- Getter of Hessian component `(x,w)` after `eval_hess`'s loop. -/
theorem evalHessLoop_get (L : ElemLaw E unit R) (T : ElemTotal E) {c : Fin d → K} (hc : InBins pts c) (ds : List (Nat × Nat))
    (hds : ∀ x ∈ ds, x.1 < d ∧ x.2 < d) {b0 : Buf K} {m : Mesh K d} (hb : Built E unit pts cells lo hi qs m) {f : PField K}
    (hf : FOk pts lo hi qs f) (hsame : ∀ g, comp E pts lo hi qs f.data f.zero c g f.buf = comp E pts lo hi qs f.data f.zero c g b0) :
    ∃ m' f', evalHessLoop E c ds m f = (.ok (), m', f') ∧ StOk E unit pts cells lo hi qs f m m' f' ∧ f'.val = f.val ∧
      f'.grad = f.grad ∧ ∀ (x w : Fin d) (g : Interp K d → K), (fun q => E.hess q c x w) = (fun q => .ok (g q)) →
        getHess f' x w = if ((x : Nat), (w : Nat)) ∈ ds then comp E pts lo hi qs f.data f.zero c g b0 else getHess f x w := by
  induction ds generalizing m f with
  | nil => exact ⟨m, f, rfl, ⟨hb, rfl, hf, Same.refl f⟩, rfl, rfl, fun x w g hg => by simp⟩
  | cons y ys ih =>
    have hy := hds y (by simp)
    obtain ⟨gy, hgy⟩ := T.hess c ⟨y.1, hy.1⟩ ⟨y.2, hy.2⟩
    obtain ⟨v, m1, f1, h1, h2, h3, h4, h5, h6, h7⟩ := hessAt_comp L hb hf hc ⟨y.1, hy.1⟩ ⟨y.2, hy.2⟩ hgy
    have hsame' : ∀ g, comp E pts lo hi qs f1.data f1.zero c g f1.buf = comp E pts lo hi qs f1.data f1.zero c g b0 := by
      intro g
      rw [h2.2.2.2.data, h2.2.2.2.zero, h7, comp_after L hb hf.data_len hf.buf hc, hsame]
    obtain ⟨m2, f2, g1, g2, g3, g4, g5⟩ := ih (fun y hy => hds y (by simp [hy])) h2.1 h2.2.2.1 hsame'
    refine ⟨m2, f2, ?_, h2.trans g2, g3.trans h3, g4.trans h4, ?_⟩
    · have h1' : hessAt E m f c y.1 y.2 = (.ok v, m1, f1) := h1
      simp only [evalHessLoop, h1', g1]
    · intro x w g hg
      rw [g5 x w g hg, h2.2.2.2.data, h2.2.2.2.zero]
      by_cases hx : ((x : Nat), (w : Nat)) ∈ ys
      · simp [hx]
      · rw [if_neg hx]
        have hlx : (x : Nat) < f.hess.length := by rw [hf.hess_len]; exact x.isLt
        have hrow : f.hess[(x : Nat)].length = d := hf.row_len _ (List.getElem_mem _)
        have hlw : (w : Nat) < f.hess[(x : Nat)].length := by rw [hrow]; exact w.isLt
        by_cases hxy : ((x : Nat), (w : Nat)) = y
        · obtain ⟨y1, y2⟩ := y
          simp only [Prod.mk.injEq] at hxy
          have hxe : x = ⟨y1, hy.1⟩ := Fin.ext hxy.1
          have hwe : w = ⟨y2, hy.2⟩ := Fin.ext hxy.2
          subst hxe; subst hwe
          have hgg : g = gy := by
            funext q
            have := congrFun (hg.symm.trans hgy) q
            exact Except.ok.inj this
          subst hgg
          rw [if_pos (by simp), ← hsame, h6, getHess, h5]
          rw [vget_nat _ _ (by simpa using hlx)]
          simp only [ok_bind, List.getElem_set_self]
          rw [vget_nat _ _ (by simpa [hlx] using hlw)]
          simp
        · rw [if_neg (by simp [hx, hxy]), getHess, getHess, h5]
          rw [vget_nat _ _ (by simpa using hlx), vget_nat _ _ hlx]
          simp only [ok_bind]
          by_cases hx1 : y.1 = (x : Nat)
          · simp only [List.getElem_set, hx1, if_true]
            have e : f.hess.getD (x : Nat) [] = f.hess[(x : Nat)] := by simp [hlx]
            rw [e, vget_nat _ _ (by simpa using hlw), vget_nat _ _ hlw]
            have hx2 : y.2 ≠ (w : Nat) := fun h => hxy (by rw [← hx1, ← h])
            simp [List.getElem_set, hx2]
          · simp only [List.getElem_set, hx1, if_false]

end PField
end Verif
