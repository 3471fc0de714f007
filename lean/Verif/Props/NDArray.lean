import Verif.Lemmas.NDArray

/-!
# Properties C01-C07 and C68: `PNDArray`

`NDArray.Reachable d a` says that `a` is the state of an array object after any error-free history of constructor, `resize`,
`reshape`, `clear` and element-write calls. `Spec.GoodDims` (at least one extent, all positive, volume within `int`) is the
usable-shape condition; `Spec.InBox`, `Spec.rowMajor`, `Spec.LexLt` are plain recursions in `Spec/Tensor.lean`.
-/

namespace Verif
open Spec NDArray
variable {α : Type}

/-- Shape invariant of an array object. -/
structure NDArray.Inv (a : NDArray α) : Prop where
  order_eq : a.order = a.dim.length
  vol_eq : a.volume = if a.dim = [] then 0 else prod a.dim
  len_eq : (a.val.length : Int) = a.volume
  unroll_eq : a.unroll = strides a.dim

theorem NDArray.inv_empty : (NDArray.empty : NDArray α).Inv := by
  constructor <;> simp [NDArray.empty, strides]

theorem NDArray.resize_ok_inv {d : α} {a a' : NDArray α} {dim : List Int} (h : a.resize d dim = (.ok (), a')) :
    a'.Inv ∧ a'.dim = dim ∧ dim ≠ [] ∧ a'.val = vresize a.val a'.volume.toNat d := by
  unfold NDArray.resize at h
  cases hc : calcVolume dim with
  | error e => simp [hc] at h
  | ok v =>
    simp only [hc] at h
    by_cases hv : v < 0
    · simp [hv] at h
    · simp only [hv, if_false] at h
      cases hg : genUnroll dim a.unroll with
      | error e => simp [hg] at h
      | ok u =>
        simp only [hg, Prod.mk.injEq, true_and] at h
        have hv' := calcVolume_ok hc
        have hu := genUnroll_ok hg
        subst h
        refine ⟨⟨rfl, hv', ?_, hu.2⟩, rfl, hu.1, rfl⟩
        simp; omega

theorem NDArray.reshape_ok_inv {a a' : NDArray α} {dim : List Int} (hi : a.Inv) (h : a.reshape dim = (.ok (), a')) :
    a'.Inv := by
  unfold NDArray.reshape at h
  cases hc : calcVolume dim with
  | error e => simp [hc] at h
  | ok v =>
    simp only [hc] at h
    by_cases hv : v = a.volume
    · simp only [hv, if_true] at h
      cases hg : genUnroll dim a.unroll with
      | error e => simp [hg] at h
      | ok u =>
        simp only [hg, Prod.mk.injEq, true_and] at h
        have hv' := calcVolume_ok hc
        have hu := genUnroll_ok hg
        subst h
        exact ⟨rfl, by rw [← hv]; exact hv', hi.len_eq, hu.2⟩
    · simp [hv] at h

theorem NDArray.ofDim_inv {d : α} {a : NDArray α} {dim : List Int} (h : NDArray.ofDim d dim = .ok a) : a.Inv := by
  unfold NDArray.ofDim at h
  split at h
  · rename_i u a' he
    cases h
    exact (resize_ok_inv he).1
  · cases h

theorem NDArray.setLin_inv {a a' : NDArray α} {i : Int} {x : α} (hi : a.Inv) (h : a.setLin i x = .ok a') : a'.Inv := by
  simp only [NDArray.setLin, bind_eq_ok, vset_ok] at h
  obtain ⟨v, ⟨_, _, rfl⟩, h⟩ := h
  cases h
  exact ⟨hi.order_eq, hi.vol_eq, by simpa using hi.len_eq, hi.unroll_eq⟩

theorem NDArray.step_inv {d : α} {a a' : NDArray α} {op : NDOp α} (hi : a.Inv) (h : a.step d op = .ok a') : a'.Inv := by
  cases op with
  | construct dim => exact ofDim_inv h
  | constructVal dim value =>
    simp only [NDArray.step, NDArray.ofDimVal, bind_eq_ok] at h
    obtain ⟨b, hb, h⟩ := h
    have hbi := ofDim_inv hb
    split at h
    · cases h
    · rename_i hv
      cases h
      exact ⟨hbi.order_eq, hbi.vol_eq, by simp at hv; simp [hv], hbi.unroll_eq⟩
  | resize dim =>
    simp only [NDArray.step] at h
    split at h
    · rename_i he; cases h; exact (resize_ok_inv he).1
    · cases h
  | reshape dim =>
    simp only [NDArray.step] at h
    split at h
    · rename_i he; cases h; exact reshape_ok_inv hi he
    · cases h
  | clear => cases h; constructor <;> simp [NDArray.clear, strides]
  | setLin i x => exact setLin_inv hi h
  | set t x =>
    simp only [NDArray.step, NDArray.set, bind_eq_ok] at h
    obtain ⟨l, _, h⟩ := h
    exact setLin_inv hi h

theorem NDArray.run_inv {d : α} {ops : List (NDOp α)} {a a' : NDArray α} (hi : a.Inv) (h : a.run d ops = .ok a') :
    a'.Inv := by
  induction ops generalizing a with
  | nil => cases h; exact hi
  | cons op ops ih =>
    simp only [NDArray.run, bind_eq_ok] at h
    obtain ⟨b, hb, h⟩ := h
    exact ih (step_inv hi hb) h

theorem NDArray.Reachable.shaped {d : α} {a : NDArray α} (hr : a.Reachable d) (hg : GoodDims a.dim) :
    Shaped a a.dim := by
  obtain ⟨ops, h⟩ := hr
  have hi := run_inv inv_empty h
  have := hi.vol_eq
  simp only [hg.1, if_false] at this
  exact ⟨rfl, hi.unroll_eq, hi.order_eq, this, by rw [← this]; exact hi.len_eq⟩

theorem NDArray.run_append {d : α} {ops : List (NDOp α)} {a b : NDArray α} (h : a.run d ops = .ok b)
    (ops' : List (NDOp α)) : a.run d (ops ++ ops') = b.run d ops' := by
  induction ops generalizing a with
  | nil => cases h; rfl
  | cons op ops ih =>
    simp only [NDArray.run, List.cons_append, bind_eq_ok] at h ⊢
    obtain ⟨c, hc, h⟩ := h
    simp only [hc, ok_bind]
    exact ih h

/-- **C06** After any error-free history of public calls, `order()` is the number of extents, `volume()` is their product
(0 if there are none), and the storage holds `volume()` elements. -/
theorem C06_shape_invariant (d : α) (a : NDArray α) (hr : a.Reachable d) :
    a.order = a.dim.length ∧ a.volume = (if a.dim = [] then 0 else prod a.dim) ∧ (a.val.length : Int) = a.volume := by
  obtain ⟨ops, h⟩ := hr
  have hi := run_inv inv_empty h
  exact ⟨hi.order_eq, hi.vol_eq, hi.len_eq⟩

example : ∃ a : NDArray Int, a.Reachable 0 ∧ a.dim = [3, 2] ∧ a.val = [0, 0, 0, 7, 0, 0] :=
  ⟨⟨[3, 2], [2, 1], [0, 0, 0, 7, 0, 0], 2, 6⟩,
    ⟨[.construct [2, 3], .set [1, 0] 7, .reshape [3, 2]], by decide⟩, rfl, rfl⟩

/-- The extents an array was given last by an error-free history, `cur` before it: those of the last construction, `resize` or `reshape`,
none after `clear`. -/
def extentsAfter (cur : List Int) : List (NDOp α) → List Int
  | [] => cur
  | .construct dim :: ops => extentsAfter dim ops
  | .constructVal dim _ :: ops => extentsAfter dim ops
  | .resize dim :: ops => extentsAfter dim ops
  | .reshape dim :: ops => extentsAfter dim ops
  | .clear :: ops => extentsAfter [] ops
  | .setLin _ _ :: ops => extentsAfter cur ops
  | .set _ _ :: ops => extentsAfter cur ops

theorem NDArray.run_extents {d : α} {ops : List (NDOp α)} {a a' : NDArray α} (hi : a.Inv) (h : a.run d ops = .ok a') :
    a'.dim = extentsAfter a.dim ops := by
  induction ops generalizing a with
  | nil => cases h; rfl
  | cons op ops ih =>
    simp only [NDArray.run, bind_eq_ok] at h
    obtain ⟨b, hb, h⟩ := h
    have := ih (step_inv hi hb) h
    rw [this]
    cases op with
    | construct dim =>
      simp only [NDArray.step, NDArray.ofDim] at hb
      split at hb
      · rename_i he; cases hb; rw [(resize_ok_inv he).2.1]; rfl
      · cases hb
    | constructVal dim value =>
      simp only [NDArray.step, NDArray.ofDimVal, bind_eq_ok, NDArray.ofDim] at hb
      obtain ⟨c, hc, hb⟩ := hb
      split at hc
      · rename_i he
        cases hc
        split at hb
        · cases hb
        · cases hb; simp only; rw [(resize_ok_inv he).2.1]; rfl
      · cases hc
    | resize dim =>
      simp only [NDArray.step] at hb
      split at hb
      · rename_i he; cases hb; rw [(resize_ok_inv he).2.1]; rfl
      · cases hb
    | reshape dim =>
      simp only [NDArray.step] at hb
      split at hb
      · rename_i he
        cases hb
        simp only [NDArray.reshape] at he
        split at he
        · cases he
        · split at he
          · split at he
            · cases he
            · cases he; rfl
          · cases he
      · cases hb
    | clear => cases hb; rfl
    | setLin i x =>
      simp only [NDArray.step, NDArray.setLin, bind_eq_ok] at hb
      obtain ⟨v, _, hb⟩ := hb
      cases hb; rfl
    | set t x =>
      simp only [NDArray.step, NDArray.set, NDArray.setLin, bind_eq_ok] at hb
      obtain ⟨l, _, v, _, hb⟩ := hb
      cases hb; rfl

/-- **C06** The extents are those given last, and `dim(i)` reports the one with number `i` (out of their number it is undefined). -/
theorem C06_extents (d : α) (ops : List (NDOp α)) (a : NDArray α) (h : NDArray.empty.run d ops = .ok a) (i : Int) :
    a.dim = extentsAfter [] ops ∧ a.order = (extentsAfter [] ops).length ∧
      (∀ n, a.dimAt i = .ok n ↔ 0 ≤ i ∧ (extentsAfter [] ops)[i.toNat]? = some n) ∧
      ((i < 0 ∨ a.order ≤ i) → a.dimAt i = .error (.ub .oob)) := by
  have h1 := run_extents inv_empty h
  have h2 := (run_inv inv_empty h).order_eq
  have he : extentsAfter (NDArray.empty : NDArray α).dim ops = extentsAfter [] ops := rfl
  rw [he] at h1
  refine ⟨h1, by rw [h2, h1], fun n => ?_, fun hout => ?_⟩
  · rw [NDArray.dimAt, h1, vget_ok]
  · exact vget_err (by omega)

example : ∃ a : NDArray Int, NDArray.empty.run 0 [.construct [2, 3], .set [1, 0] 7, .reshape [3, 2]] = .ok a ∧ a.dimAt 0 = .ok 3 ∧
    extentsAfter [] [NDOp.construct [2, 3], .set [1, 0] 7, .reshape [3, 2]] = [3, 2] :=
  ⟨⟨[3, 2], [2, 1], [0, 0, 0, 7, 0, 0], 2, 6⟩, by decide, by decide, by decide⟩

/-- **C01** linear → tensor → linear. `term` is the caller's index container of length `order()`, with any contents. -/
theorem C01_linear_tensor_linear (d : α) (a : NDArray α) (hr : a.Reachable d) (hg : GoodDims a.dim)
    (l : Int) (h0 : 0 ≤ l) (h1 : l < a.volume) (term : List Int) (hlen : (term.length : Int) = a.order) :
    ∃ t, a.tensorIndices l term = .ok t ∧ InBox a.dim t ∧ a.linearIndex t = .ok l := by
  have hs := hr.shaped hg
  rw [hs.vol_eq] at h1
  rw [hs.order_eq] at hlen
  have hb := digits_inBox hg.2.1 h0 h1
  exact ⟨digits a.dim l, tensorIndices_of hs hg (by omega) h0 h1, hb,
    by rw [linearIndex_of hs hg hb, dot_digits hg.2.1 h0 h1]⟩

/-- **C02** tensor → linear → tensor, and distinct in-range tensor indices never share a slot. -/
theorem C02_tensor_linear_tensor (d : α) (a : NDArray α) (hr : a.Reachable d) (hg : GoodDims a.dim)
    (t : List Int) (ht : InBox a.dim t) :
    (∃ l, a.linearIndex t = .ok l ∧ 0 ≤ l ∧ l < a.volume ∧
      ∀ term : List Int, (term.length : Int) = a.order → a.tensorIndices l term = .ok t) ∧
    (∀ t', InBox a.dim t' → a.linearIndex t' = a.linearIndex t → t' = t) := by
  have hs := hr.shaped hg
  have h0 := dot_nonneg hg.2.1 ht
  have h1 := dot_lt hg.2.1 ht
  refine ⟨⟨dot a.dim t, linearIndex_of hs hg ht, h0, by rw [hs.vol_eq]; exact h1, ?_⟩, ?_⟩
  · intro term hlen
    rw [hs.order_eq] at hlen
    rw [tensorIndices_of hs hg (by omega) h0 h1, digits_dot hg.2.1 ht]
  · intro t' ht' he
    rw [linearIndex_of hs hg ht, linearIndex_of hs hg ht'] at he
    exact dot_inj hg.2.1 ht' ht (by simpa using he)

/-- **C03** `linear_index` is the row-major position, and linear order is lexicographic order. -/
theorem C03_row_major (d : α) (a : NDArray α) (hr : a.Reachable d) (hg : GoodDims a.dim)
    (t : List Int) (ht : InBox a.dim t) :
    a.linearIndex t = .ok (rowMajor a.dim t) ∧
    ∀ t', InBox a.dim t' → (LexLt t t' ↔ rowMajor a.dim t < rowMajor a.dim t') := by
  have hs := hr.shaped hg
  refine ⟨by rw [linearIndex_of hs hg ht, rowMajor_eq_dot ht], ?_⟩
  intro t' ht'
  rw [rowMajor_eq_dot ht, rowMajor_eq_dot ht']
  exact lex_iff_dot hg.2.1 ht ht'

/-- The common hypotheses of C01-C03 hold for a 2×3×4 array and a non-trivial index. -/
example : ∃ a : NDArray Int, a.Reachable 0 ∧ GoodDims a.dim ∧ InBox a.dim [1, 2, 3] ∧ (0:Int) ≤ 23 ∧ 23 < a.volume ∧
    a.order = 3 :=
  ⟨⟨[2, 3, 4], [12, 4, 1], List.replicate 24 0, 3, 24⟩, ⟨[.construct [2, 3, 4]], by decide⟩,
    ⟨by decide, by decide, by decide⟩, by simp [InBox], by decide, by decide, rfl⟩

theorem NDArray.get_of {a : NDArray α} {dim t : List Int} (hs : Shaped a dim) (h : GoodDims dim) (ht : InBox dim t) :
    ∃ x, a.get t = .ok x ∧ a.val[(dot dim t).toNat]? = some x := by
  have h0 := dot_nonneg h.2.1 ht
  have h1 := dot_lt h.2.1 ht
  obtain ⟨x, hx, hx'⟩ := vget_of_lt a.val (dot dim t) h0 (by have := hs.len_eq; omega)
  exact ⟨x, by simp [NDArray.get, linearIndex_of hs h ht, NDArray.getLin, hx], hx'⟩

theorem NDArray.set_of {a : NDArray α} {dim t : List Int} (hs : Shaped a dim) (h : GoodDims dim) (ht : InBox dim t)
    (x : α) :
    a.set t x = .ok { a with val := a.val.set (dot dim t).toNat x } ∧
      Shaped { a with val := a.val.set (dot dim t).toNat x } dim := by
  have h0 := dot_nonneg h.2.1 ht
  have h1 := dot_lt h.2.1 ht
  have hl : (dot dim t).toNat < a.val.length := by have := hs.len_eq; omega
  constructor
  · simp [NDArray.set, linearIndex_of hs h ht, NDArray.setLin, vset, h0, hl]
  · exact ⟨hs.dim_eq, hs.unroll_eq, hs.order_eq, hs.vol_eq, by simpa using hs.len_eq⟩

theorem NDArray.set_get {a : NDArray α} {dim t : List Int} (hs : Shaped a dim) (h : GoodDims dim) (ht : InBox dim t)
    (x : α) : ({ a with val := a.val.set (dot dim t).toNat x } : NDArray α).get t = .ok x ∧
    ∀ u, InBox dim u → u ≠ t →
      ({ a with val := a.val.set (dot dim t).toNat x } : NDArray α).get u = a.get u := by
  have hset := NDArray.set_of hs h ht x
  have h0 := dot_nonneg h.2.1 ht
  have h1 := dot_lt h.2.1 ht
  have hl : (dot dim t).toNat < a.val.length := by have := hs.len_eq; omega
  constructor
  · obtain ⟨y, hy, hy'⟩ := NDArray.get_of hset.2 h ht
    rw [hy]; simp [hl] at hy'; rw [hy']
  · intro u hu hne
    obtain ⟨y, hy, hy'⟩ := NDArray.get_of hset.2 h hu
    obtain ⟨z, hz, hz'⟩ := NDArray.get_of hs h hu
    have hu0 := dot_nonneg h.2.1 hu
    have : dot dim t ≠ dot dim u := fun e => hne (dot_inj h.2.1 hu ht e.symm)
    have : (dot dim t).toNat ≠ (dot dim u).toNat := by omega
    simp [this] at hy'
    rw [hy, hz, ← hz'.symm.trans hy' |> Option.some.inj]

/-- **C04** Writing at a valid index changes exactly the value read there, and no part of the shape. -/
theorem C04_write_frame (d : α) (a : NDArray α) (hr : a.Reachable d) (hg : GoodDims a.dim)
    (t : List Int) (ht : InBox a.dim t) (x : α) :
    ∃ a', a.set t x = .ok a' ∧ a'.get t = .ok x ∧
      (∀ u, InBox a.dim u → u ≠ t → a'.get u = a.get u ∧ ∃ y, a.get u = .ok y) ∧
      a'.dim = a.dim ∧ a'.order = a.order ∧ a'.volume = a.volume ∧ a'.Reachable d := by
  have hs := hr.shaped hg
  have hset := NDArray.set_of hs hg ht x
  refine ⟨_, hset.1, (NDArray.set_get hs hg ht x).1, ?_, rfl, rfl, rfl, ?_⟩
  · intro u hu hne
    obtain ⟨y, hy, _⟩ := NDArray.get_of hs hg hu
    exact ⟨(NDArray.set_get hs hg ht x).2 u hu hne, y, hy⟩
  · obtain ⟨ops, h⟩ := hr
    exact ⟨ops ++ [.set t x], by simp [NDArray.run_append h, NDArray.run, NDArray.step, hset.1]⟩

example : ∃ a : NDArray Int, a.Reachable 0 ∧ GoodDims a.dim ∧ InBox a.dim [1, 2] ∧ InBox a.dim [0, 1] ∧
    a.get [0, 1] = .ok 5 :=
  ⟨⟨[2, 3], [3, 1], [0, 5, 0, 0, 0, 0], 2, 6⟩, ⟨[.construct [2, 3], .set [0, 1] 5], by decide⟩,
    ⟨by decide, by decide, by decide⟩, by simp [InBox], by simp [InBox], by decide⟩

/-- **C05** `reshape` to a shape of the same volume succeeds, takes the new shape and keeps the value at every linear
index; a usable shape of a different volume ends the program with status 1; in no case does a stored value change. -/
theorem C05_reshape (d : α) (a : NDArray α) (hr : a.Reachable d) (dim' : List Int) :
    (GoodDims dim' → prod dim' = a.volume → ∃ a', a.reshape dim' = (.ok (), a') ∧ a'.dim = dim' ∧
        a'.order = dim'.length ∧ a'.volume = a.volume ∧ a'.Reachable d ∧ (∀ i, a'.getLin i = a.getLin i) ∧
        ∀ t, InBox dim' t → a'.get t = a.getLin (rowMajor dim' t)) ∧
    (GoodDims dim' → prod dim' ≠ a.volume → a.reshape dim' = (.error (.exit 1), a)) ∧
    (∀ i, (a.reshape dim').2.getLin i = a.getLin i) := by
  refine ⟨?_, ?_, ?_⟩
  · intro hg hv
    have he : a.reshape dim' = (.ok (), { a with dim := dim', order := dim'.length, unroll := strides dim' }) := by
      simp [NDArray.reshape, calcVolume_good hg, genUnroll_good _ hg, hv]
    obtain ⟨ops, h⟩ := hr
    have hr' : ({ a with dim := dim', order := dim'.length, unroll := strides dim' } : NDArray α).Reachable d :=
      ⟨ops ++ [.reshape dim'], by simp [NDArray.run_append h, NDArray.run, NDArray.step, he]⟩
    refine ⟨_, he, rfl, rfl, rfl, hr', fun i => rfl, ?_⟩
    intro t ht
    have hs := hr'.shaped hg
    have := linearIndex_of hs hg ht
    simp only [NDArray.get, this, ok_bind, rowMajor_eq_dot ht]
    rfl
  · intro hg hv
    simp [NDArray.reshape, calcVolume_good hg, hv]
  · intro i
    unfold NDArray.reshape
    split
    · rfl
    · split
      · split <;> rfl
      · rfl

example : ∃ a : NDArray Int, a.Reachable 0 ∧ GoodDims [3, 2] ∧ prod [3, 2] = a.volume ∧ GoodDims [5] ∧
    prod [5] ≠ a.volume :=
  ⟨⟨[2, 3], [3, 1], [0, 5, 0, 0, 0, 0], 2, 6⟩, ⟨[.construct [2, 3], .set [0, 1] 5], by decide⟩,
    ⟨by decide, by decide, by decide⟩, by decide, ⟨by decide, by decide, by decide⟩, by decide⟩

theorem volLoop_fit (ds : List Int) (acc : Int) (h : ∀ n, intMin ≤ acc * prod (ds.take n) ∧ acc * prod (ds.take n) ≤ intMax) :
    NDArray.volLoop acc ds = .ok (acc * prod ds) := by
  induction ds generalizing acc with
  | nil => simp [NDArray.volLoop, prod]
  | cons d ds ih =>
    have h1 := h 1
    simp only [List.take_succ_cons, List.take_zero, prod, Int.mul_one] at h1
    rw [NDArray.volLoop, imul, ckInt, if_pos h1, ok_bind, ih]
    · simp only [prod, Int.mul_assoc]
    · intro n
      have := h (n + 1)
      simpa only [List.take_succ_cons, prod, Int.mul_assoc] using this

theorem unrollLoop_fit {dim : List Int} (hv : ∀ n, intMin ≤ prod (dim.drop n) ∧ prod (dim.drop n) ≤ intMax) (k : Nat) (u : List Int)
    (hl : u.length = dim.length) (hk : k < dim.length) (hd : u.drop k = (strides dim).drop k) :
    ∃ u', NDArray.unrollLoop dim k u = .ok u' := by
  induction k generalizing u with
  | zero => exact ⟨u, rfl⟩
  | succ i ih =>
    have ha : vget u ((i+1 : Nat) : Int) = .ok (prod (dim.drop (i+2))) := by
      rw [vget_ok]; refine ⟨by omega, ?_⟩
      have : (u.drop (i+1))[0]? = some (prod (dim.drop (i+2))) := by
        rw [hd]; simpa using strides_getElem? dim (i+1) hk
      simpa using this
    have hdd : vget dim ((i+1 : Nat) : Int) = .ok dim[i+1] := vget_nat _ _ hk
    have hsub : prod (dim.drop (i+1)) = prod (dim.drop (i+2)) * dim[i+1] := by
      rw [List.drop_eq_getElem_cons hk, prod]; ring
    have hle := hv (i + 1)
    rw [hsub] at hle
    rw [NDArray.unrollLoop, ha, ok_bind, hdd, ok_bind, imul, ckInt, if_pos hle, ok_bind, vset_nat _ _ _ (by omega), ok_bind]
    refine ih _ (by simpa using hl) (by omega) ?_
    rw [drop_set_succ _ _ _ (by omega), hd]
    rw [List.drop_eq_getElem_cons (l := strides dim) (i := i) (by simp; omega)]
    congr 1
    have e := strides_step dim i hk
    rw [List.getElem?_eq_getElem (by simp; omega)] at e
    exact (Option.some.inj e).symm

theorem calcVolume_fit {dim : List Int} (hne : dim ≠ []) (hf : ProductsFit dim) : NDArray.calcVolume dim = .ok (prod dim) := by
  rw [NDArray.calcVolume, if_neg (by simpa using hne), volLoop_fit]
  · rw [Int.one_mul]
  · intro n; rw [Int.one_mul]; exact (hf n).1

theorem genUnroll_fit {dim : List Int} (hne : dim ≠ []) (hf : ProductsFit dim) (old : List Int) : ∃ u, NDArray.genUnroll dim old = .ok u := by
  have hlen : 0 < dim.length := List.length_pos_iff.mpr hne
  have e : ((dim.length : Int) - 1) = ((dim.length - 1 : Nat) : Int) := by omega
  have hl : (vresize old dim.length 0).length = dim.length := by simp [vresize]; omega
  rw [NDArray.genUnroll, e, vset_nat _ _ _ (by rw [hl]; omega), ok_bind]
  refine unrollLoop_fit (fun n => (hf n).2) _ _ (by simpa using hl) (by omega) ?_
  rw [List.drop_eq_getElem_cons (by rw [List.length_set, hl]; omega),
    List.drop_eq_getElem_cons (l := strides dim) (by rw [strides_length]; omega)]
  have s := strides_getElem? dim (dim.length - 1) (by omega)
  rw [List.getElem?_eq_getElem (by rw [strides_length]; omega)] at s
  have s' := Option.some.inj s
  congr 1
  · rw [s', List.getElem_set_self, List.drop_eq_nil_of_le (by omega)]; rfl
  · rw [List.drop_eq_nil_of_le (by rw [List.length_set, hl]; omega), List.drop_eq_nil_of_le (by rw [strides_length]; omega)]

/-- **C05** The same for every non-empty list of extents, zero and negative ones included, whose products fit an `int`: the program goes on exactly
when the product is the volume, and then with the new extents, the old volume and the old values; otherwise it ends with status 1. -/
theorem C05_every (a : NDArray α) (dim' : List Int) (hne : dim' ≠ []) (hf : ProductsFit dim') :
    (prod dim' = a.volume → (a.reshape dim').1 = .ok () ∧ (a.reshape dim').2.dim = dim' ∧ (a.reshape dim').2.order = dim'.length ∧
      (a.reshape dim').2.volume = a.volume ∧ (a.reshape dim').2.val = a.val) ∧
    (prod dim' ≠ a.volume → a.reshape dim' = (.error (.exit 1), a)) := by
  have hv := calcVolume_fit hne hf
  refine ⟨fun h => ?_, fun h => ?_⟩
  · obtain ⟨u, hu⟩ := genUnroll_fit hne hf a.unroll
    simp only [NDArray.reshape, hv, h, if_true, hu]
    simp
  · simp only [NDArray.reshape, hv, if_neg h]

example : ProductsFit [-2, -3] ∧ prod [-2, -3] = 6 ∧ ProductsFit [0, 7] := by
  refine ⟨fun n => ?_, by decide, fun n => ?_⟩
  · match n with
    | 0 => decide
    | 1 => decide
    | n + 2 => simp [prod]
  · match n with
    | 0 => decide
    | 1 => decide
    | n + 2 => simp [prod]

/-- **C05** needs its hypotheses: extents whose products do not fit, and an empty list on an empty array, are undefined. -/
theorem C05_limits : (NDArray.empty (α := α)).reshape [0, 65536, 65536] = (.error (.ub .overflow), { (NDArray.empty (α := α)) with dim := [0, 65536, 65536], order := 3 }) ∧
    ((NDArray.empty (α := α)).reshape []).1 = .error (.ub .oob) := ⟨rfl, rfl⟩

/-- **C07** (true part) For every usable shape, constructing and resizing (from any earlier state of the object) succeeds and
every in-range element access succeeds. Missing from the full claim: an error report for the other shapes (see the violation
theorems). -/
theorem C07_memory_safe_partial (d : α) (a : NDArray α) (dim : List Int) (hg : GoodDims dim) :
    (∃ b, NDArray.ofDim d dim = .ok b ∧ b.dim = dim ∧ b.Reachable d) ∧
    (∃ a', a.resize d dim = (.ok (), a') ∧ a'.dim = dim ∧ a'.volume = prod dim ∧
      (∀ t, InBox dim t → ∃ x, a'.get t = .ok x) ∧
      (∀ t x, InBox dim t → ∃ a'', a'.set t x = .ok a'') ∧
      (∀ i, 0 ≤ i → i < a'.volume → ∃ x, a'.getLin i = .ok x)) := by
  have hs := resize_shaped d a hg
  have he := resize_good d a hg
  have he0 := resize_good d (NDArray.empty : NDArray α) hg
  constructor
  · refine ⟨_, by simp only [NDArray.ofDim, he0]; rfl, rfl, [.construct dim], ?_⟩
    simp [NDArray.run, NDArray.step, NDArray.ofDim, he0]
  · rw [he] at hs
    refine ⟨_, he, rfl, rfl, ?_, ?_, ?_⟩
    · intro t ht; obtain ⟨x, hx, _⟩ := NDArray.get_of hs hg ht; exact ⟨x, hx⟩
    · intro t x ht; exact ⟨_, (NDArray.set_of hs hg ht x).1⟩
    · intro i h0 h1
      have hlen := hs.len_eq
      obtain ⟨x, hx, _⟩ := vget_of_lt (vresize a.val (prod dim).toNat d) i h0
        (by simp only at hlen h1 ⊢; omega)
      exact ⟨x, hx⟩

example : GoodDims [2, 3, 4] ∧ InBox [2, 3, 4] [1, 2, 3] := ⟨⟨by decide, by decide, by decide⟩, by simp [InBox]⟩

/-- **C07** (true part) Non-empty lists with zero or negative extents, as long as the products fit an `int`: construction and `resize` report a negative
volume with `length_error`, and succeed otherwise, with as many elements as the product. -/
theorem C07_products_fit_partial (d : α) (a : NDArray α) (dim : List Int) (hne : dim ≠ []) (hf : ProductsFit dim) :
    (0 ≤ prod dim → (∃ b, NDArray.ofDim d dim = .ok b ∧ b.dim = dim ∧ (b.val.length : Int) = prod dim) ∧
      (a.resize d dim).1 = .ok () ∧ (a.resize d dim).2.dim = dim ∧ ((a.resize d dim).2.val.length : Int) = prod dim) ∧
    (prod dim < 0 → NDArray.ofDim d dim = .error .lengthError ∧ (a.resize d dim).1 = .error .lengthError) := by
  have hv := calcVolume_fit hne hf
  have hl : ∀ (v : List α) (n : Nat), (vresize v n d).length = n := fun v n => by simp [vresize]; omega
  refine ⟨fun h => ?_, fun h => ?_⟩
  · obtain ⟨u, hu⟩ := genUnroll_fit hne hf a.unroll
    obtain ⟨u0, hu0⟩ := genUnroll_fit hne hf (NDArray.empty (α := α)).unroll
    have hn : ¬ prod dim < 0 := by omega
    refine ⟨⟨⟨dim, u0, vresize NDArray.empty.val (prod dim).toNat d, dim.length, prod dim⟩,
      by simp only [NDArray.ofDim, NDArray.resize, hv, if_neg hn, hu0], rfl, ?_⟩, ?_⟩
    · show ((vresize _ _ d).length : Int) = _
      rw [hl]; omega
    · simp only [NDArray.resize, hv, if_neg hn, hu, hl, true_and]
      omega
  · simp only [NDArray.ofDim, NDArray.resize, hv, if_pos h, and_self]

example : ([2, 0, -3] : List Int) ≠ [] ∧ ProductsFit [2, 0, -3] ∧ prod [2, 0, -3] = 0 ∧ prod [2, -3] < 0 := by
  refine ⟨by decide, fun n => ?_, by decide, by decide⟩
  match n with
  | 0 => decide
  | 1 => decide
  | 2 => decide
  | n + 3 => simp [prod]

/-- **C07, violation** An empty extents list writes out of bounds, in the constructor and in `resize` from any state. -/
theorem C07_empty_dims_violated (d : α) (a : NDArray α) :
    NDArray.ofDim d ([] : List Int) = .error (.ub .oob) ∧ (a.resize d []).1 = .error (.ub .oob) := by
  constructor <;> simp [NDArray.ofDim, NDArray.resize, calcVolume, genUnroll, vset]

/-- **C07, violation** Extents whose product exceeds `int` overflow, although every extent is a valid `int`. -/
theorem C07_overflow_violated (d : α) : NDArray.ofDim d [65536, 65536] = .error (.ub .overflow) := by
  simp [NDArray.ofDim, NDArray.resize, calcVolume, volLoop, imul, ckInt, intMin, intMax]

/-- **C07, exact boundary**: for a list of positive extents, construction succeeds iff the list is non-empty and the volume
fits an `int`. -/
theorem C07_positive_extents_iff (d : α) (dim : List Int) (hp : ∀ x ∈ dim, 0 < x) :
    (∃ a, NDArray.ofDim d dim = .ok a) ↔ dim ≠ [] ∧ prod dim ≤ 2147483647 := by
  constructor
  · rintro ⟨a, ha⟩
    unfold NDArray.ofDim at ha
    split at ha
    · rename_i u a' he
      have h := resize_ok_inv he
      refine ⟨h.2.2.1, ?_⟩
      unfold NDArray.resize at he
      cases hc : calcVolume dim with
      | error e => simp [hc] at he
      | ok v =>
        have hv := calcVolume_ok hc
        simp only [h.2.2.1, if_false] at hv
        rw [← hv]
        cases dim with
        | nil => exact absurd rfl h.2.2.1
        | cons x xs =>
          simp [calcVolume] at hc
          exact volLoop_le hc (by unfold intMax; omega)
    · cases ha
  · rintro ⟨hne, hv⟩
    obtain ⟨b, hb, _⟩ := (C07_memory_safe_partial d (NDArray.empty) dim ⟨hne, hp, hv⟩).1
    exact ⟨b, hb⟩

/-- **C68** `resize` keeps the values at linear positions below both volumes and value-initialises the rest. -/
theorem C68_resize_values (d : α) (a : NDArray α) (dim : List Int) (hg : GoodDims dim) :
    ∃ a', a.resize d dim = (.ok (), a') ∧
      ∀ i : Nat, (i : Int) < a'.volume →
        a'.getLin i = .ok (if h : i < a.val.length then a.val[i] else d) := by
  refine ⟨_, resize_good d a hg, ?_⟩
  intro i hi
  simp only at hi
  simp only [NDArray.getLin, vget_ok]
  refine ⟨by omega, ?_⟩
  rw [Int.toNat_natCast, vresize_getElem? _ _ _ _ (by omega)]
  by_cases h : i < a.val.length <;> simp [h]

example : GoodDims [2, 2] := ⟨by decide, by decide, by decide⟩

/-- **C69, violation** A `resize` that throws `length_error` leaves the object with the new extents and the old storage: the
shape invariant of C06 does not survive a caught exception. -/
theorem C69_resize_exception_safety_violated :
    ∃ (a : NDArray Int), a.Reachable 0 ∧
      (a.resize 0 [-1, 2]).1 = .error .lengthError ∧
      (a.resize 0 [-1, 2]).2.volume = -2 ∧ (a.resize 0 [-1, 2]).2.val.length = 6 ∧
      (a.resize 0 [-1, 2]).2.dim = [-1, 2] ∧ (a.resize 0 [-1, 2]).2.unroll = [3, 1] :=
  ⟨⟨[2, 3], [3, 1], [0, 0, 0, 0, 0, 0], 2, 6⟩, ⟨[.construct [2, 3]], by decide⟩, by decide, by decide, by decide,
    by decide, by decide⟩

/-- **C69** (true part) A failed `resize` never changes a stored value when the failure is the thrown `length_error`, nor
does a failed `reshape`. -/
theorem C69_failed_resize_keeps_values_partial (d : α) (a : NDArray α) (dim : List Int)
    (h : (a.resize d dim).1 = .error .lengthError) : (a.resize d dim).2.val = a.val := by
  unfold NDArray.resize at h ⊢
  cases hc : calcVolume dim with
  | error e => simp
  | ok v =>
    simp only [hc] at h ⊢
    by_cases hv : v < 0
    · simp [hv]
    · simp only [hv, if_false] at h ⊢
      cases hg : genUnroll dim a.unroll with
      | error e =>
        simp only [hg] at h
        exact absurd h (by
          intro h
          have he : e = .lengthError := by simpa using h
          subst he
          exact genUnroll_not_length hg)
      | ok u => simp [hg] at h

example : ((⟨[2], [1], [3, 4], 1, 2⟩ : NDArray Int).resize 0 [-1]).1 = .error .lengthError := by decide

end Verif
