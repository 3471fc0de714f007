import Verif.Spec.Move
import Verif.Lemmas.Core
import Verif.Model.Field
import Mathlib.Algebra.Order.Field.Basic
import Mathlib.Tactic.FieldSimp
import Mathlib.Tactic.Ring
import Mathlib.Tactic.Linarith
import Mathlib.Data.List.Sort

/-! # A mesh in other units: the whole computation is carried along -/

namespace Verif
open Spec

theorem vget_map {α β : Type} (f : α → β) (l : List α) (i : Int) : vget (l.map f) i = (vget l i).map f := by
  unfold vget
  split
  · rw [List.getElem?_map]; cases l[i.toNat]? <;> rfl
  · rfl

theorem vset_map {α β : Type} (f : α → β) (l : List α) (i : Int) (a : α) : vset (l.map f) i (f a) = (vset l i a).map (List.map f) := by
  unfold vset
  rw [List.length_map]
  split
  · simp [Except.map, List.map_set]
  · rfl

theorem map_bind' {α β γ : Type} (x : Res α) (g : α → β) (k : β → Res γ) : (x.map g >>= k) = (x >>= fun a => k (g a)) := by
  cases x <;> rfl

theorem bind_map' {α β γ : Type} (x : Res α) (k : α → Res β) (g : β → γ) : (x >>= k).map g = (x >>= fun a => (k a).map g) := by
  cases x <;> rfl

/-- The array with `f` applied to its values. -/
def NDArray.mapV {α β : Type} (f : α → β) (a : NDArray α) : NDArray β := ⟨a.dim, a.unroll, a.val.map f, a.order, a.volume⟩

namespace Bin
variable {T T' : Type}

theorem push_map (f : T → T') (item : NDArray (List T)) (idx : List Int) (x : T) :
    push (item.mapV (List.map f)) idx (f x) = (push item idx x).map (NDArray.mapV (List.map f)) := by
  unfold push
  have h1 : (item.mapV (List.map f)).linearIndex idx = item.linearIndex idx := rfl
  rw [h1, bind_map']
  congr 1
  funext l
  have h2 : (item.mapV (List.map f)).getLin l = (item.getLin l).map (List.map f) := vget_map _ _ _
  rw [h2, map_bind', bind_map']
  congr 1
  funext v
  unfold NDArray.setLin
  have h3 : List.map f v ++ [f x] = List.map f (v ++ [x]) := by simp
  have h4 : (item.mapV (List.map f)).val = item.val.map (List.map f) := rfl
  rw [h3, h4, vset_map, map_bind', bind_map']
  rfl

theorem rangeLoop_map (f : T → T') (imin imax : List Int) (x : T) (fuel : Nat) : ∀ (item : NDArray (List T)) (idx : List Int),
    rangeLoop imin imax (f x) fuel (item.mapV (List.map f)) idx =
      ((rangeLoop imin imax x fuel item idx).1, (rangeLoop imin imax x fuel item idx).2.1.mapV (List.map f),
        (rangeLoop imin imax x fuel item idx).2.2) := by
  induction fuel with
  | zero => intro item idx; rfl
  | succ n ih =>
    intro item idx
    unfold rangeLoop
    rw [push_map]
    cases push item idx x with
    | error e => rfl
    | ok item' =>
      simp only [Except.map]
      have : (item'.mapV (List.map f)).order = item'.order := rfl
      rw [this]
      cases advance item'.order imin imax idx with
      | error e => rfl
      | ok o =>
        cases o with
        | none => rfl
        | some idx' => exact ih item' idx'

variable {K : Type} [Field K] [LinearOrder K] [FloorRing K] [IsStrictOrderedRing K]

/-- A list of coordinates in the new units. -/
def mvL (S O : Nat → K) (l : List K) : List K := l.mapIdx fun k x => S k * x + O k

/-- A list of lengths in the new units. -/
def scL (S : Nat → K) (l : List K) : List K := l.mapIdx fun k x => S k * x

omit [LinearOrder K] [FloorRing K] [IsStrictOrderedRing K] in
theorem vget_mvL (S O : Nat → K) (l : List K) (k : Nat) : vget (mvL S O l) (k : Nat) = (vget l (k : Nat)).map fun x => S k * x + O k := by
  unfold vget mvL
  simp only [Int.toNat_natCast, List.getElem?_mapIdx]
  split
  · cases l[k]? <;> rfl
  · rfl

omit [LinearOrder K] [FloorRing K] [IsStrictOrderedRing K] in
theorem vget_scL (S : Nat → K) (l : List K) (k : Nat) : vget (scL S l) (k : Nat) = (vget l (k : Nat)).map fun x => S k * x := by
  unfold vget scL
  simp only [Int.toNat_natCast, List.getElem?_mapIdx]
  split
  · cases l[k]? <;> rfl
  · rfl

theorem idxAt_mv {S : Nat → K} (hS : ∀ k, 0 < S k) (O : Nat → K) (min max incr coord : List K) (k : Nat) :
    idxAt (mvL S O min) (mvL S O max) (scL S incr) (mvL S O coord) k = idxAt min max incr coord k := by
  have lt : ∀ x y : K, S k * x + O k < S k * y + O k ↔ x < y := fun x y => by
    rw [add_lt_add_iff_right, mul_lt_mul_iff_right₀ (hS k)]
  unfold idxAt
  simp only [vget_mvL, vget_scL, map_bind', lt, mul_eq_zero, (hS k).ne', false_or]
  congr 1; funext c
  congr 1; funext lo
  split
  · rfl
  · congr 1; funext hi
    split
    · rfl
    · congr 1; funext d
      have : (S k * c + O k - (S k * lo + O k)) / (S k * d) = (c - lo) / d := by
        rw [show S k * c + O k - (S k * lo + O k) = S k * (c - lo) by ring, mul_div_mul_left _ _ (hS k).ne']
      rw [this]

theorem idxLoop_mv {S : Nat → K} (hS : ∀ k, 0 < S k) (O : Nat → K) (min max incr coord : List K) (n : Nat) : ∀ (k : Nat) (term : List Int),
    idxLoop (mvL S O min) (mvL S O max) (scL S incr) (mvL S O coord) n k term = idxLoop min max incr coord n k term := by
  induction n with
  | zero => intro k term; rfl
  | succ n ih =>
    intro k term
    unfold idxLoop
    rw [idxAt_mv hS]
    cases idxAt min max incr coord k with
    | error e => rfl
    | ok v =>
      simp only
      cases vset term (k : Nat) v with
      | error e => rfl
      | ok t => exact ih _ _

/-- The bins in the new units, with `f` applied to what they hold. -/
def mv (S O : Nat → K) (f : T → T') (b : Bin T K) : Bin T' K :=
  ⟨b.item.mapV (List.map f), mvL S O b.min, scL S b.incr, b.N, mvL S O b.max, b.indices⟩

theorem contents_mv {S : Nat → K} (hS : ∀ k, 0 < S k) (O : Nat → K) (f : T → T') (b : Bin T K) (c : List K) :
    (b.mv S O f).contents (mvL S O c) = ((b.contents c).1.map (List.map f), (b.contents c).2.mv S O f) := by
  unfold contents indicesOf
  have h1 : (b.mv S O f).item.order = b.item.order := rfl
  have h2 : (b.mv S O f).indices = b.indices := rfl
  simp only [h1, h2]
  rw [show (b.mv S O f).min = mvL S O b.min from rfl, show (b.mv S O f).max = mvL S O b.max from rfl,
    show (b.mv S O f).incr = scL S b.incr from rfl, idxLoop_mv hS]
  rcases idxLoop b.min b.max b.incr c b.item.order.toNat 0 b.indices with ⟨_ | _, idx⟩
  · rfl
  · simp only
    refine Prod.ext ?_ rfl
    show ((b.item.mapV (List.map f)).linearIndex idx >>= fun l => (b.item.mapV (List.map f)).getLin l) = _
    show (b.item.linearIndex idx >>= fun l => vget (b.item.val.map (List.map f)) l) = Except.map _ (b.item.linearIndex idx >>= fun l => vget b.item.val l)
    rw [bind_map']
    congr 1; funext l
    exact vget_map _ _ _

theorem addRange_mv {S : Nat → K} (hS : ∀ k, 0 < S k) (O : Nat → K) (f : T → T') (b : Bin T K) (x : T) (lo hi : List K) :
    (b.mv S O f).addRange (f x) (mvL S O lo) (mvL S O hi) = ((b.addRange x lo hi).1, (b.addRange x lo hi).2.mv S O f) := by
  unfold addRange indicesOf
  have h1 : (b.mv S O f).item.order = b.item.order := rfl
  have h2 : (b.mv S O f).item.volume = b.item.volume := rfl
  simp only [h1, h2]
  rw [show (b.mv S O f).min = mvL S O b.min from rfl, show (b.mv S O f).max = mvL S O b.max from rfl,
    show (b.mv S O f).incr = scL S b.incr from rfl, idxLoop_mv hS, idxLoop_mv hS]
  rcases idxLoop b.min b.max b.incr lo b.item.order.toNat 0 (List.replicate b.item.order.toNat 0) with ⟨_ | _, imin⟩
  · rfl
  · simp only
    rcases idxLoop b.min b.max b.incr hi b.item.order.toNat 0 (List.replicate b.item.order.toNat 0) with ⟨_ | _, imax⟩
    · rfl
    · simp only
      rw [show (b.mv S O f).item = b.item.mapV (List.map f) from rfl, rangeLoop_map]
      rfl

omit [LinearOrder K] [FloorRing K] [IsStrictOrderedRing K] in
theorem maxSize_mv (S O : Nat → K) (f : T → T') (b : Bin T K) : (b.mv S O f).maxSize = b.maxSize := by
  have h : ∀ n i m, maxSizeLoop (b.item.mapV (List.map f)) n i m = maxSizeLoop b.item n i m := by
    intro n
    induction n with
    | zero => intro i m; rfl
    | succ n ih =>
      intro i m
      unfold maxSizeLoop
      rw [show (b.item.mapV (List.map f)).getLin (i : Nat) = (b.item.getLin (i : Nat)).map (List.map f) from vget_map _ _ _, map_bind']
      congr 1; funext v
      rw [List.length_map, ih]
  exact h _ _ _

omit [LinearOrder K] [FloorRing K] [IsStrictOrderedRing K] in
theorem maxLoop_mv (S O : Nat → K) (incr : List K) (N : List Int) (l : List K) : ∀ k : Nat,
    maxLoop (scL S incr) N (l.mapIdx fun j x => S (k + j) * x + O (k + j)) k =
      (maxLoop incr N l k).map fun r => r.mapIdx fun j x => S (k + j) * x + O (k + j) := by
  induction l with
  | nil => intro k; rfl
  | cons m ms ih =>
    intro k
    have e : (List.mapIdx (fun j x => S (k + (j + 1)) * x + O (k + (j + 1))) ms) = List.mapIdx (fun j x => S (k + 1 + j) * x + O (k + 1 + j)) ms := by
      congr 1; funext j x; rw [show k + (j + 1) = k + 1 + j by omega]
    simp only [List.mapIdx_cons, maxLoop, Nat.add_zero]
    rw [e, ih (k + 1), vget_scL, map_bind', bind_map']
    congr 1; funext d
    rw [bind_map']
    congr 1; funext n
    rw [map_bind', bind_map']
    congr 1; funext r
    simp only [Except.map, List.mapIdx_cons, Nat.add_zero]
    congr 2
    · ring
    · congr 1; funext j x; rw [show k + 1 + j = k + (j + 1) by omega]

omit [LinearOrder K] [FloorRing K] [IsStrictOrderedRing K] in
theorem mk_mv (S O : Nat → K) (f : T → T') (min incr : List K) (N : List Int) :
    (mk' (mvL S O min) (scL S incr) N : Res (Bin T' K)) = (mk' min incr N : Res (Bin T K)).map (mv S O f) := by
  have h := maxLoop_mv S O incr N min 0
  simp only [Nat.zero_add] at h
  unfold mk'
  rw [show mvL S O min = List.mapIdx (fun j x => S j * x + O j) min from rfl, h, map_bind', bind_map']
  congr 1; funext mx
  have hd : (NDArray.ofDim ([] : List T') N) = (NDArray.ofDim ([] : List T) N).map (NDArray.mapV (List.map f)) := by
    unfold NDArray.ofDim NDArray.resize
    cases NDArray.calcVolume N with
    | error e => rfl
    | ok v =>
      simp only
      split
      · rename_i h; split at h
        · simp at h
        · rename_i h'
          simp only [if_neg h', NDArray.empty]
          simp only [NDArray.empty] at h
          cases hg : NDArray.genUnroll N [] with
          | error e => simp [hg] at h
          | ok u =>
            simp only [hg, Prod.mk.injEq] at h ⊢
            rw [← h.2]
            simp [Except.map, NDArray.mapV, vresize]
      · rename_i h; split at h
        · rename_i h'
          simp only [if_pos h', Except.map]
          simp at h; rw [h.1]
        · rename_i h'
          simp only [if_neg h', NDArray.empty]
          simp only [NDArray.empty] at h
          cases hg : NDArray.genUnroll N [] with
          | error e => simp [hg] at h; simp [Except.map, h.1]
          | ok u => simp [hg] at h
  rw [hd, map_bind', bind_map']
  rfl

end Bin
end Verif
