import Mathlib.Algebra.Order.Floor.Ring
import Mathlib.Algebra.Field.Defs
import Verif.Spec.Tensor

/-!
# Specification: a grid of bins

A grid is given by its lower corner, the bin widths and the number of bins per direction. This file does not mention the model.
-/

namespace Verif.Spec
variable {T K : Type} [Field K] [LinearOrder K] [FloorRing K]

/-- A legal grid: the three lists have the same length, widths are positive, and there are bins (a number that fits an `int`). -/
def GoodGrid (min incr : List K) (N : List Int) : Prop :=
  min.length = N.length ∧ incr.length = N.length ∧ (∀ d ∈ incr, 0 < d) ∧ GoodDims N

/-- `c` lies in the half-open grid: `min_i ≤ c_i < min_i + incr_i * N_i` in every direction. -/
def InGrid : (min incr : List K) → (N : List Int) → (c : List K) → Prop
  | [], [], [], [] => True
  | m :: ms, d :: ds, n :: ns, c :: cs => (m ≤ c ∧ c < m + d * (n : K)) ∧ InGrid ms ds ns cs
  | _, _, _, _ => False

/-- `c` has one component per direction and is strictly outside the closed grid in some direction. -/
def OutOfGrid (min incr : List K) (N : List Int) (c : List K) : Prop :=
  c.length = min.length ∧ ∃ i : Nat, ∃ m d n x, min[i]? = some m ∧ incr[i]? = some d ∧ N[i]? = some n ∧ c[i]? = some x ∧
    (x < m ∨ m + d * (n : K) < x)

/-- The bin a coordinate falls in: in every direction, the number of whole widths from the corner. -/
def binOf : (min incr c : List K) → List Int
  | m :: ms, d :: ds, c :: cs => ⌊(c - m) / d⌋ :: binOf ms ds cs
  | _, _, _ => []

/-- `lo_i ≤ hi_i` in every direction. -/
def LeAll : (lo hi : List K) → Prop
  | a :: as, b :: bs => a ≤ b ∧ LeAll as bs
  | _, _ => True

/-- `lo_i ≤ k_i ≤ hi_i` in every direction (same length). -/
def Between : (lo hi k : List Int) → Prop
  | [], [], [] => True
  | l :: ls, h :: hs, k :: ks => (l ≤ k ∧ k ≤ h) ∧ Between ls hs ks
  | _, _, _ => False

instance decBetween : (lo hi k : List Int) → Decidable (Between lo hi k)
  | [], [], [] => isTrue trivial
  | l :: ls, h :: hs, k :: ks => by
      unfold Between
      exact @instDecidableAnd _ _ inferInstance (decBetween ls hs ks)
  | [], [], _ :: _ => isFalse (by simp [Between])
  | [], _ :: _, _ => isFalse (by simp [Between])
  | _ :: _, [], _ => isFalse (by simp [Between])
  | _ :: _, _ :: _, [] => isFalse (by simp [Between])

/-- A request to the grid. -/
inductive BinReq (T K : Type) where
  | add (x : T) (c : List K)                 -- put `x` in the bin of `c`
  | addOnce (x : T) (c : List K)             -- the same, unless `x` is already there
  | addRange (x : T) (lo hi : List K)        -- put `x` in every bin between the bins of `lo` and `hi`

/-- The requests the property is about: a coordinate is in the half-open grid, or is clearly outside (the request is then
refused); a box has both corners in the grid and in order, or a corner outside. -/
def ReqOk (min incr : List K) (N : List Int) : BinReq T K → Prop
  | .add _ c => InGrid min incr N c ∨ OutOfGrid min incr N c
  | .addOnce _ c => InGrid min incr N c ∨ OutOfGrid min incr N c
  | .addRange _ lo hi => (InGrid min incr N lo ∧ InGrid min incr N hi ∧ LeAll lo hi) ∨ OutOfGrid min incr N lo ∨
      (InGrid min incr N lo ∧ OutOfGrid min incr N hi)

open Classical in
/-- What one request does to the contents `l` of bin `k`. -/
noncomputable def binStep (min incr : List K) (N : List Int) (k : List Int) (l : List T) : BinReq T K → List T
  | .add x c => if InGrid min incr N c ∧ binOf min incr c = k then l ++ [x] else l
  | .addOnce x c => if InGrid min incr N c ∧ binOf min incr c = k ∧ x ∉ l then l ++ [x] else l
  | .addRange x lo hi =>
      if InGrid min incr N lo ∧ InGrid min incr N hi ∧ Between (binOf min incr lo) (binOf min incr hi) k
      then l ++ [x] else l

/-- Contents of bin `k` after a list of requests, starting from an empty grid. -/
noncomputable def binContents (min incr : List K) (N : List Int) (k : List Int) (reqs : List (BinReq T K)) : List T :=
  reqs.foldl (binStep min incr N k) []

end Verif.Spec
