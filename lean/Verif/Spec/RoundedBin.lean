import Verif.Spec.Bin

/-!
# Specification: a grid of bins in floating-point arithmetic

As `Spec/Bin.lean`, with every operation on doubles rounded by `rnd`. This file does not mention the model.
-/

namespace Verif.Spec
variable {T K : Type} [Field K] [LinearOrder K] [FloorRing K] (rnd : K → K)

/-- The computed upper limit of a direction: `min + incr*N`. -/
def flMax (m d : K) (n : Int) : K := rnd (m + rnd (d * (n : K)))

/-- The computed bin number in one direction: `floor((c - min)/incr)`. -/
def flBin (m d c : K) : Int := ⌊rnd (rnd (c - m) / d)⌋

/-- `c` is between the computed limits of a direction, and its bin exists. -/
def FlIn (m d : K) (n : Int) (c : K) : Prop := (m ≤ c ∧ c ≤ flMax rnd m d n) ∧ flBin rnd m d c < n

/-- `c` is outside the computed limits of a direction. -/
def FlOut (m d : K) (n : Int) (c : K) : Prop := c < m ∨ flMax rnd m d n < c

/-- `c` is in the grid in every direction. -/
def FlInGrid : (min incr : List K) → (N : List Int) → (c : List K) → Prop
  | [], [], [], [] => True
  | m :: ms, d :: ds, n :: ns, c :: cs => FlIn rnd m d n c ∧ FlInGrid ms ds ns cs
  | _, _, _, _ => False

/-- Some direction is outside its limits, and the directions before it are in the grid. -/
def FlOutOfGrid : (min incr : List K) → (N : List Int) → (c : List K) → Prop
  | m :: ms, d :: ds, n :: ns, c :: cs =>
      (FlOut rnd m d n c ∧ ms.length = cs.length) ∨ (FlIn rnd m d n c ∧ FlOutOfGrid ms ds ns cs)
  | _, _, _, _ => False

/-- The computed bin of a coordinate. -/
def flBinOf : (min incr c : List K) → List Int
  | m :: ms, d :: ds, c :: cs => flBin rnd m d c :: flBinOf ms ds cs
  | _, _, _ => []

/-- The requests the property is about. -/
def FlReqOk (min incr : List K) (N : List Int) : BinReq T K → Prop
  | .add _ c => FlInGrid rnd min incr N c ∨ FlOutOfGrid rnd min incr N c
  | .addOnce _ c => FlInGrid rnd min incr N c ∨ FlOutOfGrid rnd min incr N c
  | .addRange _ lo hi => (FlInGrid rnd min incr N lo ∧ FlInGrid rnd min incr N hi ∧ LeAll lo hi) ∨ FlOutOfGrid rnd min incr N lo ∨
      (FlInGrid rnd min incr N lo ∧ FlOutOfGrid rnd min incr N hi)

open Classical in
/-- What one request does to the contents `l` of bin `k`. -/
noncomputable def flBinStep (min incr : List K) (N : List Int) (k : List Int) (l : List T) : BinReq T K → List T
  | .add x c => if FlInGrid rnd min incr N c ∧ flBinOf rnd min incr c = k then l ++ [x] else l
  | .addOnce x c => if FlInGrid rnd min incr N c ∧ flBinOf rnd min incr c = k ∧ x ∉ l then l ++ [x] else l
  | .addRange x lo hi =>
      if FlInGrid rnd min incr N lo ∧ FlInGrid rnd min incr N hi ∧ Between (flBinOf rnd min incr lo) (flBinOf rnd min incr hi) k
      then l ++ [x] else l

/-- Contents of bin `k` after a list of requests, starting from an empty grid. -/
noncomputable def flBinContents (min incr : List K) (N : List Int) (k : List Int) (reqs : List (BinReq T K)) : List T :=
  reqs.foldl (flBinStep rnd min incr N k) []

end Verif.Spec
