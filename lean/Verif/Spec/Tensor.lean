/-!
# Specification: rectangular index sets and row-major order

Independent of the model: plain recursion on the list of extents, outermost extent first.
-/

namespace Verif.Spec

/-- Product of extents (the number of index tuples). -/
def prod : List Int → Int
  | [] => 1
  | d :: ds => d * prod ds

/-- `t` has one entry per extent, each in `[0, extent)`. -/
def InBox : List Int → List Int → Prop
  | [], [] => True
  | d :: ds, t :: ts => (0 ≤ t ∧ t < d) ∧ InBox ds ts
  | _, _ => False

/-- Row-major position of an index tuple (Horner form, first index is the outer loop). -/
def rowMajorAcc (acc : Int) : List Int → List Int → Int
  | d :: ds, t :: ts => rowMajorAcc (acc * d + t) ds ts
  | _, _ => acc

/-- Row-major position `((t0*d1 + t1)*d2 + t2)...`. -/
def rowMajor (dim t : List Int) : Int := rowMajorAcc 0 dim t

/-- Strict lexicographic order on index tuples. -/
def LexLt : List Int → List Int → Prop
  | a :: as, b :: bs => a < b ∨ (a = b ∧ LexLt as bs)
  | _, _ => False

/-- Extents of a usable array: at least one extent, all positive, volume within `int`. -/
def GoodDims (dim : List Int) : Prop :=
  dim ≠ [] ∧ (∀ d ∈ dim, 0 < d) ∧ prod dim ≤ 2147483647

/-- Multiplying the extents one after another, from either side, stays within `int`. -/
def ProductsFit (dim : List Int) : Prop :=
  ∀ n, (-2147483648 ≤ prod (dim.take n) ∧ prod (dim.take n) ≤ 2147483647) ∧ (-2147483648 ≤ prod (dim.drop n) ∧ prod (dim.drop n) ≤ 2147483647)

end Verif.Spec
