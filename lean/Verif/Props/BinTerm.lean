import Verif.Lemmas.BinTerm
import Mathlib.Data.Rat.Floor

/-!
# C71: insertion into a bin ends, whatever the coordinates
-/

namespace Verif
open Bin

/-- C71. On every bin made with non-negative numbers of bins (any lower corner, any widths, even zero or negative), after any
history of insertions (legal or not, exceptions caught), a further insertion with any coordinates whatever ends: it returns,
throws, or is stopped by undefined behaviour, but never loops for ever. In particular this holds for `add_range` with a lower
corner above its upper corner. -/
theorem C71_insertion_terminates {T K : Type} [DecidableEq T] [Field K] [LinearOrder K] [FloorRing K] [IsStrictOrderedRing K]
    (min incr : List K) (N : List Int) (b : Bin T K) (hN : ∀ n ∈ N, 0 ≤ n) (hb : Bin.mk' min incr N = .ok b)
    (history : List (Bin.Op T K)) (op : Bin.Op T K) : ((b.run history).step op).1 ≠ .error .diverge := by
  have h : ∀ (ops : List (Bin.Op T K)) (b : Bin T K), (b.item.val = [] ∨ Ends b) →
      ((b.run ops).item.val = [] ∨ Ends (b.run ops)) := by
    intro ops
    induction ops with
    | nil => intro b h; exact h
    | cons o os ih => intro b h; exact ih _ (step_ends h o)
  have h1 := h history b (mk'_ends hN hb)
  cases op with
  | add x c => exact add_no_diverge _ x c
  | addOnce x c => exact addOnce_no_diverge _ x c
  | addRange x lo hi => exact addRange_no_diverge h1 x lo hi

/-- A bin the theorem applies to, and an inverted range on it, which ends by running out of the array. -/
example : ∃ b : Bin Nat ℚ, Bin.mk' [0, 0] [1, 1] [3, 3] = .ok b ∧
    (b.step (.addRange 7 [0, 2] [2, 1])).1 = .error (.ub .oob) := by
  refine ⟨_, rfl, ?_⟩
  decide +kernel

end Verif
