import Verif.Model.TestlibPiecewise
import Verif.Spec.TestlibPiecewise
import Mathlib.Tactic.Ring
import Mathlib.Tactic.NormNum
import Mathlib.Tactic.Positivity

/-! # The texts of `MyPieceWiseFunc` (read in the kernel) and what they mean -/

namespace Verif
open Spec Testlib

/-- All four texts of a class mean `f`. -/
def FnMeans (t : ClassText) (f : ℝ → ℝ → ℝ) : Prop :=
  RMeans cpp t.eval f ∧ RMeans cpp t.csrc f ∧ RMeans symb t.sym f ∧ RMeans Spec.latex t.latex f

/-- All four texts of a condition mean `P`. -/
def CondMeans (t : ClassText) (P : ℝ → ℝ → Prop) : Prop :=
  CMeans cpp t.eval P ∧ CMeans cpp t.csrc P ∧ CMeans symb t.sym P ∧ CMeans Spec.latex t.latex P

section
variable (x y : ℝ)

theorem sq_sum_nonneg : 0 ≤ x ^ 2 + y ^ 2 := by positivity
theorem pow_half : (x ^ 2 + y ^ 2) ^ (1 / 2 : ℝ) = radius x y := (Real.sqrt_eq_rpow _).symm
theorem pow_neg_half : (x ^ 2 + y ^ 2) ^ (-(1 / 2) : ℝ) = (radius x y)⁻¹ := by
  rw [Real.rpow_neg (sq_sum_nonneg x y), pow_half]
theorem pow_three_half : (x ^ 2 + y ^ 2) ^ (3 / 2 : ℝ) = radius x y ^ 3 := by
  rw [← pow_half, ← Real.rpow_mul_natCast (sq_sum_nonneg x y)]
  norm_num
theorem pow_neg_three_half : (x ^ 2 + y ^ 2) ^ (-(3 / 2) : ℝ) = (radius x y ^ 3)⁻¹ := by
  rw [Real.rpow_neg (sq_sum_nonneg x y), pow_three_half]
theorem neg1 : (-1 / 2 : ℝ) = -(1 / 2) := by norm_num
theorem neg3 : (-3 / 2 : ℝ) = -(3 / 2) := by norm_num
theorem sqrt_radius : √(x ^ 2 + y ^ 2) = radius x y := rfl
end

/-- Both sides in terms of `radius`. -/
macro "fn_tac" v:ident : tactic => `(tactic| (
  simp only [RAst.eval, leftFn, discFn, outerFn]
  generalize $v 0 = x; generalize $v 1 = y
  push_cast
  try simp only [Real.rpow_two, show x * x + y * y = x ^ 2 + y ^ 2 by ring, show y * y + x * x = x ^ 2 + y ^ 2 by ring,
    show y ^ 2 + x ^ 2 = x ^ 2 + y ^ 2 by ring, neg1, neg3, pow_half, pow_neg_half, pow_three_half, pow_neg_three_half, sqrt_radius]
  try (first | rfl | ring | (simp; done))))

/-- Both sides as inequalities of polynomials. -/
macro "cond_tac" v:ident : tactic => `(tactic| (
  simp only [Cmp.Holds, RAst.eval, if_true, Bool.false_eq_true, if_false, ge_iff_le]
  generalize $v 0 = x; generalize $v 1 = y
  push_cast
  try simp only [Real.rpow_two, show x * x + y * y = x ^ 2 + y ^ 2 by ring, one_div]
  try (first | rfl | norm_num)))

theorem fnMeans_0_f : FnMeans MyPieceWiseFunc_piece0_f (leftFn .f) :=
  ⟨⟨(.var 0), by decide +kernel, by decide, fun _ => rfl⟩,
    ⟨(.var 0), by decide +kernel, by decide, fun _ => rfl⟩,
    ⟨(.var 0), by decide +kernel, by decide, fun _ => rfl⟩,
    ⟨(.var 0), by decide +kernel, by decide, fun _ => rfl⟩⟩

theorem fnMeans_0_grad_0 : FnMeans MyPieceWiseFunc_piece0_grad_0 (leftFn (.g 0)) :=
  ⟨⟨(.num 1), by decide +kernel, by decide, fun v => by fn_tac v⟩,
    ⟨(.num 1), by decide +kernel, by decide, fun v => by fn_tac v⟩,
    ⟨(.num 1), by decide +kernel, by decide, fun v => by fn_tac v⟩,
    ⟨(.num 1), by decide +kernel, by decide, fun v => by fn_tac v⟩⟩

theorem fnMeans_0_grad_1 : FnMeans MyPieceWiseFunc_piece0_grad_1 (leftFn (.g 1)) :=
  ⟨⟨(.num 0), by decide +kernel, by decide, fun v => by fn_tac v⟩,
    ⟨(.num 0), by decide +kernel, by decide, fun v => by fn_tac v⟩,
    ⟨(.num 0), by decide +kernel, by decide, fun v => by fn_tac v⟩,
    ⟨(.num 0), by decide +kernel, by decide, fun v => by fn_tac v⟩⟩

theorem fnMeans_0_hess_0_0 : FnMeans MyPieceWiseFunc_piece0_hess_0_0 (leftFn (.h 0 0)) :=
  ⟨⟨(.num 0), by decide +kernel, by decide, fun v => by fn_tac v⟩,
    ⟨(.num 0), by decide +kernel, by decide, fun v => by fn_tac v⟩,
    ⟨(.num 0), by decide +kernel, by decide, fun v => by fn_tac v⟩,
    ⟨(.num 0), by decide +kernel, by decide, fun v => by fn_tac v⟩⟩

theorem fnMeans_0_hess_0_1 : FnMeans MyPieceWiseFunc_piece0_hess_0_1 (leftFn (.h 0 1)) :=
  ⟨⟨(.num 0), by decide +kernel, by decide, fun v => by fn_tac v⟩,
    ⟨(.num 0), by decide +kernel, by decide, fun v => by fn_tac v⟩,
    ⟨(.num 0), by decide +kernel, by decide, fun v => by fn_tac v⟩,
    ⟨(.num 0), by decide +kernel, by decide, fun v => by fn_tac v⟩⟩

theorem fnMeans_0_hess_1_0 : FnMeans MyPieceWiseFunc_piece0_hess_1_0 (leftFn (.h 1 0)) :=
  ⟨⟨(.num 0), by decide +kernel, by decide, fun v => by fn_tac v⟩,
    ⟨(.num 0), by decide +kernel, by decide, fun v => by fn_tac v⟩,
    ⟨(.num 0), by decide +kernel, by decide, fun v => by fn_tac v⟩,
    ⟨(.num 0), by decide +kernel, by decide, fun v => by fn_tac v⟩⟩

theorem fnMeans_0_hess_1_1 : FnMeans MyPieceWiseFunc_piece0_hess_1_1 (leftFn (.h 1 1)) :=
  ⟨⟨(.num 0), by decide +kernel, by decide, fun v => by fn_tac v⟩,
    ⟨(.num 0), by decide +kernel, by decide, fun v => by fn_tac v⟩,
    ⟨(.num 0), by decide +kernel, by decide, fun v => by fn_tac v⟩,
    ⟨(.num 0), by decide +kernel, by decide, fun v => by fn_tac v⟩⟩

theorem condMeans_0_cond0 : CondMeans MyPieceWiseFunc_piece0_cond0 (fun x _ => x < 0) :=
  ⟨⟨⟨true, .var 0, .num 0⟩, by decide +kernel, by decide, fun v => by cond_tac v⟩,
    ⟨⟨true, .var 0, .num 0⟩, by decide +kernel, by decide, fun v => by cond_tac v⟩,
    ⟨⟨true, .var 0, .num 0⟩, by decide +kernel, by decide, fun v => by cond_tac v⟩,
    ⟨⟨true, .var 0, .num 0⟩, by decide +kernel, by decide, fun v => by cond_tac v⟩⟩

theorem fnMeans_1_f : FnMeans MyPieceWiseFunc_piece1_f (discFn .f) :=
  ⟨⟨(.add (.mul (.var 0) (.var 0)) (.mul (.var 1) (.var 1))), by decide +kernel, by decide, fun v => by fn_tac v⟩,
    ⟨(.add (.mul (.var 0) (.var 0)) (.mul (.var 1) (.var 1))), by decide +kernel, by decide, fun v => by fn_tac v⟩,
    ⟨(.add (.pow (.var 1) (.num 2)) (.pow (.var 0) (.num 2))), by decide +kernel, by decide, fun v => by fn_tac v⟩,
    ⟨(.add (.pow (.var 1) (.num 2)) (.pow (.var 0) (.num 2))), by decide +kernel, by decide, fun v => by fn_tac v⟩⟩

theorem fnMeans_1_grad_0 : FnMeans MyPieceWiseFunc_piece1_grad_0 (discFn (.g 0)) :=
  ⟨⟨(.mul (.num 2) (.var 0)), by decide +kernel, by decide, fun v => by fn_tac v⟩,
    ⟨(.mul (.num 2) (.var 0)), by decide +kernel, by decide, fun v => by fn_tac v⟩,
    ⟨(.mul (.num 2) (.var 0)), by decide +kernel, by decide, fun v => by fn_tac v⟩,
    ⟨(.mul (.num 2) (.var 0)), by decide +kernel, by decide, fun v => by fn_tac v⟩⟩

theorem fnMeans_1_grad_1 : FnMeans MyPieceWiseFunc_piece1_grad_1 (discFn (.g 1)) :=
  ⟨⟨(.mul (.num 2) (.var 1)), by decide +kernel, by decide, fun v => by fn_tac v⟩,
    ⟨(.mul (.num 2) (.var 1)), by decide +kernel, by decide, fun v => by fn_tac v⟩,
    ⟨(.mul (.num 2) (.var 1)), by decide +kernel, by decide, fun v => by fn_tac v⟩,
    ⟨(.mul (.num 2) (.var 1)), by decide +kernel, by decide, fun v => by fn_tac v⟩⟩

theorem fnMeans_1_hess_0_0 : FnMeans MyPieceWiseFunc_piece1_hess_0_0 (discFn (.h 0 0)) :=
  ⟨⟨(.num 2), by decide +kernel, by decide, fun v => by fn_tac v⟩,
    ⟨(.num 2), by decide +kernel, by decide, fun v => by fn_tac v⟩,
    ⟨(.num 2), by decide +kernel, by decide, fun v => by fn_tac v⟩,
    ⟨(.num 2), by decide +kernel, by decide, fun v => by fn_tac v⟩⟩

theorem fnMeans_1_hess_0_1 : FnMeans MyPieceWiseFunc_piece1_hess_0_1 (discFn (.h 0 1)) :=
  ⟨⟨(.num 0), by decide +kernel, by decide, fun v => by fn_tac v⟩,
    ⟨(.num 0), by decide +kernel, by decide, fun v => by fn_tac v⟩,
    ⟨(.num 0), by decide +kernel, by decide, fun v => by fn_tac v⟩,
    ⟨(.num 0), by decide +kernel, by decide, fun v => by fn_tac v⟩⟩

theorem fnMeans_1_hess_1_0 : FnMeans MyPieceWiseFunc_piece1_hess_1_0 (discFn (.h 1 0)) :=
  ⟨⟨(.num 0), by decide +kernel, by decide, fun v => by fn_tac v⟩,
    ⟨(.num 0), by decide +kernel, by decide, fun v => by fn_tac v⟩,
    ⟨(.num 0), by decide +kernel, by decide, fun v => by fn_tac v⟩,
    ⟨(.num 0), by decide +kernel, by decide, fun v => by fn_tac v⟩⟩

theorem fnMeans_1_hess_1_1 : FnMeans MyPieceWiseFunc_piece1_hess_1_1 (discFn (.h 1 1)) :=
  ⟨⟨(.num 2), by decide +kernel, by decide, fun v => by fn_tac v⟩,
    ⟨(.num 2), by decide +kernel, by decide, fun v => by fn_tac v⟩,
    ⟨(.num 2), by decide +kernel, by decide, fun v => by fn_tac v⟩,
    ⟨(.num 2), by decide +kernel, by decide, fun v => by fn_tac v⟩⟩

theorem condMeans_1_cond0 : CondMeans MyPieceWiseFunc_piece1_cond0 (fun x y => x ^ 2 + y ^ 2 < 1 / 4) :=
  ⟨⟨⟨true, .add (.mul (.var 0) (.var 0)) (.mul (.var 1) (.var 1)), .num (1/4)⟩, by decide +kernel, by decide, fun v => by cond_tac v⟩,
    ⟨⟨true, .add (.mul (.var 0) (.var 0)) (.mul (.var 1) (.var 1)), .num (1/4)⟩, by decide +kernel, by decide, fun v => by cond_tac v⟩,
    ⟨⟨true, .add (.pow (.var 0) (.num 2)) (.pow (.var 1) (.num 2)), .num (1/4)⟩, by decide +kernel, by decide, fun v => by cond_tac v⟩,
    ⟨⟨true, .add (.pow (.var 0) (.num 2)) (.pow (.var 1) (.num 2)), .num (1/4)⟩, by decide +kernel, by decide, fun v => by cond_tac v⟩⟩

theorem condMeans_1_cond1 : CondMeans MyPieceWiseFunc_piece1_cond1 (fun x _ => 0 ≤ x) :=
  ⟨⟨⟨false, .var 0, .num 0⟩, by decide +kernel, by decide, fun v => by cond_tac v⟩,
    ⟨⟨false, .var 0, .num 0⟩, by decide +kernel, by decide, fun v => by cond_tac v⟩,
    ⟨⟨false, .var 0, .num 0⟩, by decide +kernel, by decide, fun v => by cond_tac v⟩,
    ⟨⟨false, .var 0, .num 0⟩, by decide +kernel, by decide, fun v => by cond_tac v⟩⟩

theorem fnMeans_2_f : FnMeans MyPieceWiseFunc_piece2_f (outerFn .f) :=
  ⟨⟨(.sub (.pow (.add (.mul (.var 1) (.var 1)) (.mul (.var 0) (.var 0))) (.div (.num 1) (.num 2))) (.num (1/4))), by decide +kernel, by decide, fun v => by fn_tac v⟩,
    ⟨(.sub (.pow (.add (.mul (.var 1) (.var 1)) (.mul (.var 0) (.var 0))) (.div (.num 1) (.num 2))) (.num (1/4))), by decide +kernel, by decide, fun v => by fn_tac v⟩,
    ⟨(.add (.neg (.num (1/4))) (.sqrt (.add (.pow (.var 0) (.num 2)) (.pow (.var 1) (.num 2))))), by decide +kernel, by decide, fun v => by fn_tac v⟩,
    ⟨(.add (.neg (.num (1/4))) (.sqrt (.add (.pow (.var 0) (.num 2)) (.pow (.var 1) (.num 2))))), by decide +kernel, by decide, fun v => by fn_tac v⟩⟩

theorem fnMeans_2_grad_0 : FnMeans MyPieceWiseFunc_piece2_grad_0 (outerFn (.g 0)) :=
  ⟨⟨(.mul (.var 0) (.pow (.add (.mul (.var 1) (.var 1)) (.mul (.var 0) (.var 0))) (.neg (.div (.num 1) (.num 2))))), by decide +kernel, by decide, fun v => by fn_tac v⟩,
    ⟨(.mul (.var 0) (.pow (.add (.mul (.var 1) (.var 1)) (.mul (.var 0) (.var 0))) (.neg (.div (.num 1) (.num 2))))), by decide +kernel, by decide, fun v => by fn_tac v⟩,
    ⟨(.mul (.var 0) (.pow (.add (.pow (.var 0) (.num 2)) (.pow (.var 1) (.num 2))) (.div (.neg (.num 1)) (.num 2)))), by decide +kernel, by decide, fun v => by fn_tac v⟩,
    ⟨(.div (.var 0) (.sqrt (.add (.pow (.var 1) (.num 2)) (.pow (.var 0) (.num 2))))), by decide +kernel, by decide, fun v => by fn_tac v⟩⟩

theorem fnMeans_2_grad_1 : FnMeans MyPieceWiseFunc_piece2_grad_1 (outerFn (.g 1)) :=
  ⟨⟨(.mul (.var 1) (.pow (.add (.mul (.var 0) (.var 0)) (.mul (.var 1) (.var 1))) (.neg (.div (.num 1) (.num 2))))), by decide +kernel, by decide, fun v => by fn_tac v⟩,
    ⟨(.mul (.var 1) (.pow (.add (.mul (.var 0) (.var 0)) (.mul (.var 1) (.var 1))) (.neg (.div (.num 1) (.num 2))))), by decide +kernel, by decide, fun v => by fn_tac v⟩,
    ⟨(.mul (.pow (.add (.pow (.var 1) (.num 2)) (.pow (.var 0) (.num 2))) (.div (.neg (.num 1)) (.num 2))) (.var 1)), by decide +kernel, by decide, fun v => by fn_tac v⟩,
    ⟨(.div (.var 1) (.sqrt (.add (.pow (.var 0) (.num 2)) (.pow (.var 1) (.num 2))))), by decide +kernel, by decide, fun v => by fn_tac v⟩⟩

theorem fnMeans_2_hess_0_0 : FnMeans MyPieceWiseFunc_piece2_hess_0_0 (outerFn (.h 0 0)) :=
  ⟨⟨(.sub (.pow (.add (.mul (.var 1) (.var 1)) (.mul (.var 0) (.var 0))) (.neg (.div (.num 1) (.num 2)))) (.mul (.pow (.add (.mul (.var 1) (.var 1)) (.mul (.var 0) (.var 0))) (.neg (.div (.num 3) (.num 2)))) (.mul (.var 0) (.var 0)))), by decide +kernel, by decide, fun v => by fn_tac v⟩,
    ⟨(.sub (.pow (.add (.mul (.var 1) (.var 1)) (.mul (.var 0) (.var 0))) (.neg (.div (.num 1) (.num 2)))) (.mul (.pow (.add (.mul (.var 1) (.var 1)) (.mul (.var 0) (.var 0))) (.neg (.div (.num 3) (.num 2)))) (.mul (.var 0) (.var 0)))), by decide +kernel, by decide, fun v => by fn_tac v⟩,
    ⟨(.add (.mul (.neg (.pow (.add (.pow (.var 0) (.num 2)) (.pow (.var 1) (.num 2))) (.div (.neg (.num 3)) (.num 2)))) (.pow (.var 0) (.num 2))) (.pow (.add (.pow (.var 0) (.num 2)) (.pow (.var 1) (.num 2))) (.div (.neg (.num 1)) (.num 2)))), by decide +kernel, by decide, fun v => by fn_tac v⟩,
    ⟨(.sub (.div (.num 1) (.sqrt (.add (.pow (.var 1) (.num 2)) (.pow (.var 0) (.num 2))))) (.div (.pow (.var 0) (.num 2)) (.pow (.add (.pow (.var 1) (.num 2)) (.pow (.var 0) (.num 2))) (.div (.num 3) (.num 2))))), by decide +kernel, by decide, fun v => by fn_tac v⟩⟩

theorem fnMeans_2_hess_0_1 : FnMeans MyPieceWiseFunc_piece2_hess_0_1 (outerFn (.h 0 1)) :=
  ⟨⟨(.mul (.mul (.neg (.var 0)) (.var 1)) (.pow (.add (.mul (.var 0) (.var 0)) (.mul (.var 1) (.var 1))) (.neg (.div (.num 3) (.num 2))))), by decide +kernel, by decide, fun v => by fn_tac v⟩,
    ⟨(.mul (.mul (.neg (.var 0)) (.var 1)) (.pow (.add (.mul (.var 0) (.var 0)) (.mul (.var 1) (.var 1))) (.neg (.div (.num 3) (.num 2))))), by decide +kernel, by decide, fun v => by fn_tac v⟩,
    ⟨(.mul (.mul (.neg (.pow (.add (.pow (.var 1) (.num 2)) (.pow (.var 0) (.num 2))) (.div (.neg (.num 3)) (.num 2)))) (.var 0)) (.var 1)), by decide +kernel, by decide, fun v => by fn_tac v⟩,
    ⟨(.neg (.div (.mul (.var 1) (.var 0)) (.pow (.add (.pow (.var 0) (.num 2)) (.pow (.var 1) (.num 2))) (.div (.num 3) (.num 2))))), by decide +kernel, by decide, fun v => by fn_tac v⟩⟩

theorem fnMeans_2_hess_1_0 : FnMeans MyPieceWiseFunc_piece2_hess_1_0 (outerFn (.h 1 0)) :=
  ⟨⟨(.mul (.mul (.neg (.var 0)) (.var 1)) (.pow (.add (.mul (.var 0) (.var 0)) (.mul (.var 1) (.var 1))) (.neg (.div (.num 3) (.num 2))))), by decide +kernel, by decide, fun v => by fn_tac v⟩,
    ⟨(.mul (.mul (.neg (.var 0)) (.var 1)) (.pow (.add (.mul (.var 0) (.var 0)) (.mul (.var 1) (.var 1))) (.neg (.div (.num 3) (.num 2))))), by decide +kernel, by decide, fun v => by fn_tac v⟩,
    ⟨(.mul (.mul (.neg (.var 0)) (.var 1)) (.pow (.add (.pow (.var 0) (.num 2)) (.pow (.var 1) (.num 2))) (.div (.neg (.num 3)) (.num 2)))), by decide +kernel, by decide, fun v => by fn_tac v⟩,
    ⟨(.neg (.div (.mul (.var 1) (.var 0)) (.pow (.add (.pow (.var 0) (.num 2)) (.pow (.var 1) (.num 2))) (.div (.num 3) (.num 2))))), by decide +kernel, by decide, fun v => by fn_tac v⟩⟩

theorem fnMeans_2_hess_1_1 : FnMeans MyPieceWiseFunc_piece2_hess_1_1 (outerFn (.h 1 1)) :=
  ⟨⟨(.sub (.pow (.add (.mul (.var 0) (.var 0)) (.mul (.var 1) (.var 1))) (.neg (.div (.num 1) (.num 2)))) (.mul (.mul (.var 1) (.var 1)) (.pow (.add (.mul (.var 0) (.var 0)) (.mul (.var 1) (.var 1))) (.neg (.div (.num 3) (.num 2)))))), by decide +kernel, by decide, fun v => by fn_tac v⟩,
    ⟨(.sub (.pow (.add (.mul (.var 0) (.var 0)) (.mul (.var 1) (.var 1))) (.neg (.div (.num 1) (.num 2)))) (.mul (.mul (.var 1) (.var 1)) (.pow (.add (.mul (.var 0) (.var 0)) (.mul (.var 1) (.var 1))) (.neg (.div (.num 3) (.num 2)))))), by decide +kernel, by decide, fun v => by fn_tac v⟩,
    ⟨(.add (.mul (.neg (.pow (.var 1) (.num 2))) (.pow (.add (.pow (.var 0) (.num 2)) (.pow (.var 1) (.num 2))) (.div (.neg (.num 3)) (.num 2)))) (.pow (.add (.pow (.var 0) (.num 2)) (.pow (.var 1) (.num 2))) (.div (.neg (.num 1)) (.num 2)))), by decide +kernel, by decide, fun v => by fn_tac v⟩,
    ⟨(.sub (.div (.num 1) (.sqrt (.add (.pow (.var 1) (.num 2)) (.pow (.var 0) (.num 2))))) (.div (.pow (.var 1) (.num 2)) (.pow (.add (.pow (.var 1) (.num 2)) (.pow (.var 0) (.num 2))) (.div (.num 3) (.num 2))))), by decide +kernel, by decide, fun v => by fn_tac v⟩⟩

theorem condMeans_2_cond0 : CondMeans MyPieceWiseFunc_piece2_cond0 (fun x y => 1 / 4 ≤ x ^ 2 + y ^ 2) :=
  ⟨⟨⟨false, .add (.mul (.var 0) (.var 0)) (.mul (.var 1) (.var 1)), .num (1/4)⟩, by decide +kernel, by decide, fun v => by cond_tac v⟩,
    ⟨⟨false, .add (.mul (.var 0) (.var 0)) (.mul (.var 1) (.var 1)), .num (1/4)⟩, by decide +kernel, by decide, fun v => by cond_tac v⟩,
    ⟨⟨false, .add (.pow (.var 0) (.num 2)) (.pow (.var 1) (.num 2)), .num (1/4)⟩, by decide +kernel, by decide, fun v => by cond_tac v⟩,
    ⟨⟨false, .add (.pow (.var 0) (.num 2)) (.pow (.var 1) (.num 2)), .num (1/4)⟩, by decide +kernel, by decide, fun v => by cond_tac v⟩⟩

theorem condMeans_2_cond1 : CondMeans MyPieceWiseFunc_piece2_cond1 (fun x _ => 0 ≤ x) :=
  ⟨⟨⟨false, .var 0, .num 0⟩, by decide +kernel, by decide, fun v => by cond_tac v⟩,
    ⟨⟨false, .var 0, .num 0⟩, by decide +kernel, by decide, fun v => by cond_tac v⟩,
    ⟨⟨false, .var 0, .num 0⟩, by decide +kernel, by decide, fun v => by cond_tac v⟩,
    ⟨⟨false, .var 0, .num 0⟩, by decide +kernel, by decide, fun v => by cond_tac v⟩⟩

end Verif
