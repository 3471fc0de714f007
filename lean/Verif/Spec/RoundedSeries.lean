import Verif.Spec.Series
import Mathlib.Algebra.Order.Group.Abs
import Mathlib.Algebra.Order.Ring.Defs

/-!
# Specification: tensor-product series in floating-point arithmetic

This file does not mention the model.
-/

namespace Verif.Spec
variable {K : Type} [CommRing K] [LinearOrder K]

/-- The absolute values of the functions. -/
def Family.abs (G : Family K) : Family K :=
  ⟨G.size, fun k x => |G.phi k x|, fun k x => |G.dphi k x|, fun k x => |G.ddphi k x|⟩

/-- The absolute values of the functions, each increased by the number `E` gives for it. -/
def Family.widen (G E : Family K) : Family K :=
  ⟨G.size, fun k x => |G.phi k x| + E.phi k x, fun k x => |G.dphi k x| + E.dphi k x, fun k x => |G.ddphi k x| + E.ddphi k x⟩

/-- No error. -/
def Family.noError : Family K := ⟨0, fun _ _ => 0, fun _ _ => 0, fun _ _ => 0⟩

/-- At the point `x`, `F` computes the functions of `G` with errors at most those of `E`. -/
structure Family.Approx (F G E : Family K) (x : K) : Prop where
  size : F.size = G.size
  phi : ∀ k, k < G.size → |F.phi k x - G.phi k x| ≤ E.phi k x
  dphi : ∀ k, k < G.size → |F.dphi k x - G.dphi k x| ≤ E.dphi k x
  ddphi : ∀ k, k < G.size → |F.ddphi k x - G.ddphi k x| ≤ E.ddphi k x

/-- In every direction `j`, `fs[j]` computes `gs[j]` at `x[j]` with errors at most `es[j]`. -/
def ApproxAt (fs gs es : List (Family K)) (x : List K) : Prop :=
  gs.length = fs.length ∧ es.length = fs.length ∧ x.length = fs.length ∧
    ∀ (j : Nat) F G E y, fs[j]? = some F → gs[j]? = some G → es[j]? = some E → x[j]? = some y → F.Approx G E y

/-- The number of coefficients and variables. -/
def roundings (gs : List (Family K)) : Nat := (gs.map Family.size).prod + gs.length

/-- The bound on the error: `sum |T_ij...| * ((1+u)^n * (|phi0_i| + e0_i) * (|phi1_j| + e1_j) * ... - |phi0_i| * |phi1_j| * ...)`, where `n` is the
number of coefficients plus the number of variables. -/
def seriesError (u : K) (gs es : List (Family K)) (m : List Nat) (c : List Int → K) (x : List K) : K :=
  (1 + u) ^ roundings gs * series (List.zipWith Family.widen gs es) m (fun t => |c t|) x - series (gs.map Family.abs) m (fun t => |c t|) x

/-- The bound for one product of basis functions. -/
def productError (u : K) (gs es : List (Family K)) (m : List Nat) (t : List Int) (x : List K) : K :=
  (1 + u) ^ gs.length * tensorBasis (List.zipWith Family.widen gs es) m t x - tensorBasis (gs.map Family.abs) m t x

end Verif.Spec
