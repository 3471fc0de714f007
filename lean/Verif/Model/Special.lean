import Verif.Model.Threads

/-!
# Coordinates that are infinite or not numbers (datastruc/Bin.hh:154-189, pfield/Mesh.hh:399-514, pfield/PField.hh:105-156)

IEEE 754 doubles are finite numbers, infinities and NaN. The limits of a bin are finite (they come from points read from a file). Finite
arithmetic is exact here, the sign of zero is not modelled.
-/

namespace Verif
variable {K : Type} {d : Nat}

/-- A double. -/
inductive Dbl (K : Type) where
  | fin (x : K)
  | inf
  | ninf
  | nan

namespace Dbl
section ops
variable [Field K] [LinearOrder K]

omit [Field K] in
/-- `a < b`: false when one of them is NaN. -/
def lt : Dbl K → Dbl K → Bool
  | fin a, fin b => decide (a < b)
  | fin _, inf => true
  | ninf, fin _ => true
  | ninf, inf => true
  | _, _ => false

omit [LinearOrder K] in
/-- `a - b`. -/
def sub : Dbl K → Dbl K → Dbl K
  | nan, _ => nan
  | _, nan => nan
  | fin a, fin b => fin (a - b)
  | fin _, inf => ninf
  | fin _, ninf => inf
  | inf, inf => nan
  | inf, _ => inf
  | ninf, ninf => nan
  | ninf, _ => ninf

/-- `a / b` (zero taken as positive). -/
def divide : Dbl K → Dbl K → Dbl K
  | nan, _ => nan
  | _, nan => nan
  | fin a, fin b => if b = 0 then (if a = 0 then nan else if 0 < a then inf else ninf) else fin (a / b)
  | fin _, _ => fin 0
  | inf, fin b => if b < 0 then ninf else inf
  | ninf, fin b => if b < 0 then inf else ninf
  | _, _ => nan

end ops
section bin
variable [Field K] [LinearOrder K] [FloorRing K]

/-- Bin.hh:187: `std::floor`, and conversion to `int`, which is undefined when the number does not fit (C++ [conv.fpint]). -/
def toInt : Dbl K → Res Int
  | fin x => ckInt ⌊x⌋
  | _ => .error (.ub .overflow)

/-- Bin.hh:185-187, one pass of `indices`. -/
def idxAt (min max incr coord : List (Dbl K)) (i : Nat) : Res Int := do
  let c ← vget coord (i : Nat)
  let lo ← vget min (i : Nat)
  if lt c lo then .error .domainError
  else do
    let hi ← vget max (i : Nat)
    if lt hi c then .error .domainError
    else do
      let w ← vget incr (i : Nat)
      toInt (divide (sub c lo) w)

/-- Bin.hh:177-188, the loop of `indices`. -/
def idxLoop (min max incr coord : List (Dbl K)) : Nat → Nat → List Int → Res Unit × List Int
  | 0, _, term => (.ok (), term)
  | n + 1, i, term =>
    match idxAt min max incr coord i with
    | .error e => (.error e, term)
    | .ok k =>
      match vset term (i : Nat) k with
      | .error e => (.error e, term)
      | .ok term' => idxLoop min max incr coord n (i + 1) term'

/-- Bin.hh:154-158, `contents`. -/
def contents {T : Type} (b : Bin T K) (coord : List (Dbl K)) : Res (List T) × Bin T K :=
  let (r, idx) := idxLoop (b.min.map fin) (b.max.map fin) (b.incr.map fin) coord b.item.order.toNat 0 b.indices
  let b1 := { b with indices := idx }
  match r with
  | .error e => (.error e, b1)
  | .ok _ => (b1.item.get idx, b1)

omit [Field K] [LinearOrder K] [FloorRing K] in
/-- The coordinate of an evaluation. -/
def point : Par.Query (Dbl K) d → Fin d → Dbl K
  | .value c => c
  | .grad c _ => c
  | .hess c _ _ => c

omit [Field K] [LinearOrder K] [FloorRing K] in
/-- An evaluation at finite coordinates. -/
def finite : Par.Query K d → Par.Query (Dbl K) d
  | .value c => .value fun i => fin (c i)
  | .grad c di => .grad (fun i => fin (c i)) di
  | .hess c di dj => .hess (fun i => fin (c i)) di dj

/-- PField.hh:114-156, Mesh.hh:399-514: an evaluation of field `i` of a body. `after` is what happens once the bin is found (for
finite coordinates this is `Par.finish`; for others it does not matter, since no bin is found). -/
def evaluate (after : Par.Query (Dbl K) d → PField K → List (Interp K d) → Res K × PField K) (b : Body K d) (i : Nat)
    (q : Par.Query (Dbl K) d) : Res K × Body K d :=
  match b.fields[i]? with
  | none => (.error (.ub .oob), b)
  | some f =>
    match contents b.mesh.bin (List.ofFn (point q)) with
    | (.error e, bin) => (.error e, ⟨{ b.mesh with bin := bin }, b.fields⟩)
    | (.ok content, bin) =>
      match after q f content with
      | (r, f') => (r, ⟨{ b.mesh with bin := bin }, b.fields.set i f'⟩)

end bin
end Dbl
end Verif
