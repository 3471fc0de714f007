import Verif.Model.SeriesOps

/-!
# Series in floating-point arithmetic

The operations `+` and `*` on doubles that PSeriesFunction.hh executes are rounded, one by one, by a function `rnd` (as in `Model/Rounded`).
The basis functions are given, as computed. Everything else is that of `Model/Series`; with exact arithmetic they are the same
(`Fl.Ser.rounded_id` in `Lemmas/RoundedSeries`). Overflow, underflow, infinities and NaN are not modelled, nor are extended precision and
fused operations.
-/

namespace Verif
namespace Fl.Ser
open Series
variable {K : Type} [Field K] [LinearOrder K] [FloorRing K] (rnd : K → K)

omit [FloorRing K] in
/-- PSeriesFunction.hh:491-494, 511-521, 539-556: the loop `tmp *= ...` over the basis sets. -/
def prodLoop (fac : Int → BasisSet K → Int → Res K) (s : Series K) (tindex : List Int) : Nat → Nat → K → Res K
  | 0, _, tmp => .ok tmp
  | n + 1, j, tmp => do
    let b ← s.basisAt j
    let t ← vget tindex j
    let y ← fac j b t
    prodLoop fac s tindex n (j + 1) (rnd (tmp * y))

omit [FloorRing K] in
/-- PSeriesFunction.hh:486-496, 507-525, 535-558: the loop over the coefficients. -/
def calcLoop (fac : Int → BasisSet K → Int → Res K) (s : Series K) : Nat → Nat → List Int → K → Res K
  | 0, _, _, acc => .ok acc
  | n + 1, i, tindex, acc => do
    let tmp ← s.coeff.getLin i
    let tindex' ← s.coeff.tensorIndices i tindex
    let p ← prodLoop rnd fac s tindex' s.coeff.order.toNat 0 tmp
    calcLoop fac s n (i + 1) tindex' (rnd (acc + p))

omit [FloorRing K] in
/-- The coefficients times basis products, summed from `_zero_val`. -/
def calcSum (fac : Int → BasisSet K → Int → Res K) (s : Series K) : Res K :=
  calcLoop rnd fac s s.coeff.volume.toNat 0 (List.replicate s.coeff.order.toNat 0) s.zeroVal

omit [FloorRing K] in
/-- PSeriesFunction.hh:481-499, `calc_val`. -/
def calcVal (s : Series K) : Res (K × Series K) := do
  let y ← calcSum rnd facVal s
  .ok (y, { s with val := some y })

omit [FloorRing K] in
/-- PSeriesFunction.hh:502-527, `calc_grad_val`. -/
def calcGrad (s : Series K) (di : Int) : Res (K × Series K) := do
  let _ ← vset s.gradVal di s.zeroVal
  let y ← calcSum rnd (facGrad di) s
  let g ← vset s.gradVal di y
  .ok (y, { s with gradVal := g })

omit [FloorRing K] in
/-- PSeriesFunction.hh:530-560, `calc_hess_val`. -/
def calcHess (s : Series K) (di dj : Int) : Res (K × Series K) := do
  let row ← vget s.hessVal di
  let _ ← vset row dj s.zeroVal
  let y ← calcSum rnd (facHess di dj) s
  let row' ← vset row dj y
  let h ← vset s.hessVal di row'
  .ok (y, { s with hessVal := h })

/-- PSeriesFunction.hh:124-131, `operator()(var)`. -/
def evalAt (s : Series K) (var : List K) : Res (K × Series K) := do
  let s1 ← s.evalBasis var
  calcVal rnd s1

/-- PSeriesFunction.hh:133-150, `grad(var, di)`. -/
def gradAt (s : Series K) (var : List K) (di : Int) : Res (K × Series K) := do
  let s1 ← gradAtLoop var di s.coeff.order.toNat 0 s
  calcGrad rnd s1 di

/-- PSeriesFunction.hh:152-176, `hess(var, di, dj)`. -/
def hessAt (s : Series K) (var : List K) (di dj : Int) : Res (K × Series K) := do
  let s1 ← hessAtLoop var di dj s.coeff.order.toNat 0 s
  calcHess rnd s1 di dj

omit [FloorRing K] in
/-- PSeriesFunction.hh:190-191, the loop of `eval_grad`. -/
def calcGrads : Nat → Nat → Series K → Res (Series K)
  | 0, _, s => .ok s
  | n + 1, i, s => do
    let r ← calcGrad rnd s i
    calcGrads n (i + 1) r.2

/-- PSeriesFunction.hh:184-192, `eval_grad`. -/
def evalGrad (s : Series K) (var : List K) : Res (Series K) := do
  let s1 ← s.evalBasis var
  let s2 ← s1.evalBasisGrad var
  calcGrads rnd s2.coeff.order.toNat 0 s2

omit [FloorRing K] in
/-- PSeriesFunction.hh:203-204, the inner loop of `eval_hess`. -/
def calcHessRow (i : Nat) : Nat → Nat → Series K → Res (Series K)
  | 0, _, s => .ok s
  | n + 1, j, s => do
    let r ← calcHess rnd s i j
    calcHessRow i n (j + 1) r.2

omit [FloorRing K] in
/-- PSeriesFunction.hh:202-204, the outer loop of `eval_hess`. -/
def calcHesss : Nat → Nat → Series K → Res (Series K)
  | 0, _, s => .ok s
  | n + 1, i, s => do
    let s' ← calcHessRow rnd i s.coeff.order.toNat 0 s
    calcHesss n (i + 1) s'

/-- PSeriesFunction.hh:193-205, `eval_hess`. -/
def evalHess (s : Series K) (var : List K) : Res (Series K) := do
  let s1 ← s.evalBasis var
  let s2 ← s1.evalBasisGrad var
  let s3 ← s2.evalBasisHess var
  calcHesss rnd s3.coeff.order.toNat 0 s3

omit [FloorRing K] in
/-- PSeriesFunction.hh:245-246, 254-264, 272-289: the loop over the basis sets. -/
def basisProdLoop (ev : Int → BasisSet K → Int → K → Res (K × BasisSet K)) (term : List Int) (var : List K) :
    Nat → Nat → K → Series K → Res (K × Series K)
  | 0, _, tmp, s => .ok (tmp, s)
  | n + 1, i, tmp, s => do
    let b ← s.basisAt i
    let t ← vget term i
    let x ← vget var i
    let r ← ev i b t x
    basisProdLoop ev term var n (i + 1) (rnd (tmp * r.1)) (s.putBasis i r.2)

omit [FloorRing K] in
/-- PSeriesFunction.hh:241-292, `basis(term,var)`, `basis_grad(term,var,di)`, `basis_hess(term,var,di,dj)`. -/
def basisProd (ev : Int → BasisSet K → Int → K → Res (K × BasisSet K)) (s : Series K) (term : List Int) (var : List K) :
    Res (K × Series K) := basisProdLoop rnd ev term var s.coeff.order.toNat 0 s.identityVal s

omit [FloorRing K] in
/-- PSeriesFunction.hh:349-401, the getters `basis(term)`, `basis_grad(term,di)`, `basis_hess(term,di,dj)`. -/
def basisGet (fac : Int → BasisSet K → Int → Res K) (s : Series K) (term : List Int) : Res K :=
  prodLoop rnd fac s term s.coeff.order.toNat 0 s.identityVal

/-- One call; returned values are dropped. Calls without arithmetic are those of `Series.step`. -/
def step (s : Series K) : SerOp K → Res (Series K)
  | .evalAt x => do let r ← evalAt rnd s x; .ok r.2
  | .gradAt x di => do let r ← gradAt rnd s x di; .ok r.2
  | .hessAt x di dj => do let r ← hessAt rnd s x di dj; .ok r.2
  | .evalGrad x => evalGrad rnd s x
  | .evalHess x => evalHess rnd s x
  | .prod t x => do let r ← basisProd rnd evVal s t x; .ok r.2
  | .prodGrad t x di => do let r ← basisProd rnd (evGrad di) s t x; .ok r.2
  | .prodHess t x di dj => do let r ← basisProd rnd (evHess di dj) s t x; .ok r.2
  | op => s.step op

/-- A history of calls. -/
def run : List (SerOp K) → Series K → Res (Series K)
  | [], s => .ok s
  | op :: ops, s => do
    let s' ← step rnd s op
    run ops s'

end Fl.Ser
end Verif
