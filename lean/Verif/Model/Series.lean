import Verif.Model.NDArray
import Verif.Model.Func
import Verif.Model.Stream
import Mathlib.Algebra.Order.Floor.Ring
import Mathlib.Algebra.Field.Defs

/-!
# Model of `PBasisSetBase` (pfunction/PBasisSetBase.hh) and `PSeriesFunction` (pfunction/PSeriesFunction.hh)

`InType = OutType = double` (exact numbers `K`), `VarContainer = std::vector<double>`, `IndexContainer = std::vector<int>`. Basis
functions are total functions of the number (they do not throw), so the only ways to leave a member early are `exit` and undefined
behaviour; the state after those is not modelled. Members that are `PBasisSet` handles are modelled as the values they hold
(property C38).
-/

namespace Verif
open Spec

/-- Conversion of a `double` to an `int` (or to an unsigned index): truncation; undefined if the result does not fit. -/
def d2i {K : Type} [Field K] [LinearOrder K] [FloorRing K] (x : K) : Res Int := ckInt (if 0 ≤ x then ⌊x⌋ else ⌈x⌉)

/-- PBasisSetBase.hh:23-28 and the private virtual members `eval`, `eval_grad`, `eval_hess` of a derived class (156-170; `none`: not
overridden). -/
structure BasisSet (K : Type) where
  phi : Option (Nat → K → K)
  dphi : Option (Nat → K → K)
  ddphi : Option (Nat → K → K)
  val : List K
  grad : List K
  hess : List K

namespace BasisSet
variable {K : Type}

/-- PBasisSetBase.hh:53-58, `resize` of the base class; new elements are `OutType()`, `zero`. -/
def resize (zero : K) (b : BasisSet K) (n : Nat) : BasisSet K :=
  { b with val := vresize b.val n zero, grad := vresize b.grad n zero, hess := vresize b.hess n zero }

/-- PBasisSetBase.hh:43-46, constructor (with the members of the derived class). -/
def make (zero : K) (n : Nat) (phi dphi ddphi : Option (Nat → K → K)) : BasisSet K :=
  resize zero ⟨phi, dphi, ddphi, [], [], []⟩ n

/-- PBasisSetBase.hh:38-41, `size()`. -/
def size (b : BasisSet K) : Nat := b.val.length

/-- PBasisSetBase.hh:156-177, a private virtual member: the derived class's function, or `undefined`, which exits. -/
def virt (f : Option (Nat → K → K)) (term : Int) (x : K) : Res K :=
  match f with
  | some f => .ok (f term.toNat x)
  | none => .error (.exit 1)

/-- PBasisSetBase.hh:84-87, `operator()(term, var)`. -/
def evalTerm (b : BasisSet K) (term : Int) (x : K) : Res (K × BasisSet K) := do
  let y ← virt b.phi term x
  let l ← vset b.val term y
  .ok (y, { b with val := l })

/-- PBasisSetBase.hh:88-91, `grad(term, var)`. -/
def gradTerm (b : BasisSet K) (term : Int) (x : K) : Res (K × BasisSet K) := do
  let y ← virt b.dphi term x
  let l ← vset b.grad term y
  .ok (y, { b with grad := l })

/-- PBasisSetBase.hh:92-95, `hess(term, var)`. -/
def hessTerm (b : BasisSet K) (term : Int) (x : K) : Res (K × BasisSet K) := do
  let y ← virt b.ddphi term x
  let l ← vset b.hess term y
  .ok (y, { b with hess := l })

/-- PBasisSetBase.hh:106-107, the loop of `eval`; `n` passes are left, the next is `i`. -/
def evalLoop (x : K) : Nat → Nat → BasisSet K → Res (BasisSet K)
  | 0, _, b => .ok b
  | n + 1, i, b => do
    let r ← b.evalTerm i x
    evalLoop x n (i + 1) r.2

/-- PBasisSetBase.hh:112-113, the loop of `eval_grad`. -/
def gradLoop (x : K) : Nat → Nat → BasisSet K → Res (BasisSet K)
  | 0, _, b => .ok b
  | n + 1, i, b => do
    let r ← b.gradTerm i x
    gradLoop x n (i + 1) r.2

/-- PBasisSetBase.hh:118-119, the loop of `eval_hess`. -/
def hessLoop (x : K) : Nat → Nat → BasisSet K → Res (BasisSet K)
  | 0, _, b => .ok b
  | n + 1, i, b => do
    let r ← b.hessTerm i x
    hessLoop x n (i + 1) r.2

/-- PBasisSetBase.hh:104-109, `eval(var)`. -/
def eval (b : BasisSet K) (x : K) : Res (BasisSet K) := evalLoop x b.val.length 0 b
/-- PBasisSetBase.hh:110-115, `eval_grad(var)`; the loop runs over `_val.size()`. -/
def evalGrad (b : BasisSet K) (x : K) : Res (BasisSet K) := gradLoop x b.val.length 0 b
/-- PBasisSetBase.hh:116-121, `eval_hess(var)`; the loop runs over `_val.size()`. -/
def evalHess (b : BasisSet K) (x : K) : Res (BasisSet K) := hessLoop x b.val.length 0 b

/-- PBasisSetBase.hh:124-127, getter `operator()(term)`. -/
def getVal (b : BasisSet K) (term : Int) : Res K := vget b.val term
/-- PBasisSetBase.hh:128-131, getter `grad(term)`. -/
def getGrad (b : BasisSet K) (term : Int) : Res K := vget b.grad term
/-- PBasisSetBase.hh:132-135, getter `hess(term)`. -/
def getHess (b : BasisSet K) (term : Int) : Res K := vget b.hess term

end BasisSet

/-- Calls on a basis set. -/
inductive BCall (K : Type) where
  | evalTerm (term : Int) (x : K) | gradTerm (term : Int) (x : K) | hessTerm (term : Int) (x : K)
  | eval (x : K) | evalGrad (x : K) | evalHess (x : K)
  | resize (n : Nat)

/-- One call on a basis set. -/
def BasisSet.step {K : Type} (zero : K) (b : BasisSet K) : BCall K → Res (BasisSet K)
  | .evalTerm t x => do let r ← b.evalTerm t x; .ok r.2
  | .gradTerm t x => do let r ← b.gradTerm t x; .ok r.2
  | .hessTerm t x => do let r ← b.hessTerm t x; .ok r.2
  | .eval x => b.eval x
  | .evalGrad x => b.evalGrad x
  | .evalHess x => b.evalHess x
  | .resize n => .ok (b.resize zero n)

/-- A history of calls on a basis set. -/
def BasisSet.run {K : Type} (zero : K) : List (BCall K) → BasisSet K → Res (BasisSet K)
  | [], b => .ok b
  | c :: cs, b => do
    let b' ← b.step zero c
    run zero cs b'

/-- PSeriesFunction.hh:39-50, the data members. `val = none`: `_val` is uninitialised until `clear()` or an evaluation. The members
of the base class are never set. -/
structure Series (K : Type) where
  coeff : NDArray K
  identityVal : K
  zeroVal : K
  basis : List (Option (BasisSet K))
  val : Option K
  gradVal : List K
  hessVal : List (List K)

namespace Series
variable {K : Type} [Field K] [LinearOrder K] [FloorRing K]

/-- PSeriesFunction.hh:53-57, constructor without basis sets. -/
def make (zero identity : K) : Series K := ⟨.empty, identity, zero, [], none, [], []⟩

/-- PSeriesFunction.hh:72-82, `clear`. -/
def clear (s : Series K) : Series K :=
  { s with basis := [], coeff := s.coeff.clear, val := some s.zeroVal, gradVal := [], hessVal := [] }

/-- `PBasisSet::size()` of each element, PSeriesFunction.hh:92-93; the conversion to `int` is taken to fit. -/
def sizes : List (Option (BasisSet K)) → Res (List Int)
  | [] => .ok []
  | none :: _ => .error (.ub .nullDeref)
  | some b :: bs => do
    let l ← sizes bs
    .ok ((b.size : Int) :: l)

/-- PSeriesFunction.hh:107, `_basis_set[i] = basis_set[i]` for every `i`; an empty handle is dereferenced. -/
def copyBases : List (Option (BasisSet K)) → Res (List (Option (BasisSet K)))
  | [] => .ok []
  | none :: _ => .error (.ub .nullDeref)
  | some b :: bs => do
    let l ← copyBases bs
    .ok (some b :: l)

/-- PSeriesFunction.hh:86-111, `set`. -/
def set (s : Series K) (bs : List (Option (BasisSet K))) : Res (Series K) := do
  let s0 := s.clear
  let dim ← sizes bs
  match s0.coeff.resize 0 dim with
  | (.error e, _) => .error e
  | (.ok _, c) => do
    let l ← copyBases bs
    let n := c.order.toNat
    .ok { s0 with coeff := c, basis := l, gradVal := List.replicate n 0, hessVal := List.replicate n (List.replicate n 0) }

/-- `_basis_set[i]`, dereferenced. -/
def basisAt (s : Series K) (i : Int) : Res (BasisSet K) := do
  match ← vget s.basis i with
  | some b => .ok b
  | none => .error (.ub .nullDeref)

/-- `_basis_set[i]` is changed by one of its members. -/
def putBasis (s : Series K) (i : Int) (b : BasisSet K) : Series K := { s with basis := s.basis.set i.toNat (some b) }

/-- PSeriesFunction.hh:298-332, the loops of `eval_basis`, `eval_basis_grad`, `eval_basis_hess` (`f` is the member of the basis set
that is called); `n` passes are left, the next is `i`. -/
def basisLoop (f : BasisSet K → K → Res (BasisSet K)) (var : List K) : Nat → Nat → Series K → Res (Series K)
  | 0, _, s => .ok s
  | n + 1, i, s => do
    let b ← s.basisAt i
    let x ← vget var i
    let b' ← f b x
    basisLoop f var n (i + 1) (s.putBasis i b')

/-- PSeriesFunction.hh:298-304, `eval_basis(var)`. -/
def evalBasis (s : Series K) (var : List K) : Res (Series K) := basisLoop BasisSet.eval var s.coeff.order.toNat 0 s
/-- PSeriesFunction.hh:311-316, `eval_basis_grad(var)`. -/
def evalBasisGrad (s : Series K) (var : List K) : Res (Series K) := basisLoop BasisSet.evalGrad var s.coeff.order.toNat 0 s
/-- PSeriesFunction.hh:322-327, `eval_basis_hess(var)`. -/
def evalBasisHess (s : Series K) (var : List K) : Res (Series K) := basisLoop BasisSet.evalHess var s.coeff.order.toNat 0 s

/-- PSeriesFunction.hh:305-310, `eval_basis(var, i)`; 317-321 and 328-332 for the derivatives. -/
def evalBasis1 (f : BasisSet K → K → Res (BasisSet K)) (s : Series K) (var : List K) (i : Int) : Res (Series K) := do
  let b ← s.basisAt i
  let x ← vget var i
  let b' ← f b x
  .ok (s.putBasis i b')

/-- Which stored number of basis set `j` is a factor: PSeriesFunction.hh:493 for values. -/
def facVal (_j : Int) : BasisSet K → Int → Res K := BasisSet.getVal
/-- PSeriesFunction.hh:513-520, the factor for the gradient in direction `di`. -/
def facGrad (di : Int) (j : Int) : BasisSet K → Int → Res K := if j = di then BasisSet.getGrad else BasisSet.getVal
/-- PSeriesFunction.hh:541-555, the factor for the Hessian in directions `di`, `dj`. -/
def facHess (di dj : Int) (j : Int) : BasisSet K → Int → Res K :=
  if j = di ∨ j = dj then (if di = dj then BasisSet.getHess else BasisSet.getGrad) else BasisSet.getVal

/-- PSeriesFunction.hh:491-494, 511-521, 539-556: the loop `tmp *= ...` over the basis sets. -/
def prodLoop (fac : Int → BasisSet K → Int → Res K) (s : Series K) (tindex : List Int) : Nat → Nat → K → Res K
  | 0, _, tmp => .ok tmp
  | n + 1, j, tmp => do
    let b ← s.basisAt j
    let t ← vget tindex j
    let y ← fac j b t
    prodLoop fac s tindex n (j + 1) (tmp * y)

/-- PSeriesFunction.hh:486-496, 507-525, 535-558: the loop over the coefficients. -/
def calcLoop (fac : Int → BasisSet K → Int → Res K) (s : Series K) : Nat → Nat → List Int → K → Res K
  | 0, _, _, acc => .ok acc
  | n + 1, i, tindex, acc => do
    let tmp ← s.coeff.getLin i
    let tindex' ← s.coeff.tensorIndices i tindex
    let p ← prodLoop fac s tindex' s.coeff.order.toNat 0 tmp
    calcLoop fac s n (i + 1) tindex' (acc + p)

/-- The coefficients times basis products, summed from `_zero_val`. -/
def calcSum (fac : Int → BasisSet K → Int → Res K) (s : Series K) : Res K :=
  calcLoop fac s s.coeff.volume.toNat 0 (List.replicate s.coeff.order.toNat 0) s.zeroVal

/-- PSeriesFunction.hh:481-499, `calc_val`. -/
def calcVal (s : Series K) : Res (K × Series K) := do
  let y ← s.calcSum facVal
  .ok (y, { s with val := some y })

/-- PSeriesFunction.hh:502-527, `calc_grad_val`. -/
def calcGrad (s : Series K) (di : Int) : Res (K × Series K) := do
  let _ ← vset s.gradVal di s.zeroVal
  let y ← s.calcSum (facGrad di)
  let g ← vset s.gradVal di y
  .ok (y, { s with gradVal := g })

/-- PSeriesFunction.hh:530-560, `calc_hess_val`. -/
def calcHess (s : Series K) (di dj : Int) : Res (K × Series K) := do
  let row ← vget s.hessVal di
  let _ ← vset row dj s.zeroVal
  let y ← s.calcSum (facHess di dj)
  let row' ← vset row dj y
  let h ← vset s.hessVal di row'
  .ok (y, { s with hessVal := h })

/-- PSeriesFunction.hh:124-131, `operator()(var)`. -/
def evalAt (s : Series K) (var : List K) : Res (K × Series K) := do
  let s1 ← s.evalBasis var
  s1.calcVal

/-- PSeriesFunction.hh:136-146, the loop of `grad(var, di)`. For `i != di` the statement `_basis_set[i](var[i]);` is the *getter*
`PBasisSet::operator()(int)` with `var[i]` converted to `int`; nothing is evaluated. -/
def gradAtLoop (var : List K) (di : Int) : Nat → Nat → Series K → Res (Series K)
  | 0, _, s => .ok s
  | n + 1, i, s => do
    let b ← s.basisAt i
    let x ← vget var i
    if (i : Int) = di then do
      let b' ← b.evalGrad x
      gradAtLoop var di n (i + 1) (s.putBasis i b')
    else do
      let t ← d2i x
      let _ ← b.getVal t
      gradAtLoop var di n (i + 1) s

/-- PSeriesFunction.hh:133-150, `grad(var, di)`. -/
def gradAt (s : Series K) (var : List K) (di : Int) : Res (K × Series K) := do
  let s1 ← gradAtLoop var di s.coeff.order.toNat 0 s
  s1.calcGrad di

/-- PSeriesFunction.hh:155-172, the loop of `hess(var, di, dj)`. -/
def hessAtLoop (var : List K) (di dj : Int) : Nat → Nat → Series K → Res (Series K)
  | 0, _, s => .ok s
  | n + 1, i, s => do
    let b ← s.basisAt i
    let x ← vget var i
    if (i : Int) = di ∨ (i : Int) = dj then do
      let b' ← if di = dj then b.evalHess x else b.evalGrad x
      hessAtLoop var di dj n (i + 1) (s.putBasis i b')
    else do
      let t ← d2i x
      let _ ← b.getVal t
      hessAtLoop var di dj n (i + 1) s

/-- PSeriesFunction.hh:152-176, `hess(var, di, dj)`. -/
def hessAt (s : Series K) (var : List K) (di dj : Int) : Res (K × Series K) := do
  let s1 ← hessAtLoop var di dj s.coeff.order.toNat 0 s
  s1.calcHess di dj

/-- PSeriesFunction.hh:190-191, the loop of `eval_grad`. -/
def calcGrads : Nat → Nat → Series K → Res (Series K)
  | 0, _, s => .ok s
  | n + 1, i, s => do
    let r ← s.calcGrad i
    calcGrads n (i + 1) r.2

/-- PSeriesFunction.hh:184-192, `eval_grad`. -/
def evalGrad (s : Series K) (var : List K) : Res (Series K) := do
  let s1 ← s.evalBasis var
  let s2 ← s1.evalBasisGrad var
  calcGrads s2.coeff.order.toNat 0 s2

/-- PSeriesFunction.hh:203-204, the inner loop of `eval_hess`. -/
def calcHessRow (i : Nat) : Nat → Nat → Series K → Res (Series K)
  | 0, _, s => .ok s
  | n + 1, j, s => do
    let r ← s.calcHess i j
    calcHessRow i n (j + 1) r.2

/-- PSeriesFunction.hh:202-204, the outer loop of `eval_hess`. -/
def calcHesss : Nat → Nat → Series K → Res (Series K)
  | 0, _, s => .ok s
  | n + 1, i, s => do
    let s' ← calcHessRow i s.coeff.order.toNat 0 s
    calcHesss n (i + 1) s'

/-- PSeriesFunction.hh:193-205, `eval_hess`. -/
def evalHess (s : Series K) (var : List K) : Res (Series K) := do
  let s1 ← s.evalBasis var
  let s2 ← s1.evalBasisGrad var
  let s3 ← s2.evalBasisHess var
  calcHesss s3.coeff.order.toNat 0 s3

/-- PSeriesFunction.hh:207-210, `operator()()`. -/
def get (s : Series K) : Res K :=
  match s.val with
  | some y => .ok y
  | none => .error (.ub .uninit)
/-- PSeriesFunction.hh:211-214, `grad(di)`. -/
def getGrad (s : Series K) (di : Int) : Res K := vget s.gradVal di
/-- PSeriesFunction.hh:215-218, `hess(di,dj)`. -/
def getHess (s : Series K) (di dj : Int) : Res K := do
  let row ← vget s.hessVal di
  vget row dj

/-- PSeriesFunction.hh:227-238, `basis(bindex, term, var)` and its derivatives (`f` is the member of the basis set). -/
def basis1 (f : BasisSet K → Int → K → Res (K × BasisSet K)) (s : Series K) (bindex term : Int) (var : List K) :
    Res (K × Series K) := do
  let b ← s.basisAt bindex
  let x ← vget var bindex
  let r ← f b term x
  .ok (r.1, s.putBasis bindex r.2)

/-- The factor that is evaluated in `basis(term,var)` (PSeriesFunction.hh:246). -/
def evVal (_j : Int) : BasisSet K → Int → K → Res (K × BasisSet K) := BasisSet.evalTerm
/-- PSeriesFunction.hh:256-263, `basis_grad(term,var,di)`. -/
def evGrad (di : Int) (j : Int) : BasisSet K → Int → K → Res (K × BasisSet K) :=
  if j = di then BasisSet.gradTerm else BasisSet.evalTerm
/-- PSeriesFunction.hh:274-288, `basis_hess(term,var,di,dj)`. -/
def evHess (di dj : Int) (j : Int) : BasisSet K → Int → K → Res (K × BasisSet K) :=
  if j = di ∨ j = dj then (if di = dj then BasisSet.hessTerm else BasisSet.gradTerm) else BasisSet.evalTerm

/-- PSeriesFunction.hh:245-246, 254-264, 272-289: the loop over the basis sets. -/
def basisProdLoop (ev : Int → BasisSet K → Int → K → Res (K × BasisSet K)) (term : List Int) (var : List K) :
    Nat → Nat → K → Series K → Res (K × Series K)
  | 0, _, tmp, s => .ok (tmp, s)
  | n + 1, i, tmp, s => do
    let b ← s.basisAt i
    let t ← vget term i
    let x ← vget var i
    let r ← ev i b t x
    basisProdLoop ev term var n (i + 1) (tmp * r.1) (s.putBasis i r.2)

/-- PSeriesFunction.hh:241-292, `basis(term,var)`, `basis_grad(term,var,di)`, `basis_hess(term,var,di,dj)` for `ev` = `evVal`,
`evGrad di`, `evHess di dj`. -/
def basisProd (ev : Int → BasisSet K → Int → K → Res (K × BasisSet K)) (s : Series K) (term : List Int) (var : List K) :
    Res (K × Series K) := basisProdLoop ev term var s.coeff.order.toNat 0 s.identityVal s

/-- PSeriesFunction.hh:349-401, the getters `basis(term)`, `basis_grad(term,di)`, `basis_hess(term,di,dj)` for `fac` = `facVal`,
`facGrad di`, `facHess di dj`. -/
def basisGet (fac : Int → BasisSet K → Int → Res K) (s : Series K) (term : List Int) : Res K :=
  prodLoop fac s term s.coeff.order.toNat 0 s.identityVal

end Series

end Verif
