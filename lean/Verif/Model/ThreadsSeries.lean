import Verif.Model.SeriesOps

/-!
# Evaluations of series by several threads (pfunction/PSeriesFunction.hh:124-131, 184-218, 298-332, 481-560; pfunction/PBasisSetBase.hh:84-135)

An evaluation, broken into its accesses to the numbers evaluations write: the stored values and derivatives of the basis functions and the stored results of
the series. Everything else an evaluation looks at (coefficients, sizes, the basis functions themselves) no evaluation writes. `x += y` is a read and a write.
Threads take steps in the order of a schedule (sequential consistency; C++ gives no meaning at all to programs in which two threads access one object without
synchronisation and one of them writes). A thread is not stopped by an error of another.
-/

namespace Verif
namespace SPar
variable {K : Type} [Field K] [LinearOrder K] [FloorRing K]

/-- The numbers evaluations write: PBasisSetBase.hh:25-27 `_val[t]`, `_grad[t]`, `_hess[t]` of basis set `i`; PSeriesFunction.hh:47-50 `_val`,
`_grad_val[di]`, `_hess_val[di][dj]`. -/
inductive Cell where
  | basis (k : Kind) (i t : Int)
  | val
  | grad (di : Int)
  | hess (di dj : Int)

/-- PBasisSetBase.hh:124-135, the getters of a basis set. -/
def getMember : Kind → BasisSet K → Int → Res K
  | .v => BasisSet.getVal | .g => BasisSet.getGrad | .h => BasisSet.getHess

/-- PBasisSetBase.hh:84-95, the assignments `_val[term] = ...`, `_grad[term] = ...`, `_hess[term] = ...`. -/
def putMember : Kind → BasisSet K → Int → K → Res (BasisSet K)
  | .v, b, t, y => do let l ← vset b.val t y; .ok { b with val := l }
  | .g, b, t, y => do let l ← vset b.grad t y; .ok { b with grad := l }
  | .h, b, t, y => do let l ← vset b.hess t y; .ok { b with hess := l }

/-- A cell is read. -/
def rd (s : Series K) : Cell → Res K
  | .basis k i t => do let b ← s.basisAt i; getMember k b t
  | .val => s.get
  | .grad di => s.getGrad di
  | .hess di dj => s.getHess di dj

/-- A cell is written. -/
def wr (s : Series K) : Cell → K → Res (Series K)
  | .basis k i t, y => do let b ← s.basisAt i; let b' ← putMember k b t y; .ok (s.putBasis i b')
  | .val, y => .ok { s with val := some y }
  | .grad di, y => do let g ← vset s.gradVal di y; .ok { s with gradVal := g }
  | .hess di dj, y => do
    let row ← vget s.hessVal di
    let row' ← vset row dj y
    let h ← vset s.hessVal di row'
    .ok { s with hessVal := h }

/-- What is left of an evaluation: its next access to memory and, depending on the number read, the rest; or its result. -/
inductive Prog (K : Type) where
  | done (r : Res K)
  | read (a : Cell) (k : K → Prog K)
  | write (a : Cell) (y : K) (next : Prog K)

/-- The rest of an evaluation, undisturbed by other threads: its result and the series after it. -/
def Prog.exec : Prog K → Series K → Res K × Series K
  | .done r, s => (r, s)
  | .read a k, s =>
    match rd s a with
    | .error e => (.error e, s)
    | .ok y => (k y).exec s
  | .write a y p, s =>
    match wr s a y with
    | .error e => (.error e, s)
    | .ok s' => p.exec s'

/-- The function of a basis set that `eval`, `eval_grad`, `eval_hess` call (PBasisSetBase.hh:156-170). -/
def member : Kind → BasisSet K → Option (Nat → K → K)
  | .v => BasisSet.phi | .g => BasisSet.dphi | .h => BasisSet.ddphi

/-- PBasisSetBase.hh:104-121, the loops of `eval`, `eval_grad`, `eval_hess` of basis set `i`; `n` passes are left, the next is `t`. -/
def termsP (f : Option (Nat → K → K)) (k : Kind) (i : Nat) (x : K) : Nat → Nat → Prog K → Prog K
  | 0, _, next => next
  | n + 1, t, next =>
    match BasisSet.virt f t x with
    | .error e => .done (.error e)
    | .ok y => .write (.basis k i t) y (termsP f k i x n (t + 1) next)

/-- PSeriesFunction.hh:298-332, the loops of `eval_basis`, `eval_basis_grad`, `eval_basis_hess`. -/
def basisP (s : Series K) (k : Kind) (var : List K) : Nat → Nat → Prog K → Prog K
  | 0, _, next => next
  | n + 1, i, next =>
    match s.basisAt i, vget var i with
    | .error e, _ => .done (.error e)
    | .ok _, .error e => .done (.error e)
    | .ok b, .ok x => termsP (member k b) k i x b.val.length 0 (basisP s k var n (i + 1) next)

/-- PSeriesFunction.hh:493, 513-520, 541-555: which stored numbers of basis set `j` are the factors. -/
def sel : Cell → Int → Kind
  | .grad di, j => if j = di then .g else .v
  | .hess di dj, j => if j = di ∨ j = dj then (if di = dj then .h else .g) else .v
  | _, _ => .v

/-- PSeriesFunction.hh:491-494, 511-521, 539-556: the loop `tmp *= ...` over the basis sets. -/
def prodP (a : Cell) (tindex : List Int) : Nat → Nat → K → (K → Prog K) → Prog K
  | 0, _, tmp, k => k tmp
  | n + 1, j, tmp, k =>
    match vget tindex j with
    | .error e => .done (.error e)
    | .ok t => .read (.basis (sel a j) j t) fun y => prodP a tindex n (j + 1) (tmp * y) k

/-- PSeriesFunction.hh:486-496, 507-525, 535-558: the loop over the coefficients, which adds to the stored result. -/
def sumP (s : Series K) (a : Cell) : Nat → Nat → List Int → Prog K → Prog K
  | 0, _, _, next => next
  | n + 1, i, tindex, next =>
    match s.coeff.getLin i, s.coeff.tensorIndices i tindex with
    | .error e, _ => .done (.error e)
    | .ok _, .error e => .done (.error e)
    | .ok c, .ok ti => prodP a ti s.coeff.order.toNat 0 c fun p => .read a fun acc => .write a (acc + p) (sumP s a n (i + 1) ti next)

/-- PSeriesFunction.hh:481-560, `calc_val`, `calc_grad_val(di)`, `calc_hess_val(di,dj)` for the cells `_val`, `_grad_val[di]`, `_hess_val[di][dj]`, without the
`return`. -/
def calcP (s : Series K) (a : Cell) (next : Prog K) : Prog K :=
  .write a s.zeroVal (sumP s a s.coeff.volume.toNat 0 (List.replicate s.coeff.order.toNat 0) next)

/-- `return _val` and the getters (PSeriesFunction.hh:207-218, 498). -/
def getP (a : Cell) : Prog K := .read a fun y => .done (.ok y)

/-- PSeriesFunction.hh:190-191, the loop of `eval_grad`. -/
def gradsP (s : Series K) : Nat → Nat → Prog K → Prog K
  | 0, _, next => next
  | n + 1, i, next => calcP s (.grad i) (gradsP s n (i + 1) next)

/-- PSeriesFunction.hh:203-204, the inner loop of `eval_hess`. -/
def hessRowP (s : Series K) (i : Nat) : Nat → Nat → Prog K → Prog K
  | 0, _, next => next
  | n + 1, j, next => calcP s (.hess i j) (hessRowP s i n (j + 1) next)

/-- PSeriesFunction.hh:202-204, the outer loop of `eval_hess`. -/
def hesssP (s : Series K) : Nat → Nat → Prog K → Prog K
  | 0, _, next => next
  | n + 1, i, next => hessRowP s i s.coeff.order.toNat 0 (hesssP s n (i + 1) next)

/-- What a thread asks for: `series(x)`; `series.eval_grad(x)` and then `series.grad(di)`; `series.eval_hess(x)` and then `series.hess(di,dj)`. -/
inductive Query (K : Type) where
  | value (x : List K)
  | grad (x : List K) (di : Int)
  | hess (x : List K) (di dj : Int)

/-- PSeriesFunction.hh:124-131 (`operator()(var)`), 184-192 (`eval_grad`) and 211-214, 193-205 (`eval_hess`) and 215-218. -/
def prog (s : Series K) : Query K → Prog K
  | .value x => basisP s .v x s.coeff.order.toNat 0 (calcP s .val (getP .val))
  | .grad x di => basisP s .v x s.coeff.order.toNat 0 (basisP s .g x s.coeff.order.toNat 0 (gradsP s s.coeff.order.toNat 0 (getP (.grad di))))
  | .hess x di dj => basisP s .v x s.coeff.order.toNat 0 (basisP s .g x s.coeff.order.toNat 0 (basisP s .h x s.coeff.order.toNat 0
      (hesssP s s.coeff.order.toNat 0 (getP (.hess di dj)))))

/-- A thread: the evaluations to come, what is left of the one under way, and the results so far. -/
structure Thread (K : Type) where
  todo : List (Query K)
  cur : Option (Prog K)
  results : List (Res K)

/-- A thread at its start. -/
def Thread.start (todo : List (Query K)) : Thread K := ⟨todo, none, []⟩

/-- One step of a thread: a call, an access to memory, or a return. -/
def step (t : Thread K) (s : Series K) : Thread K × Series K :=
  match t.cur with
  | none =>
    match t.todo with
    | [] => (t, s)
    | q :: rest => (⟨rest, some (prog s q), t.results⟩, s)
  | some (.done r) => (⟨t.todo, none, t.results ++ [r]⟩, s)
  | some (.read a k) =>
    match rd s a with
    | .error e => ({ t with cur := some (.done (.error e)) }, s)
    | .ok y => ({ t with cur := some (k y) }, s)
  | some (.write a y p) =>
    match wr s a y with
    | .error e => ({ t with cur := some (.done (.error e)) }, s)
    | .ok s' => ({ t with cur := some p }, s')

/-- Threads and series; thread `t` evaluates series `on t`. -/
structure Sys (K : Type) where
  on : Nat → Nat
  threads : Nat → Thread K
  series : Nat → Series K

/-- Thread `t` takes a step. -/
def Sys.step (s : Sys K) (t : Nat) : Sys K :=
  let r := SPar.step (s.threads t) (s.series (s.on t))
  { s with threads := fun u => if u = t then r.1 else s.threads u, series := fun n => if n = s.on t then r.2 else s.series n }

/-- The threads take steps in this order. -/
def Sys.run : Sys K → List Nat → Sys K
  | s, [] => s
  | s, t :: ts => run (s.step t) ts

/-- What a caller's mutex around each evaluation ensures (the library has none): when a thread takes a step, no other thread that uses the same series is in
the middle of an evaluation. -/
def Sys.Locked : Sys K → List Nat → Prop
  | _, [] => True
  | s, t :: ts => (∀ u, u ≠ t → s.on u = s.on t → (s.threads u).cur = none) ∧ Locked (s.step t) ts

end SPar
end Verif
