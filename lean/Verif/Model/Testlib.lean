import Verif.Model.TestlibData
import Verif.Model.Series

/-!
# Model of the classes `Monomial`, `Chebyshev`, `Quadratic` and `MyFunc` (tests/testlib)

Expressions and strings are in `TestlibData`. Monomial.hh and Chebyshev.hh are otherwise the same program; line numbers are those of
Monomial.hh, and in Chebyshev.hh they are the same.
-/

namespace Verif
open Spec Testlib

/-- The operations of C++ on numbers: the value of a literal, `+`, `-`, `*` and the unary minus. -/
class Arith (K : Type) where
  lit : ℚ → K
  add : K → K → K
  sub : K → K → K
  mul : K → K → K
  neg : K → K

/-- Exact arithmetic. -/
instance Arith.exact {K : Type} [Field K] : Arith K := ⟨fun q => (q : K), (· + ·), (· - ·), (· * ·), (- ·)⟩

/-- Evaluation of a C++ expression, operation by operation, as it is written (Monomial.hh:14-16 and the same lines of every class: `return` and
the expression). C++ has no powers; the expressions have none. -/
def Spec.Ast.compute {K : Type} [Arith K] (v : Nat → K) : Ast → K
  | .num q => Arith.lit q
  | .var i => v i
  | .add a b => Arith.add (a.compute v) (b.compute v)
  | .sub a b => Arith.sub (a.compute v) (b.compute v)
  | .mul a b => Arith.mul (a.compute v) (b.compute v)
  | .neg a => Arith.neg (a.compute v)
  | .pow a n => Nat.rec (Arith.lit 1) (fun _ r => Arith.mul r (a.compute v)) n

/-- A class derived from `PSimpleBase`: `fn` is what its `eval` computes. -/
def Testlib.ClassText.obj {V K : Type} (fn : V → Res K) (t : ClassText) : SObj V K where
  name := t.name
  fn := some fn
  csrc := some (.ok (String.ofList t.csrc))
  sym := some (.ok (String.ofList t.sym))
  latex := some (.ok (String.ofList t.latex))
  val := none

/-- An object of one of the 90 classes of a basis set (Monomial.hh:10-2618): `eval` read as a C++ expression. (Text
that is no expression would not compile; property C77 is that this does not happen.) -/
def Testlib.ClassText.obj1 {K : Type} [Arith K] (t : ClassText) : SObj K K :=
  t.obj fun v => match readCpp1 t.eval with | some a => .ok (a.compute fun _ => v) | none => .error .runtimeError

/-- An object of one of the classes in Quadratic.hh:10-112, MyFunc.hh:10-258, with `VarContainer = std::vector<double>`: an access
beyond the end of the vector is undefined. -/
def Testlib.ClassText.objN {K : Type} [Arith K] [Zero K] (t : ClassText) : SObj (List K) K :=
  t.obj fun v => match readCpp t.eval with
    | some a => if a.vars ≤ v.length then .ok (a.compute fun i => v.getD i 0) else .error (.ub .oob)
    | none => .error .runtimeError

/-- Quadratic.hh:233-253, `construct()`. -/
def quadratic {K : Type} [Arith K] [Zero K] : Flex (List K) K :=
  ⟨⟨"Quadratic", ["x"], ["A quadratic function of one variable"]⟩, some Quadratic_f.objN, [some Quadratic_grad_0.objN],
    [[some Quadratic_hess_0_0.objN]]⟩

/-- MyFunc.hh:394-420, `construct()`. -/
def myFunc {K : Type} [Arith K] [Zero K] : Flex (List K) K :=
  ⟨⟨"MyFunc", ["x", "y"], ["x variable", "y_variable"]⟩, some MyFunc_f.objN, [some MyFunc_grad_0.objN, some MyFunc_grad_1.objN],
    [[some MyFunc_hess_0_0.objN, some MyFunc_hess_0_1.objN], [some MyFunc_hess_1_0.objN, some MyFunc_hess_1_1.objN]]⟩

/-- Quadratic.hh:134-142, MyFunc.hh:278-290: the copy constructor sets the names anew and clones every component of `RHS`; `clone()`. -/
def genCopy {K : Type} (base : FBase) (rhs : Flex (List K) K) : Flex (List K) K := ⟨base, rhs.val, rhs.grad, rhs.hess⟩

/-- Quadratic.hh:144-153, MyFunc.hh:292-305: `operator=` takes a copy of the right-hand side and swaps the components; the names stay. -/
def genAssign {K : Type} (base : FBase) (p rhs : Flex (List K) K) : Flex (List K) K :=
  let tmp := genCopy base rhs
  { p with val := tmp.val, grad := tmp.grad, hess := tmp.hess }

/-- What distinguishes `Monomial` from `Chebyshev`. -/
structure TermClass where
  name : String
  description : String
  terms : List TermText

/-- Monomial.hh. -/
def monomialClass : TermClass := ⟨"Monomial", "Monomials up to 30", monomialTerms⟩
/-- Chebyshev.hh. -/
def chebyshevClass : TermClass := ⟨"Chebyshev", "Chebyshev Polynomials up to term 30", chebyshevTerms⟩

/-- Monomial.hh:2857-2860, `max_size()`. -/
def TermClass.maxSize (_ : TermClass) : Nat := 30

/-- The data members: those of `PBasisSetBase` (PBasisSetBase.hh:23-28) and `_basis_function` (Monomial.hh:2626). -/
structure TermSet (K : Type) where
  cls : TermClass
  name : String
  description : String
  val : List K
  grad : List K
  hess : List K
  fn : List (Option (Flex K K))

namespace TermSet
variable {K : Type} [Arith K] [Zero K]

/-- Monomial.hh:2656-2855, `basis_function(term)`: a `PFlexFunction` in a `PFunction`. A term without a case in the `switch` leaves
the functions empty, and the constructor of `PFlexFunction` exits. -/
def basisFunction (cls : TermClass) (term : Nat) : Res (Option (Flex K K)) :=
  if term ≥ cls.maxSize then .error (.exit 1)
  else do
    let tmp ← match cls.terms[term]? with
      | some t => Flex.make ⟨t.name, ["x"], ["x"]⟩ (some t.f.obj1) [some t.grad.obj1] [[some t.hess.obj1]]
      | none => Flex.make ⟨"", ["x"], ["x"]⟩ none [] [[]]
    let p ← tmp.copyCtor
    .ok (some p)

/-- PFunction.hh:137-143, assignment of a handle that holds a `PFlexFunction`. -/
def assignFn (_old new : Option (Flex K K)) : Res (Option (Flex K K)) :=
  match new with
  | none => .error (.ub .nullDeref)
  | some p => do
    let q ← p.copyCtor
    .ok (some q)

/-- Monomial.hh:2894-2897, the loop of `construct`: `n` passes left, the next is `i`. -/
def constructLoop : Nat → Nat → TermSet K → Res (TermSet K)
  | 0, _, s => .ok s
  | n + 1, i, s => do
    let f ← basisFunction s.cls i
    let old ← vget s.fn i
    let new ← assignFn old f
    let fn ← vset s.fn i new
    constructLoop n (i + 1) { s with fn := fn }

/-- Monomial.hh:2885-2898, `construct(N)`. -/
def construct (s : TermSet K) (n : Nat) : Res (TermSet K) :=
  if n > s.cls.maxSize then .error (.exit 1)
  else
    let s' : TermSet K := { s with
      name := s.cls.name, description := s.cls.description
      val := vresize s.val n 0, grad := vresize s.grad n 0, hess := vresize s.hess n 0
      fn := vresize s.fn n none }
    constructLoop s'.val.length 0 s'

/-- Monomial.hh:2905-2911, the loop of `copy`. -/
def copyLoop (rhs : TermSet K) : Nat → Nat → TermSet K → Res (TermSet K)
  | 0, _, s => .ok s
  | n + 1, i, s => do
    let v ← vget rhs.val i
    let val ← vset s.val i v
    let g ← vget rhs.grad i
    let grad ← vset s.grad i g
    let h ← vget rhs.hess i
    let hess ← vset s.hess i h
    let f ← vget rhs.fn i
    let old ← vget s.fn i
    let new ← assignFn old f
    let fn ← vset s.fn i new
    copyLoop rhs n (i + 1) { s with val := val, grad := grad, hess := hess, fn := fn }

/-- Monomial.hh:2900-2912, `copy(RHS)`. -/
def copy (s rhs : TermSet K) : Res (TermSet K) :=
  let lim := if rhs.val.length < s.val.length then rhs.val.length else s.val.length
  copyLoop rhs lim 0 { s with name := rhs.name, description := rhs.description }

/-- PBasisSetBase.hh:43-46 (`resize(N)` of the base class), with the other members empty. -/
def base (cls : TermClass) (n : Nat) : TermSet K :=
  ⟨cls, "", "", List.replicate n 0, List.replicate n 0, List.replicate n 0, []⟩

/-- Monomial.hh:2628-2631, constructor. -/
def make (cls : TermClass) (n : Nat) : Res (TermSet K) := (base cls n).construct n

/-- Monomial.hh:2633-2637, copy constructor; `clone` (2651-2654). -/
def copyCtor (rhs : TermSet K) : Res (TermSet K) := do
  let s ← (base rhs.cls rhs.val.length).construct rhs.val.length
  s.copy rhs

/-- Monomial.hh:2639-2645, `operator=` from another object of the same class. -/
def assign (s rhs : TermSet K) : Res (TermSet K) := do
  let s' ← s.construct rhs.val.length
  s'.copy rhs

/-- Monomial.hh:2862-2867, `resize(N)`. -/
def resize (s : TermSet K) (n : Nat) : Res (TermSet K) := do
  let tmp ← s.copyCtor
  let s' ← s.construct n
  s'.copy tmp

/-- A call on the `PFunction` number `term` (an unsigned index). -/
def onTerm (s : TermSet K) (term : Int) (call : Flex K K → Res K × Flex K K) : Res (K × TermSet K) := do
  let h ← vget s.fn term
  match h with
  | none => .error (.ub .nullDeref)
  | some p =>
    match call p with
    | (r, p') => do
      let y ← r
      .ok (y, { s with fn := s.fn.set term.toNat (some p') })

/-- Monomial.hh:2870-2873, `eval(term, var)`, within `operator()(term, var)` (PBasisSetBase.hh:84-87). -/
def evalTerm (s : TermSet K) (term : Int) (x : K) : Res (K × TermSet K) := do
  let r ← s.onTerm term fun p => p.evalAt x
  let l ← vset r.2.val term r.1
  .ok (r.1, { r.2 with val := l })

/-- Monomial.hh:2875-2878, `eval_grad(term, var)`, within `grad(term, var)` (PBasisSetBase.hh:88-91). -/
def gradTerm (s : TermSet K) (term : Int) (x : K) : Res (K × TermSet K) := do
  let r ← s.onTerm term fun p => p.gradAt x 0
  let l ← vset r.2.grad term r.1
  .ok (r.1, { r.2 with grad := l })

/-- Monomial.hh:2880-2883, `eval_hess(term, var)`, within `hess(term, var)` (PBasisSetBase.hh:92-95). -/
def hessTerm (s : TermSet K) (term : Int) (x : K) : Res (K × TermSet K) := do
  let r ← s.onTerm term fun p => p.hessAt x 0 0
  let l ← vset r.2.hess term r.1
  .ok (r.1, { r.2 with hess := l })

/-- PBasisSetBase.hh:106-107, the loop of `eval`. -/
def evalLoop (x : K) : Nat → Nat → TermSet K → Res (TermSet K)
  | 0, _, s => .ok s
  | n + 1, i, s => do
    let r ← s.evalTerm i x
    evalLoop x n (i + 1) r.2

/-- PBasisSetBase.hh:112-113, the loop of `eval_grad`. -/
def gradLoop (x : K) : Nat → Nat → TermSet K → Res (TermSet K)
  | 0, _, s => .ok s
  | n + 1, i, s => do
    let r ← s.gradTerm i x
    gradLoop x n (i + 1) r.2

/-- PBasisSetBase.hh:118-119, the loop of `eval_hess`. -/
def hessLoop (x : K) : Nat → Nat → TermSet K → Res (TermSet K)
  | 0, _, s => .ok s
  | n + 1, i, s => do
    let r ← s.hessTerm i x
    hessLoop x n (i + 1) r.2

/-- PBasisSetBase.hh:104-109, `eval(var)`. -/
def eval (s : TermSet K) (x : K) : Res (TermSet K) := evalLoop x s.val.length 0 s
/-- PBasisSetBase.hh:110-115, `eval_grad(var)`. -/
def evalGrad (s : TermSet K) (x : K) : Res (TermSet K) := gradLoop x s.val.length 0 s
/-- PBasisSetBase.hh:116-121, `eval_hess(var)`. -/
def evalHess (s : TermSet K) (x : K) : Res (TermSet K) := hessLoop x s.val.length 0 s

/-- One call on the set (the calls of `BasisSet`, with the `resize` of this class). -/
def step (s : TermSet K) : BCall K → Res (TermSet K)
  | .evalTerm t x => do let r ← s.evalTerm t x; .ok r.2
  | .gradTerm t x => do let r ← s.gradTerm t x; .ok r.2
  | .hessTerm t x => do let r ← s.hessTerm t x; .ok r.2
  | .eval x => s.eval x
  | .evalGrad x => s.evalGrad x
  | .evalHess x => s.evalHess x
  | .resize n => s.resize n

/-- A history of calls. -/
def run : List (BCall K) → TermSet K → Res (TermSet K)
  | [], s => .ok s
  | c :: cs, s => do
    let s' ← s.step c
    run cs s'

end TermSet
end Verif
