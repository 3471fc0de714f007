import Verif.Spec.Library
import Mathlib.Algebra.Field.Rat
import Mathlib.Data.Rat.Cast.Defs

/-!
# Specification: arithmetic expressions as text

What a C++ expression, or the symbolic or LaTeX form of it, means: the usual precedence, `*` before `+` and `-`, all of them from left to right.
-/

namespace Verif.Spec

/-- Expressions. -/
inductive Ast where
  | num (q : ℚ)
  | var (i : Nat)
  | add (a b : Ast)
  | sub (a b : Ast)
  | mul (a b : Ast)
  | neg (a : Ast)
  | pow (a : Ast) (n : Nat)
  deriving DecidableEq, Repr

/-- The value of an expression, for values of the variables. -/
def Ast.eval {K : Type} [Field K] (v : Nat → K) : Ast → K
  | .num q => (q : K)
  | .var i => v i
  | .add a b => a.eval v + b.eval v
  | .sub a b => a.eval v - b.eval v
  | .mul a b => a.eval v * b.eval v
  | .neg a => - a.eval v
  | .pow a n => a.eval v ^ n

/-- The number of variables needed: one more than the largest index. -/
def Ast.vars : Ast → Nat
  | .num _ => 0
  | .var i => i + 1
  | .add a b | .sub a b | .mul a b => max a.vars b.vars
  | .neg a | .pow a _ => a.vars

/-- Tokens. -/
inductive Tok where
  | num (q : ℚ)
  | var (i : Nat)
  | plus | minus | star | caret | lpar | rpar | lbrace | rbrace
  deriving DecidableEq, Repr

/-- The value of a digit. -/
def digitVal (c : Char) : Nat := c.toNat - '0'.toNat

/-- A run of digits: its value (continuing `acc`), the number of digits, the rest. -/
def digitRun : Nat → Nat → Text → Nat × Nat × Text
  | acc, n, [] => (acc, n, [])
  | acc, n, c :: s => if c.isDigit then digitRun (10 * acc + digitVal c) (n + 1) s else (acc, n, c :: s)

/-- The value of a decimal mantissa, with `f` digits after the point, and a power of ten. -/
def decimal (m f : Nat) (e : Int) : ℚ := (m : ℚ) * (10 : ℚ) ^ (e - (f : Int))

/-- An exponent part: `e+12`, `E8`. -/
def exponent (s : Text) : Int × Text :=
  match s with
  | c :: r =>
    if c = 'e' ∨ c = 'E' then
      match r with
      | '+' :: r' => match digitRun 0 0 r' with | (e, _, r'') => (e, r'')
      | '-' :: r' => match digitRun 0 0 r' with | (e, _, r'') => (-(e : Int), r'')
      | _ => match digitRun 0 0 r with | (e, _, r'') => (e, r'')
    else (0, s)
  | [] => (0, [])

/-- A number: digits, a fraction, an exponent. -/
def number (s : Text) : ℚ × Text :=
  match digitRun 0 0 s with
  | (m, _, '.' :: r) =>
    match digitRun m 0 r with
    | (m', f, r') => match exponent r' with | (e, r'') => (decimal m' f e, r'')
  | (m, _, r) => match exponent r with | (e, r') => (decimal m 0 e, r')

/-- A variable at the beginning of the text: names and what they stand for. -/
def variableAt (names : List (Text × Nat)) (s : Text) : Option (Nat × Text) :=
  names.findSome? fun (w, i) => if w.isPrefixOf s then some (i, s.drop w.length) else none

/-- The tokens of a text (`fuel` at least its length). -/
def tokens (names : List (Text × Nat)) : Nat → Text → Option (List Tok)
  | _, [] => some []
  | 0, _ => none
  | fuel + 1, c :: s =>
    let next (t : Tok) := (tokens names fuel s).map (t :: ·)
    match c with
    | ' ' => tokens names fuel s
    | '+' => next .plus
    | '-' => next .minus
    | '*' => next .star
    | '^' => next .caret
    | '(' => next .lpar
    | ')' => next .rpar
    | '{' => next .lbrace
    | '}' => next .rbrace
    | _ =>
      if c.isDigit then
        match number (c :: s) with
        | (q, r) => (tokens names fuel r).map (.num q :: ·)
      else
        match variableAt names (c :: s) with
        | some (i, r) => (tokens names fuel r).map (.var i :: ·)
        | none => none

/-- What is parsed: an expression; the rest of one after `a`; a term; the rest of one after `a`; a factor; an atom. -/
inductive Want where
  | expr | exprRest (a : Ast) | term | termRest (a : Ast) | factor | atom

/-- Parsing (`fuel` at least ten times the number of tokens). With `juxt` factors next to each other are multiplied, as in LaTeX. -/
def parse (juxt : Bool) : Nat → Want → List Tok → Option (Ast × List Tok)
  | 0, _, _ => none
  | fuel + 1, .expr, ts => do
    let (a, r) ← parse juxt fuel .term ts
    parse juxt fuel (.exprRest a) r
  | fuel + 1, .exprRest a, ts =>
    match ts with
    | .plus :: r => do
      let (b, r') ← parse juxt fuel .term r
      parse juxt fuel (.exprRest (.add a b)) r'
    | .minus :: r => do
      let (b, r') ← parse juxt fuel .term r
      parse juxt fuel (.exprRest (.sub a b)) r'
    | _ => some (a, ts)
  | fuel + 1, .term, ts => do
    let (a, r) ← parse juxt fuel .factor ts
    parse juxt fuel (.termRest a) r
  | fuel + 1, .termRest a, ts =>
    match ts with
    | .star :: r => do
      let (b, r') ← parse juxt fuel .factor r
      parse juxt fuel (.termRest (.mul a b)) r'
    | .num _ :: _ | .var _ :: _ | .lpar :: _ | .lbrace :: _ =>
      if juxt then do
        let (b, r') ← parse juxt fuel .factor ts
        parse juxt fuel (.termRest (.mul a b)) r'
      else none
    | _ => some (a, ts)
  | fuel + 1, .factor, ts =>
    match ts with
    | .minus :: r => do
      let (a, r') ← parse juxt fuel .factor r
      some (.neg a, r')
    | _ => do
      let (a, r) ← parse juxt fuel .atom ts
      match r with
      | .caret :: .num q :: r' => if q.den = 1 ∧ 0 ≤ q.num then some (.pow a q.num.toNat, r') else none
      | .caret :: .lbrace :: .num q :: .rbrace :: r' => if q.den = 1 ∧ 0 ≤ q.num then some (.pow a q.num.toNat, r') else none
      | .caret :: _ => none
      | _ => some (a, r)
  | fuel + 1, .atom, ts =>
    match ts with
    | .num q :: r => some (.num q, r)
    | .var i :: r => some (.var i, r)
    | .lpar :: r => do
      let (a, r') ← parse juxt fuel .expr r
      match r' with
      | .rpar :: r'' => some (a, r'')
      | _ => none
    | .lbrace :: r => do
      let (a, r') ← parse juxt fuel .expr r
      match r' with
      | .rbrace :: r'' => some (a, r'')
      | _ => none
    | _ => none

/-- The expression a text is. -/
def readExpr (juxt : Bool) (names : List (Text × Nat)) (s : Text) : Option Ast := do
  let ts ← tokens names s.length s
  match parse juxt (10 * ts.length + 10) .expr ts with
  | some (a, []) => some a
  | _ => none

/-- C++, one variable `var`. -/
def readCpp1 (s : Text) : Option Ast := readExpr false [(['v', 'a', 'r'], 0)] s
/-- C++, variables `var[0]`, `var[1]`. -/
def readCpp (s : Text) : Option Ast :=
  readExpr false [(['v', 'a', 'r', '[', '0', ']'], 0), (['v', 'a', 'r', '[', '1', ']'], 1)] s
/-- Symbolic form, variables `x`, `y`. -/
def readSym (s : Text) : Option Ast := readExpr false [(['x'], 0), (['y'], 1)] s
/-- LaTeX, variables `x`, `y`. -/
def readLatex (s : Text) : Option Ast := readExpr true [(['x'], 0), (['y'], 1)] s

end Verif.Spec
