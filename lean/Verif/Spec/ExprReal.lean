import Verif.Spec.Expr
import Mathlib.Analysis.SpecialFunctions.Pow.Real

/-!
# Specification: expressions with roots, and comparisons, as text

What the C++ expressions with `pow(a,b)`, and symbolic or LaTeX forms with `sqrt`, `^`, `/` and `\frac`, mean over the real numbers, and
comparisons of two of them.
-/

namespace Verif.Spec

/-- Expressions. -/
inductive RAst where
  | num (q : ℚ)
  | var (i : Nat)
  | add (a b : RAst)
  | sub (a b : RAst)
  | mul (a b : RAst)
  | div (a b : RAst)
  | neg (a : RAst)
  | pow (a b : RAst)
  | sqrt (a : RAst)
  deriving DecidableEq, Repr

/-- The value of an expression; powers are real powers. -/
noncomputable def RAst.eval (v : Nat → ℝ) : RAst → ℝ
  | .num q => (q : ℝ)
  | .var i => v i
  | .add a b => a.eval v + b.eval v
  | .sub a b => a.eval v - b.eval v
  | .mul a b => a.eval v * b.eval v
  | .div a b => a.eval v / b.eval v
  | .neg a => - a.eval v
  | .pow a b => a.eval v ^ b.eval v
  | .sqrt a => √(a.eval v)

/-- The number of variables needed: one more than the largest index. -/
def RAst.vars : RAst → Nat
  | .num _ => 0
  | .var i => i + 1
  | .add a b | .sub a b | .mul a b | .div a b | .pow a b => max a.vars b.vars
  | .neg a | .sqrt a => a.vars

/-- Tokens. -/
inductive RTok where
  | num (q : ℚ)
  | var (i : Nat)
  | plus | minus | star | slash | caret | comma | lpar | rpar | lbrace | rbrace | pow | sqrt | frac | lt | ge
  deriving DecidableEq, Repr

/-- Words and their tokens; the first that matches counts. -/
abbrev Words := List (Text × RTok)

/-- The word at the beginning of the text. -/
def wordAt (ws : Words) (s : Text) : Option (RTok × Text) :=
  ws.findSome? fun (w, t) => if w.isPrefixOf s then some (t, s.drop w.length) else none

/-- Symbols of all three notations. -/
def symbols : Words :=
  [(['+'], .plus), (['-'], .minus), (['*'], .star), (['/'], .slash), (['^'], .caret), ([','], .comma), (['('], .lpar),
   ([')'], .rpar), (['{'], .lbrace), (['}'], .rbrace), (['<'], .lt), (['>', '='], .ge)]

/-- The tokens of a text (`fuel` at least its length). -/
def rtokens (ws : Words) : Nat → Text → Option (List RTok)
  | _, [] => some []
  | 0, _ => none
  | fuel + 1, c :: s =>
    if c = ' ' then rtokens ws fuel s
    else if c.isDigit then
      match number (c :: s) with
      | (q, r) => (rtokens ws fuel r).map (.num q :: ·)
    else
      match wordAt (ws ++ symbols) (c :: s) with
      | some (t, r) => (rtokens ws fuel r).map (t :: ·)
      | none => none

/-- What is parsed: an expression; the rest of one after `a`; a term; the rest of one after `a`; a factor; an atom; an atom in
brackets. -/
inductive RWant where
  | expr | exprRest (a : RAst) | term | termRest (a : RAst) | factor | atom | group

/-- Parsing. With `juxt` factors next to each other are multiplied, as in LaTeX. -/
def rparse (juxt : Bool) : Nat → RWant → List RTok → Option (RAst × List RTok)
  | 0, _, _ => none
  | fuel + 1, .expr, ts => do
    let (a, r) ← rparse juxt fuel .term ts
    rparse juxt fuel (.exprRest a) r
  | fuel + 1, .exprRest a, ts =>
    match ts with
    | .plus :: r => do
      let (b, r') ← rparse juxt fuel .term r
      rparse juxt fuel (.exprRest (.add a b)) r'
    | .minus :: r => do
      let (b, r') ← rparse juxt fuel .term r
      rparse juxt fuel (.exprRest (.sub a b)) r'
    | _ => some (a, ts)
  | fuel + 1, .term, ts => do
    let (a, r) ← rparse juxt fuel .factor ts
    rparse juxt fuel (.termRest a) r
  | fuel + 1, .termRest a, ts =>
    match ts with
    | .star :: r => do
      let (b, r') ← rparse juxt fuel .factor r
      rparse juxt fuel (.termRest (.mul a b)) r'
    | .slash :: r => do
      let (b, r') ← rparse juxt fuel .factor r
      rparse juxt fuel (.termRest (.div a b)) r'
    | .num _ :: _ | .var _ :: _ | .lpar :: _ | .lbrace :: _ | .pow :: _ | .sqrt :: _ | .frac :: _ =>
      if juxt then do
        let (b, r') ← rparse juxt fuel .factor ts
        rparse juxt fuel (.termRest (.mul a b)) r'
      else none
    | _ => some (a, ts)
  | fuel + 1, .factor, ts =>
    match ts with
    | .minus :: r => do
      let (a, r') ← rparse juxt fuel .factor r
      some (.neg a, r')
    | _ => do
      let (a, r) ← rparse juxt fuel .atom ts
      match r with
      | .caret :: r' => do
        let (b, r'') ← rparse juxt fuel .atom r'
        some (.pow a b, r'')
      | _ => some (a, r)
  | fuel + 1, .atom, ts =>
    match ts with
    | .num q :: r => some (.num q, r)
    | .var i :: r => some (.var i, r)
    | .pow :: .lpar :: r => do
      let (a, r') ← rparse juxt fuel .expr r
      match r' with
      | .comma :: r'' => do
        let (b, r3) ← rparse juxt fuel .expr r''
        match r3 with
        | .rpar :: r4 => some (.pow a b, r4)
        | _ => none
      | _ => none
    | .sqrt :: r => do
      let (a, r') ← rparse juxt fuel .group r
      some (.sqrt a, r')
    | .frac :: r => do
      let (a, r') ← rparse juxt fuel .group r
      let (b, r'') ← rparse juxt fuel .group r'
      some (.div a b, r'')
    | _ => rparse juxt fuel .group ts
  | fuel + 1, .group, ts =>
    match ts with
    | .lpar :: r => do
      let (a, r') ← rparse juxt fuel .expr r
      match r' with
      | .rpar :: r'' => some (a, r'')
      | _ => none
    | .lbrace :: r => do
      let (a, r') ← rparse juxt fuel .expr r
      match r' with
      | .rbrace :: r'' => some (a, r'')
      | _ => none
    | _ => none

/-- A notation: its words, and whether factors next to each other are multiplied. -/
structure Notation where
  words : Words
  juxt : Bool

/-- The expression a text is. -/
def Notation.read (n : Notation) (s : Text) : Option RAst := do
  let ts ← rtokens n.words s.length s
  match rparse n.juxt (10 * ts.length + 10) .expr ts with
  | some (a, []) => some a
  | _ => none

/-- A comparison `a < b` or `a ≥ b`. -/
structure Cmp where
  lt : Bool
  lhs : RAst
  rhs : RAst
  deriving DecidableEq, Repr

/-- When it holds. -/
def Cmp.Holds (c : Cmp) (v : Nat → ℝ) : Prop := if c.lt then c.lhs.eval v < c.rhs.eval v else c.lhs.eval v ≥ c.rhs.eval v

/-- The number of variables needed. -/
def Cmp.vars (c : Cmp) : Nat := max c.lhs.vars c.rhs.vars

/-- The comparison a text is. -/
def Notation.readCmp (n : Notation) (s : Text) : Option Cmp := do
  let ts ← rtokens n.words s.length s
  match rparse n.juxt (10 * ts.length + 10) .expr ts with
  | some (a, .lt :: r) =>
    match rparse n.juxt (10 * r.length + 10) .expr r with
    | some (b, []) => some ⟨true, a, b⟩
    | _ => none
  | some (a, .ge :: r) =>
    match rparse n.juxt (10 * r.length + 10) .expr r with
    | some (b, []) => some ⟨false, a, b⟩
    | _ => none
  | _ => none

/-- C++, variables `var[0]`, `var[1]`. -/
def cpp : Notation :=
  ⟨[(['v', 'a', 'r', '[', '0', ']'], .var 0), (['v', 'a', 'r', '[', '1', ']'], .var 1), (['p', 'o', 'w'], .pow)], false⟩
/-- Symbolic form, variables `x`, `y`. -/
def symb : Notation := ⟨[(['x'], .var 0), (['y'], .var 1), (['s', 'q', 'r', 't'], .sqrt)], false⟩
/-- LaTeX, variables `x`, `y`. -/
def latex : Notation :=
  ⟨[(['x'], .var 0), (['y'], .var 1), (['\\', 's', 'q', 'r', 't'], .sqrt), (['\\', 'f', 'r', 'a', 'c'], .frac),
    (['\\', 'g', 'e', 'q'], .ge)], true⟩

end Verif.Spec
