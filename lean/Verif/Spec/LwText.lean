import Verif.Spec.Library

/-!
# Specification: reading the generated C++ files

A reader for the small part of C++ the generated library consists of (line by line), and what a generated checkout function does when it
is called. Nothing here refers to the writer.
-/

namespace Verif.Spec.Cpp
open Verif.Spec

/-! ## Texts -/

/-- What follows a given beginning. -/
def after : Text → Text → Option Text
  | [], t => some t
  | _ :: _, [] => none
  | c :: p, d :: t => if c = d then after p t else none

/-- What precedes a given end. -/
def before (e t : Text) : Option Text := (after e.reverse t.reverse).map List.reverse

/-- What precedes and what follows the first `c`. -/
def upto (c : Char) : Text → Option (Text × Text)
  | [] => none
  | d :: t => if d = c then some ([], t) else (upto c t).map fun x => (d :: x.1, x.2)

/-- A string literal (without escape sequences), and what follows it. -/
def literal (t : Text) : Option (Text × Text) := do
  let t ← after ['"'] t
  let x ← upto '"' t
  if '\\' ∈ x.1 then none else some x

/-- The lines of a text, given the beginning of the first. -/
def linesFrom (cur : Text) : Text → List Text
  | [] => if cur = [] then [] else [cur]
  | c :: t => if c = '\n' then cur :: linesFrom [] t else linesFrom (cur ++ [c]) t

/-- The lines of a text. -/
def lines (t : Text) : List Text := linesFrom [] t

/-! ## Lines -/

/-- What is assigned to the parameter of a checkout function: `ALIAS( CLASS(ARGS) )`, or `new CLASS(ARGS)`. -/
inductive Expr where
  | wrap (wrapper cls : Text) (args : List Text)
  | new (cls : Text) (args : List Text)
  deriving DecidableEq, Repr

/-- A line. -/
inductive Line where
  | blank
  | comment
  | ifndef (t : Text)
  | define (t : Text)
  | endif
  /-- `#include` -/
  | incl (file : Text)
  /-- `namespace NAME` -/
  | space (name : Text)
  | opens
  | closes
  /-- `void SIG;` -/
  | declares (sig : Text)
  /-- `void PLibrary::SIG` -/
  | defines (sig : Text)
  /-- `typedef TYPE NAME;` -/
  | typedef (type name : Text)
  /-- `if( name == "N") { TARGET = EXPR; return;}` -/
  | alt (n target : Text) (e : Expr)
  /-- `throw std::runtime_error( "A" + name + "B");`, after `else` or not -/
  | throws (els : Bool) (a b : Text)
  deriving DecidableEq, Repr

/-- `CLASS()` or `CLASS(N)`. -/
def readCall (t : Text) : Option (Text × List Text) :=
  (before "()".toList t).map (fun c => (c, [])) <|> (before "(N)".toList t).map fun c => (c, ["N".toList])

def readExpr (t : Text) : Option Expr :=
  (do let x ← readCall (← after "new ".toList t); some (Expr.new x.1 x.2)) <|>
  (do
    let (w, t) ← upto '(' t
    let x ← readCall (← before " )".toList (← after " ".toList t))
    some (Expr.wrap w x.1 x.2))

def readAlt (t : Text) : Option Line := do
  let (n, t) ← literal (← after "if( name == ".toList t)
  let (target, t) ← upto ' ' (← before "; return;}".toList (← after ") { ".toList t))
  let e ← readExpr (← after "= ".toList t)
  some (.alt n target e)

def readTypedef (t : Text) : Option Line := do
  let t ← before ";".toList (← after "typedef ".toList t)
  let (name, type) ← upto ' ' t.reverse
  some (.typedef type.reverse name.reverse)

def readThrow (els : Bool) (t : Text) : Option Line := do
  let (a, t) ← literal (← after "throw std::runtime_error( ".toList t)
  let (b, t) ← literal (← after " + name + ".toList t)
  if t = ");".toList then some (.throws els a b) else none

/-- The first that succeeds. -/
def first {α : Type} : List (Option α) → Option α
  | [] => none
  | some a :: _ => some a
  | none :: l => first l

/-- A line; blanks at the beginning do not matter. -/
def readLine (t : Text) : Option Line :=
  let t := t.dropWhile (· == ' ')
  first [
    if t = [] then some .blank else none,
    (after "//".toList t).map fun _ => .comment,
    (after "#ifndef ".toList t).map .ifndef,
    (after "#define ".toList t).map .define,
    if t = "#endif".toList then some .endif else none,
    (after "#include".toList t).map fun f => .incl (f.dropWhile (· == ' ')),
    (after "namespace ".toList t).map .space,
    if t = "{".toList then some .opens else none,
    if t = "}".toList then some .closes else none,
    (after "void PLibrary::".toList t).map .defines,
    (after "void ".toList t).bind fun t => (before ";".toList t).map .declares,
    readTypedef t,
    readAlt t,
    (after "else ".toList t).bind (readThrow true),
    readThrow false t]

/-- All lines; each must be one of the above. -/
def readLines : List Text → Option (List Line)
  | [] => some []
  | l :: ls => do
    let x ← readLine l
    let xs ← readLines ls
    some (x :: xs)

/-- Blank lines and comments do not matter. -/
def code (l : List Line) : List Line := l.filter fun x => decide (x ≠ .blank ∧ x ≠ .comment)

/-! ## Files -/

/-- A header: with the include guard, the includes, and declarations in the namespace `PRISMS::PLibrary`, and nothing else. -/
def HeaderFile (text guard : Text) (incs sigs : List Text) : Prop :=
  ∃ ls, readLines (lines text) = some ls ∧
    code ls = [.ifndef guard, .define guard] ++ incs.map .incl ++
      [.space "PRISMS".toList, .opens, .space "PLibrary".toList, .opens] ++ sigs.map .declares ++ [.closes, .closes, .endif]

/-- A function definition. -/
structure Fun where
  sig : Text
  body : List Line

/-- The lines of a function definition. -/
def Fun.code (f : Fun) : List Line := [.defines f.sig, .opens] ++ f.body ++ [.closes]

/-- A statement of a checkout function. -/
def Line.IsStmt : Line → Prop
  | .typedef _ _ | .alt _ _ _ | .throws _ _ _ => True
  | _ => False

/-- A source file: with the include guard, the includes, and definitions of functions `PRISMS::PLibrary::SIG`, and nothing else. -/
def SourceFile (text guard : Text) (incs : List Text) (funs : List Fun) : Prop :=
  (∀ f ∈ funs, ∀ l ∈ f.body, l.IsStmt) ∧
  ∃ ls, readLines (lines text) = some ls ∧
    code ls = [.ifndef guard, .define guard] ++ incs.map .incl ++ [.space "PRISMS".toList, .opens] ++ funs.flatMap Fun.code ++
      [.closes, .endif]

/-! ## Calling a function -/

/-- What a call of a checkout function does to its parameter: an object of class `cls` is put into a wrapper of type `type`, or a new one is
pointed to; `args` are the constructor's arguments. -/
inductive Outcome where
  | wraps (target type cls : Text) (args : List Text)
  | news (target cls : Text) (args : List Text)
  | throws (message : Text)
  | returns
  deriving DecidableEq, Repr

/-- An assignment, with the typedefs seen so far. -/
def assign (types : List (Text × Text)) (target : Text) : Expr → Option Outcome
  | .wrap w cls args => (types.find? fun x => x.1 == w).map fun x => .wraps target x.2 cls args
  | .new cls args => some (.news target cls args)

/-- Execution of the body with the parameter `name`: `afterIf` says whether an `else` may follow. `none`: ill-formed. -/
def exec (name : Text) : List (Text × Text) → Bool → List Line → Option Outcome
  | _, _, [] => some .returns
  | types, _, .typedef t n :: r => exec name ((n, t) :: types) false r
  | types, _, .alt n target e :: r =>
    match assign types target e with
    | none => none
    | some o => if name = n then some o else exec name types true r
  | _, afterIf, .throws els a b :: _ => if els && !afterIf then none else some (.throws (a ++ name ++ b))
  | _, _, _ :: _ => none

/-- A call. -/
def Fun.call (f : Fun) (name : Text) : Option Outcome := exec name [] false f.body

/-! ## Checkout functions -/

/-- The class in the parameter. -/
def typeName : Kind → Text
  | .simpleFunction => "PSimpleFunction".toList
  | .function => "PFunction".toList
  | .basisSet => "PBasisSet".toList
  | .simpleBase => "PSimpleBase".toList
  | .funcBase => "PFuncBase".toList
  | .pwSimpleBase => "PPieceWiseSimpleBase".toList
  | .pwFuncBase => "PPieceWiseFuncBase".toList
  | .basisSetBase => "PBasisSetBase".toList

/-- `CLASS< IN, OUT >` -/
def fullType (k : Kind) (i o : Text) : Text := typeName k ++ "< ".toList ++ i ++ ", ".toList ++ o ++ " >".toList

/-- Does the parameter manage its memory (a wrapper), or is it a pointer? -/
def isWrapper : Kind → Bool
  | .simpleFunction | .function | .basisSet => true
  | _ => false

def isBasis : Kind → Bool
  | .basisSet | .basisSetBase => true
  | _ => false

/-- The name of the parameter. -/
def paramName : Kind → Text
  | .simpleFunction | .simpleBase | .pwSimpleBase => "simplefunc".toList
  | .function | .funcBase | .pwFuncBase => "func".toList
  | .basisSet | .basisSetBase => "basis_set".toList

/-- The signature a user calls: a reference to the wrapper or to the pointer; for basis sets also the size. -/
def sigOf (k : Kind) (i o : Text) : Text :=
  "checkout( std::string name, ".toList ++ fullType k i o ++ (if isWrapper k then " &" else " *&").toList ++ paramName k ++
    (if isBasis k then ", int N)" else ")").toList

/-- What the user expects: an object of the class, in the parameter; a basis set of the given size. -/
def provides (k : Kind) (i o cls : Text) : Outcome :=
  let args := if isBasis k then ["N".toList] else []
  if isWrapper k then .wraps (paramName k) (fullType k i o) cls args else .news (paramName k) cls args

/-- And if there is no such class: an exception that says what was not found. -/
def notFound (k : Kind) (i o name : Text) : Outcome :=
  .throws (fullType k i o ++ " ".toList ++ name ++ " was not found in the PLibrary".toList)

/-- No quotes, backslashes, newlines: a type that can be part of a line and of a string literal. -/
def Clean (t : Text) : Prop := '"' ∉ t ∧ '\\' ∉ t ∧ '\n' ∉ t

/-- The files the header includes. -/
def headerIncludes : List Text :=
  ["<cstring>", "<vector>", "\"IntegrationTools/PFunction.hh\"", "\"IntegrationTools/PPieceWise.hh\""].map String.toList

/-- The files the source includes: the headers with the classes, then the generated header. -/
def sourceIncludes (files : List Text) : List Text :=
  ["<cstring>", "<stdexcept>", "<vector>"].map String.toList ++ files.map (fun f => ('"' :: f) ++ "\"".toList) ++ ["\"PLibrary.hh\"".toList]

end Verif.Spec.Cpp
