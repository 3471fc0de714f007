import Verif.Model.Core

/-!
# Specification: the library writer

What the writer is to find (classes declared in headers, by the class they derive from), and where each is to be listed.
-/

namespace Verif.Spec

/-- Lines, file names, identifiers, types. -/
abbrev Text := List Char

/-- The classes a library class may derive from. -/
inductive Base where
  | simple | func | pwSimple | pwFunc | basis
  deriving DecidableEq, Repr

/-- A class found: what it derives from, its name, input and output type. -/
structure Decl where
  base : Base
  name : Text
  intype : Text
  outtype : Text
  deriving DecidableEq, Repr

/-- A name listed under a class (for a piecewise class: also under the class it extends) and a pair of types. -/
structure Entry where
  tab : Base
  intype : Text
  outtype : Text
  name : Text
  deriving DecidableEq, Repr

/-- Where a class is listed. -/
def Decl.entries (d : Decl) : List Entry :=
  match d.base with
  | .pwSimple => [⟨.simple, d.intype, d.outtype, d.name⟩, ⟨.pwSimple, d.intype, d.outtype, d.name⟩]
  | .pwFunc => [⟨.func, d.intype, d.outtype, d.name⟩, ⟨.pwFunc, d.intype, d.outtype, d.name⟩]
  | b => [⟨b, d.intype, d.outtype, d.name⟩]

/-- All listings of the classes found. -/
def entries (ds : List Decl) : List Entry := ds.flatMap Decl.entries

/-- The names listed under a class and a pair of types, in order. -/
def namesOf (es : List Entry) (t : Base) (i o : Text) : List Text :=
  (es.filter fun e => e.tab = t ∧ e.intype = i ∧ e.outtype = o).map Entry.name

/-- The distinct elements, in order of first occurrence. -/
def distinct (l : List Text) : List Text := l.foldl (fun acc t => if t ∈ acc then acc else acc ++ [t]) []

/-- A header in a library directory: its name ends in ".hh" and it is none of the library's own. -/
def IsLibraryHeader (name : Text) : Prop :=
  (∃ stem, name = stem ++ ".hh".toList) ∧
    name ∉ ["PLibrary.hh", "PFunction.hh", "PSeriesFunction.hh", "PRealSymFunction.hh", "PComplexSymFunction.hh"].map String.toList

/-- The class a line of a header declares; `find` recognises a declaration of a class derived from the given one. A line declares at most
one; the base classes are tried in this order. -/
def declOf (find : Base → Text → Option (Text × Text × Text)) (line : Text) : Option Decl :=
  [Base.simple, .func, .pwSimple, .pwFunc, .basis].findSome? fun b => (find b line).map fun (n, i, o) => ⟨b, n, i, o⟩

/-- A directory: file names and lines. -/
abbrev Dir := List (Text × List Text)

open Classical in
/-- The classes declared in the library headers of the directories, each with the header's name. -/
noncomputable def declared (find : Base → Text → Option (Text × Text × Text)) (dirs : List Dir) : List (Text × Decl) :=
  dirs.flatMap fun d => (d.filter fun f => decide (IsLibraryHeader f.1)).flatMap fun f =>
    (f.2.filterMap (declOf find)).map fun x => (f.1, x)

/-! ## Checkout functions -/

/-- The eight kinds of checkout functions, by what they set: a wrapper, or a pointer to an object. -/
inductive Kind where
  | simpleFunction | function | basisSet | simpleBase | funcBase | pwSimpleBase | pwFuncBase | basisSetBase
  deriving DecidableEq, Repr

/-- The classes that can be checked out: those derived (directly or not) from the class. -/
def Kind.offers : Kind → List Base
  | .simpleFunction | .simpleBase => [.simple, .pwSimple]
  | .function | .funcBase => [.func, .pwFunc]
  | .pwSimpleBase => [.pwSimple]
  | .pwFuncBase => [.pwFunc]
  | .basisSet | .basisSetBase => [.basis]

/-- Functions whose input type is the template parameter `VarContainer` are offered for each of the given types (the template argument
is given); everything else for its own input type. -/
def Instance (k : Kind) (var : List Text) (intype : Text) (i : Text) (arg : Option Text) : Prop :=
  if intype = "VarContainer".toList ∧ k ≠ .basisSet ∧ k ≠ .basisSetBase then i ∈ var ∧ arg = some i else i = intype ∧ arg = none

/-- The class to be constructed. -/
def className (arg : Option Text) (name : Text) : Text :=
  match arg with
  | some v => name ++ "< ".toList ++ v ++ " >".toList
  | none => name

/-! ## Declarations of classes -/

/-- The names of the base classes. -/
def Base.cpp : Base → String
  | .simple => "PSimpleBase"
  | .func => "PFuncBase"
  | .pwSimple => "PPieceWiseSimpleBase"
  | .pwFunc => "PPieceWiseFuncBase"
  | .basis => "PBasisSetBase"

/-- Blanks only. -/
def Blanks (t : Text) : Prop := ∀ c ∈ t, c ∈ [' ', '\n', '\t', '\r', '\x0b', '\x0c']

/-- Letters, digits, underscores only. -/
def Word (t : Text) : Prop := ∀ c ∈ t, c.isAlphanum = true ∨ c = '_'

/-- The parts of a line with the declaration of a class derived from one of the base classes: the class, what comes before and after,
and the blanks. -/
structure DeclLine where
  decl : Decl
  pre : Text
  s1 : Text
  s2 : Text
  s3 : Text
  s4 : Text
  s5 : Text
  s6 : Text
  s7 : Text
  s8 : Text
  s9 : Text
  post : Text

/-- The line: `class NAME : public BASE< IN, OUT >`, with blanks. -/
def DeclLine.text (l : DeclLine) : Text :=
  l.pre ++ "class".toList ++ l.s1 ++ l.decl.name ++ l.s2 ++ ":".toList ++ l.s3 ++ "public".toList ++ l.s4 ++
    l.decl.base.cpp.toList ++ l.s5 ++ "<".toList ++ l.s6 ++ l.decl.intype ++ l.s7 ++ ",".toList ++ l.s8 ++ l.decl.outtype ++ l.s9 ++
    ">".toList ++ l.post

/-- Blanks are blanks, required where C++ requires them; the name is an identifier. -/
structure DeclLine.Valid (l : DeclLine) : Prop where
  b1 : Blanks l.s1
  n1 : l.s1 ≠ []
  b2 : Blanks l.s2
  b3 : Blanks l.s3
  b4 : Blanks l.s4
  n4 : l.s4 ≠ []
  b5 : Blanks l.s5
  b6 : Blanks l.s6
  b7 : Blanks l.s7
  b8 : Blanks l.s8
  b9 : Blanks l.s9
  word : Word l.decl.name

/-- No blank at the beginning. -/
def NoLeadingBlank (t : Text) : Prop := ∀ c r, t = c :: r → ¬ Blanks [c]

end Verif.Spec
