import Verif.Spec.LwText

/-!
# Specification: a run of the library writer

The directories a run sees, and when the two files of the library are right.
-/

namespace Verif.Spec.Lw
open Verif.Spec Verif.Spec.Cpp

/-- Directories: `resolve` finds the directory of a path (several paths may lead to the same directory), `files` are the names and contents
of its files. -/
structure Disk where
  resolve : Text → Option Nat
  files : Nat → List (Text × Text)

/-- The contents of a file of a directory. -/
def Disk.content (d : Disk) (n : Nat) (file : Text) : Option Text := ((d.files n).find? fun x => x.1 == file).map Prod.snd

/-- The directories of the paths, with the lines of their files. -/
def Disk.dirs (d : Disk) (paths : List Text) : List Dir :=
  paths.filterMap fun p => (d.resolve p).map fun n => (d.files n).map fun x => (x.1, lines x.2)

/-- The signatures the library must have: one for each kind and type the declared classes can be had by. -/
def Wanted (decls : List (Text × Decl)) (var : List Text) (sig : Text) : Prop :=
  ∃ x ∈ decls, ∃ k : Kind, x.2.base ∈ k.offers ∧ ∃ i arg, Instance k var x.2.intype i arg ∧ sig = sigOf k i x.2.outtype

/-- The header declares these functions, and nothing else. -/
def GoodHeader (text : Text) (decls : List (Text × Decl)) (var : List Text) : Prop :=
  ∃ sigs, HeaderFile text "PLIBRARY_HH".toList headerIncludes sigs ∧ ∀ s, s ∈ sigs ↔ Wanted decls var s

/-- The source includes the headers of the classes, each once, and defines these functions; each sets its parameter to an object of the
class with the name, or throws an exception that says what was not found. -/
def GoodSource (text : Text) (decls : List (Text × Decl)) (var : List Text) : Prop :=
  ∃ incs funs, SourceFile text "PLIBRARY_CC".toList (sourceIncludes incs) funs ∧ incs.Nodup ∧ (∀ f, f ∈ incs ↔ ∃ x ∈ decls, x.1 = f) ∧
    (∀ s, (∃ f ∈ funs, f.sig = s) ↔ Wanted decls var s) ∧
    ∀ f ∈ funs, ∃ k intype i o arg, Instance k var intype i arg ∧ f.sig = sigOf k i o ∧
      ∀ name, let declares := ∃ x ∈ decls, x.2.base ∈ k.offers ∧ x.2.intype = intype ∧ x.2.outtype = o ∧ x.2.name = name
        (declares → f.call name = some (provides k i o (className arg name))) ∧ (¬ declares → f.call name = some (notFound k i o name))

/-- The file an `#include "FILE"` means in a source in the directory `here`, compiled with `-I` for each of the paths: the first one found
(its directory and its contents). -/
def Disk.included (d : Disk) (here : Text) (paths : List Text) (file : Text) : Option (Nat × Text) :=
  (here :: paths).findSome? fun p => (d.resolve p).bind fun n => (d.content n file).map fun t => (n, t)

/-- A file of one of the directories that declares a class. -/
def Disk.Declares (find : Base → Text → Option (Text × Text × Text)) (d : Disk) (paths : List Text) (n : Nat) (file text : Text) (c : Decl) : Prop :=
  (∃ p ∈ paths, d.resolve p = some n) ∧ (file, text) ∈ d.files n ∧ IsLibraryHeader file ∧ ∃ l ∈ lines text, declOf find l = some c

/-- The words of a command line, with blanks between them. -/
def words (ws : List Text) : Text := (ws.intersperse [' ']).flatten

/-- The path of a file in a directory; an empty path is the current directory. -/
def inDir (dir file : Text) : Text := (if dir = [] ∨ dir.getLast? = some '/' then dir else dir ++ ['/']) ++ file

/-- How a run ends. -/
inductive Status where
  | exit (code : Int)
  /-- by an exception nothing catches -/
  | aborts
  deriving DecidableEq, Repr

end Verif.Spec.Lw
