import Verif.Model.Library

/-!
# Model of the text written by the library writer (src/lw/lw.cpp:571-1010)

The lines of PLibrary.hh and PLibrary.cc. What is written for each pair of types is that of `Model/Library`. Not modelled: the messages on
the console, failures of the output stream.
-/

namespace Verif
open Spec
namespace Coll

/-- lw.cpp:578-581, 763-766: the time (`now()`, lw.cpp:51-77) and the three version texts (version.hh), given. -/
structure Stamp where
  created : Text
  version : Text
  url : Text
  commit : Text

/-- lw.cpp:578-581, 763-766. -/
def Stamp.lines (s : Stamp) : List Text :=
  ["// created: ".toList ++ s.created, "// version: ".toList ++ s.version, "// url: ".toList ++ s.url, "// commit: ".toList ++ s.commit, []]

/-- lw.cpp:583-600, the beginning of PLibrary.hh. -/
def headerTop : List Text :=
  ["#ifndef PLIBRARY_HH", "#define PLIBRARY_HH", "", "#include<cstring>", "#include<vector>", "#include \"IntegrationTools/PFunction.hh\"",
    "#include \"IntegrationTools/PPieceWise.hh\"", "", "namespace PRISMS", "{", "", "    /// Library where you can find functions and basis sets",
    "    ///", "    namespace PLibrary", "    {"].map String.toList

/-- lw.cpp:618-743, a declaration. -/
def declLine (sig : Text) : Text := "        void ".toList ++ sig ++ ";".toList

/-- lw.cpp:571-754, `write_header`: the lines of PLibrary.hh. -/
def headerLines (c : Coll) (s : Stamp) (var : List Text) : Res (List Text) := do
  let d1 ← c.headerKind var .simpleFunction
  let d2 ← c.headerKind var .function
  let d3 ← c.headerKind var .basisSet
  let d4 ← c.headerKind var .simpleBase
  let d5 ← c.headerKind var .funcBase
  let d6 ← c.headerKind var .pwSimpleBase
  let d7 ← c.headerKind var .pwFuncBase
  let d8 ← c.headerKind var .basisSetBase
  .ok (s.lines ++ headerTop ++ ["        // Use these functions to checkout objects which manage their own memory".toList, []] ++
    d1.map declLine ++ [[]] ++ d2.map declLine ++ [[]] ++ d3.map declLine ++ [[], [], []] ++
    ["        // Use these functions to checkout new 'Base' objects which the user must delete".toList, []] ++
    d4.map declLine ++ [[]] ++ d5.map declLine ++ [[]] ++ d6.map declLine ++ [[]] ++ d7.map declLine ++ [[]] ++ d8.map declLine ++
    ["    }", "", "}", "", "", "#endif"].map String.toList)

/-- lw.cpp:803, 816, 837, 848, 864: the typedef of the functions that set a wrapper. -/
def wrapperAlias : Kind → Option String
  | .simpleFunction => some "psf"
  | .function => some "pf"
  | .basisSet => some "pbs"
  | _ => none

/-- lw.cpp:805-998: the parameter that is set. -/
def altTarget : Kind → String
  | .simpleFunction => "simplefunc" | .function => "func" | .basisSet => "basis_set" | .simpleBase => "simplefunc" | .funcBase => "func"
  | .pwSimpleBase => "simplefunc" | .pwFuncBase => "func" | .basisSetBase => "basis_set"

/-- `()`, or `(N)` for basis sets (lw.cpp:866, 998). -/
def altArgs : Kind → String
  | .basisSet | .basisSetBase => "(N)"
  | _ => "()"

/-- lw.cpp:805-807, 818-820, 839, 850, 866 (wrappers), 890, 900, 918, 928, 946, 956, 974, 984, 998 (pointers): an alternative. `a` is the name and
the class constructed. -/
def altLine (k : Kind) (a : Text × Text) : Text :=
  "            if( name == \"".toList ++ a.1 ++ "\") { ".toList ++ (altTarget k).toList ++ " = ".toList ++
    (match wrapperAlias k with
      | some w => w.toList ++ "( ".toList ++ a.2 ++ (altArgs k).toList ++ " )".toList
      | none => "new ".toList ++ a.2 ++ (altArgs k).toList) ++ "; return;}".toList

/-- lw.cpp:808, 821, 840, …: the end of a function. The templates of the first kind have `else throw` (lw.cpp:808). -/
def throwLine (k : Kind) (i o : Text) (arg : Option Text) : Text :=
  (if k = .simpleFunction ∧ arg.isSome then "            else throw std::runtime_error( \"" else "            throw std::runtime_error( \"").toList ++
    k.cls.toList ++ "< ".toList ++ i ++ ", ".toList ++ o ++ " > \" + name + \" was not found in the PLibrary\");".toList

/-- lw.cpp:801-809, 814-822, …: a function. -/
def funLines (k : Kind) (i o : Text) (arg : Option Text) (names : List Text) : List Text :=
  ["        void PLibrary::".toList ++ signature k i o, "        {".toList] ++
  (match wrapperAlias k with
    | some w => ["            typedef ".toList ++ k.cls.toList ++ "< ".toList ++ i ++ ", ".toList ++ o ++ " > ".toList ++ w.toList ++ ";".toList]
    | none => []) ++
  names.map (fun n => altLine k (inst arg n)) ++ [throwLine k i o arg, "        }".toList]

/-- lw.cpp:793-1001, the functions of one kind. -/
def sourceKindLines (c : Coll) (var : List Text) (k : Kind) : Res (List Text) :=
  c.forPairs fun i j => do
    let b ← c.sourceHas k i j
    if b then do
      let it ← vget c.intype i
      let ot ← vget c.outtype j
      let names ← c.sourceNames k i j
      .ok ((kindTypes k var it).flatMap fun t => funLines k t.1 ot t.2 names)
    else .ok []

/-- lw.cpp:756-1010, `write_source`: the lines of PLibrary.cc. -/
def sourceLines (c : Coll) (s : Stamp) (var : List Text) : Res (List Text) := do
  let d1 ← c.sourceKindLines var .simpleFunction
  let d2 ← c.sourceKindLines var .function
  let d3 ← c.sourceKindLines var .basisSet
  let d4 ← c.sourceKindLines var .simpleBase
  let d5 ← c.sourceKindLines var .funcBase
  let d6 ← c.sourceKindLines var .pwSimpleBase
  let d7 ← c.sourceKindLines var .pwFuncBase
  let d8 ← c.sourceKindLines var .basisSetBase
  .ok (s.lines ++
    ["#ifndef PLIBRARY_CC", "#define PLIBRARY_CC", "", "#include<cstring>", "#include<stdexcept>", "#include<vector>"].map String.toList ++
    c.writeIncludes ++ ["#include \"PLibrary.hh\"", "", "namespace PRISMS", "{", ""].map String.toList ++
    d1 ++ [[]] ++ d2 ++ [[]] ++ d3 ++ [[], [], []] ++ d4 ++ [[]] ++ d5 ++ [[]] ++ d6 ++ [[]] ++ d7 ++ [[]] ++ d8 ++
    ["", "}", "", "", "#endif"].map String.toList)

/-- Each line ends with `\n`. -/
def joinLines (ls : List Text) : Text := ls.flatMap fun l => l ++ ['\n']

/-- lw.cpp:571-754, the text of PLibrary.hh. -/
def headerText (c : Coll) (s : Stamp) (var : List Text) : Res Text := do
  let ls ← c.headerLines s var
  .ok (joinLines ls)

/-- lw.cpp:756-1010, the text of PLibrary.cc. -/
def sourceText (c : Coll) (s : Stamp) (var : List Text) : Res Text := do
  let ls ← c.sourceLines s var
  .ok (joinLines ls)

end Coll
end Verif
