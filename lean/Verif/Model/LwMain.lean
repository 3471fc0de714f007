import Verif.Model.LwText
import Verif.Spec.LwMain

/-!
# Model of the library writer's `main` (src/lw/lw.cpp:375-567)

The options are given as parsed; directories are a `Disk`. The order in which a directory is listed may differ from reading to reading
(`ord`, counted by the directories read). Shell commands are recorded, and have the effect `sh`. Not modelled: console output, permissions, running out of
space, `popen` that fails.
-/

namespace Verif
open Spec Spec.Lw Coll
namespace Lw

/-- lw.cpp:377-398, the options. -/
structure Opts where
  help : Bool
  version : Bool
  compile : Bool
  dylib : Bool
  cxx : Text
  cflags : Text
  dir : List Text
  var : List Text
  location : Text

/-- `std::getline` until it fails: the lines, given what has been read of the first. (A last line without newline is a line.) -/
def getlines (cur : Text) : Text → List Text
  | [] => match cur with
    | [] => []
    | _ :: _ => [cur]
  | c :: t => if c == '\n' then cur :: getlines [] t else getlines (cur ++ [c]) t

/-- The environment: listing orders, shell, time and versions, the text of PExtern.cc (`write_pextern_cc`, lw.cpp:1012-1585: fixed). -/
structure Env where
  ord : Nat → List (Text × Text) → List (Text × Text)
  sh : Text → Disk → Disk
  stamp : Bool → Stamp
  pextern : Text

/-- Set the contents of a file. -/
def setFile (name text : Text) : List (Text × Text) → List (Text × Text)
  | [] => [(name, text)]
  | x :: xs => if x.1 == name then (name, text) :: xs else x :: setFile name text xs

/-- Write a file of a directory (all of it); nothing happens if there is no such directory (the stream is in a failed state, and nothing
checks it). -/
def write (d : Disk) (location name text : Text) : Disk :=
  match d.resolve location with
  | none => d
  | some n => { d with files := fun m => if m = n then setFile name text (d.files n) else d.files m }

/-- lw.cpp:163-170, 172-188: the constructor of `Collection` on the disk. A directory that does not exist: the iterator throws
(`filesystem_error`). `t` counts the directories read. -/
def scan (e : Env) (d : Disk) : Nat → List Text → Coll → Res Coll
  | _, [], c => .ok c
  | t, p :: ps, c =>
    match d.resolve p with
    | none => .error .runtimeError
    | some n => do
      let c' ← Coll.scanDir regexFind ((e.ord t (d.files n)).map fun x => (x.1, getlines [] x.2)) c
      scan e d (t + 1) ps c'

/-- How an error ends the program: `exit`, or an exception outside every `try`. -/
def ends : Err → Status
  | .exit n => .exit n
  | _ => .aborts

/-- `fs::path(location) / name`, as text. -/
def joinPath (location name : Text) : Text :=
  if location = [] then name else if location.getLast? = some '/' then location ++ name else location ++ "/".toList ++ name

/-- lw.cpp:474-477: the first command. -/
def compileCmd (o : Opts) : Text :=
  o.cxx ++ " -c ".toList ++ joinPath o.location "PLibrary.cc".toList ++ " -o ".toList ++ joinPath o.location "PLibrary.o".toList ++ " ".toList ++
    o.cflags ++ " ".toList ++ o.dir.flatMap fun d => "-I".toList ++ d ++ " ".toList

/-- lw.cpp:508. -/
def externCmd (o : Opts) : Text :=
  o.cxx ++ " -c ".toList ++ joinPath o.location "PExtern.cc".toList ++ " -o ".toList ++ joinPath o.location "PExtern.o".toList ++ " ".toList ++ o.cflags

/-- lw.cpp:531-554. -/
def linkCmd (o : Opts) : Text :=
  let objs := joinPath o.location "PExtern.o".toList ++ " ".toList ++ joinPath o.location "PLibrary.o".toList
  if o.dylib then o.cxx ++ " -dynamiclib -o ".toList ++ joinPath o.location "libpextern.dylib".toList ++ " ".toList ++ objs
  else o.cxx ++ " -shared -o ".toList ++ joinPath o.location "libpextern.so".toList ++ " ".toList ++ objs

/-- What a run leaves. -/
structure Run where
  status : Status
  disk : Disk
  commands : List Text

/-- lw.cpp:466-564, compiling: the results of the commands are not looked at. -/
def compileStep (e : Env) (o : Opts) (d : Disk) : Run :=
  if o.compile then
    let d := e.sh (compileCmd o) d
    let d := write d o.location "PExtern.cc".toList e.pextern
    let d := e.sh (externCmd o) d
    let d := e.sh (linkCmd o) d
    ⟨.exit 0, d, [compileCmd o, externCmd o, linkCmd o]⟩
  else ⟨.exit 0, d, []⟩

/-- lw.cpp:456-463, 756-758: open PLibrary.cc (which empties it), scan again, write. -/
def sourceStep (e : Env) (o : Opts) (d : Disk) : Run :=
  let d1 := write d o.location "PLibrary.cc".toList []
  match scan e d1 o.dir.length o.dir Coll.empty with
  | .error er => ⟨ends er, d1, []⟩
  | .ok c =>
    match c.sourceText (e.stamp true) o.var with
    | .error er => ⟨ends er, d1, []⟩
    | .ok t => compileStep e o (write d1 o.location "PLibrary.cc".toList t)

/-- lw.cpp:442-454, 571-573: open PLibrary.hh (which empties it), scan, write. -/
def headerStep (e : Env) (o : Opts) (d : Disk) : Run :=
  let d1 := write d o.location "PLibrary.hh".toList []
  match scan e d1 0 o.dir Coll.empty with
  | .error er => ⟨ends er, d1, []⟩
  | .ok c =>
    match c.headerText (e.stamp false) o.var with
    | .error er => ⟨ends er, d1, []⟩
    | .ok t => sourceStep e o (write d1 o.location "PLibrary.hh".toList t)

/-- lw.cpp:375-567, `main`. `parsed = none`: `po::parse_command_line` throws. `--help` and `--version` come before the check that `--var` is given
(`notify`). -/
def main (e : Env) (parsed : Option Opts) (d : Disk) : Run :=
  match parsed with
  | none => ⟨.exit 1, d, []⟩
  | some o =>
    if o.help then ⟨.exit 0, d, []⟩
    else if o.version then ⟨.exit 0, d, []⟩
    else if o.var.isEmpty then ⟨.exit 1, d, []⟩
    else headerStep e o d

/-! ## Runs that are interrupted

The disk at every moment of a run, up to compiling: a run that is killed leaves one of these. An opened file is emptied at once; what is
written to the stream reaches the file in order, in portions of any size (so that any part from the start may be there). -/

/-- The first parts of a text, from none to all of it. -/
def starts : Text → List Text
  | [] => [[]]
  | x :: t => [] :: (starts t).map (x :: ·)

/-- lw.cpp:448-451 and 460-463 with `std::ofstream`: the file while it is written. -/
def writing (d : Disk) (location name text : Text) : List Disk := (starts text).map (write d location name)

/-- lw.cpp:456-463, 756-758, moment by moment. -/
def sourceMoments (e : Env) (o : Opts) (d : Disk) : List Disk :=
  let d1 := write d o.location "PLibrary.cc".toList []
  d1 :: match scan e d1 o.dir.length o.dir Coll.empty with
  | .error _ => []
  | .ok c =>
    match c.sourceText (e.stamp true) o.var with
    | .error _ => []
    | .ok t => writing d1 o.location "PLibrary.cc".toList t

/-- lw.cpp:442-454, 571-573, moment by moment. -/
def headerMoments (e : Env) (o : Opts) (d : Disk) : List Disk :=
  let d1 := write d o.location "PLibrary.hh".toList []
  d1 :: match scan e d1 0 o.dir Coll.empty with
  | .error _ => []
  | .ok c =>
    match c.headerText (e.stamp false) o.var with
    | .error _ => []
    | .ok t => writing d1 o.location "PLibrary.hh".toList t ++ sourceMoments e o (write d1 o.location "PLibrary.hh".toList t)

/-- lw.cpp:375-463, moment by moment. -/
def moments (e : Env) (parsed : Option Opts) (d : Disk) : List Disk :=
  d :: match parsed with
  | none => []
  | some o =>
    if o.help then []
    else if o.version then []
    else if o.var.isEmpty then []
    else headerMoments e o d

end Lw
end Verif
