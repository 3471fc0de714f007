import Verif.Spec.Library
import Verif.Model.Stream

/-!
# Model of the library writer (src/lw/lw.cpp)

Directories are lists of files, files lists of lines. The text around the
generated functions is in `Model/LwText`, `main` in `Model/LwMain`. Not modelled: the messages, `write_pextern_cc` (fixed text). `boost::regex` is modelled for the one pattern that is used.
-/

namespace Verif
open Spec

/-! ## File names -/

/-- lw.cpp:96-112, `is_header`, given `p.filename().string()`. -/
def isHeader (s : Text) : Bool :=
  if s.length < 3 then false else if s.drop (s.length - 3) = ".hh".toList then true else false

/-- lw.cpp:119-140, `is_generated_header`. -/
def isGeneratedHeader (s : Text) : Bool :=
  if !isHeader s then false
  else if s = "PLibrary.hh".toList then false
  else if s = "PFunction.hh".toList then false
  else if s = "PSeriesFunction.hh".toList then false
  else if s = "PRealSymFunction.hh".toList then false
  else if s = "PComplexSymFunction.hh".toList then false
  else true

/-! ## The regular expression -/

/-- A character, or a greedily repeated one. -/
inductive Item where
  | one (p : Char → Bool)
  | star (p : Char → Bool)

/-- Perl semantics of a greedy repetition: take one more if possible, else go on with the rest of the pattern (`k`). The result is the text
matched by each item. -/
def starLoop (p : Char → Bool) (k : Text → Option (List Text)) : Text → Option (List Text)
  | [] => (k []).map ([] :: ·)
  | c :: s =>
    if p c then
      match starLoop p k s with
      | some (w :: ws) => some ((c :: w) :: ws)
      | _ => (k (c :: s)).map ([] :: ·)
    else (k (c :: s)).map ([] :: ·)

/-- A match at the beginning of the text. -/
def matchItems : List Item → Text → Option (List Text)
  | [], _ => some []
  | .one p :: r, s =>
    match s with
    | [] => none
    | c :: s' => if p c then (matchItems r s').map ([c] :: ·) else none
  | .star p :: r, s => starLoop p (matchItems r) s

/-- `boost::regex_search`: the leftmost match. -/
def search (items : List Item) : Text → Option (List Text)
  | [] => matchItems items []
  | c :: s =>
    match matchItems items (c :: s) with
    | some m => some m
    | none => search items s

/-- `\w` -/
def isWord (c : Char) : Bool := c.isAlphanum || c = '_'

/-- Literal text, labelled with the number of its group. -/
def lits (g : Nat) (t : String) : List (Nat × Item) := t.toList.map fun c => (g, .one (· == c))

/-- `\s*` -/
def sp0 (g : Nat) : List (Nat × Item) := [(g, .star isSpace)]
/-- `\s+` -/
def sp1 (g : Nat) : List (Nat × Item) := [(g, .one isSpace), (g, .star isSpace)]

/-- lw.cpp:204-222, the class names given to `scanline_for_class`. -/
def baseName : Base → String
  | .simple => "PSimpleBase"
  | .func => "PFuncBase"
  | .pwSimple => "PPieceWiseSimpleBase"
  | .pwFunc => "PPieceWiseFuncBase"
  | .basis => "PBasisSetBase"

/-- lw.cpp:306, the pattern `(class\s+)(\w*)(\s*:\s*public\s+ BASE \s*<\s*)(.*)(\s*,\s*)(.*)(\s*>)`. -/
def pattern (b : Base) : List (Nat × Item) :=
  lits 1 "class" ++ sp1 1 ++ [(2, .star isWord)] ++
  (sp0 3 ++ lits 3 ":" ++ sp0 3 ++ lits 3 "public" ++ sp1 3 ++ lits 3 (baseName b) ++ sp0 3 ++ lits 3 "<" ++ sp0 3) ++
  [(4, .star fun _ => true)] ++ (sp0 5 ++ lits 5 "," ++ sp0 5) ++ [(6, .star fun _ => true)] ++ (sp0 7 ++ lits 7 ">")

/-- `match[g]`. -/
def groupOf (pat : List (Nat × Item)) (m : List Text) (g : Nat) : Text :=
  ((pat.zip m).filterMap fun ((h, _), t) => if h = g then some t else none).flatten

/-- lw.cpp:306-322: name, input type, output type of a matching line. -/
def regexFind (b : Base) (line : Text) : Option (Text × Text × Text) :=
  (search ((pattern b).map Prod.snd) line).map fun m => (groupOf (pattern b) m 2, groupOf (pattern b) m 4, groupOf (pattern b) m 6)

/-! ## Collecting -/

/-- lw.cpp:150-161, the members of `Collection`: `tab .simple` is `simplefunction`, `tab .func` `function`, `tab .pwSimple`
`pwsimplefunction`, `tab .pwFunc` `pwfunction`, `tab .basis` `basis_set`. -/
structure Coll where
  filename : List Text
  intype : List Text
  outtype : List Text
  tab : Base → List (List (List Text))

namespace Coll

/-- lw.cpp:163, the members before the scan. -/
def empty : Coll := ⟨[], [], [], fun _ => []⟩

/-- lw.cpp:237-263, `add_intype`. -/
def addIntype (c : Coll) (t : Text) : Nat × Coll :=
  let k := c.intype.findIdx (· == t)
  if k = c.intype.length then
    (k, { c with intype := c.intype ++ [t], tab := fun b => c.tab b ++ [List.replicate c.outtype.length []] })
  else (k, c)

/-- lw.cpp:276-283, one table: a new cell at the end of each of the first `n` rows. -/
def extendRows : Nat → List (List (List Text)) → Res (List (List (List Text)))
  | 0, rows => .ok rows
  | _ + 1, [] => .error (.ub .oob)
  | n + 1, r :: rows => do
    let rs ← extendRows n rows
    .ok ((r ++ [[]]) :: rs)

/-- lw.cpp:267-287, `add_outtype`: all tables are extended over the rows of `simplefunction`. -/
def addOuttype (c : Coll) (t : Text) : Res (Nat × Coll) :=
  let k := c.outtype.findIdx (· == t)
  if k = c.outtype.length then do
    let n := (c.tab .simple).length
    let t1 ← extendRows n (c.tab .simple)
    let t2 ← extendRows n (c.tab .func)
    let t3 ← extendRows n (c.tab .pwSimple)
    let t4 ← extendRows n (c.tab .pwFunc)
    let t5 ← extendRows n (c.tab .basis)
    .ok (k, { c with
      outtype := c.outtype ++ [t]
      tab := fun | .simple => t1 | .func => t2 | .pwSimple => t3 | .pwFunc => t4 | .basis => t5 })
  else .ok (k, c)

/-- lw.cpp:329-344: store the name in one table, unless it is there. -/
def store (c : Coll) (b : Base) (i j : Nat) (name : Text) : Res Coll := do
  let row ← vget (c.tab b) i
  let cell ← vget row j
  if name ∈ cell then .error (.exit 1)
  else .ok { c with tab := fun b' => if b' = b then (c.tab b).set i (row.set j (cell ++ [name])) else c.tab b' }

/-- lw.cpp:327-345, the loop over the tables. -/
def storeAll (c : Coll) (i j : Nat) (name : Text) : List Base → Res Coll
  | [] => .ok c
  | b :: bs => do
    let c' ← c.store b i j name
    storeAll c' i j name bs

/-- lw.cpp:202-222: the tables given to `scanline_for_class`. -/
def tables : Base → List Base
  | .simple => [.simple]
  | .func => [.func]
  | .pwSimple => [.simple, .pwSimple]
  | .pwFunc => [.func, .pwFunc]
  | .basis => [.basis]

/-- lw.cpp:289-351, `scanline_for_class`. -/
def scanClass (find : Base → Text → Option (Text × Text × Text)) (c : Coll) (line : Text) (b : Base) : Res (Bool × Coll) :=
  match find b line with
  | none => .ok (false, c)
  | some (name, i, o) => do
    let (ii, c1) := c.addIntype i
    let (oi, c2) ← c1.addOuttype o
    let c3 ← c2.storeAll ii oi name (tables b)
    .ok (true, c3)

/-- lw.cpp:204-222: the base classes are tried until one is found. -/
def tryBases (find : Base → Text → Option (Text × Text × Text)) (line : Text) : List Base → Bool → Coll → Res (Bool × Coll)
  | [], found, c => .ok (found, c)
  | b :: bs, found, c => do
    let (f, c') ← if found then .ok (true, c) else scanClass find c line b
    tryBases find line bs f c'

/-- lw.cpp:202-229, one line of `scanfile`. -/
def scanLine (find : Base → Text → Option (Text × Text × Text)) (file : Text) (c : Coll) (line : Text) : Res Coll := do
  let (found, c') ← tryBases find line [.simple, .func, .pwSimple, .pwFunc, .basis] false c
  if found then
    if file ∈ c'.filename then .ok c' else .ok { c' with filename := c'.filename ++ [file] }
  else .ok c'

/-- lw.cpp:190-233, `scanfile`. -/
def scanFile (find : Base → Text → Option (Text × Text × Text)) (file : Text) : List Text → Coll → Res Coll
  | [], c => .ok c
  | l :: ls, c => do
    let c' ← scanLine find file c l
    scanFile find file ls c'

/-- lw.cpp:184-185, the loop of `scandir`. -/
def scanFiles (find : Base → Text → Option (Text × Text × Text)) : Dir → Coll → Res Coll
  | [], c => .ok c
  | f :: fs, c => do
    let c' ← scanFile find f.1 f.2 c
    scanFiles find fs c'

/-- lw.cpp:172-188, `scandir`. -/
def scanDir (find : Base → Text → Option (Text × Text × Text)) (d : Dir) (c : Coll) : Res Coll :=
  scanFiles find (d.filter fun f => isGeneratedHeader f.1) c

/-- lw.cpp:163-170, constructor. -/
def collectFrom (find : Base → Text → Option (Text × Text × Text)) : List Dir → Coll → Res Coll
  | [], c => .ok c
  | d :: ds, c => do
    let c' ← scanDir find d c
    collectFrom find ds c'

/-- lw.cpp:163-170, constructor. -/
def collect (find : Base → Text → Option (Text × Text × Text)) (dirs : List Dir) : Res Coll := collectFrom find dirs empty

/-! ## Writing -/

/-- `c.table[i][j]`. -/
def cell (c : Coll) (b : Base) (i j : Nat) : Res (List Text) := do
  let row ← vget (c.tab b) i
  vget row j

/-- A loop that writes something for each index. -/
def forIdx {α : Type} (f : Nat → Res (List α)) : List Nat → Res (List α)
  | [] => .ok []
  | i :: is => do
    let a ← f i
    let r ← forIdx f is
    .ok (a ++ r)

/-- lw.cpp:610-611 and alike: all pairs of types. -/
def forPairs {α : Type} (c : Coll) (f : Nat → Nat → Res (List α)) : Res (List α) :=
  forIdx (fun i => forIdx (f i) (List.range c.outtype.length)) (List.range c.intype.length)

/-- The order (lw.cpp:610-744, 793-1001). -/
def kinds : List Kind := [.simpleFunction, .function, .basisSet, .simpleBase, .funcBase, .pwSimpleBase, .pwFuncBase, .basisSetBase]

/-- The class in the parameter. -/
def _root_.Verif.Spec.Kind.cls : Kind → String
  | .simpleFunction => "PSimpleFunction" | .function => "PFunction" | .basisSet => "PBasisSet" | .simpleBase => "PSimpleBase"
  | .funcBase => "PFuncBase" | .pwSimpleBase => "PPieceWiseSimpleBase" | .pwFuncBase => "PPieceWiseFuncBase"
  | .basisSetBase => "PBasisSetBase"

/-- The rest of the parameter list. -/
def _root_.Verif.Spec.Kind.param : Kind → String
  | .simpleFunction => "&simplefunc" | .function => "&func" | .basisSet => "&basis_set, int N" | .simpleBase => "*&simplefunc"
  | .funcBase => "*&func" | .pwSimpleBase => "*&simplefunc" | .pwFuncBase => "*&func" | .basisSetBase => "*&basis_set, int N"

/-- `checkout( std::string name, CLASS< IN, OUT > PARAM)` (lw.cpp:618-743, 801-995). -/
def signature (k : Kind) (i o : Text) : Text :=
  ("checkout( std::string name, " ++ k.cls ++ "< ").toList ++ i ++ ", ".toList ++ o ++ (" > " ++ k.param ++ ")").toList

/-- A checkout function of PLibrary.cc: the signature, the `if( name == "...") { ...; return;}` alternatives (name and class
constructed, in order), and then the throw. -/
structure Checkout where
  sig : Text
  alts : List (Text × Text)

/-- What the function does for a name: the class constructed. -/
def Checkout.run (f : Checkout) (name : Text) : Res Text :=
  match f.alts.find? fun a => a.1 == name with
  | some a => .ok a.2
  | none => .error .runtimeError

/-- The class constructed for a name: `NAME< VAR >` for a template (lw.cpp:805, 890), `NAME` otherwise. -/
def inst (v : Option Text) (name : Text) : Text × Text :=
  match v with
  | some v => (name, name ++ "< ".toList ++ v ++ " >".toList)
  | none => (name, name)

/-- The input types a function is written for, with the template argument (lw.cpp:614-624, 797-823). -/
def intypes (var : List Text) (i : Text) : List (Text × Option Text) :=
  if i = "VarContainer".toList then var.map fun v => (v, some v) else [(i, none)]

/-- lw.cpp:610-744: does the header declare functions of this kind for the pair? -/
def headerHas (c : Coll) (k : Kind) (i j : Nat) : Res Bool :=
  match k with
  | .simpleFunction | .simpleBase => do let a ← c.cell .simple i j; .ok (decide (a.length > 0))
  | .function | .funcBase => do let a ← c.cell .func i j; .ok (decide (a.length > 0))
  | .pwSimpleBase => do let a ← c.cell .pwSimple i j; .ok (decide (a.length > 0))
  | .pwFuncBase => do let a ← c.cell .pwFunc i j; .ok (decide (a.length > 0))
  | .basisSet | .basisSetBase => do let a ← c.cell .basis i j; .ok (decide (a.length > 0))

/-- lw.cpp:793-1001: does the source define functions of this kind for the pair? (`||` reads the second table only if the first is
empty.) -/
def sourceHas (c : Coll) (k : Kind) (i j : Nat) : Res Bool :=
  match k with
  | .simpleFunction => do let a ← c.cell .simple i j; .ok (decide (a.length > 0))
  | .function => do let a ← c.cell .func i j; .ok (decide (a.length > 0))
  | .simpleBase => do
    let a ← c.cell .simple i j
    if a.length > 0 then .ok true else do let b ← c.cell .pwSimple i j; .ok (decide (b.length > 0))
  | .funcBase => do
    let a ← c.cell .func i j
    if a.length > 0 then .ok true else do let b ← c.cell .pwFunc i j; .ok (decide (b.length > 0))
  | .pwSimpleBase => do let a ← c.cell .pwSimple i j; .ok (decide (a.length > 0))
  | .pwFuncBase => do let a ← c.cell .pwFunc i j; .ok (decide (a.length > 0))
  | .basisSet | .basisSetBase => do let a ← c.cell .basis i j; .ok (decide (a.length > 0))

/-- The names in the alternatives, in order (lw.cpp:804-807 lists two tables, the others one). -/
def sourceNames (c : Coll) (k : Kind) (i j : Nat) : Res (List Text) :=
  match k with
  | .simpleFunction => do let a ← c.cell .simple i j; let b ← c.cell .pwSimple i j; .ok (a ++ b)
  | .simpleBase => c.cell .simple i j
  | .function | .funcBase => c.cell .func i j
  | .pwSimpleBase => c.cell .pwSimple i j
  | .pwFuncBase => c.cell .pwFunc i j
  | .basisSet | .basisSetBase => c.cell .basis i j

/-- Basis sets are written for the input type as it is (lw.cpp:646-651, 858-869). -/
def kindTypes (k : Kind) (var : List Text) (i : Text) : List (Text × Option Text) :=
  match k with
  | .basisSet | .basisSetBase => [(i, none)]
  | _ => intypes var i

/-- lw.cpp:610-744, the functions declared for one kind. -/
def headerKind (c : Coll) (var : List Text) (k : Kind) : Res (List Text) :=
  c.forPairs fun i j => do
    let b ← c.headerHas k i j
    if b then do
      let it ← vget c.intype i
      let ot ← vget c.outtype j
      .ok ((kindTypes k var it).map fun t => signature k t.1 ot)
    else .ok []

/-- lw.cpp:793-1001, the functions defined for one kind. -/
def sourceKind (c : Coll) (var : List Text) (k : Kind) : Res (List Checkout) :=
  c.forPairs fun i j => do
    let b ← c.sourceHas k i j
    if b then do
      let it ← vget c.intype i
      let ot ← vget c.outtype j
      let names ← c.sourceNames k i j
      .ok ((kindTypes k var it).map fun t => ⟨signature k t.1 ot, names.map (inst t.2)⟩)
    else .ok []

/-- All kinds, in order. -/
def forKinds {α : Type} (f : Kind → Res (List α)) : List Kind → Res (List α)
  | [] => .ok []
  | k :: ks => do
    let a ← f k
    let r ← forKinds f ks
    .ok (a ++ r)

/-- lw.cpp:571-754, `write_header`: the signatures declared, in order. -/
def writeHeader (c : Coll) (var : List Text) : Res (List Text) := forKinds (c.headerKind var) kinds

/-- lw.cpp:756-1010, `write_source`: the functions defined, in order. -/
def writeSource (c : Coll) (var : List Text) : Res (List Checkout) := forKinds (c.sourceKind var) kinds

/-- lw.cpp:776-779, the files included by the source. -/
def writeIncludes (c : Coll) : List Text := c.filename.map fun f => "#include \"".toList ++ f ++ "\"".toList

end Coll
end Verif
