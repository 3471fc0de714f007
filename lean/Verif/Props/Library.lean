import Verif.Lemmas.LibraryWrite
import Verif.Lemmas.RegexLine

/-! # Properties of the library writer: C60-C63, C75, C76 -/

namespace Verif
open Spec Coll

/-- A small library: a template function with a piecewise one, one of `double`s, a basis set. -/
def exampleDirs : List Dir :=
  [[("notes.txt".toList, ["class N : public PSimpleBase< double, double>".toList]),
    ("PLibrary.hh".toList, ["class L : public PSimpleBase< double, double>".toList]),
    ("A.hh".toList, ["template< class VarContainer>".toList, "class A : public PSimpleBase< VarContainer, double>".toList,
      "int f();".toList, "class PA : public PPieceWiseSimpleBase< VarContainer, double> {".toList]),
    ("Mono.hh".toList, ["    class M0 : public PSimpleBase< double, double>".toList, "    class Mono : public PBasisSetBase< double, double>".toList])]]

/-! ## C63 -/

/-- C63: exactly the headers that are none of the library's own are scanned. -/
theorem C63_header_filter (name : Text) : isGeneratedHeader name = true ↔ IsLibraryHeader name := isGeneratedHeader_iff name

example : isGeneratedHeader "Monomial.hh".toList = true ∧ isGeneratedHeader ".hh".toList = true ∧
    isGeneratedHeader "PLibrary.hh".toList = false ∧ isGeneratedHeader "a.hh~".toList = false ∧ isGeneratedHeader "hh".toList = false := by
  decide +kernel

/-! ## C60 -/

/-- C60: the headers of the directories are collected, unless a class would be listed twice: then the program ends with status 1. -/
theorem C60_collect (find : Base → Text → Option (Text × Text × Text)) (dirs : List Dir) :
    let es := entries ((declared find dirs).map Prod.snd)
    (es.Nodup → ∃ c, collect find dirs = .ok c) ∧ (¬ es.Nodup → collect find dirs = .error (.exit 1)) := by
  rcases collect_outcome find dirs with ⟨hn, c, e, _⟩ | ⟨hn, e⟩
  · exact ⟨fun _ => ⟨c, e⟩, fun h => absurd hn h⟩
  · exact ⟨fun h => absurd h hn, fun _ => e⟩

theorem collected {find : Base → Text → Option (Text × Text × Text)} {dirs : List Dir} {c : Coll} (h : collect find dirs = .ok c) :
    Full c (declared find dirs) := by
  rcases collect_outcome find dirs with ⟨hn, c', e, hf⟩ | ⟨hn, e⟩
  · rw [h] at e; cases e; exact hf
  · rw [h] at e; cases e

/-- C60: after any sequence of headers the types, and the files with classes, are listed once, in order of first appearance; each table has one cell
for each pair of types; the cell lists exactly the names found for the pair, none twice. -/
theorem C60_tables (find : Base → Text → Option (Text × Text × Text)) (dirs : List Dir) (c : Coll) (h : collect find dirs = .ok c) :
    let ds := declared find dirs
    c.intype = distinct (ds.map fun d => d.2.intype) ∧ c.outtype = distinct (ds.map fun d => d.2.outtype) ∧
    c.filename = distinct (ds.map Prod.fst) ∧ c.intype.Nodup ∧ c.outtype.Nodup ∧
    ∀ b, (c.tab b).length = c.intype.length ∧ (∀ r ∈ c.tab b, r.length = c.outtype.length) ∧
      ∀ (i j : Nat) t u, c.intype[i]? = some t → c.outtype[j]? = some u →
        ∃ row names, (c.tab b)[i]? = some row ∧ row[j]? = some names ∧ names = namesOf (entries (ds.map Prod.snd)) b t u ∧ names.Nodup := by
  have hf := collected h
  refine ⟨hf.ins, hf.outs, hf.files, hf.rep.ins, hf.rep.outs, fun b => ⟨hf.rep.rows b, hf.rep.cols b, fun i j t u hi hj => ?_⟩⟩
  obtain ⟨row, h1, h2⟩ := hf.rep.cells b i j t u hi hj
  refine ⟨row, _, h1, h2, rfl, ?_⟩
  unfold namesOf
  refine List.Nodup.map_on ?_ (hf.rep.nodup.filter _)
  rintro ⟨b1, t1, u1, n1⟩ m1 ⟨b2, t2, u2, n2⟩ m2 e
  simp only [List.mem_filter, decide_eq_true_eq] at m1 m2 e
  obtain ⟨_, rfl, rfl, rfl⟩ := m1
  obtain ⟨_, rfl, rfl, rfl⟩ := m2
  rw [e]

/-- C60: the source includes exactly the headers in which a class was found, each once. -/
theorem C60_includes (find : Base → Text → Option (Text × Text × Text)) (dirs : List Dir) (c : Coll) (h : collect find dirs = .ok c) :
    c.writeIncludes = (distinct ((declared find dirs).map Prod.fst)).map fun f => ("#include \"".toList ++ f ++ "\"".toList) := by
  rw [← (collected h).files]; rfl

/-- Distinct elements: each once, and no others. -/
theorem C60_distinct (l : List Text) : (distinct l).Nodup ∧ ∀ t, t ∈ distinct l ↔ t ∈ l := by
  have : ∀ n, ∀ l : List Text, l.length = n → (distinct l).Nodup ∧ ∀ t, t ∈ distinct l ↔ t ∈ l := by
    intro n
    induction n with
    | zero => intro l hl; cases l with
      | nil => exact ⟨.nil, fun t => Iff.rfl⟩
      | cons => simp at hl
    | succ n ih =>
      intro l hl
      rcases List.eq_nil_or_concat l with rfl | ⟨l', a, rfl⟩
      · simp at hl
      · rw [List.concat_eq_append] at hl ⊢
        rw [distinct_snoc]
        obtain ⟨h1, h2⟩ := ih l' (by simpa using hl)
        unfold distinctStep
        split
        · rename_i hm
          refine ⟨h1, fun t => ?_⟩
          rw [h2]; rw [h2] at hm
          simp only [List.mem_append, List.mem_singleton]
          exact ⟨.inl, fun h => h.elim id fun e => e ▸ hm⟩
        · rename_i hm
          refine ⟨?_, fun t => by simp [h2]⟩
          rw [List.nodup_append]
          exact ⟨h1, by simp, fun x hx y hy => by simp at hy; subst hy; rintro rfl; exact hm hx⟩
  exact this _ l rfl

example : (do let c ← collect regexFind exampleDirs; .ok [[[c.filename, c.intype, c.outtype]], c.tab .simple, c.tab .pwSimple, c.tab .func]) =
    (.ok [[[["A.hh".toList, "Mono.hh".toList], ["VarContainer".toList, "double".toList], ["double".toList]]],
      [[["A".toList, "PA".toList]], [["M0".toList]]], [[["PA".toList]], [[]]], [[[]], [[]]]] : Res (List (List (List (List Text))))) := by decide +kernel

example : (do let c ← collect regexFind [[("A.hh".toList, ["class A : public PSimpleBase<int,int>".toList, "class A : public PSimpleBase< int, int>".toList])]]; .ok c.filename) =
    (.error (.exit 1) : Res _) := by decide +kernel

/-! ## C61 -/

/-- C61: header and source are written for whatever has been collected, and declare and define the same functions, in the same order. -/
theorem C61_header_eq_source (find : Base → Text → Option (Text × Text × Text)) (dirs : List Dir) (var : List Text) (c : Coll)
    (h : collect find dirs = .ok c) :
    ∃ sigs funs, c.writeHeader var = .ok sigs ∧ c.writeSource var = .ok funs ∧ sigs = funs.map Checkout.sig := by
  have hf := collected h
  exact ⟨_, _, writeHeader_rep hf.rep var, writeSource_rep hf.rep (pwSub_entries _) var, (allFuns_sig c _ var).symm⟩

example : (do let c ← collect regexFind exampleDirs; c.writeHeader ["std::vector<double>".toList, "double*".toList]) =
    .ok (["checkout( std::string name, PSimpleFunction< std::vector<double>, double > &simplefunc)",
      "checkout( std::string name, PSimpleFunction< double*, double > &simplefunc)",
      "checkout( std::string name, PSimpleFunction< double, double > &simplefunc)",
      "checkout( std::string name, PBasisSet< double, double > &basis_set, int N)",
      "checkout( std::string name, PSimpleBase< std::vector<double>, double > *&simplefunc)",
      "checkout( std::string name, PSimpleBase< double*, double > *&simplefunc)",
      "checkout( std::string name, PSimpleBase< double, double > *&simplefunc)",
      "checkout( std::string name, PPieceWiseSimpleBase< std::vector<double>, double > *&simplefunc)",
      "checkout( std::string name, PPieceWiseSimpleBase< double*, double > *&simplefunc)",
      "checkout( std::string name, PBasisSetBase< double, double > *&basis_set, int N)"].map String.toList) := by decide +kernel

/-! ## C62 -/

theorem mem_entries {ds : List Decl} {b : Base} {t u n : Text} :
    (⟨b, t, u, n⟩ : Entry) ∈ entries ds ↔ ∃ d ∈ ds, b ∈ tables d.base ∧ d.intype = t ∧ d.outtype = u ∧ d.name = n := by
  simp only [entries, List.mem_flatMap, entries_eq_tables, List.mem_map, Entry.mk.injEq]
  constructor
  · rintro ⟨d, hd, b', hb, rfl, h⟩; exact ⟨d, hd, hb, h⟩
  · rintro ⟨d, hd, hb, h⟩; exact ⟨d, hd, b, hb, rfl, h⟩

theorem offers_iff (k : Kind) (b : Base) : b ∈ k.offers ↔ k.tab ∈ tables b := by
  cases k <;> cases b <;> decide

theorem mem_names {ds : List Decl} {k : Kind} {t u n : Text} : n ∈ k.names (entries ds) t u ↔
    ∃ d ∈ ds, d.base ∈ k.offers ∧ d.intype = t ∧ d.outtype = u ∧ d.name = n := by
  have h1 : n ∈ namesOf (entries ds) k.tab t u ↔ ∃ d ∈ ds, d.base ∈ k.offers ∧ d.intype = t ∧ d.outtype = u ∧ d.name = n := by
    rw [mem_namesOf, mem_entries]
    simp only [offers_iff]
  unfold Kind.names
  rw [List.mem_append, h1]
  constructor
  · rintro (h | h)
    · exact h
    · split at h
      · rename_i hk
        subst hk
        rw [mem_namesOf] at h
        rw [← h1, mem_namesOf]
        exact (pwSub_entries ds).simple _ _ _ h
      · cases h
  · exact .inl

theorem className_eq (v : Option Text) (n : Text) : (inst v n).2 = className v n := by cases v <;> rfl

/-- C62: each function written constructs the class declared under the name (for its class, input and output type; `VarContainer` is replaced by the
type of the function), and throws a runtime error for every other name. -/
theorem C62_checkout (find : Base → Text → Option (Text × Text × Text)) (dirs : List Dir) (var : List Text) (c : Coll) (funs : List Checkout)
    (h : collect find dirs = .ok c) (hs : c.writeSource var = .ok funs) :
    ∀ f ∈ funs, ∃ k intype outtype i arg, Instance k var intype i arg ∧ f.sig = signature k i outtype ∧
      ∀ name, let declares := ∃ d ∈ (declared find dirs).map Prod.snd, d.base ∈ k.offers ∧ d.intype = intype ∧ d.outtype = outtype ∧ d.name = name
        (declares → f.run name = .ok (className arg name)) ∧ (¬ declares → f.run name = .error .runtimeError) := by
  have hf := collected h
  rw [writeSource_rep hf.rep (pwSub_entries _) var] at hs
  cases hs
  intro f hfm
  obtain ⟨k, t, u, a, ht, hu, h0, ha, rfl⟩ := mem_allFuns.mp hfm
  refine ⟨k, t, u, a.1, a.2, kindTypes_iff.mp ha, rfl, fun name => ?_⟩
  rw [run_inst, className_eq]
  exact ⟨fun hd => if_pos (mem_names.mpr hd), fun hd => if_neg fun hm => hd (mem_names.mp hm)⟩

/-- C62: every class declared can be checked out under its name, through every kind of function for its class or a class it extends, for every
instance of its input type. -/
theorem C62_complete (find : Base → Text → Option (Text × Text × Text)) (dirs : List Dir) (var : List Text) (c : Coll) (funs : List Checkout)
    (h : collect find dirs = .ok c) (hs : c.writeSource var = .ok funs) (d : Decl) (hd : d ∈ (declared find dirs).map Prod.snd)
    (k : Kind) (hk : d.base ∈ k.offers) (i : Text) (arg : Option Text) (hi : Instance k var d.intype i arg) :
    ∃ f ∈ funs, f.sig = signature k i d.outtype ∧ f.run d.name = .ok (className arg d.name) := by
  have hf := collected h
  rw [writeSource_rep hf.rep (pwSub_entries _) var] at hs
  cases hs
  have hm : d.name ∈ namesOf (entries ((declared find dirs).map Prod.snd)) k.tab d.intype d.outtype := by
    rw [mem_namesOf, mem_entries]
    exact ⟨d, hd, (offers_iff k _).mp hk, rfl, rfl, rfl⟩
  have he := hf.rep.mem _ (mem_namesOf.mp hm)
  refine ⟨⟨signature k i d.outtype, (k.names _ d.intype d.outtype).map (inst arg)⟩,
    mem_allFuns.mpr ⟨k, d.intype, d.outtype, (i, arg), he.1, he.2, List.length_pos_of_mem hm, kindTypes_iff.mpr hi, rfl⟩, rfl, ?_⟩
  rw [run_inst, className_eq, if_pos (mem_names.mpr ⟨d, hd, hk, rfl, rfl, rfl⟩)]

example : (do
    let c ← collect regexFind exampleDirs
    let fs ← c.writeSource ["std::vector<double>".toList]
    .ok (fs.map fun f => (f.run "PA".toList, f.run "M0".toList, f.run "Mono".toList))) =
    (.ok [(.ok "PA< std::vector<double> >".toList, .error .runtimeError, .error .runtimeError),
      (.error .runtimeError, .ok "M0".toList, .error .runtimeError), (.error .runtimeError, .error .runtimeError, .ok "Mono".toList),
      (.ok "PA< std::vector<double> >".toList, .error .runtimeError, .error .runtimeError), (.error .runtimeError, .ok "M0".toList, .error .runtimeError),
      (.ok "PA< std::vector<double> >".toList, .error .runtimeError, .error .runtimeError),
      (.error .runtimeError, .error .runtimeError, .ok "Mono".toList)] : Res (List (Res Text × Res Text × Res Text))) := by decide +kernel

/-! ## C75 -/

/-- C75 does not hold: with `double` among the types for `VarContainer`, and a class that takes a `double` itself, the same function is written twice
(which does not compile). -/
theorem C75_signatures_once_violated :
    ∃ sigs, (do let c ← collect regexFind exampleDirs; c.writeHeader ["double".toList]) = .ok sigs ∧ ¬ sigs.Nodup :=
  ⟨["checkout( std::string name, PSimpleFunction< double, double > &simplefunc)",
    "checkout( std::string name, PSimpleFunction< double, double > &simplefunc)",
    "checkout( std::string name, PBasisSet< double, double > &basis_set, int N)",
    "checkout( std::string name, PSimpleBase< double, double > *&simplefunc)",
    "checkout( std::string name, PSimpleBase< double, double > *&simplefunc)",
    "checkout( std::string name, PPieceWiseSimpleBase< double, double > *&simplefunc)",
    "checkout( std::string name, PBasisSetBase< double, double > *&basis_set, int N)"].map String.toList, by decide +kernel, by decide +kernel⟩

/-- C75, for lists of types without repetitions that are not types of scanned classes: every function is written once. -/
theorem C75_signatures_once_partial (dirs : List Dir) (var : List Text) (c : Coll) (sigs : List Text) (h : collect regexFind dirs = .ok c)
    (hs : c.writeHeader var = .ok sigs) (hv : var.Nodup)
    (hd : ∀ v ∈ var, ∀ d ∈ (declared regexFind dirs).map Prod.snd, d.intype ≠ v) : sigs.Nodup := by
  have hf := collected h
  rw [writeHeader_rep hf.rep var] at hs
  cases hs
  refine allSigs_nodup hf.rep ?_ hv ?_
  · intro o ho
    rw [hf.outs, (C60_distinct _).2] at ho
    simp only [List.mem_map] at ho
    obtain ⟨⟨file, d⟩, hm, rfl⟩ := ho
    simp only [declared, List.mem_flatMap, List.mem_map, List.mem_filterMap, Prod.mk.injEq] at hm
    obtain ⟨_, _, _, _, d', ⟨line, _, hl⟩, _, rfl⟩ := hm
    unfold declOf at hl
    obtain ⟨b, _, hb⟩ := List.exists_of_findSome?_eq_some hl
    simp only [Option.map_eq_some_iff] at hb
    obtain ⟨⟨n, i, o⟩, hb, rfl⟩ := hb
    obtain ⟨_, _, _, _, hc, _⟩ := regexFind_sound hb
    exact hc
  · intro v hvm hmem
    rw [hf.ins, (C60_distinct _).2] at hmem
    simp only [List.mem_map] at hmem
    obtain ⟨x, hx, e⟩ := hmem
    exact hd v hvm x.2 (List.mem_map_of_mem hx) e

example : ∃ sigs, (do let c ← collect regexFind exampleDirs; c.writeHeader ["std::vector<double>".toList, "double*".toList]) = .ok sigs ∧
    sigs.length = 10 := ⟨_, rfl, by decide +kernel⟩

/-! ## C76 -/

/-- C76 does not hold: blanks before `,` and `>` become part of the types. (`double` and `double ` are then different types, and `VarContainer ` is not
the template parameter.) -/
theorem C76_declaration_violated :
    declOf regexFind "class A : public PSimpleBase< double , double >".toList = some ⟨.simple, "A".toList, "double ".toList, "double ".toList⟩ ∧
    (do let c ← collect regexFind [[("A.hh".toList, ["class A : public PSimpleBase< VarContainer , double>".toList])]];
        c.writeHeader ["double*".toList]) =
      .ok (["checkout( std::string name, PSimpleFunction< VarContainer , double > &simplefunc)",
        "checkout( std::string name, PSimpleBase< VarContainer , double > *&simplefunc)"].map String.toList) := by
  refine ⟨by decide +kernel, by decide +kernel⟩

/-- C76, for lines without blanks before `,` and `>`, whose output type has no comma, with no `:` before the declaration, no `>` after it, and no other base class on the line:
the class is found with its base class, name and types, whatever the other blanks. -/
theorem C76_declaration_partial (l : DeclLine) (hv : l.Valid) (hpre : ':' ∉ l.pre) (hpost : '>' ∉ l.post) (hname : l.decl.name ≠ [])
    (hi : NoLeadingBlank l.decl.intype) (hi0 : l.decl.intype ≠ []) (ho : NoLeadingBlank l.decl.outtype) (ho0 : l.decl.outtype ≠ [])
    (hoc : ',' ∉ l.decl.outtype) (h7 : l.s7 = []) (h9 : l.s9 = []) (hb : ∀ b, b ≠ l.decl.base → ¬ b.cpp.toList <:+: l.text) :
    declOf regexFind l.text = some l.decl := by
  have hf := regexFind_line l hv hpre hname hi hi0 ho ho0 hoc hpost
  rw [h7, h9, List.append_nil, List.append_nil] at hf
  have hn : ∀ b, b ≠ l.decl.base → regexFind b l.text = none := fun b h => regexFind_none (hb b h)
  obtain ⟨⟨b, n, i, o⟩, pre, s1, s2, s3, s4, s5, s6, s7, s8, s9, post⟩ := l
  simp only at *
  unfold declOf
  cases b <;>
  · simp only [List.findSome?_cons, hf, hn .simple, hn .func, hn .pwSimple, hn .pwFunc, hn .basis, ne_eq, reduceCtorEq, not_false_eq_true,
      Option.map_none, Option.map_some]

/-- C76, without the condition on blanks: the types are found with the blanks after them. -/
theorem C76_blanks_partial (l : DeclLine) (hv : l.Valid) (hpre : ':' ∉ l.pre) (hpost : '>' ∉ l.post) (hname : l.decl.name ≠ [])
    (hi : NoLeadingBlank l.decl.intype) (hi0 : l.decl.intype ≠ []) (ho : NoLeadingBlank l.decl.outtype) (ho0 : l.decl.outtype ≠ [])
    (hoc : ',' ∉ l.decl.outtype) :
    regexFind l.decl.base l.text = some (l.decl.name, l.decl.intype ++ l.s7, l.decl.outtype ++ l.s9) :=
  regexFind_line l hv hpre hname hi hi0 ho ho0 hoc hpost

/-- C76: what is found is there: a line that is recognised contains a declaration with the name, base class and types found; the name is a word, the output type
has no comma. -/
theorem C76_sound (line : Text) (d : Decl) (h : declOf regexFind line = some d) :
    ∃ l : DeclLine, l.text = line ∧ l.Valid ∧ l.decl = d ∧ ',' ∉ d.outtype ∧ '>' ∉ l.post := by
  unfold declOf at h
  obtain ⟨b, _, hb⟩ := List.exists_of_findSome?_eq_some h
  simp only [Option.map_eq_some_iff] at hb
  obtain ⟨⟨n, i, o⟩, hb, rfl⟩ := hb
  exact regexFind_sound hb

/-- `template<class V> class Q : public PFuncBase<V, double> {` -/
def exampleLine : DeclLine :=
  ⟨⟨.func, "Q".toList, "V".toList, "double".toList⟩, "template<class V> ".toList, " ".toList, " ".toList, " ".toList, "\t ".toList, [], [], [],
    " ".toList, [], " {".toList⟩

example : exampleLine.Valid ∧ exampleLine.text = "template<class V> class Q : public\t PFuncBase<V, double> {".toList ∧
    declOf regexFind exampleLine.text = some exampleLine.decl := by
  have hv : exampleLine.Valid := by
    constructor <;> first | (unfold Blanks; decide +kernel) | (unfold Word; decide +kernel) | decide +kernel
  refine ⟨hv, by decide +kernel, ?_⟩
  refine C76_declaration_partial _ hv (by decide +kernel) (by decide +kernel) (by decide +kernel) ?_ (by decide +kernel) ?_ (by decide +kernel)
    (by decide +kernel) rfl rfl ?_
  · intro c r e
    have : c = 'V' := by cases e; rfl
    subst this; unfold Blanks; decide
  · intro c r e
    have : c = 'd' := by cases e; rfl
    subst this; unfold Blanks; decide
  · intro b; cases b <;> decide +kernel

end Verif
