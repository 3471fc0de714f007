import Verif.Props.Library
import Verif.Lemmas.LwText

/-!
# C99: the text of the generated library
-/

namespace Verif
open Spec Spec.Cpp Coll LwText

namespace LwText

theorem cleanColl {dirs : List Dir} {var : List Text} {c : Coll} (h : collect regexFind dirs = .ok c)
    (hv : ∀ v ∈ var, Clean v) (hd : ∀ x ∈ declared regexFind dirs, Clean x.1 ∧ Clean x.2.intype ∧ Clean x.2.outtype) :
    CleanColl c (entries ((declared regexFind dirs).map Prod.snd)) var := by
  have hf := collected h
  refine ⟨fun t ht => ?_, fun t ht => ?_, hv, fun e he => ?_, fun f hm => ?_⟩
  · rw [hf.ins, (C60_distinct _).2] at ht
    obtain ⟨x, hx, rfl⟩ := List.mem_map.mp ht
    exact (hd x hx).2.1
  · rw [hf.outs, (C60_distinct _).2] at ht
    obtain ⟨x, hx, rfl⟩ := List.mem_map.mp ht
    exact (hd x hx).2.2
  · obtain ⟨b, t, u, n⟩ := e
    obtain ⟨d, hm, _, _, _, rfl⟩ := mem_entries.mp he
    obtain ⟨⟨file, d'⟩, hx, rfl⟩ := List.mem_map.mp hm
    simp only [declared, List.mem_flatMap, List.mem_map, List.mem_filterMap, Prod.mk.injEq] at hx
    obtain ⟨_, _, _, _, d'', ⟨line, _, hl⟩, _, rfl⟩ := hx
    obtain ⟨l, _, hval, rfl, _, _⟩ := C76_sound line d'' hl
    exact word_clean hval.word
  · rw [hf.files, (C60_distinct _).2] at hm
    obtain ⟨x, hx, rfl⟩ := List.mem_map.mp hm
    exact (hd x hx).1

/-- Lines, and the code read from them. -/
def Part (ls : List Text) (toks : List Line) : Prop := (∃ xs, readLines ls = some xs ∧ code xs = toks) ∧ ∀ l ∈ ls, '\n' ∉ l

theorem Part.append {a b : List Text} {x y : List Line} (ha : Part a x) (hb : Part b y) : Part (a ++ b) (x ++ y) := by
  obtain ⟨⟨xs, r1, c1⟩, n1⟩ := ha
  obtain ⟨⟨ys, r2, c2⟩, n2⟩ := hb
  exact ⟨⟨xs ++ ys, readLines_append _ _ _ _ r1 r2, by rw [code_append, c1, c2]⟩, nnl_append n1 n2⟩

theorem part_stamp {s : Stamp} (h : StampOk s) : Part s.lines [] := ⟨⟨_, readLines_stamp s, by simp [code]⟩, nn_stamp h⟩

theorem part_blank : Part [[]] [] := ⟨⟨[.blank], rfl, by simp [code]⟩, by simp⟩

theorem part_blanks : Part [[], [], []] [] := ⟨⟨[.blank, .blank, .blank], rfl, by simp [code]⟩, by simp⟩

theorem part_decls {c : Coll} {es : List Entry} {var : List Text} (h : CleanColl c es var) (k : Kind) :
    Part ((kindSigs c es var k).map declLine) ((kindSigs c es var k).map .declares) :=
  ⟨⟨_, readLines_decls c es var k, code_decls _⟩, nn_decls h k⟩

theorem part_kind {c : Coll} {es : List Entry} {var : List Text} (h : CleanColl c es var) (k : Kind) :
    Part (c.intype.flatMap fun t => c.outtype.flatMap (linesOf es var k t)) ((kindFuns c es var k).flatMap Fun.code) :=
  ⟨⟨_, readLines_kind h k, code_kind c es var k⟩, nn_kind h k⟩

theorem part_headerTop : Part headerTop ([.ifndef "PLIBRARY_HH".toList, .define "PLIBRARY_HH".toList] ++ headerIncludes.map .incl ++
    [.space "PRISMS".toList, .opens, .space "PLibrary".toList, .opens]) := by
  refine ⟨⟨[.ifndef "PLIBRARY_HH".toList, .define "PLIBRARY_HH".toList, .blank, .incl "<cstring>".toList,
    .incl "<vector>".toList, .incl "\"IntegrationTools/PFunction.hh\"".toList, .incl "\"IntegrationTools/PPieceWise.hh\"".toList, .blank,
    .space "PRISMS".toList, .opens, .blank, .comment, .comment, .space "PLibrary".toList, .opens], by decide +kernel, by simp [code, headerIncludes]⟩,
    by decide +kernel⟩

theorem part_comment1 : Part ["        // Use these functions to checkout objects which manage their own memory".toList, []] [] :=
  ⟨⟨[.comment, .blank], by decide +kernel, by simp [code]⟩, by decide +kernel⟩

theorem part_comment2 : Part ["        // Use these functions to checkout new 'Base' objects which the user must delete".toList, []] [] :=
  ⟨⟨[.comment, .blank], by decide +kernel, by simp [code]⟩, by decide +kernel⟩

theorem part_headerEnd : Part (["    }", "", "}", "", "", "#endif"].map String.toList) [.closes, .closes, .endif] :=
  ⟨⟨[.closes, .blank, .closes, .blank, .blank, .endif], by decide +kernel, by simp [code]⟩, by decide +kernel⟩

theorem part_sourceTop : Part (["#ifndef PLIBRARY_CC", "#define PLIBRARY_CC", "", "#include<cstring>", "#include<stdexcept>", "#include<vector>"].map String.toList)
    ([.ifndef "PLIBRARY_CC".toList, .define "PLIBRARY_CC".toList] ++ (["<cstring>", "<stdexcept>", "<vector>"].map String.toList).map .incl) :=
  ⟨⟨[.ifndef "PLIBRARY_CC".toList, .define "PLIBRARY_CC".toList, .blank, .incl "<cstring>".toList, .incl "<stdexcept>".toList, .incl "<vector>".toList],
    by decide +kernel, by simp [code]⟩, by decide +kernel⟩

theorem part_sourceMid : Part (["#include \"PLibrary.hh\"", "", "namespace PRISMS", "{", ""].map String.toList)
    [.incl "\"PLibrary.hh\"".toList, .space "PRISMS".toList, .opens] :=
  ⟨⟨[.incl "\"PLibrary.hh\"".toList, .blank, .space "PRISMS".toList, .opens, .blank], by decide +kernel, by simp [code]⟩, by decide +kernel⟩

theorem part_sourceEnd : Part (["", "}", "", "", "#endif"].map String.toList) [.closes, .endif] :=
  ⟨⟨[.blank, .closes, .blank, .blank, .endif], by decide +kernel, by simp [code]⟩, by decide +kernel⟩

theorem part_includes {c : Coll} {es : List Entry} {var : List Text} (h : CleanColl c es var) :
    Part c.writeIncludes ((c.filename.map fun f => ('"' :: f) ++ "\"".toList).map .incl) := by
  refine ⟨⟨_, ?_, code_incls _⟩, ?_⟩
  · unfold writeIncludes
    rw [List.map_map]
    refine readLines_map _ _ _ fun f _ => ?_
    rw [List.append_assoc]
    exact readLine_incl _
  · intro l hl
    obtain ⟨f, hf, rfl⟩ := List.mem_map.mp hl
    exact nn_append (nn_append (by unfold NN; decide) (h.files f hf).2.2) (by unfold NN; decide)

theorem header_read {c : Coll} {es : List Entry} {var : List Text} (hr : Rep c es) (hc : CleanColl c es var) {s : Stamp} (hs : StampOk s) :
    ∃ text, c.headerText s var = .ok text ∧ HeaderFile text "PLIBRARY_HH".toList headerIncludes (kinds.flatMap (kindSigs c es var)) := by
  have hk : ∀ k, c.headerKind var k = .ok (kindSigs c es var k) := headerKind_rep hr var
  unfold headerText headerLines
  simp only [hk, ok_bind]
  refine ⟨_, rfl, ?_⟩
  have d := part_decls hc
  obtain ⟨⟨xs, r, e⟩, n⟩ := ((((((((((((((((((((part_stamp hs).append part_headerTop).append part_comment1).append (d .simpleFunction)).append part_blank).append
    (d .function)).append part_blank).append (d .basisSet)).append part_blanks).append part_comment2).append (d .simpleBase)).append part_blank).append
    (d .funcBase)).append part_blank).append (d .pwSimpleBase)).append part_blank).append (d .pwFuncBase)).append part_blank).append
    (d .basisSetBase)).append part_headerEnd)
  unfold HeaderFile
  rw [lines_join _ n]
  refine ⟨xs, r, e.trans ?_⟩
  simp only [kinds, List.flatMap_cons, List.flatMap_nil, List.map_append, List.append_assoc, List.append_nil, List.nil_append]

theorem source_read {c : Coll} {es : List Entry} {var : List Text} (hr : Rep c es) (hp : PwSub es) (hc : CleanColl c es var) {s : Stamp} (hs : StampOk s) :
    ∃ text, c.sourceText s var = .ok text ∧ SourceFile text "PLIBRARY_CC".toList (sourceIncludes c.filename) (kinds.flatMap (kindFuns c es var)) := by
  have hk := sourceKindLines_rep hr hp var
  unfold sourceText sourceLines
  simp only [hk, ok_bind]
  refine ⟨_, rfl, ?_, ?_⟩
  · intro f hf
    obtain ⟨k, _, hf⟩ := List.mem_flatMap.mp hf
    obtain ⟨t, u, a, _, _, _, _, rfl⟩ := mem_kindFuns.mp hf
    exact stmt_fun _ _ _ _ _
  have d := part_kind hc
  obtain ⟨⟨xs, r, e⟩, n⟩ := ((((((((((((((((((((part_stamp hs).append part_sourceTop).append (part_includes hc)).append part_sourceMid).append
    (d .simpleFunction)).append part_blank).append (d .function)).append part_blank).append (d .basisSet)).append part_blanks).append (d .simpleBase)).append
    part_blank).append (d .funcBase)).append part_blank).append (d .pwSimpleBase)).append part_blank).append (d .pwFuncBase)).append part_blank).append
    (d .basisSetBase)).append part_sourceEnd)
  rw [lines_join _ n]
  refine ⟨xs, r, e.trans ?_⟩
  simp only [kinds, List.flatMap_cons, List.flatMap_nil, List.flatMap_append, List.append_assoc, List.append_nil, List.nil_append, sourceIncludes,
    List.map_append, List.map_cons, List.map_nil, List.cons_append]

end LwText

/-- C99: for every set of directories that is collected, the texts of PLibrary.hh and PLibrary.cc are C++ files (every line can be read) with include guards,
balanced namespaces and nothing but declarations, and definitions, of checkout functions. The header declares exactly the functions the source defines, in the
same order; the source includes every header with a class, once, and the generated header. Each function, called with a name, sets its parameter to an object of
the class declared under the name (for the function's kind and types), or else throws an exception that says what was not found; there is such a function for
each declared class, and no function without one. -/
theorem C99_files (dirs : List Dir) (var : List Text) (s : Stamp) (c : Coll) (h : collect regexFind dirs = .ok c)
    (hs : '\n' ∉ s.created ∧ '\n' ∉ s.version ∧ '\n' ∉ s.url ∧ '\n' ∉ s.commit) (hv : ∀ v ∈ var, Clean v)
    (hd : ∀ x ∈ declared regexFind dirs, Clean x.1 ∧ Clean x.2.intype ∧ Clean x.2.outtype) :
    ∃ hh cc funs, c.headerText s var = .ok hh ∧ c.sourceText s var = .ok cc ∧
      HeaderFile hh "PLIBRARY_HH".toList headerIncludes (funs.map Fun.sig) ∧
      SourceFile cc "PLIBRARY_CC".toList (sourceIncludes (distinct ((declared regexFind dirs).map Prod.fst))) funs ∧
      (∀ f ∈ funs, ∃ k intype i o arg, Instance k var intype i arg ∧ f.sig = sigOf k i o ∧
        (∃ d ∈ (declared regexFind dirs).map Prod.snd, d.base ∈ k.offers ∧ d.intype = intype ∧ d.outtype = o) ∧
        ∀ name, let declares := ∃ d ∈ (declared regexFind dirs).map Prod.snd, d.base ∈ k.offers ∧ d.intype = intype ∧ d.outtype = o ∧ d.name = name
          (declares → f.call name = some (provides k i o (className arg name))) ∧ (¬ declares → f.call name = some (notFound k i o name))) ∧
      (∀ d ∈ (declared regexFind dirs).map Prod.snd, ∀ k : Kind, d.base ∈ k.offers → ∀ i arg, Instance k var d.intype i arg →
        ∃ f ∈ funs, f.sig = sigOf k i d.outtype ∧ f.call d.name = some (provides k i d.outtype (className arg d.name))) := by
  have hf := collected h
  have hc := cleanColl h hv hd
  obtain ⟨hh, e1, r1⟩ := header_read hf.rep hc (s := s) hs
  obtain ⟨cc, e2, r2⟩ := source_read hf.rep (pwSub_entries _) hc (s := s) hs
  refine ⟨hh, cc, kinds.flatMap (kindFuns c (entries ((declared regexFind dirs).map Prod.snd)) var), e1, e2, ?_, ?_, ?_, ?_⟩
  · have : (kinds.flatMap (kindFuns c (entries ((declared regexFind dirs).map Prod.snd)) var)).map Fun.sig =
        kinds.flatMap (kindSigs c (entries ((declared regexFind dirs).map Prod.snd)) var) := by
      rw [List.map_flatMap]
      congr 1; funext k
      exact kindFuns_sig _ _ _ _
    rw [this]; exact r1
  · rw [← hf.files]; exact r2
  · intro f hfm
    obtain ⟨k, _, hfm⟩ := List.mem_flatMap.mp hfm
    obtain ⟨t, u, a, ht, hu, h0, ha, rfl⟩ := mem_kindFuns.mp hfm
    refine ⟨k, t, a.1, u, a.2, kindTypes_iff.mp ha, signature_eq _ _ _, ?_, fun name => ?_⟩
    · obtain ⟨n, hn⟩ := List.exists_mem_of_length_pos h0
      obtain ⟨d, hd, ho, e1, e2, _⟩ := (mem_names (k := k)).mp (by unfold Kind.names; exact List.mem_append_left _ hn)
      exact ⟨d, hd, ho, e1, e2⟩
    have hne : k.names (entries ((declared regexFind dirs).map Prod.snd)) t u ≠ [] := by
      unfold Kind.names
      intro e
      rw [(List.append_eq_nil_iff.mp e).1] at h0
      simp at h0
    rw [call_funOf k a.1 u a.2 _ hne]
    exact ⟨fun hm => by rw [if_pos (mem_names.mpr hm)], fun hm => by rw [if_neg fun hx => hm (mem_names.mp hx)]⟩
  · intro d hdm k hk i arg hi
    have hm : d.name ∈ namesOf (entries ((declared regexFind dirs).map Prod.snd)) k.tab d.intype d.outtype := by
      rw [mem_namesOf, mem_entries]
      exact ⟨d, hdm, (offers_iff k _).mp hk, rfl, rfl, rfl⟩
    have he := hf.rep.mem _ (mem_namesOf.mp hm)
    have hn : d.name ∈ k.names (entries ((declared regexFind dirs).map Prod.snd)) d.intype d.outtype := mem_names.mpr ⟨d, hdm, hk, rfl, rfl, rfl⟩
    refine ⟨funOf k i d.outtype arg (k.names _ d.intype d.outtype), List.mem_flatMap.mpr ⟨k, by cases k <;> simp [kinds], mem_kindFuns.mpr
      ⟨d.intype, d.outtype, (i, arg), he.1, he.2, List.length_pos_of_mem hm, kindTypes_iff.mpr hi, rfl⟩⟩, signature_eq _ _ _, ?_⟩
    rw [call_funOf k i d.outtype arg _ (List.ne_nil_of_mem hn), if_pos hn]

/-- A stamp. -/
def exampleStamp : Stamp := ⟨"2026-1-1 0:00:00".toList, "v1".toList, "url".toList, "abc".toList⟩

/-- The text of a source with a function and its reading. -/
example : (do
    let c ← collect regexFind [[("A.hh".toList, ["class A : public PSimpleBase<VarContainer, double>".toList, "class B : public PBasisSetBase<double, double>".toList])]]
    let t ← c.sourceText exampleStamp ["double*".toList]
    .ok (((lines t).drop 18).take 14)) = (.ok (["        {", "            typedef PSimpleFunction< double*, double > psf;",
      "            if( name == \"A\") { simplefunc = psf( A< double* >() ); return;}",
      "            else throw std::runtime_error( \"PSimpleFunction< double*, double > \" + name + \" was not found in the PLibrary\");",
      "        }", "", "", "        void PLibrary::checkout( std::string name, PBasisSet< double, double > &basis_set, int N)", "        {",
      "            typedef PBasisSet< double, double > pbs;", "            if( name == \"B\") { basis_set = pbs( B(N) ); return;}",
      "            throw std::runtime_error( \"PBasisSet< double, double > \" + name + \" was not found in the PLibrary\");", "        }", ""].map String.toList) : Res _) := by
  decide +kernel

/-- The hypotheses of `C99_files` for the example directories: they are collected, and names and types are clean. -/
example : (∃ c, collect regexFind exampleDirs = .ok c) ∧ (∀ v ∈ ["std::vector<double>".toList], Clean v) ∧
    (∀ f ∈ exampleDirs.flatten, ∀ d, ∀ l ∈ f.2, declOf regexFind l = some d → Clean f.1 ∧ Clean d.intype ∧ Clean d.outtype) := by
  refine ⟨?_, by unfold Clean; decide +kernel, ?_⟩
  · cases h : collect regexFind exampleDirs with
    | ok c => exact ⟨c, rfl⟩
    | error e =>
      have : (do let c ← collect regexFind exampleDirs; .ok c.filename) = (.ok ["A.hh".toList, "Mono.hh".toList] : Res _) := by decide +kernel
      rw [h] at this; cases this
  · intro f hf d l hl e
    have : (exampleDirs.flatten.all fun f => f.2.all fun l => (declOf regexFind l).toList.all fun d =>
        decide (('"' ∉ f.1 ∧ '\\' ∉ f.1 ∧ '\n' ∉ f.1) ∧ ('"' ∉ d.intype ∧ '\\' ∉ d.intype ∧ '\n' ∉ d.intype) ∧
        ('"' ∉ d.outtype ∧ '\\' ∉ d.outtype ∧ '\n' ∉ d.outtype))) = true := by decide +kernel
    simp only [List.all_eq_true, decide_eq_true_eq] at this
    exact this f hf l hl d (by rw [e]; simp)

/-- A call of the function read. -/
example : let f : Fun := ⟨sigOf .simpleFunction "double*".toList "double".toList,
      [.typedef "PSimpleFunction< double*, double >".toList "psf".toList,
        .alt "A".toList "simplefunc".toList (.wrap "psf".toList "A< double* >".toList []),
        .throws true "PSimpleFunction< double*, double > ".toList " was not found in the PLibrary".toList]⟩
    f.call "A".toList = some (provides .simpleFunction "double*".toList "double".toList "A< double* >".toList) ∧
    f.call "C".toList = some (.throws "PSimpleFunction< double*, double > C was not found in the PLibrary".toList) := by decide +kernel

/-! ## The reading is unique -/

namespace LwText

theorem incl_prefix (a b : List Text) (n m : Text) (x y : List Line)
    (h : a.map Line.incl ++ Line.space n :: x = b.map Line.incl ++ Line.space m :: y) : a = b ∧ x = y := by
  induction a generalizing b with
  | nil => cases b with
    | nil => simp at h; exact ⟨rfl, h.2⟩
    | cons t b => simp at h
  | cons s a ih => cases b with
    | nil => simp at h
    | cons t b =>
      simp only [List.map_cons, List.cons_append, List.cons.injEq, Line.incl.injEq] at h
      obtain ⟨e1, e2⟩ := ih b h.2
      exact ⟨by rw [h.1, e1], e2⟩

theorem stmt_prefix (a b : List Line) (x y : List Line) (ha : ∀ l ∈ a, l.IsStmt) (hb : ∀ l ∈ b, l.IsStmt)
    (h : a ++ Line.closes :: x = b ++ Line.closes :: y) : a = b ∧ x = y := by
  induction a generalizing b with
  | nil => cases b with
    | nil => simp at h; exact ⟨rfl, h⟩
    | cons t b =>
      simp only [List.nil_append, List.cons_append, List.cons.injEq] at h
      have := hb t (by simp); rw [← h.1] at this; cases this
  | cons s a ih => cases b with
    | nil =>
      simp only [List.nil_append, List.cons_append, List.cons.injEq] at h
      have := ha s (by simp); rw [h.1] at this; cases this
    | cons t b =>
      simp only [List.cons_append, List.cons.injEq] at h
      obtain ⟨e1, e2⟩ := ih b (fun l hl => ha l (by simp [hl])) (fun l hl => hb l (by simp [hl])) h.2
      exact ⟨by rw [h.1, e1], e2⟩

theorem funs_unique (a b : List Fun) (x y : List Line) (ha : ∀ f ∈ a, ∀ l ∈ f.body, l.IsStmt) (hb : ∀ f ∈ b, ∀ l ∈ f.body, l.IsStmt)
    (h : a.flatMap Fun.code ++ Line.closes :: x = b.flatMap Fun.code ++ Line.closes :: y) : a = b := by
  induction a generalizing b with
  | nil => cases b with
    | nil => rfl
    | cons g b => simp [Fun.code] at h
  | cons f a ih => cases b with
    | nil => simp [Fun.code] at h
    | cons g b =>
      simp only [List.flatMap_cons, Fun.code, List.cons_append, List.nil_append, List.append_assoc, List.cons.injEq, Line.defines.injEq, true_and] at h
      obtain ⟨e1, e2⟩ := stmt_prefix f.body g.body _ _ (ha f (by simp)) (hb g (by simp)) h.2
      have e3 := ih b (fun f hf => ha f (by simp [hf])) (fun f hf => hb f (by simp [hf])) e2
      obtain ⟨sf, bf⟩ := f
      obtain ⟨sg, bg⟩ := g
      simp only at h e1
      rw [h.1, e1, e3]

end LwText

/-- C99: a text is read in one way only: includes, declarations, functions are determined by the text. -/
theorem C99_reading_unique (text guard : Text) (incs incs' sigs sigs' : List Text) (funs funs' : List Fun) :
    (HeaderFile text guard incs sigs → HeaderFile text guard incs' sigs' → incs = incs' ∧ sigs = sigs') ∧
    (SourceFile text guard incs funs → SourceFile text guard incs' funs' → incs = incs' ∧ funs = funs') := by
  constructor
  · rintro ⟨ls, r, e⟩ ⟨ls', r', e'⟩
    rw [r] at r'; cases r'
    rw [e] at e'
    simp only [List.append_assoc, List.cons_append, List.nil_append, List.cons.injEq, true_and] at e'
    obtain ⟨e1, e2⟩ := incl_prefix _ _ _ _ _ _ e'
    simp only [List.cons.injEq, true_and, List.append_cancel_right_eq] at e2
    exact ⟨e1, List.map_injective_iff.mpr (fun _ _ h => by cases h; rfl) e2⟩
  · rintro ⟨hst, ls, r, e⟩ ⟨hst', ls', r', e'⟩
    rw [r] at r'; cases r'
    rw [e] at e'
    simp only [List.append_assoc, List.cons_append, List.nil_append, List.cons.injEq, true_and] at e'
    obtain ⟨e1, e2⟩ := incl_prefix _ _ _ _ _ _ e'
    simp only [List.cons.injEq, true_and] at e2
    exact ⟨e1, funs_unique _ _ _ _ hst hst' e2⟩

end Verif
