import Verif.Lemmas.LwMain

/-!
# C100: a run of the library writer
-/

namespace Verif
open Spec Spec.Cpp Spec.Lw Coll LwText
namespace Lw

/-- What C99 says of the texts written for a collection, in terms of any listing of the same classes. -/
theorem good_files {dirs : List Dir} {decls : List (Text × Decl)} (hp : (declared regexFind dirs).Perm decls) {var : List Text} {s : Stamp} {c : Coll}
    (h : collect regexFind dirs = .ok c) (hs : '\n' ∉ s.created ∧ '\n' ∉ s.version ∧ '\n' ∉ s.url ∧ '\n' ∉ s.commit) (hv : ∀ v ∈ var, Clean v)
    (hd : ∀ x ∈ decls, Clean x.1 ∧ Clean x.2.intype ∧ Clean x.2.outtype) :
    ∃ hh cc, c.headerText s var = .ok hh ∧ c.sourceText s var = .ok cc ∧ GoodHeader hh decls var ∧ GoodSource cc decls var := by
  have hm : ∀ x, x ∈ declared regexFind dirs ↔ x ∈ decls := fun x => hp.mem_iff
  obtain ⟨hh, cc, funs, e1, e2, r1, r2, hf, hc⟩ := C99_files dirs var s c h hs hv fun x hx => hd x ((hm x).mp hx)
  have md : ∀ P : Decl → Prop, (∃ d ∈ (declared regexFind dirs).map Prod.snd, P d) ↔ ∃ x ∈ decls, P x.2 := by
    intro P
    constructor
    · rintro ⟨d, hd, h⟩
      obtain ⟨x, hx, rfl⟩ := List.mem_map.mp hd
      exact ⟨x, (hm x).mp hx, h⟩
    · rintro ⟨x, hx, h⟩
      exact ⟨x.2, List.mem_map.mpr ⟨x, (hm x).mpr hx, rfl⟩, h⟩
  have hw : ∀ sg, (∃ f ∈ funs, f.sig = sg) ↔ Wanted decls var sg := by
    intro sg
    constructor
    · rintro ⟨f, hfm, rfl⟩
      obtain ⟨k, intype, i, o, arg, hi, es, hex, _⟩ := hf f hfm
      obtain ⟨x, hx, h1, h2, h3⟩ := (md _).mp hex
      exact ⟨x, hx, k, h1, i, arg, by rw [h2]; exact hi, by rw [es, h3]⟩
    · rintro ⟨x, hx, k, h1, i, arg, hi, rfl⟩
      obtain ⟨f, hfm, e, _⟩ := hc x.2 (List.mem_map.mpr ⟨x, (hm x).mpr hx, rfl⟩) k h1 i arg hi
      exact ⟨f, hfm, e⟩
  refine ⟨hh, cc, e1, e2, ⟨_, r1, fun sg => ?_⟩, ⟨_, funs, r2, (C60_distinct _).1, fun f => ?_, hw, fun f hfm => ?_⟩⟩
  · rw [List.mem_map]; exact hw sg
  · rw [(C60_distinct _).2, List.mem_map]
    constructor
    · rintro ⟨x, hx, e⟩; exact ⟨x, (hm x).mp hx, e⟩
    · rintro ⟨x, hx, e⟩; exact ⟨x, (hm x).mpr hx, e⟩
  · obtain ⟨k, intype, i, o, arg, hi, es, _, hcall⟩ := hf f hfm
    refine ⟨k, intype, i, o, arg, hi, es, fun name => ?_⟩
    have := hcall name
    simp only [md] at this
    exact this

/-- Texts without newlines. -/
def Env.Ok (e : Env) : Prop :=
  (∀ t l, (e.ord t l).Perm l) ∧ ∀ b, '\n' ∉ (e.stamp b).created ∧ '\n' ∉ (e.stamp b).version ∧ '\n' ∉ (e.stamp b).url ∧ '\n' ∉ (e.stamp b).commit

theorem scan_listed {e : Env} (he : e.Ok) {d : Disk} {ps : List Text} (hps : ∀ p ∈ ps, (d.resolve p).isSome) (t : Nat) :
    let decls := declared regexFind (d.dirs ps)
    ((entries (decls.map Prod.snd)).Nodup → ∃ c, scan e d t ps Coll.empty = .ok c ∧ collect regexFind (listings e d t ps) = .ok c) ∧
    (¬ (entries (decls.map Prod.snd)).Nodup → scan e d t ps Coll.empty = .error (.exit 1)) := by
  have hp := declared_listings e he.1 d ps t
  have hc := C60_collect regexFind (listings e d t ps)
  have hs := scan_eq e d ps hps t Coll.empty
  refine ⟨fun hn => ?_, fun hn => ?_⟩
  · obtain ⟨c, h⟩ := hc.1 ((entries_perm hp).nodup_iff.mpr hn)
    exact ⟨c, hs.trans h, h⟩
  · exact hs.trans (hc.2 fun h => hn ((entries_perm hp).nodup_iff.mp h))

/-- Options that ask for a library. -/
def Opts.Writes (o : Opts) : Prop := o.help = false ∧ o.version = false ∧ o.var ≠ []

theorem main_writes (e : Env) {o : Opts} (h : o.Writes) (d : Disk) : main e (some o) d = headerStep e o d := by
  obtain ⟨h1, h2, h3⟩ := h
  have : o.var.isEmpty = false := by simpa using h3
  simp [main, h1, h2, this]

/-- A valid run, up to compiling. -/
theorem run_valid {e : Env} (he : e.Ok) {o : Opts} (ho : o.Writes) (hv : ∀ v ∈ o.var, Clean v) {d : Disk} {n : Nat}
    (hdirs : ∀ p ∈ o.dir, (d.resolve p).isSome)
    (hclean : ∀ x ∈ declared regexFind (d.dirs o.dir), Clean x.1 ∧ Clean x.2.intype ∧ Clean x.2.outtype)
    (hn : (entries ((declared regexFind (d.dirs o.dir)).map Prod.snd)).Nodup) :
    ∃ hh cc, GoodHeader hh (declared regexFind (d.dirs o.dir)) o.var ∧ GoodSource cc (declared regexFind (d.dirs o.dir)) o.var ∧
      ∀ b, main e (some { o with compile := b }) d = compileStep e { o with compile := b } (write (write (write (write d o.location "PLibrary.hh".toList [])
        o.location "PLibrary.hh".toList hh) o.location "PLibrary.cc".toList []) o.location "PLibrary.cc".toList cc) := by
  have d1 := declared_write d o.location "PLibrary.hh".toList [] not_hh o.dir
  have hr1 : ∀ p ∈ o.dir, ((write d o.location "PLibrary.hh".toList []).resolve p).isSome := by rw [write_resolve]; exact hdirs
  obtain ⟨c, s1, k1⟩ := (scan_listed he hr1 0).1 (by rw [d1]; exact hn)
  obtain ⟨hh, _, t1, _, g1, _⟩ := good_files (d1 ▸ declared_listings e he.1 (write d o.location "PLibrary.hh".toList []) o.dir 0) k1 (he.2 false) hv hclean
  have d2 : declared regexFind ((write (write (write d o.location "PLibrary.hh".toList []) o.location "PLibrary.hh".toList hh) o.location
      "PLibrary.cc".toList []).dirs o.dir) = declared regexFind (d.dirs o.dir) := by
    rw [declared_write _ _ _ _ not_cc, declared_write _ _ _ _ not_hh, d1]
  have hr2 : ∀ p ∈ o.dir, ((write (write (write d o.location "PLibrary.hh".toList []) o.location "PLibrary.hh".toList hh) o.location
      "PLibrary.cc".toList []).resolve p).isSome := by rw [write_resolve, write_resolve, write_resolve]; exact hdirs
  obtain ⟨c', s2, k2⟩ := (scan_listed he hr2 o.dir.length).1 (by rw [d2]; exact hn)
  obtain ⟨_, cc, _, t2, _, g2⟩ := good_files (d2 ▸ declared_listings e he.1 _ o.dir o.dir.length) k2 (he.2 true) hv hclean
  refine ⟨hh, cc, g1, g2, fun b => ?_⟩
  rw [main_writes e (o := { o with compile := b }) ho]
  unfold headerStep
  simp only [s1, t1]
  unfold sourceStep
  simp only [s2, t2]

end Lw

open Lw

/-- C100, for directories and a location that exist, and classes that are not declared twice (the directories may contain the location, and earlier
generated files; the listing order may change at any time): the run ends with status 0, PLibrary.hh declares and PLibrary.cc defines the functions for
the classes declared in the directories, no other file is changed, no command is run; and the classes a later run will find are the same. -/
theorem C100_run_partial (e : Env) (he : e.Ok) (o : Opts) (ho : o.Writes) (hcomp : o.compile = false) (hv : ∀ v ∈ o.var, Clean v) (d : Disk) (n : Nat)
    (hloc : d.resolve o.location = some n) (hdirs : ∀ p ∈ o.dir, (d.resolve p).isSome)
    (hclean : ∀ x ∈ declared regexFind (d.dirs o.dir), Clean x.1 ∧ Clean x.2.intype ∧ Clean x.2.outtype)
    (hn : (entries ((declared regexFind (d.dirs o.dir)).map Prod.snd)).Nodup) :
    let r := main e (some o) d
    let decls := declared regexFind (d.dirs o.dir)
    r.status = .exit 0 ∧ r.commands = [] ∧ r.disk.resolve = d.resolve ∧
    (∃ hh, r.disk.content n "PLibrary.hh".toList = some hh ∧ GoodHeader hh decls o.var) ∧
    (∃ cc, r.disk.content n "PLibrary.cc".toList = some cc ∧ GoodSource cc decls o.var) ∧
    (∀ m file, ¬ (m = n ∧ (file = "PLibrary.hh".toList ∨ file = "PLibrary.cc".toList)) → r.disk.content m file = d.content m file) ∧
    declared regexFind (r.disk.dirs o.dir) = decls := by
  obtain ⟨hh, cc, g1, g2, em⟩ := run_valid he ho hv (n := n) hdirs hclean hn
  intro r decls
  have er : r = _ := em o.compile
  have hne : "PLibrary.hh".toList ≠ "PLibrary.cc".toList := by decide
  simp only [compileStep, hcomp, Bool.false_eq_true, if_false] at er
  have h1 := hloc
  have h2 : (write d o.location "PLibrary.hh".toList []).resolve o.location = some n := by rw [write_resolve]; exact hloc
  have h3 : (write (write d o.location "PLibrary.hh".toList []) o.location "PLibrary.hh".toList hh).resolve o.location = some n := by
    rw [write_resolve, write_resolve]; exact hloc
  have h4 : (write (write (write d o.location "PLibrary.hh".toList []) o.location "PLibrary.hh".toList hh) o.location "PLibrary.cc".toList []).resolve
      o.location = some n := by rw [write_resolve, write_resolve, write_resolve]; exact hloc
  have content : ∀ m file, r.disk.content m file = if m = n ∧ file = "PLibrary.cc".toList then some cc else
      if m = n ∧ file = "PLibrary.hh".toList then some hh else d.content m file := by
    intro m file
    rw [er]
    simp only
    rw [write_content _ h4, write_content _ h3, write_content _ h2, write_content _ h1]
    split
    · rfl
    · split <;> rfl
  refine ⟨by rw [er], by rw [er], by rw [er]; simp only [write_resolve], ⟨hh, ?_, g1⟩, ⟨cc, ?_, g2⟩, fun m file hf => ?_, ?_⟩
  · rw [content, if_neg (fun h => hne h.2), if_pos ⟨rfl, rfl⟩]
  · rw [content, if_pos ⟨rfl, rfl⟩]
  · rw [content, if_neg (fun h => hf ⟨h.1, .inr h.2⟩), if_neg (fun h => hf ⟨h.1, .inl h.2⟩)]
  · rw [er]
    simp only
    rw [declared_write _ _ _ _ not_cc, declared_write _ _ _ _ not_cc, declared_write _ _ _ _ not_hh, declared_write _ _ _ _ not_hh]

theorem joinPath_eq (dir file : Text) : joinPath dir file = inDir dir file := by
  unfold joinPath inDir
  by_cases h : dir = []
  · simp [h]
  · by_cases h' : dir.getLast? = some '/'
    · simp [h, h']
    · simp [h, h']

theorem words_cons (w w' : Text) (ws : List Text) : words (w :: w' :: ws) = w ++ ' ' :: words (w' :: ws) := by
  simp [words]

theorem words_single (w : Text) : words [w] = w := by simp [words]

/-- The search paths, then a blank. -/
theorem words_dirs (w : Text) : ∀ ds : List Text, w ++ ' ' :: (ds.flatMap fun d => "-I".toList ++ d ++ " ".toList) =
    words (w :: (ds.map fun d => "-I".toList ++ d) ++ [[]])
  | [] => by simp [words]
  | d :: ds => by
    have := words_dirs ("-I".toList ++ d) ds
    rw [List.cons_append] at this
    rw [List.map_cons, List.cons_append, List.cons_append, words_cons, ← this, List.flatMap_cons]
    simp

/-- C100: the three commands: compile PLibrary.cc with every directory given as a search path, compile PExtern.cc, link the two objects. -/
theorem C100_commands_partial (o : Opts) :
    compileCmd o = words ([o.cxx, "-c".toList, inDir o.location "PLibrary.cc".toList, "-o".toList, inDir o.location "PLibrary.o".toList, o.cflags] ++
      (o.dir.map fun d => "-I".toList ++ d) ++ [[]]) ∧
    externCmd o = words [o.cxx, "-c".toList, inDir o.location "PExtern.cc".toList, "-o".toList, inDir o.location "PExtern.o".toList, o.cflags] ∧
    linkCmd o = words [o.cxx, if o.dylib then "-dynamiclib".toList else "-shared".toList, "-o".toList,
      inDir o.location (if o.dylib then "libpextern.dylib".toList else "libpextern.so".toList), inDir o.location "PExtern.o".toList,
      inDir o.location "PLibrary.o".toList] := by
  refine ⟨?_, ?_, ?_⟩
  · have := words_dirs o.cflags o.dir
    simp only [List.cons_append, List.nil_append] at this ⊢
    simp only [words_cons, ← this, compileCmd, joinPath_eq]
    simp
  · simp only [words_cons, words_single, externCmd, joinPath_eq]
    simp
  · simp only [words_cons, words_single, linkCmd, joinPath_eq]
    cases o.dylib <;> simp

example : linkCmd ⟨false, false, true, false, "g++".toList, [], [], ["double".toList], "lib/".toList⟩ =
    words ["g++".toList, "-shared".toList, "-o".toList, "lib/libpextern.so".toList, "lib/PExtern.o".toList, "lib/PLibrary.o".toList] :=
  (C100_commands_partial _).2.2

/-- C100: `--compile` runs the compiler on PLibrary.cc and PExtern.cc (written after the first), and links, in this order, after the library has been
written; with whatever effects, and the status is 0. -/
theorem C100_compile_partial (e : Env) (he : e.Ok) (o : Opts) (ho : o.Writes) (hcomp : o.compile = true) (hv : ∀ v ∈ o.var, Clean v) (d : Disk)
    (hdirs : ∀ p ∈ o.dir, (d.resolve p).isSome)
    (hclean : ∀ x ∈ declared regexFind (d.dirs o.dir), Clean x.1 ∧ Clean x.2.intype ∧ Clean x.2.outtype)
    (hn : (entries ((declared regexFind (d.dirs o.dir)).map Prod.snd)).Nodup) :
    let w := (main e (some { o with compile := false }) d).disk
    let r := main e (some o) d
    r.status = .exit 0 ∧ r.commands = [compileCmd o, externCmd o, linkCmd o] ∧
    r.disk = e.sh (linkCmd o) (e.sh (externCmd o) (write (e.sh (compileCmd o) w) o.location "PExtern.cc".toList e.pextern)) := by
  obtain ⟨hh, cc, _, _, em⟩ := run_valid he ho hv (n := 0) hdirs hclean hn
  intro w r
  have er : r = _ := em o.compile
  have ew : w = _ := congrArg Run.disk (em false)
  rw [er, ew]
  simp only [compileStep, hcomp, if_true, Bool.false_eq_true, if_false]
  exact ⟨trivial, rfl, rfl⟩

/-- C100 does not hold: if the location does not exist, nothing is written, and the status is 0. -/
theorem C100_missing_location_violated (e : Env) (he : e.Ok) (o : Opts) (ho : o.Writes) (hcomp : o.compile = false) (hv : ∀ v ∈ o.var, Clean v) (d : Disk)
    (hloc : d.resolve o.location = none) (hdirs : ∀ p ∈ o.dir, (d.resolve p).isSome)
    (hclean : ∀ x ∈ declared regexFind (d.dirs o.dir), Clean x.1 ∧ Clean x.2.intype ∧ Clean x.2.outtype)
    (hn : (entries ((declared regexFind (d.dirs o.dir)).map Prod.snd)).Nodup) :
    (main e (some o) d).status = .exit 0 ∧ (main e (some o) d).disk = d := by
  obtain ⟨hh, cc, _, _, em⟩ := run_valid he ho hv (n := 0) hdirs hclean hn
  have er := em o.compile
  have hw : ∀ name text, write d o.location name text = d := fun name text => by unfold write; rw [hloc]
  simp only [hw, compileStep, hcomp, Bool.false_eq_true, if_false] at er
  have : main e (some o) d = ⟨.exit 0, d, []⟩ := by
    rw [← er, ← hcomp]
  rw [this]; exact ⟨rfl, rfl⟩

/-- C100 does not hold: a class declared twice ends the run with status 1, but the library of an earlier run is lost: PLibrary.hh is empty. (PLibrary.cc, and every
other file, is as before.) -/
theorem C100_duplicate_violated (e : Env) (he : e.Ok) (o : Opts) (ho : o.Writes) (d : Disk) (n : Nat)
    (hloc : d.resolve o.location = some n) (hdirs : ∀ p ∈ o.dir, (d.resolve p).isSome)
    (hn : ¬ (entries ((declared regexFind (d.dirs o.dir)).map Prod.snd)).Nodup) :
    let r := main e (some o) d
    r.status = .exit 1 ∧ r.commands = [] ∧ r.disk.content n "PLibrary.hh".toList = some [] ∧
    ∀ m file, ¬ (m = n ∧ file = "PLibrary.hh".toList) → r.disk.content m file = d.content m file := by
  have hr1 : ∀ p ∈ o.dir, ((write d o.location "PLibrary.hh".toList []).resolve p).isSome := by rw [write_resolve]; exact hdirs
  have s1 := (scan_listed he hr1 0).2 (by rw [declared_write _ _ _ _ not_hh]; exact hn)
  have er : main e (some o) d = ⟨.exit 1, write d o.location "PLibrary.hh".toList [], []⟩ := by
    rw [main_writes e ho]
    unfold headerStep
    simp only [s1]
    rfl
  intro r
  have er' : r = _ := er
  rw [er']
  refine ⟨rfl, rfl, ?_, fun m file hf => ?_⟩
  · simp only; rw [write_content _ hloc, if_pos ⟨rfl, rfl⟩]
  · simp only; rw [write_content _ hloc, if_neg hf]

theorem Lw.scan_missing (e : Env) (d : Disk) (ps : List Text) (h : ∃ p ∈ ps, d.resolve p = none) : ∀ t c,
    scan e d t ps c = .error .runtimeError ∨ ∃ er, scan e d t ps c = .error er := by
  induction ps with
  | nil => obtain ⟨p, hp, _⟩ := h; cases hp
  | cons p ps ih =>
    intro t c
    unfold scan
    cases hp : d.resolve p with
    | none => left; rfl
    | some n =>
      simp only
      have h' : ∃ p ∈ ps, d.resolve p = none := by
        obtain ⟨q, hq, hn⟩ := h
        rcases List.mem_cons.mp hq with rfl | hq
        · rw [hp] at hn; cases hn
        · exact ⟨q, hq, hn⟩
      cases hs : Coll.scanDir regexFind ((e.ord t (d.files n)).map fun x => (x.1, getlines [] x.2)) c with
      | error er => right; exact ⟨er, by simp [bind, Except.bind]⟩
      | ok c' => simpa [bind, Except.bind] using ih h' (t + 1) c'

/-- C100 does not hold: a directory that does not exist ends the run by an exception nothing catches (the first one, for which nothing precedes it), and PLibrary.hh of
an earlier run is lost. -/
theorem C100_missing_directory_violated (e : Env) (o : Opts) (ho : o.Writes) (d : Disk) (n : Nat) (p : Text) (ps : List Text) (hdir : o.dir = p :: ps)
    (hloc : d.resolve o.location = some n) (hp : d.resolve p = none) :
    let r := main e (some o) d
    r.status = .aborts ∧ r.disk.content n "PLibrary.hh".toList = some [] := by
  have s1 : scan e (write d o.location "PLibrary.hh".toList []) 0 o.dir Coll.empty = .error .runtimeError := by
    rw [hdir]; unfold scan; rw [write_resolve, hp]
  have er : main e (some o) d = ⟨.aborts, write d o.location "PLibrary.hh".toList [], []⟩ := by
    rw [main_writes e ho]
    unfold headerStep
    simp only [s1]
    rfl
  intro r
  have er' : r = _ := er
  rw [er']
  refine ⟨rfl, ?_⟩
  simp only; rw [write_content _ hloc, if_pos ⟨rfl, rfl⟩]

/-- C100: whichever of the directories does not exist, the run does not end with PLibrary.cc changed: all files but PLibrary.hh are as before, and no command is run. -/
theorem C100_missing_directory_partial (e : Env) (o : Opts) (ho : o.Writes) (d : Disk) (n : Nat) (hloc : d.resolve o.location = some n)
    (hp : ∃ p ∈ o.dir, d.resolve p = none) :
    let r := main e (some o) d
    r.commands = [] ∧ ∀ m file, ¬ (m = n ∧ file = "PLibrary.hh".toList) → r.disk.content m file = d.content m file := by
  have s1 : ∃ er, scan e (write d o.location "PLibrary.hh".toList []) 0 o.dir Coll.empty = .error er := by
    rcases scan_missing e (write d o.location "PLibrary.hh".toList []) o.dir (by rw [write_resolve]; exact hp) 0 Coll.empty with h | h
    · exact ⟨_, h⟩
    · exact h
  obtain ⟨er, s1⟩ := s1
  have em : main e (some o) d = ⟨ends er, write d o.location "PLibrary.hh".toList [], []⟩ := by
    rw [main_writes e ho]
    unfold headerStep
    simp only [s1]
  intro r
  have er' : r = _ := em
  rw [er']
  refine ⟨rfl, fun m file hf => ?_⟩
  simp only; rw [write_content _ hloc, if_neg hf]

/-- C100: options that cannot be parsed, or without `--var`, end the run with status 1, `--help` and `--version` with 0; nothing is changed. -/
theorem C100_options_partial (e : Env) (d : Disk) :
    (main e none d = ⟨.exit 1, d, []⟩) ∧
    (∀ o : Opts, o.help = true ∨ o.version = true → main e (some o) d = ⟨.exit 0, d, []⟩) ∧
    (∀ o : Opts, o.help = false → o.version = false → o.var = [] → main e (some o) d = ⟨.exit 1, d, []⟩) := by
  refine ⟨rfl, fun o h => ?_, fun o h1 h2 h3 => ?_⟩
  · unfold main
    rcases h with h | h
    · simp [h]
    · by_cases h' : o.help = true <;> simp [h, h']
  · simp [main, h1, h2, h3]

/-! ## Example -/

namespace LwDemo

/-- One directory with a header, an old library, and a file that is not a header. -/
def disk : Disk where
  resolve := fun p => if p = ".".toList ∨ p = "./".toList then some 0 else none
  files := fun _ => [("PLibrary.hh".toList, "class Old : public PSimpleBase<int, int>\n".toList),
    ("A.hh".toList, "// A\nclass A : public PSimpleBase<VarContainer, double>\n{};".toList), ("notes.txt".toList, "x".toList)]

/-- Directories are listed backwards at the second reading. -/
def env : Env := ⟨fun t l => if t = 0 then l else l.reverse, fun _ d => d, fun _ => exampleStamp, "// extern".toList⟩

def opts : Opts := ⟨false, false, false, false, "g++".toList, "-O3".toList, [".".toList], ["double*".toList], "./".toList⟩

end LwDemo

open LwDemo in
/-- The run of the example, and what is left: the old PLibrary.hh is replaced, and nothing in it was taken for a class. -/
example : env.Ok ∧ opts.Writes ∧ (∀ v ∈ opts.var, Clean v) ∧ disk.resolve opts.location = some 0 ∧ (∀ p ∈ opts.dir, (disk.resolve p).isSome) ∧
    (main env (some opts) disk).status = .exit 0 ∧
    (((main env (some opts) disk).disk.files 0).map Prod.fst) = ["PLibrary.hh", "A.hh", "notes.txt", "PLibrary.cc"].map String.toList ∧
    ((main env (some opts) disk).disk.content 0 "PLibrary.hh".toList).map (fun t => ((lines t).drop 22).take 1) =
      some ["        void checkout( std::string name, PSimpleFunction< double*, double > &simplefunc);".toList] := by
  refine ⟨⟨fun t l => ?_, fun b => ?_⟩, ⟨rfl, rfl, by decide⟩, by unfold Clean; decide +kernel, by decide +kernel, by decide +kernel, by decide +kernel,
    by decide +kernel, by decide +kernel⟩
  · show (if t = 0 then l else l.reverse).Perm l
    split
    · exact .refl _
    · exact List.reverse_perm l
  · show '\n' ∉ exampleStamp.created ∧ '\n' ∉ exampleStamp.version ∧ '\n' ∉ exampleStamp.url ∧ '\n' ∉ exampleStamp.commit
    decide +kernel

/-- The classes declared, computed. -/
theorem Lw.declared_compute (dirs : List Dir) : declared regexFind dirs = dirs.flatMap fun d =>
    (d.filter fun f => isGeneratedHeader f.1).flatMap fun f => (f.2.filterMap (declOf regexFind)).map fun x => (f.1, x) := by
  unfold declared
  congr 1; funext d
  congr 2; funext f
  by_cases h : IsLibraryHeader f.1
  · rw [(C63_header_filter _).mpr h]; simp [h]
  · have : isGeneratedHeader f.1 = false := by
      rw [← Bool.not_eq_true]; exact fun e => h ((C63_header_filter _).mp e)
    rw [this]; simp [h]

open LwDemo in
/-- The other hypotheses. -/
example : (∀ x ∈ declared regexFind (disk.dirs opts.dir), Clean x.1 ∧ Clean x.2.intype ∧ Clean x.2.outtype) ∧
    (entries ((declared regexFind (disk.dirs opts.dir)).map Prod.snd)).Nodup ∧
    declared regexFind (disk.dirs opts.dir) = [("A.hh".toList, ⟨.simple, "A".toList, "VarContainer".toList, "double".toList⟩)] := by
  have h : declared regexFind (disk.dirs opts.dir) = [("A.hh".toList, ⟨.simple, "A".toList, "VarContainer".toList, "double".toList⟩)] := by
    rw [declared_compute]; decide +kernel
  rw [h]
  refine ⟨?_, by decide +kernel, rfl⟩
  intro x hx
  simp only [List.mem_cons, List.not_mem_nil, or_false] at hx
  subst hx
  unfold Clean
  decide +kernel

open LwDemo in
/-- The commands. -/
example : (main env (some { opts with compile := true }) disk).commands =
    ["g++ -c ./PLibrary.cc -o ./PLibrary.o -O3 -I. ", "g++ -c ./PExtern.cc -o ./PExtern.o -O3", "g++ -shared -o ./libpextern.so ./PExtern.o ./PLibrary.o"].map
      String.toList := by decide +kernel

open LwDemo in
/-- A class declared twice; a directory, or a location, that does not exist. -/
example : (main env (some { opts with dir := [".".toList, ".".toList] }) disk).status = .exit 1 ∧
    (main env (some { opts with dir := ["x".toList] }) disk).status = .aborts ∧
    (main env (some { opts with location := "x".toList }) disk).status = .exit 0 ∧
    (((main env (some { opts with location := "x".toList }) disk).disk.files 0).map Prod.fst) = ["PLibrary.hh", "A.hh", "notes.txt"].map String.toList := by
  decide +kernel

/-! ## C101 -/

namespace Lw

theorem content_mem {d : Disk} {n : Nat} (hd : ((d.files n).map Prod.fst).Nodup) {file text : Text} (h : (file, text) ∈ d.files n) :
    d.content n file = some text := by
  unfold Disk.content
  revert hd h
  induction d.files n with
  | nil => intro _ h; cases h
  | cons x xs ih =>
    intro hd h
    rw [List.map_cons, List.nodup_cons] at hd
    rcases List.mem_cons.mp h with rfl | h
    · simp
    · have hx : x.1 ≠ file := fun e => hd.1 (by rw [e]; exact List.mem_map.mpr ⟨_, h, rfl⟩)
      rw [List.find?_cons]
      have : (x.1 == file) = false := by simpa using hx
      rw [this]
      exact ih hd.2 h

theorem mem_content {d : Disk} {n : Nat} {file text : Text} (h : d.content n file = some text) : (file, text) ∈ d.files n := by
  unfold Disk.content at h
  obtain ⟨x, hx, rfl⟩ := Option.map_eq_some_iff.mp h
  have h1 := List.find?_some hx
  have h2 := List.mem_of_find?_eq_some hx
  simp only [beq_iff_eq] at h1
  subst h1
  exact h2

theorem declares_mem {d : Disk} {ps : List Text} {n : Nat} {file text : Text} {c : Decl} (h : d.Declares regexFind ps n file text c) :
    (file, c) ∈ declared regexFind (d.dirs ps) := by
  obtain ⟨⟨p, hp, hn⟩, hf, hl, l, hm, hd⟩ := h
  rw [declared_compute]
  refine List.mem_flatMap.mpr ⟨(d.files n).map fun x => (x.1, lines x.2), ?_, ?_⟩
  · exact List.mem_filterMap.mpr ⟨p, hp, by rw [hn]; rfl⟩
  · refine List.mem_flatMap.mpr ⟨(file, lines text), ?_, ?_⟩
    · rw [List.mem_filter]
      exact ⟨List.mem_map.mpr ⟨_, hf, rfl⟩, (C63_header_filter _).mpr hl⟩
    · exact List.mem_map.mpr ⟨c, List.mem_filterMap.mpr ⟨l, hm, hd⟩, rfl⟩

end Lw

/-- C101, for headers with classes whose names occur in one of the directories (and the location) only: after the run, PLibrary.cc includes every file that declares a class, and the
compiler finds that file. -/
theorem C101_includes_partial (e : Env) (he : e.Ok) (o : Opts) (ho : o.Writes) (hcomp : o.compile = false) (hv : ∀ v ∈ o.var, Clean v) (d : Disk) (n : Nat)
    (hloc : d.resolve o.location = some n) (hdirs : ∀ p ∈ o.dir, (d.resolve p).isSome)
    (hclean : ∀ x ∈ declared regexFind (d.dirs o.dir), Clean x.1 ∧ Clean x.2.intype ∧ Clean x.2.outtype)
    (hn : (entries ((declared regexFind (d.dirs o.dir)).map Prod.snd)).Nodup)
    (hfiles : ∀ m, ((d.files m).map Prod.fst).Nodup)
    (honce : ∀ m file text c, d.Declares regexFind o.dir m file text c → ∀ p ∈ o.location :: o.dir, ∀ k, d.resolve p = some k → (d.content k file).isSome → k = m) :
    let r := main e (some o) d
    ∃ cc incs funs, r.disk.content n "PLibrary.cc".toList = some cc ∧ SourceFile cc "PLIBRARY_CC".toList (sourceIncludes incs) funs ∧
      ∀ m file text c, d.Declares regexFind o.dir m file text c → file ∈ incs ∧ r.disk.included o.location o.dir file = some (m, text) := by
  intro r
  obtain ⟨_, _, hres, _, ⟨cc, e2, incs, funs, hs, _, hi, _, _⟩, hsame, _⟩ := C100_run_partial e he o ho hcomp hv d n hloc hdirs hclean hn
  refine ⟨cc, incs, funs, e2, hs, fun m file text c hd => ⟨(hi file).mpr ⟨_, declares_mem hd, rfl⟩, ?_⟩⟩
  obtain ⟨⟨p, hp, hm⟩, hf, hl, _⟩ := id hd
  have hc : ∀ k, r.disk.content k file = d.content k file := fun k => hsame k file (by
    rintro ⟨_, h | h⟩
    · exact not_hh (h ▸ hl)
    · exact not_cc (h ▸ hl))
  have ht := content_mem (hfiles m) hf
  have key : ∀ ps : List Text, (∀ q ∈ ps, q ∈ o.location :: o.dir) → p ∈ ps →
      (ps.findSome? fun q => (r.disk.resolve q).bind fun k => (r.disk.content k file).map fun t => (k, t)) = some (m, text) := by
    intro ps
    induction ps with
    | nil => intro _ h; cases h
    | cons q ps ih =>
      intro hsub hmem
      rw [List.findSome?_cons]
      have hr : r.disk.resolve = d.resolve := hres
      rw [hr] at ih ⊢
      cases hq : d.resolve q with
      | none =>
        simp only [Option.bind_none]
        refine ih (fun x hx => hsub x (by simp [hx])) ?_
        rcases List.mem_cons.mp hmem with rfl | h
        · rw [hm] at hq; cases hq
        · exact h
      | some k =>
        simp only [Option.bind_some]
        cases hk : r.disk.content k file with
        | none =>
          simp only [Option.map_none]
          refine ih (fun x hx => hsub x (by simp [hx])) ?_
          rcases List.mem_cons.mp hmem with rfl | h
          · rw [hm] at hq; cases hq
            rw [hc, ht] at hk; cases hk
          · exact h
        | some t =>
          simp only [Option.map_some]
          have h1 := honce m file text c hd q (hsub q (by simp)) k hq (by rw [← hc, hk]; rfl)
          subst h1
          rw [hc, ht] at hk
          cases hk
          rfl
  exact key _ (fun q hq => hq) (List.mem_cons_of_mem _ hp)

namespace LwDemo

/-- Two directories, each with a header of the same name. -/
def twice : Disk where
  resolve := fun p => if p = "a".toList then some 0 else if p = "b".toList then some 1 else if p = "o".toList then some 2 else none
  files := fun n =>
    if n = 0 then [("F.hh".toList, "class A : public PSimpleBase<double, double>".toList)]
    else if n = 1 then [("F.hh".toList, "class B : public PSimpleBase<double, double>".toList)]
    else []

def twoDirs : Opts := { opts with dir := ["a".toList, "b".toList], location := "o".toList }

end LwDemo

open LwDemo in
/-- C101 does not hold: of two headers with the same name in different directories only one is included. The library constructs objects of the class `B` of the other. -/
theorem C101_includes_violated :
    (main env (some twoDirs) twice).status = .exit 0 ∧
    twice.Declares regexFind twoDirs.dir 1 "F.hh".toList "class B : public PSimpleBase<double, double>".toList ⟨.simple, "B".toList, "double".toList, "double".toList⟩ ∧
    ((main env (some twoDirs) twice).disk.content 2 "PLibrary.cc".toList).map (fun t => ((lines t).filter fun l => (after "#include \"".toList l).isSome)) =
      some ["#include \"F.hh\"".toList, "#include \"PLibrary.hh\"".toList] ∧
    (main env (some twoDirs) twice).disk.included twoDirs.location twoDirs.dir "F.hh".toList =
      some (0, "class A : public PSimpleBase<double, double>".toList) := by
  refine ⟨by decide +kernel, ⟨⟨"b".toList, by decide, by decide +kernel⟩, by decide +kernel, ?_,
    "class B : public PSimpleBase<double, double>".toList, by decide +kernel, by decide +kernel⟩, by decide +kernel, by decide +kernel⟩
  rw [← C63_header_filter]; decide +kernel

open LwDemo in
/-- The hypotheses of `C101_includes_partial` for the example of one directory. -/
example : (∀ m, ((disk.files m).map Prod.fst).Nodup) ∧
    (∀ m file text c, disk.Declares regexFind opts.dir m file text c → ∀ p ∈ opts.location :: opts.dir, ∀ k, disk.resolve p = some k →
      (disk.content k file).isSome → k = m) ∧ disk.included opts.location opts.dir "A.hh".toList = some (0, "// A\nclass A : public PSimpleBase<VarContainer, double>\n{};".toList) := by
  have hr : ∀ p k, disk.resolve p = some k → k = 0 := by
    intro p k h
    simp only [disk] at h
    split at h
    · cases h; rfl
    · cases h
  refine ⟨fun m => ?_, ?_, by decide +kernel⟩
  · show ([("PLibrary.hh".toList, _), ("A.hh".toList, _), ("notes.txt".toList, _)].map Prod.fst).Nodup
    decide +kernel
  · rintro m file text c ⟨⟨p, _, hm⟩, _⟩ q _ k hk _
    rw [hr q k hk, hr p m hm]

end Verif
