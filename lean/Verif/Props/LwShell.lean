import Verif.Props.LwMain
import Verif.Spec.Shell

/-!
# C147: the commands a run of lw with --compile executes
-/

namespace Verif
open Spec Spec.Lw Spec.Sh Spec.Cpp Coll Lw

theorem wordsFrom_blank (a b : Text) : ∀ cur, wordsFrom cur (a ++ ' ' :: b) = wordsFrom cur a ++ wordsOf b := by
  induction a with
  | nil => intro cur; by_cases h : cur = [] <;> simp [wordsFrom, h, wordsOf]
  | cons c a ih =>
    intro cur
    by_cases hc : c = ' '
    · by_cases h : cur = [] <;> simp [wordsFrom, hc, h, ih]
    · simp [wordsFrom, hc, ih]

theorem wordsOf_blank (a b : Text) : wordsOf (a ++ ' ' :: b) = wordsOf a ++ wordsOf b := wordsFrom_blank a b []

theorem wordsFrom_word (a : Text) (h : ' ' ∉ a) : ∀ cur, wordsFrom cur a = if cur ++ a = [] then [] else [cur ++ a] := by
  induction a with
  | nil => intro cur; simp [wordsFrom]
  | cons c a ih =>
    intro cur
    simp only [List.mem_cons, not_or] at h
    simp [wordsFrom, Ne.symm h.1, ih h.2]

theorem wordsOf_word {a : Text} (h : ' ' ∉ a) (hne : a ≠ []) : wordsOf a = [a] := by
  rw [wordsOf, wordsFrom_word a h]; simp [hne]

theorem wordsOf_words : ∀ ws : List Text, wordsOf (words ws) = ws.flatMap wordsOf
  | [] => rfl
  | [w] => by simp [words]
  | w :: w' :: ws => by
    rw [words_cons, wordsOf_blank, wordsOf_words (w' :: ws)]
    rfl

theorem partsFrom_semi (a b : Text) : ∀ cur, partsFrom cur (a ++ ';' :: b) = partsFrom cur a ++ partsOf b := by
  induction a with
  | nil => intro cur; simp [partsFrom, partsOf]
  | cons c a ih =>
    intro cur
    by_cases hc : c = ';' <;> simp [partsFrom, hc, ih]

theorem partsFrom_none (a : Text) (h : ';' ∉ a) : ∀ cur, partsFrom cur a = [cur ++ a] := by
  induction a with
  | nil => intro cur; simp [partsFrom]
  | cons c a ih =>
    intro cur
    simp only [List.mem_cons, not_or] at h
    simp [partsFrom, Ne.symm h.1, ih h.2]

theorem partsOf_none {a : Text} (h : ';' ∉ a) : partsOf a = [a] := by rw [partsOf, partsFrom_none a h]; rfl

theorem mem_words {c : Char} : ∀ {ws : List Text}, c ∈ words ws → c = ' ' ∨ ∃ w ∈ ws, c ∈ w
  | [], h => by simp [words] at h
  | [w], h => by rw [words_single] at h; exact Or.inr ⟨w, by simp, h⟩
  | w :: w' :: ws, h => by
    rw [words_cons, List.mem_append, List.mem_cons] at h
    rcases h with h | h | h
    · exact Or.inr ⟨w, by simp, h⟩
    · exact Or.inl h
    · rcases mem_words h with h | ⟨x, hx, h⟩
      · exact Or.inl h
      · exact Or.inr ⟨x, List.mem_cons_of_mem _ hx, h⟩

theorem plain_blank : ¬ Plain ' ' := by decide
theorem plain_semi : ¬ Plain ';' := by decide

theorem oneWord_blank {t : Text} (h : OneWord t) : ' ' ∉ t := fun m => plain_blank (h _ m)

theorem oneWord_inDir {dir file : Text} (h : OneWord dir) (h' : OneWord file) : OneWord (inDir dir file) := by
  intro c hc
  unfold inDir at hc
  rcases List.mem_append.mp hc with hc | hc
  · split at hc
    · exact h c hc
    · rcases List.mem_append.mp hc with hc | hc
      · exact h c hc
      · rw [List.mem_singleton.mp hc]; decide
  · exact h' c hc

theorem inDir_ne {dir file : Text} (h : file ≠ []) : inDir dir file ≠ [] := by
  unfold inDir
  simp [h]

/-- A line of words separated by blanks is one command. -/
theorem executes_words {ws : List Text} (h : ∀ w ∈ ws, Words w) (hc : IsCommand (ws.flatMap wordsOf)) : Executes (words ws) [ws.flatMap wordsOf] := by
  have hs : ';' ∉ words ws := by
    intro hm
    rcases mem_words hm with h1 | ⟨w, hw, h1⟩
    · exact absurd h1 (by decide)
    · rcases h w hw _ h1 with h2 | h2
      · exact plain_semi h2
      · exact absurd h2 (by decide)
  refine ⟨fun c hcm => ?_, ?_, ?_⟩
  · rcases mem_words hcm with h1 | ⟨w, hw, h1⟩
    · exact Or.inr (Or.inl h1)
    · rcases h w hw _ h1 with h2 | h2
      · exact Or.inl h2
      · exact Or.inr (Or.inl h2)
  · rw [partsOf_none hs, List.map_cons, List.map_nil, wordsOf_words]
  · intro x hx
    rw [List.mem_singleton.mp hx]
    exact hc

theorem isCommand_append {ws : List Text} (h : IsCommand ws) (more : List Text) : IsCommand (ws ++ more) := by
  obtain ⟨w, hw, h⟩ := h
  cases ws with
  | nil => simp at hw
  | cons x ws => exact ⟨w, hw, h⟩

theorem words_oneWord {t : Text} (h : OneWord t) : Words t := fun c hc => Or.inl (h c hc)

theorem wordsOf_oneWord {t : Text} (h : OneWord t) (hne : t ≠ []) : wordsOf t = [t] := wordsOf_word (oneWord_blank h) hne

theorem oneWord_I {p : Text} (h : OneWord p) : OneWord ("-I".toList ++ p) := by
  intro c hc
  rcases List.mem_append.mp hc with hc | hc
  · exact (by unfold OneWord; decide : OneWord "-I".toList) c hc
  · exact h c hc

theorem flatMap_dirs {ds : List Text} (h : ∀ p ∈ ds, OneWord p) : (ds.map fun p => "-I".toList ++ p).flatMap wordsOf = ds.map fun p => "-I".toList ++ p := by
  induction ds with
  | nil => rfl
  | cons p ds ih =>
    rw [List.map_cons, List.flatMap_cons, ih fun q hq => h q (List.mem_cons_of_mem _ hq), wordsOf_oneWord (oneWord_I (h p List.mem_cons_self)) (by simp)]
    rfl

theorem flatMap_one {ws : List Text} (h : ∀ w ∈ ws, OneWord w ∧ w ≠ []) : ws.flatMap wordsOf = ws := by
  induction ws with
  | nil => rfl
  | cons w ws ih =>
    rw [List.flatMap_cons, ih fun q hq => h q (List.mem_cons_of_mem _ hq), wordsOf_oneWord (h w List.mem_cons_self).1 (h w List.mem_cons_self).2]
    rfl

/-- A command and its arguments. -/
theorem executes_line {x : Text} {ws : List Text} (hx : Words x) (hxc : IsCommand (wordsOf x)) (h : ∀ w ∈ ws, OneWord w ∧ w ≠ []) :
    Executes (words (x :: ws)) [wordsOf x ++ ws] := by
  have e : (x :: ws).flatMap wordsOf = wordsOf x ++ ws := by rw [List.flatMap_cons, flatMap_one h]
  rw [← e]
  refine executes_words ?_ (by rw [e]; exact isCommand_append hxc _)
  intro w hw
  rcases List.mem_cons.mp hw with rfl | hw
  · exact hx
  · exact words_oneWord (h w hw).1

/-- The command line of the first command, for a location and directories that are single words. -/
theorem compile_executes (o : Opts) (hx : Words o.cxx) (hxc : IsCommand (wordsOf o.cxx)) (hf : Words o.cflags) (hl : OneWord o.location) (hd : ∀ p ∈ o.dir, OneWord p) :
    Executes (compileCmd o) [wordsOf o.cxx ++ ["-c".toList, inDir o.location "PLibrary.cc".toList, "-o".toList, inDir o.location "PLibrary.o".toList] ++
      wordsOf o.cflags ++ o.dir.map fun p => "-I".toList ++ p] := by
  have h1 : OneWord (inDir o.location "PLibrary.cc".toList) := oneWord_inDir hl (by unfold OneWord; decide)
  have h2 : OneWord (inDir o.location "PLibrary.o".toList) := oneWord_inDir hl (by unfold OneWord; decide)
  have hc : OneWord "-c".toList := by unfold OneWord; decide
  have ho : OneWord "-o".toList := by unfold OneWord; decide
  have e : ([o.cxx, "-c".toList, inDir o.location "PLibrary.cc".toList, "-o".toList, inDir o.location "PLibrary.o".toList, o.cflags] ++
      (o.dir.map fun d => "-I".toList ++ d) ++ [[]]).flatMap wordsOf = wordsOf o.cxx ++ ["-c".toList, inDir o.location "PLibrary.cc".toList, "-o".toList,
      inDir o.location "PLibrary.o".toList] ++ wordsOf o.cflags ++ o.dir.map fun p => "-I".toList ++ p := by
    rw [List.flatMap_append, List.flatMap_append, flatMap_dirs hd]
    simp only [List.flatMap_cons, List.flatMap_nil, wordsOf_oneWord h1 (inDir_ne (by decide)), wordsOf_oneWord h2 (inDir_ne (by decide)),
      wordsOf_oneWord hc (by decide), wordsOf_oneWord ho (by decide)]
    simp [wordsOf, wordsFrom]
  rw [(C100_commands_partial o).1, ← e]
  refine executes_words ?_ ?_
  · intro w hw
    simp only [List.mem_append, List.mem_cons, List.mem_map, List.not_mem_nil, or_false] at hw
    rcases hw with ((rfl | rfl | rfl | rfl | rfl | rfl) | ⟨p, hp, rfl⟩) | rfl
    · exact hx
    · exact words_oneWord hc
    · exact words_oneWord h1
    · exact words_oneWord ho
    · exact words_oneWord h2
    · exact hf
    · exact words_oneWord (oneWord_I (hd p hp))
    · intro c hcm; simp at hcm
  · rw [e, List.append_assoc, List.append_assoc]
    exact isCommand_append hxc _

/-- **C147** (part) With paths that are single words for the shell, `--compile` executes three commands, each a call of the compiler: the first compiles the PLibrary.cc
written, to PLibrary.o, with the flags and the directories as search paths; the second compiles PExtern.cc; the third links the two. -/
theorem C147_argv_partial (e : Env) (he : e.Ok) (o : Opts) (ho : o.Writes) (hcomp : o.compile = true) (hv : ∀ v ∈ o.var, Clean v) (d : Disk)
    (hdirs : ∀ p ∈ o.dir, (d.resolve p).isSome)
    (hclean : ∀ x ∈ declared regexFind (d.dirs o.dir), Clean x.1 ∧ Clean x.2.intype ∧ Clean x.2.outtype)
    (hn : (entries ((declared regexFind (d.dirs o.dir)).map Prod.snd)).Nodup)
    (hx : Words o.cxx) (hxc : IsCommand (wordsOf o.cxx)) (hf : Words o.cflags) (hl : OneWord o.location) (hd : ∀ p ∈ o.dir, OneWord p) :
    ∃ l1 l2 l3, (main e (some o) d).commands = [l1, l2, l3] ∧
      Executes l1 [wordsOf o.cxx ++ ["-c".toList, inDir o.location "PLibrary.cc".toList, "-o".toList, inDir o.location "PLibrary.o".toList] ++
        wordsOf o.cflags ++ o.dir.map fun p => "-I".toList ++ p] ∧
      Executes l2 [wordsOf o.cxx ++ ["-c".toList, inDir o.location "PExtern.cc".toList, "-o".toList, inDir o.location "PExtern.o".toList] ++
        wordsOf o.cflags] ∧
      Executes l3 [wordsOf o.cxx ++ [if o.dylib then "-dynamiclib".toList else "-shared".toList, "-o".toList,
        inDir o.location (if o.dylib then "libpextern.dylib".toList else "libpextern.so".toList), inDir o.location "PExtern.o".toList,
        inDir o.location "PLibrary.o".toList]] := by
  refine ⟨_, _, _, (C100_compile_partial e he o ho hcomp hv d hdirs hclean hn).2.1, compile_executes o hx hxc hf hl hd, ?_, ?_⟩
  · have h1 : OneWord (inDir o.location "PExtern.cc".toList) := oneWord_inDir hl (by unfold OneWord; decide)
    have h2 : OneWord (inDir o.location "PExtern.o".toList) := oneWord_inDir hl (by unfold OneWord; decide)
    have hc : OneWord "-c".toList := by unfold OneWord; decide
    have ho : OneWord "-o".toList := by unfold OneWord; decide
    have e : [o.cxx, "-c".toList, inDir o.location "PExtern.cc".toList, "-o".toList, inDir o.location "PExtern.o".toList, o.cflags].flatMap wordsOf =
        wordsOf o.cxx ++ ["-c".toList, inDir o.location "PExtern.cc".toList, "-o".toList, inDir o.location "PExtern.o".toList] ++ wordsOf o.cflags := by
      simp only [List.flatMap_cons, List.flatMap_nil, wordsOf_oneWord h1 (inDir_ne (by decide)), wordsOf_oneWord h2 (inDir_ne (by decide)),
        wordsOf_oneWord hc (by decide), wordsOf_oneWord ho (by decide)]
      simp
    rw [(C100_commands_partial o).2.1, ← e]
    refine executes_words ?_ ?_
    · intro w hw
      simp only [List.mem_cons, List.not_mem_nil, or_false] at hw
      rcases hw with rfl | rfl | rfl | rfl | rfl | rfl
      exacts [hx, words_oneWord hc, words_oneWord h1, words_oneWord ho, words_oneWord h2, hf]
    · rw [e, List.append_assoc]
      exact isCommand_append hxc _
  · have hs : OneWord (if o.dylib then "-dynamiclib".toList else "-shared".toList) := by
      unfold OneWord; cases o.dylib <;> decide
    have hs' : (if o.dylib then "-dynamiclib".toList else "-shared".toList) ≠ [] := by cases o.dylib <;> decide
    have hlib : OneWord (if o.dylib then "libpextern.dylib".toList else "libpextern.so".toList) := by
      unfold OneWord; cases o.dylib <;> decide
    have hlib' : (if o.dylib then "libpextern.dylib".toList else "libpextern.so".toList) ≠ [] := by cases o.dylib <;> decide
    have h0 := oneWord_inDir hl hlib
    have h1 : OneWord (inDir o.location "PExtern.o".toList) := oneWord_inDir hl (by unfold OneWord; decide)
    have h2 : OneWord (inDir o.location "PLibrary.o".toList) := oneWord_inDir hl (by unfold OneWord; decide)
    have ho : OneWord "-o".toList := by unfold OneWord; decide
    rw [(C100_commands_partial o).2.2]
    refine executes_line hx hxc ?_
    intro w hw
    simp only [List.mem_cons, List.not_mem_nil, or_false] at hw
    rcases hw with rfl | rfl | rfl | rfl | rfl
    exacts [⟨hs, hs'⟩, ⟨ho, by decide⟩, ⟨h0, inDir_ne hlib'⟩, ⟨h1, inDir_ne (by decide)⟩, ⟨h2, inDir_ne (by decide)⟩]

theorem inDir_blank {a b f : Text} (hb : b ≠ []) : inDir (a ++ ' ' :: b) f = a ++ ' ' :: inDir b f := by
  obtain ⟨x, b, rfl⟩ := List.exists_cons_of_ne_nil hb
  unfold inDir
  have : (a ++ ' ' :: x :: b).getLast? = (x :: b).getLast? := by
    rw [List.getLast?_append]
    simp [List.getLast?_cons]
  rw [this]
  by_cases h : (x :: b).getLast? = some '/'
  · simp [h]
  · simp [h]

theorem wordsFrom_mem {w t : Text} : ∀ {cur}, ' ' ∉ cur → w ∈ wordsFrom cur t → ' ' ∉ w := by
  induction t with
  | nil =>
    intro cur hc hw
    by_cases h : cur = []
    · simp [wordsFrom, h] at hw
    · simp only [wordsFrom, h, if_false, List.mem_singleton] at hw
      rw [hw]; exact hc
  | cons c t ih =>
    intro cur hc hw
    by_cases hb : c = ' '
    · by_cases h : cur = []
      · simp only [wordsFrom, hb, h, if_true] at hw
        exact ih (by simp) hw
      · simp only [wordsFrom, hb, h, if_true, if_false, List.mem_cons] at hw
        rcases hw with rfl | hw
        · exact hc
        · exact ih (by simp) hw
    · simp only [wordsFrom, hb, if_false] at hw
      exact ih (by simp [hc, Ne.symm hb]) hw

theorem partsFrom_length (t : Text) : ∀ cur, (partsFrom cur t).length = t.count ';' + 1 := by
  induction t with
  | nil => intro cur; rfl
  | cons c t ih =>
    intro cur
    by_cases hc : c = ';'
    · simp [partsFrom, hc, ih]
    · simp [partsFrom, hc, ih]

theorem no_semi {line : Text} {ws : List Text} (h : Executes line [ws]) : ';' ∉ line := by
  have := congrArg List.length h.2.1
  rw [List.length_map, partsOf, partsFrom_length] at this
  simp only [List.length_cons, List.length_nil] at this
  exact List.count_eq_zero.mp (by omega)

theorem blank_executes (o : Opts) (hx : Words o.cxx) (hxc : IsCommand (wordsOf o.cxx)) (hf : Words o.cflags) (a b : Text) (hl : o.location = a ++ ' ' :: b)
    (ha : OneWord a) (ha' : a ≠ []) (hb : OneWord b) (hb' : b ≠ []) (hd : ∀ p ∈ o.dir, OneWord p) :
    Executes (compileCmd o) [wordsOf o.cxx ++ ["-c".toList, a, inDir b "PLibrary.cc".toList, "-o".toList, a, inDir b "PLibrary.o".toList] ++
      wordsOf o.cflags ++ o.dir.map fun p => "-I".toList ++ p] ∧
    ∀ ws, Executes (compileCmd o) [ws] → inDir o.location "PLibrary.cc".toList ∉ ws := by
  have h1 : OneWord (inDir b "PLibrary.cc".toList) := oneWord_inDir hb (by unfold OneWord; decide)
  have h2 : OneWord (inDir b "PLibrary.o".toList) := oneWord_inDir hb (by unfold OneWord; decide)
  have hc : OneWord "-c".toList := by unfold OneWord; decide
  have ho : OneWord "-o".toList := by unfold OneWord; decide
  have w1 : wordsOf (inDir o.location "PLibrary.cc".toList) = [a, inDir b "PLibrary.cc".toList] := by
    rw [hl, inDir_blank hb', wordsOf_blank, wordsOf_oneWord ha ha', wordsOf_oneWord h1 (inDir_ne (by decide))]; rfl
  have w2 : wordsOf (inDir o.location "PLibrary.o".toList) = [a, inDir b "PLibrary.o".toList] := by
    rw [hl, inDir_blank hb', wordsOf_blank, wordsOf_oneWord ha ha', wordsOf_oneWord h2 (inDir_ne (by decide))]; rfl
  have ww : ∀ f, OneWord f → Words (inDir o.location f) := by
    intro f hf c hcm
    rw [hl, inDir_blank hb'] at hcm
    rcases List.mem_append.mp hcm with h | h
    · exact Or.inl (ha c h)
    · rcases List.mem_cons.mp h with h | h
      · exact Or.inr h
      · exact Or.inl (oneWord_inDir hb hf c h)
  have e : ([o.cxx, "-c".toList, inDir o.location "PLibrary.cc".toList, "-o".toList, inDir o.location "PLibrary.o".toList, o.cflags] ++
      (o.dir.map fun d => "-I".toList ++ d) ++ [[]]).flatMap wordsOf = wordsOf o.cxx ++ ["-c".toList, a, inDir b "PLibrary.cc".toList, "-o".toList,
      a, inDir b "PLibrary.o".toList] ++ wordsOf o.cflags ++ o.dir.map fun p => "-I".toList ++ p := by
    rw [List.flatMap_append, List.flatMap_append, flatMap_dirs hd]
    simp only [List.flatMap_cons, List.flatMap_nil, w1, w2, wordsOf_oneWord hc (by decide), wordsOf_oneWord ho (by decide)]
    simp [wordsOf, wordsFrom]
  have main : Executes (compileCmd o) [wordsOf o.cxx ++ ["-c".toList, a, inDir b "PLibrary.cc".toList, "-o".toList, a, inDir b "PLibrary.o".toList] ++
      wordsOf o.cflags ++ o.dir.map fun p => "-I".toList ++ p] := by
    rw [(C100_commands_partial o).1, ← e]
    refine executes_words ?_ ?_
    · intro w hw
      simp only [List.mem_append, List.mem_cons, List.mem_map, List.not_mem_nil, or_false] at hw
      rcases hw with ((rfl | rfl | rfl | rfl | rfl | rfl) | ⟨p, hp, rfl⟩) | rfl
      · exact hx
      · exact words_oneWord hc
      · exact ww _ (by unfold OneWord; decide)
      · exact words_oneWord ho
      · exact ww _ (by unfold OneWord; decide)
      · exact hf
      · exact words_oneWord (oneWord_I (hd p hp))
      · intro c hcm; simp at hcm
    · rw [e, List.append_assoc, List.append_assoc]
      exact isCommand_append hxc _
  refine ⟨main, fun ws h hm => ?_⟩
  have h3 := h.2.1
  rw [partsOf_none (no_semi h)] at h3
  simp only [List.map_cons, List.map_nil, List.cons.injEq, and_true] at h3
  rw [h3] at hm
  refine wordsFrom_mem (by simp) hm ?_
  rw [hl, inDir_blank hb']
  simp

theorem semicolon_executes (o : Opts) (hx : Words o.cxx) (hxc : IsCommand (wordsOf o.cxx)) (hf : Words o.cflags) (hl : OneWord o.location) (ds : List Text)
    (p c : Text) (hdir : o.dir = ds ++ [p ++ ';' :: c]) (hd : ∀ p ∈ ds, OneWord p) (hp : OneWord p) (hc : Words c) (hcc : IsCommand (wordsOf c)) :
    Executes (compileCmd o) [wordsOf o.cxx ++ ["-c".toList, inDir o.location "PLibrary.cc".toList, "-o".toList, inDir o.location "PLibrary.o".toList] ++
      wordsOf o.cflags ++ (ds ++ [p]).map (fun p => "-I".toList ++ p), wordsOf c] := by
  have h0 := compile_executes { o with dir := ds ++ [p] } hx hxc hf hl (by
    intro q hq
    rcases List.mem_append.mp hq with hq | hq
    · exact hd q hq
    · rw [List.mem_singleton.mp hq]; exact hp)
  obtain ⟨A, hA⟩ : ∃ A, A = o.cxx ++ " -c ".toList ++ joinPath o.location "PLibrary.cc".toList ++ " -o ".toList ++ joinPath o.location "PLibrary.o".toList ++ " ".toList ++
    o.cflags ++ " ".toList ++ (ds.flatMap fun d => "-I".toList ++ d ++ " ".toList) ++ ("-I".toList ++ p) := ⟨_, rfl⟩
  have e0 : compileCmd { o with dir := ds ++ [p] } = A ++ ' ' :: [] := by
    rw [hA]
    simp [compileCmd]
  have e1 : compileCmd o = A ++ ';' :: (c ++ ' ' :: []) := by
    rw [hA]
    simp [compileCmd, hdir]
  rw [e0] at h0
  have hs := no_semi h0
  obtain ⟨g1, g2, g3⟩ := h0
  rw [partsOf_none hs, List.map_cons, List.map_nil, wordsOf_blank] at g2
  have hsA : ';' ∉ A := fun h => hs (by simp [h])
  have hsc : ';' ∉ c ++ ' ' :: [] := by
    intro h
    simp at h
    rcases hc _ h with h | h
    · exact plain_semi h
    · exact absurd h (by decide)
  have nil : wordsOf [] = [] := rfl
  rw [nil, List.append_nil] at g2
  rw [e1]
  refine ⟨?_, ?_, ?_⟩
  · intro x hxm
    rcases List.mem_append.mp hxm with h | h
    · exact g1 x (by simp [h])
    · rcases List.mem_cons.mp h with h | h
      · exact Or.inr (Or.inr h)
      · simp at h
        rcases h with h | h
        · rcases hc x h with h | h
          · exact Or.inl h
          · exact Or.inr (Or.inl h)
        · exact Or.inr (Or.inl h)
  · have : partsOf (A ++ ';' :: (c ++ ' ' :: [])) = [A, c ++ ' ' :: []] := by
      rw [partsOf, partsFrom_semi, ← partsOf, partsOf_none hsA, partsOf_none hsc]
      rfl
    rw [this, List.map_cons, List.map_cons, List.map_nil, wordsOf_blank, nil, List.append_nil]
    simp only [List.cons.injEq, and_true] at g2 ⊢
    exact g2
  · intro ws hw
    simp only [List.mem_cons, List.not_mem_nil, or_false] at hw
    rcases hw with rfl | rfl
    · exact g3 _ (by simp)
    · exact hcc

/-- **C147, violation** If the location has a blank in its name, the compiler is not called on the PLibrary.cc written: its path comes apart. -/
theorem C147_blank_violated (e : Env) (he : e.Ok) (o : Opts) (ho : o.Writes) (hcomp : o.compile = true) (hv : ∀ v ∈ o.var, Clean v) (d : Disk)
    (hdirs : ∀ p ∈ o.dir, (d.resolve p).isSome)
    (hclean : ∀ x ∈ declared regexFind (d.dirs o.dir), Clean x.1 ∧ Clean x.2.intype ∧ Clean x.2.outtype)
    (hn : (entries ((declared regexFind (d.dirs o.dir)).map Prod.snd)).Nodup)
    (hx : Words o.cxx) (hxc : IsCommand (wordsOf o.cxx)) (hf : Words o.cflags) (a b : Text) (hl : o.location = a ++ ' ' :: b)
    (ha : OneWord a) (ha' : a ≠ []) (hb : OneWord b) (hb' : b ≠ []) (hd : ∀ p ∈ o.dir, OneWord p) :
    ∃ l ls, (main e (some o) d).commands = l :: ls ∧
      Executes l [wordsOf o.cxx ++ ["-c".toList, a, inDir b "PLibrary.cc".toList, "-o".toList, a, inDir b "PLibrary.o".toList] ++
        wordsOf o.cflags ++ o.dir.map fun p => "-I".toList ++ p] ∧
      ∀ ws, Executes l [ws] → inDir o.location "PLibrary.cc".toList ∉ ws :=
  ⟨_, _, (C100_compile_partial e he o ho hcomp hv d hdirs hclean hn).2.1, blank_executes o hx hxc hf a b hl ha ha' hb hb' hd⟩

/-- **C147, violation** If a directory has a semicolon in its name, what comes after it is executed as a command. -/
theorem C147_semicolon_violated (e : Env) (he : e.Ok) (o : Opts) (ho : o.Writes) (hcomp : o.compile = true) (hv : ∀ v ∈ o.var, Clean v) (d : Disk)
    (hdirs : ∀ p ∈ o.dir, (d.resolve p).isSome)
    (hclean : ∀ x ∈ declared regexFind (d.dirs o.dir), Clean x.1 ∧ Clean x.2.intype ∧ Clean x.2.outtype)
    (hn : (entries ((declared regexFind (d.dirs o.dir)).map Prod.snd)).Nodup)
    (hx : Words o.cxx) (hxc : IsCommand (wordsOf o.cxx)) (hf : Words o.cflags) (hl : OneWord o.location) (ds : List Text)
    (p c : Text) (hdir : o.dir = ds ++ [p ++ ';' :: c]) (hd : ∀ p ∈ ds, OneWord p) (hp : OneWord p) (hc : Words c) (hcc : IsCommand (wordsOf c)) :
    ∃ l ls, (main e (some o) d).commands = l :: ls ∧
      Executes l [wordsOf o.cxx ++ ["-c".toList, inDir o.location "PLibrary.cc".toList, "-o".toList, inDir o.location "PLibrary.o".toList] ++
        wordsOf o.cflags ++ (ds ++ [p]).map (fun p => "-I".toList ++ p), wordsOf c] :=
  ⟨_, _, (C100_compile_partial e he o ho hcomp hv d hdirs hclean hn).2.1, semicolon_executes o hx hxc hf hl ds p c hdir hd hp hc hcc⟩

open LwDemo in
/-- The run of the example: the three command lines, and what the shell makes of the first. (The other hypotheses of `C147_argv_partial` are shown with C100.) -/
example : Words opts.cxx ∧ IsCommand (wordsOf opts.cxx) ∧ Words opts.cflags ∧ OneWord opts.location ∧ (∀ p ∈ opts.dir, OneWord p) ∧
    ∃ l2 l3, (main env (some { opts with compile := true }) disk).commands = ["g++ -c ./PLibrary.cc -o ./PLibrary.o -O3 -I. ".toList, l2, l3] ∧
      Executes "g++ -c ./PLibrary.cc -o ./PLibrary.o -O3 -I. ".toList [["g++", "-c", "./PLibrary.cc", "-o", "./PLibrary.o", "-O3", "-I."].map String.toList] :=
  ⟨by unfold Words; decide, by decide, by unfold Words; decide, by unfold OneWord; decide, by unfold OneWord; decide,
    "g++ -c ./PExtern.cc -o ./PExtern.o -O3".toList, "g++ -shared -o ./libpextern.so ./PExtern.o ./PLibrary.o".toList, by decide +kernel,
    by unfold Executes; decide +kernel⟩

open LwDemo in
/-- A directory called "a;touch b" (a legal name) runs `touch b`; a location called "my lib" is taken for two files. -/
example : ("a;touch b".toList = [] ++ ("a".toList ++ ';' :: "touch b".toList)) ∧ OneWord "a".toList ∧ Words "touch b".toList ∧ IsCommand (wordsOf "touch b".toList) ∧
    (∃ l ls, (main env (some { opts with compile := true, dir := ["a;touch b".toList] }) { disk with resolve := fun _ => some 0 }).commands = l :: ls ∧
      Executes l [["g++", "-c", "./PLibrary.cc", "-o", "./PLibrary.o", "-O3", "-Ia"].map String.toList, ["touch", "b"].map String.toList]) ∧
    ∃ l ls, (main env (some { opts with compile := true, location := "my lib".toList }) { disk with resolve := fun _ => some 0 }).commands = l :: ls ∧
      Executes l [["g++", "-c", "my", "lib/PLibrary.cc", "-o", "my", "lib/PLibrary.o", "-O3", "-I."].map String.toList] := by
  refine ⟨rfl, by unfold OneWord; decide, by unfold Words; decide, by decide,
    ⟨"g++ -c ./PLibrary.cc -o ./PLibrary.o -O3 -Ia;touch b ".toList, ["g++ -c ./PExtern.cc -o ./PExtern.o -O3".toList,
      "g++ -shared -o ./libpextern.so ./PExtern.o ./PLibrary.o".toList], by decide +kernel, by unfold Executes; decide +kernel⟩,
    ⟨"g++ -c my lib/PLibrary.cc -o my lib/PLibrary.o -O3 -I. ".toList, ["g++ -c my lib/PExtern.cc -o my lib/PExtern.o -O3".toList,
      "g++ -shared -o my lib/libpextern.so my lib/PExtern.o my lib/PLibrary.o".toList], by decide +kernel, by unfold Executes; decide +kernel⟩⟩

end Verif
