import Verif.Props.LwMain

/-!
# C113, C114: runs of the library writer that are interrupted
-/

namespace Verif
open Spec Spec.Cpp Spec.Lw Coll LwText Lw

namespace Lw

theorem mem_starts {p t : Text} : p ∈ starts t ↔ p <+: t := by
  induction t generalizing p with
  | nil => simp [starts]
  | cons x t ih =>
    simp only [starts, List.mem_cons, List.mem_map, ih]
    constructor
    · rintro (rfl | ⟨q, hq, rfl⟩)
      · exact List.nil_prefix
      · exact (List.prefix_cons_inj x).mpr hq
    · intro h
      cases p with
      | nil => exact .inl rfl
      | cons y q =>
        obtain ⟨rfl, hq⟩ := List.cons_prefix_cons.mp h
        exact .inr ⟨q, hq, rfl⟩

theorem mem_writing {d d' : Disk} {loc name text : Text} : d' ∈ writing d loc name text ↔ ∃ p, p <+: text ∧ d' = write d loc name p := by
  simp only [writing, List.mem_map, mem_starts]
  constructor
  · rintro ⟨p, h, rfl⟩; exact ⟨p, h, rfl⟩
  · rintro ⟨p, h, rfl⟩; exact ⟨p, h, rfl⟩

theorem last_starts (t : Text) : (starts t).getLast? = some t := by
  induction t with
  | nil => rfl
  | cons x t ih =>
    rw [starts, List.getLast?_cons, List.getLast?_map, ih]; rfl

theorem last_writing (d : Disk) (loc name text : Text) : (writing d loc name text).getLast? = some (write d loc name text) := by
  rw [writing, List.getLast?_map, last_starts]; rfl

theorem setFile_twice (name a b : Text) (l : List (Text × Text)) : setFile name b (setFile name a l) = setFile name b l := by
  induction l with
  | nil => simp [setFile]
  | cons x l ih =>
    unfold setFile
    by_cases h : x.1 = name
    · simp [h, setFile]
    · simp [h, setFile, ih]

theorem write_twice (d : Disk) (loc name a b : Text) : write (write d loc name a) loc name b = write d loc name b := by
  unfold write
  cases h : d.resolve loc with
  | none => simp only [h]
  | some n =>
    simp only [h]
    congr 1
    funext m
    by_cases hm : m = n
    · simp [hm, setFile_twice]
    · simp [hm]

end Lw

/-- **C113** The last moment of a run that does not compile is what the run of C100 leaves. -/
theorem C113_last (e : Env) (parsed : Option Opts) (hc : ∀ o, parsed = some o → o.compile = false) (d : Disk) :
    (moments e parsed d).getLast? = some (main e parsed d).disk := by
  cases parsed with
  | none => rfl
  | some o =>
    have hc := hc o rfl
    unfold moments main
    simp only
    split
    · rfl
    · split
      · rfl
      · split
        · rfl
        · unfold headerMoments headerStep
          simp only
          cases h1 : scan e (write d o.location "PLibrary.hh".toList []) 0 o.dir Coll.empty with
          | error er => rfl
          | ok c =>
            simp only
            cases h2 : c.headerText (e.stamp false) o.var with
            | error er => rfl
            | ok t =>
              simp only
              unfold sourceMoments sourceStep
              simp only
              rw [List.getLast?_cons_cons, List.getLast?_cons, List.getLast?_append]
              cases h3 : scan e (write (write (write d o.location "PLibrary.hh".toList []) o.location "PLibrary.hh".toList t) o.location
                "PLibrary.cc".toList []) o.dir.length o.dir Coll.empty with
              | error er => rfl
              | ok c' =>
                simp only
                cases h4 : c'.sourceText (e.stamp true) o.var with
                | error er => rfl
                | ok t' =>
                  simp only [compileStep, hc, Bool.false_eq_true, if_false]
                  rw [List.getLast?_cons, last_writing]
                  rfl

/-- A moment of a run changes the two files of the library in the location only, by writes. -/
theorem Lw.moments_writes (e : Env) (parsed : Option Opts) (d d' : Disk) (h : d' ∈ moments e parsed d) :
    d' = d ∨ ∃ o, parsed = some o ∧ ((∃ t, d' = write d o.location "PLibrary.hh".toList t) ∨
      ∃ t t', d' = write (write d o.location "PLibrary.hh".toList t) o.location "PLibrary.cc".toList t') := by
  unfold moments at h
  rcases List.mem_cons.mp h with h | h
  · exact .inl h
  · right
    cases parsed with
    | none => simp at h
    | some o =>
      refine ⟨o, rfl, ?_⟩
      simp only at h
      split at h
      · simp at h
      · split at h
        · simp at h
        · split at h
          · simp at h
          · unfold headerMoments at h
            rcases List.mem_cons.mp h with h | h
            · exact .inl ⟨_, h⟩
            · split at h
              · simp at h
              · split at h
                · simp at h
                · rename_i t _
                  rcases List.mem_append.mp h with h | h
                  · obtain ⟨p, _, rfl⟩ := mem_writing.mp h
                    exact .inl ⟨p, write_twice _ _ _ _ _⟩
                  · right
                    unfold sourceMoments at h
                    simp only [write_twice] at h
                    rcases List.mem_cons.mp h with h | h
                    · exact ⟨_, _, h⟩
                    · split at h
                      · simp at h
                      · split at h
                        · simp at h
                        · obtain ⟨p, _, rfl⟩ := mem_writing.mp h
                          exact ⟨t, p, write_twice _ _ _ _ _⟩

/-- **C113** A run that is interrupted at any moment before it compiles (any options, valid or not; any listing orders) has changed no file but
PLibrary.hh and PLibrary.cc in its location, and the classes a later run will find in any directories are the same. -/
theorem C113_crash (e : Env) (parsed : Option Opts) (d d' : Disk) (h : d' ∈ moments e parsed d) :
    d'.resolve = d.resolve ∧ (∀ ps, declared regexFind (d'.dirs ps) = declared regexFind (d.dirs ps)) ∧
    ∀ m file, (∀ o, parsed = some o → ¬ (d.resolve o.location = some m ∧ (file = "PLibrary.hh".toList ∨ file = "PLibrary.cc".toList))) →
      d'.content m file = d.content m file := by
  rcases Lw.moments_writes e parsed d d' h with rfl | ⟨o, ho, hw⟩
  · exact ⟨rfl, fun _ => rfl, fun _ _ _ => rfl⟩
  · have frame : ∀ (d : Disk) name t m file, ¬ (d.resolve o.location = some m ∧ file = name) →
        (write d o.location name t).content m file = d.content m file := by
      intro d name t m file hf
      cases hl : d.resolve o.location with
      | none => unfold write; rw [hl]
      | some n =>
        rw [write_content d hl, if_neg]
        rintro ⟨rfl, rfl⟩
        exact hf ⟨hl, rfl⟩
    rcases hw with ⟨t, rfl⟩ | ⟨t, t', rfl⟩
    · exact ⟨write_resolve _ _ _ _, fun ps => declared_write _ _ _ _ not_hh ps, fun m file hf =>
        frame _ _ _ _ _ fun h => hf o ho ⟨h.1, .inl h.2⟩⟩
    · refine ⟨by rw [write_resolve, write_resolve], fun ps => by rw [declared_write _ _ _ _ not_cc, declared_write _ _ _ _ not_hh], fun m file hf => ?_⟩
      rw [frame, frame]
      · exact fun h => hf o ho ⟨h.1, .inl h.2⟩
      · rw [write_resolve]
        exact fun h => hf o ho ⟨h.1, .inr h.2⟩

/-- `d'` is left on the disk `d` by these runs, one after the other, each interrupted at some moment (or not) before it compiles. -/
inductive Lw.Crashes : List (Env × Option Opts) → Disk → Disk → Prop
  | none (d) : Crashes [] d d
  | run {e parsed rs d d1 d2} (h : d1 ∈ moments e parsed d) (hs : Crashes rs d1 d2) : Crashes ((e, parsed) :: rs) d d2

/-- **C113** After any number of interrupted runs: nothing else has changed, and the classes found are the same. -/
theorem C113_crashes (rs : List (Env × Option Opts)) (d d' : Disk) (h : Crashes rs d d') :
    d'.resolve = d.resolve ∧ (∀ ps, declared regexFind (d'.dirs ps) = declared regexFind (d.dirs ps)) ∧
    ∀ m file, (∀ r ∈ rs, ∀ o, r.2 = some o → ¬ (d.resolve o.location = some m ∧ (file = "PLibrary.hh".toList ∨ file = "PLibrary.cc".toList))) →
      d'.content m file = d.content m file := by
  induction h with
  | none d => exact ⟨rfl, fun _ => rfl, fun _ _ _ => rfl⟩
  | @run e parsed rs d d1 d2 h hs ih =>
    obtain ⟨a1, a2, a3⟩ := C113_crash e parsed d d1 h
    obtain ⟨b1, b2, b3⟩ := ih
    refine ⟨b1.trans a1, fun ps => (b2 ps).trans (a2 ps), fun m file hf => ?_⟩
    rw [b3 m file (fun r hr o ho => by rw [a1]; exact hf r (by simp [hr]) o ho), a3 m file fun o ho => hf (e, parsed) (by simp) o ho]

/-- **C113** Running again repairs everything: after any number of runs interrupted at any moments, a run that is not interrupted ends with status 0 and
leaves the library of the classes declared on the original disk, and every other file as it was originally. -/
theorem C113_rerun (rs : List (Env × Option Opts)) (d d' : Disk) (h : Crashes rs d d') (e : Env) (he : e.Ok) (o : Opts) (ho : o.Writes)
    (hcomp : o.compile = false) (hv : ∀ v ∈ o.var, Clean v) (n : Nat)
    (hloc : d.resolve o.location = some n) (hdirs : ∀ p ∈ o.dir, (d.resolve p).isSome)
    (hclean : ∀ x ∈ declared regexFind (d.dirs o.dir), Clean x.1 ∧ Clean x.2.intype ∧ Clean x.2.outtype)
    (hn : (entries ((declared regexFind (d.dirs o.dir)).map Prod.snd)).Nodup) :
    let r := main e (some o) d'
    let decls := declared regexFind (d.dirs o.dir)
    r.status = .exit 0 ∧
    (∃ hh, r.disk.content n "PLibrary.hh".toList = some hh ∧ GoodHeader hh decls o.var) ∧
    (∃ cc, r.disk.content n "PLibrary.cc".toList = some cc ∧ GoodSource cc decls o.var) ∧
    ∀ m file, ¬ (m = n ∧ (file = "PLibrary.hh".toList ∨ file = "PLibrary.cc".toList)) →
      (∀ r ∈ rs, ∀ o', r.2 = some o' → ¬ (d.resolve o'.location = some m ∧ (file = "PLibrary.hh".toList ∨ file = "PLibrary.cc".toList))) →
      r.disk.content m file = d.content m file := by
  obtain ⟨a1, a2, a3⟩ := C113_crashes rs d d' h
  obtain ⟨b1, _, _, b4, b5, b6, _⟩ := C100_run_partial e he o ho hcomp hv d' n (by rw [a1]; exact hloc) (by rw [a1]; exact hdirs)
    (by rw [a2]; exact hclean) (by rw [a2]; exact hn)
  rw [a2] at b4 b5
  exact ⟨b1, b4, b5, fun m file h1 h2 => by rw [b6 m file h1, a3 m file h2]⟩

/-- **C114** (part) The moments of a valid run, in terms of the texts `hh` and `cc` it writes: the files are the old ones; or PLibrary.hh is some first part
of `hh` and PLibrary.cc is the old one; or PLibrary.hh is `hh` and PLibrary.cc is some first part of `cc`. Each of these does occur. -/
theorem C114_moments_partial (e : Env) (he : e.Ok) (o : Opts) (ho : o.Writes) (hv : ∀ v ∈ o.var, Clean v) (d : Disk) (n : Nat)
    (hloc : d.resolve o.location = some n) (hdirs : ∀ p ∈ o.dir, (d.resolve p).isSome)
    (hclean : ∀ x ∈ declared regexFind (d.dirs o.dir), Clean x.1 ∧ Clean x.2.intype ∧ Clean x.2.outtype)
    (hn : (entries ((declared regexFind (d.dirs o.dir)).map Prod.snd)).Nodup) :
    ∃ hh cc, GoodHeader hh (declared regexFind (d.dirs o.dir)) o.var ∧ GoodSource cc (declared regexFind (d.dirs o.dir)) o.var ∧
      ∀ x y, (∃ d' ∈ moments e (some o) d, d'.content n "PLibrary.hh".toList = x ∧ d'.content n "PLibrary.cc".toList = y) ↔
        (x = d.content n "PLibrary.hh".toList ∧ y = d.content n "PLibrary.cc".toList) ∨
        (∃ p, p <+: hh ∧ x = some p ∧ y = d.content n "PLibrary.cc".toList) ∨
        (∃ p, p <+: cc ∧ x = some hh ∧ y = some p) := by
  have d1 := declared_write d o.location "PLibrary.hh".toList [] not_hh o.dir
  have hr1 : ∀ p ∈ o.dir, ((write d o.location "PLibrary.hh".toList []).resolve p).isSome := by rw [write_resolve]; exact hdirs
  obtain ⟨c, s1, k1⟩ := (scan_listed he hr1 0).1 (by rw [d1]; exact hn)
  obtain ⟨hh, _, t1, _, g1, _⟩ := good_files (d1 ▸ declared_listings e he.1 (write d o.location "PLibrary.hh".toList []) o.dir 0) k1 (he.2 false) hv hclean
  have d2 : declared regexFind ((write (write (write d o.location "PLibrary.hh".toList []) o.location "PLibrary.hh".toList hh) o.location
      "PLibrary.cc".toList []).dirs o.dir) = declared regexFind (d.dirs o.dir) := by
    rw [declared_write _ _ _ _ not_cc, declared_write _ _ _ _ not_hh, d1]
  have hr2 : ∀ p ∈ o.dir, ((write (write (write d o.location "PLibrary.hh".toList []) o.location "PLibrary.hh".toList hh) o.location
      "PLibrary.cc".toList []).resolve p).isSome := by rw [write_resolve, write_resolve, write_resolve]; exact hdirs
  obtain ⟨c', s2, k2⟩ := (scan_listed he hr2 o.dir.length).1 (by rw [d2]; exact hn)
  obtain ⟨_, cc, _, t2, _, g2⟩ := good_files (d2 ▸ declared_listings e he.1 _ o.dir o.dir.length) k2 (he.2 true) hv hclean
  simp only [write_twice] at s2
  refine ⟨hh, cc, g1, g2, fun x y => ?_⟩
  have hvar : o.var.isEmpty = false := by simpa using ho.2.2
  have hm : ∀ d', d' ∈ moments e (some o) d ↔ d' = d ∨ (∃ p, p <+: hh ∧ d' = write d o.location "PLibrary.hh".toList p) ∨
      ∃ p, p <+: cc ∧ d' = write (write d o.location "PLibrary.hh".toList hh) o.location "PLibrary.cc".toList p := by
    intro d'
    simp only [moments, ho.1, ho.2.1, hvar, Bool.false_eq_true, if_false, headerMoments, s1, t1, sourceMoments, List.mem_cons, List.mem_append,
      mem_writing, write_twice, s2, t2]
    constructor
    · rintro (h | h | h | h | h)
      · exact .inl h
      · exact .inr (.inl ⟨[], List.nil_prefix, h⟩)
      · exact .inr (.inl h)
      · exact .inr (.inr ⟨[], List.nil_prefix, h⟩)
      · exact .inr (.inr h)
    · rintro (h | h | h)
      · exact .inl h
      · exact .inr (.inr (.inl h))
      · exact .inr (.inr (.inr (.inr h)))
  have hne : "PLibrary.hh".toList ≠ "PLibrary.cc".toList := by decide
  have h2 : ∀ t, (write d o.location "PLibrary.hh".toList t).resolve o.location = some n := fun t => by rw [write_resolve]; exact hloc
  constructor
  · rintro ⟨d', hd, rfl, rfl⟩
    rcases (hm d').mp hd with rfl | ⟨p, hp, rfl⟩ | ⟨p, hp, rfl⟩
    · exact .inl ⟨rfl, rfl⟩
    · exact .inr (.inl ⟨p, hp, by rw [write_content d hloc, if_pos ⟨rfl, rfl⟩], by rw [write_content d hloc, if_neg fun h => hne h.2.symm]⟩)
    · exact .inr (.inr ⟨p, hp, by rw [write_content _ (h2 _), if_neg fun h => hne h.2, write_content d hloc, if_pos ⟨rfl, rfl⟩],
        by rw [write_content _ (h2 _), if_pos ⟨rfl, rfl⟩]⟩)
  · rintro (⟨rfl, rfl⟩ | ⟨p, hp, rfl, rfl⟩ | ⟨p, hp, rfl, rfl⟩)
    · exact ⟨d, (hm d).mpr (.inl rfl), rfl, rfl⟩
    · exact ⟨_, (hm _).mpr (.inr (.inl ⟨p, hp, rfl⟩)), by rw [write_content d hloc, if_pos ⟨rfl, rfl⟩],
        by rw [write_content d hloc, if_neg fun h => hne h.2.symm]⟩
    · exact ⟨_, (hm _).mpr (.inr (.inr ⟨p, hp, rfl⟩)), by rw [write_content _ (h2 _), if_neg fun h => hne h.2, write_content d hloc, if_pos ⟨rfl, rfl⟩],
        by rw [write_content _ (h2 _), if_pos ⟨rfl, rfl⟩]⟩

theorem Lw.not_good_nil (decls : List (Text × Decl)) (var : List Text) : ¬ GoodHeader [] decls var ∧ ¬ GoodSource [] decls var := by
  constructor
  · rintro ⟨sigs, ⟨ls, h1, h2⟩, _⟩
    simp only [lines, linesFrom, readLines] at h1
    cases h1
    simp [code] at h2
  · rintro ⟨incs, funs, ⟨_, ls, h1, h2⟩, _⟩
    simp only [lines, linesFrom, readLines] at h1
    cases h1
    simp [code] at h2

/-- **C114** is false of every valid run: there is a moment when PLibrary.hh is no library header at all, one when PLibrary.cc is no library source at all,
and one when PLibrary.hh is the new one and PLibrary.cc still the old one. -/
theorem C114_replace_violated (e : Env) (he : e.Ok) (o : Opts) (ho : o.Writes) (hv : ∀ v ∈ o.var, Clean v) (d : Disk) (n : Nat)
    (hloc : d.resolve o.location = some n) (hdirs : ∀ p ∈ o.dir, (d.resolve p).isSome)
    (hclean : ∀ x ∈ declared regexFind (d.dirs o.dir), Clean x.1 ∧ Clean x.2.intype ∧ Clean x.2.outtype)
    (hn : (entries ((declared regexFind (d.dirs o.dir)).map Prod.snd)).Nodup) :
    (∃ d' ∈ moments e (some o) d, ∃ t, d'.content n "PLibrary.hh".toList = some t ∧ ∀ decls var, ¬ GoodHeader t decls var) ∧
    (∃ d' ∈ moments e (some o) d, ∃ t, d'.content n "PLibrary.cc".toList = some t ∧ ∀ decls var, ¬ GoodSource t decls var) ∧
    ∃ d' ∈ moments e (some o) d, (∃ hh, d'.content n "PLibrary.hh".toList = some hh ∧ GoodHeader hh (declared regexFind (d.dirs o.dir)) o.var) ∧
      d'.content n "PLibrary.cc".toList = d.content n "PLibrary.cc".toList := by
  obtain ⟨hh, cc, g1, g2, k⟩ := C114_moments_partial e he o ho hv d n hloc hdirs hclean hn
  refine ⟨?_, ?_, ?_⟩
  · obtain ⟨d', hd, h1, _⟩ := (k _ _).mpr (.inr (.inl ⟨[], List.nil_prefix, rfl, rfl⟩))
    exact ⟨d', hd, [], h1, fun decls var => (Lw.not_good_nil decls var).1⟩
  · obtain ⟨d', hd, _, h2⟩ := (k _ _).mpr (.inr (.inr ⟨[], List.nil_prefix, rfl, rfl⟩))
    exact ⟨d', hd, [], h2, fun decls var => (Lw.not_good_nil decls var).2⟩
  · obtain ⟨d', hd, h1, h2⟩ := (k _ _).mpr (.inr (.inl ⟨hh, List.prefix_rfl, rfl, rfl⟩))
    exact ⟨d', hd, ⟨hh, h1, g1⟩, h2⟩

open LwDemo in
/-- Non-vacuity of C113: the run of the example of C100, interrupted when PLibrary.hh is empty, and then interrupted when it has seven characters. (The
hypotheses on the directories are those of C100, and hold for the example, see there.) -/
example : ∃ d', Crashes [(env, some opts), (env, some opts)] disk d' ∧ d'.content 0 "PLibrary.hh".toList = some "// crea".toList ∧
    d'.content 0 "A.hh".toList = disk.content 0 "A.hh".toList := by
  refine ⟨write disk opts.location "PLibrary.hh".toList "// crea".toList, .run (d1 := write disk opts.location "PLibrary.hh".toList []) ?_ (.run ?_ (.none _)),
    by decide +kernel, by decide +kernel⟩
  · simp [moments, headerMoments, opts]
  · show write disk opts.location "PLibrary.hh".toList "// crea".toList ∈ moments env (some opts) (write disk opts.location "PLibrary.hh".toList [])
    unfold moments headerMoments
    simp only [opts, Bool.false_eq_true, if_false, List.isEmpty_cons]
    refine List.mem_cons_of_mem _ (List.mem_cons_of_mem _ ?_)
    rw [write_twice]
    have h : ∃ c t, scan env (write disk "./".toList "PLibrary.hh".toList []) 0 [".".toList] Coll.empty = .ok c ∧
        c.headerText (env.stamp false) ["double*".toList] = .ok t ∧ "// crea".toList <+: t := by
      have : (do
          let c ← scan env (write disk "./".toList "PLibrary.hh".toList []) 0 [".".toList] Coll.empty
          let t ← c.headerText (env.stamp false) ["double*".toList]
          .ok (t.take 7) : Res Text) = .ok "// crea".toList := by decide +kernel
      obtain ⟨c, h1, this⟩ := bind_eq_ok.mp this
      obtain ⟨t, h2, this⟩ := bind_eq_ok.mp this
      refine ⟨c, t, h1, h2, ?_⟩
      rw [← Except.ok.inj this]
      exact List.take_prefix 7 t
    obtain ⟨c, t, h1, h2, h3⟩ := h
    simp only [h1, h2, write_twice]
    exact List.mem_append_left _ (mem_writing.mpr ⟨_, h3, (write_twice _ _ _ _ _).symm⟩)

end Verif
