import Verif.Props.LwText
import Mathlib.Data.List.Perm.Basic

/-!
# C153: a library depends only on the classes declared
-/

namespace Verif
open Spec Spec.Cpp Coll LwText

namespace Spec

/-- The same directories, files and lines in another order. -/
def Reordered (dirs dirs' : List Dir) : Prop :=
  ∃ mid : List Dir, dirs.Perm mid ∧ List.Forall₂ (fun d d' => ∃ m : Dir, d.Perm m ∧ List.Forall₂ (fun f f' => f.1 = f'.1 ∧ f.2.Perm f'.2) m d') mid dirs'

/-- Functions with the same signature that do the same for every name. -/
def SameFun (f f' : Fun) : Prop := f.sig = f'.sig ∧ ∀ name, f.call name = f'.call name

/-- One function for each of the other, in some order. -/
def SameFuns (funs funs' : List Fun) : Prop := ∃ l, List.Forall₂ SameFun funs l ∧ l.Perm funs'

end Spec

namespace LibOrder

theorem nodup_map_iff {find : Base → Text → Option (Text × Text × Text)} {dirs dirs' : List Dir}
    (h : ((declared find dirs).map Prod.snd).Perm ((declared find dirs').map Prod.snd)) :
    (entries ((declared find dirs).map Prod.snd)).Nodup ↔ (entries ((declared find dirs').map Prod.snd)).Nodup :=
  (h.flatMap_right Decl.entries).nodup_iff

theorem funsRead_same {ds ds' : List Decl} (h : ∀ d, d ∈ ds ↔ d ∈ ds') (var : List Text) (k : Kind) (t u : Text) :
    List.Forall₂ SameFun (funsRead (entries ds) var k t u) (funsRead (entries ds') var k t u) := by
  have hn : ∀ n, n ∈ namesOf (entries ds) k.tab t u ↔ n ∈ namesOf (entries ds') k.tab t u := by
    intro n
    simp only [mem_namesOf, mem_entries, h]
  have hk : ∀ n, n ∈ k.names (entries ds) t u ↔ n ∈ k.names (entries ds') t u := by
    intro n
    simp only [mem_names, h]
  have hl : (namesOf (entries ds) k.tab t u).length > 0 ↔ (namesOf (entries ds') k.tab t u).length > 0 := by
    simp only [gt_iff_lt, List.length_pos_iff_exists_mem, hn]
  unfold funsRead
  by_cases h0 : (namesOf (entries ds) k.tab t u).length > 0
  · have h1 := hl.mp h0
    rw [if_pos h0, if_pos h1]
    have ne : ∀ {es : List Entry}, (namesOf es k.tab t u).length > 0 → k.names es t u ≠ [] := by
      intro es h
      unfold Kind.names
      intro e
      rw [(List.append_eq_nil_iff.mp e).1] at h
      simp at h
    rw [List.forall₂_map_left_iff, List.forall₂_map_right_iff, List.forall₂_same]
    intro a _
    refine ⟨rfl, fun name => ?_⟩
    rw [call_funOf _ _ _ _ _ (ne h0), call_funOf _ _ _ _ _ (ne h1)]
    simp only [hk]
  · rw [if_neg h0, if_neg fun h1 => h0 (hl.mpr h1)]
    exact .nil

theorem kindFuns_same {c c' : Coll} {ds ds' : List Decl} {var var' : List Text} (h : ∀ d, d ∈ ds ↔ d ∈ ds') (hi : c.intype.Perm c'.intype)
    (ho : c.outtype.Perm c'.outtype) (hv : var.Perm var') :
    SameFuns (kinds.flatMap (kindFuns c (entries ds) var)) (kinds.flatMap (kindFuns c' (entries ds') var')) := by
  refine ⟨kinds.flatMap (kindFuns c (entries ds') var), ?_, ?_⟩
  · refine List.rel_flatMap (List.forall₂_same.mpr fun _ _ => rfl) fun k k' e => ?_
    subst e
    refine List.rel_flatMap (List.forall₂_same.mpr fun _ _ => rfl) fun t t' e => ?_
    subst e
    refine List.rel_flatMap (List.forall₂_same.mpr fun _ _ => rfl) fun u u' e => ?_
    subst e
    exact funsRead_same h var k t u
  · refine List.Perm.flatMap_left _ fun k _ => ?_
    unfold kindFuns
    refine (hi.flatMap_right _).trans (List.Perm.flatMap_left _ fun t _ => (ho.flatMap_right _).trans (List.Perm.flatMap_left _ fun u _ => ?_))
    unfold funsRead
    split
    · refine List.Perm.map _ ?_
      unfold kindTypes
      split
      · exact List.Perm.refl _
      · exact List.Perm.refl _
      · unfold intypes
        split
        · exact hv.map _
        · exact List.Perm.refl _
    · exact List.Perm.refl _

theorem distinct_perm {l l' : List Text} (h : l.Perm l') : (distinct l).Perm (distinct l') :=
  (List.perm_ext_iff_of_nodup (C60_distinct l).1 (C60_distinct l').1).mpr fun t => by
    rw [(C60_distinct l).2, (C60_distinct l').2, h.mem_iff]

theorem declared_perm {find : Base → Text → Option (Text × Text × Text)} {dirs dirs' : List Dir} (h : Reordered dirs dirs') :
    (declared find dirs).Perm (declared find dirs') := by
  classical
  obtain ⟨mid, h1, h2⟩ := h
  refine (h1.flatMap_right _).trans ?_
  clear h1
  induction h2 with
  | nil => exact List.Perm.refl _
  | cons hd _ ih =>
    simp only [List.flatMap_cons]
    refine List.Perm.append ?_ ih
    obtain ⟨m, p, q⟩ := hd
    refine ((p.filter _).flatMap_right _).trans ?_
    clear p ih
    induction q with
    | nil => exact List.Perm.refl _
    | @cons f f' l l' hf _ ih' =>
      obtain ⟨n, ls⟩ := f
      obtain ⟨n', ls'⟩ := f'
      obtain ⟨e, hp⟩ := hf
      simp only at e hp
      subst e
      simp only [List.filter_cons]
      split
      · simp only [List.flatMap_cons]
        exact List.Perm.append ((hp.filterMap _).map _) ih'
      · exact ih'

end LibOrder
open LibOrder

/-- **C153** (which directories are accepted) Directories that declare the same classes, in whatever files and order, are both collected or both refused. -/
theorem C153_accepted (find : Base → Text → Option (Text × Text × Text)) (dirs dirs' : List Dir)
    (h : ((declared find dirs).map Prod.snd).Perm ((declared find dirs').map Prod.snd)) :
    ((∃ c, collect find dirs = .ok c) ↔ ∃ c, collect find dirs' = .ok c) ∧
    (collect find dirs = .error (.exit 1) ↔ collect find dirs' = .error (.exit 1)) := by
  rcases collect_outcome find dirs with ⟨hn, c, e, _⟩ | ⟨hn, e⟩ <;> rcases collect_outcome find dirs' with ⟨hn', c', e', _⟩ | ⟨hn', e'⟩
  · simp [e, e']
  · exact absurd ((nodup_map_iff h).mp hn) hn'
  · exact absurd ((nodup_map_iff h).mpr hn') hn
  · simp [e, e']

/-- **C153** (same classes) Directories that declare the same classes in files of the same names, in whatever order, and the same types for `VarContainer` in whatever
order: the two libraries have the same functions, one for one, doing the same for every name, and include the same headers. The dates may differ. -/
theorem C153_same_classes (dirs dirs' : List Dir) (var var' : List Text) (s s' : Stamp) (c c' : Coll) (h : collect regexFind dirs = .ok c)
    (h' : collect regexFind dirs' = .ok c') (hp : (declared regexFind dirs).Perm (declared regexFind dirs')) (hvar : var.Perm var')
    (hs : '\n' ∉ s.created ∧ '\n' ∉ s.version ∧ '\n' ∉ s.url ∧ '\n' ∉ s.commit)
    (hs' : '\n' ∉ s'.created ∧ '\n' ∉ s'.version ∧ '\n' ∉ s'.url ∧ '\n' ∉ s'.commit) (hv : ∀ v ∈ var, Clean v)
    (hd : ∀ x ∈ declared regexFind dirs, Clean x.1 ∧ Clean x.2.intype ∧ Clean x.2.outtype) :
    ∃ hh cc hh' cc' funs funs' incs incs', c.headerText s var = .ok hh ∧ c.sourceText s var = .ok cc ∧ c'.headerText s' var' = .ok hh' ∧
      c'.sourceText s' var' = .ok cc' ∧
      HeaderFile hh "PLIBRARY_HH".toList headerIncludes (funs.map Fun.sig) ∧ SourceFile cc "PLIBRARY_CC".toList (sourceIncludes incs) funs ∧
      HeaderFile hh' "PLIBRARY_HH".toList headerIncludes (funs'.map Fun.sig) ∧ SourceFile cc' "PLIBRARY_CC".toList (sourceIncludes incs') funs' ∧
      SameFuns funs funs' ∧ incs.Perm incs' := by
  have hf := collected h
  have hf' := collected h'
  have hc := cleanColl h hv hd
  have hc' := cleanColl h' (fun v hm => hv v (hvar.mem_iff.mpr hm)) fun x hx => hd x (hp.mem_iff.mpr hx)
  obtain ⟨hh, e1, r1⟩ := header_read hf.rep hc (s := s) hs
  obtain ⟨cc, e2, r2⟩ := source_read hf.rep (pwSub_entries _) hc (s := s) hs
  obtain ⟨hh', e1', r1'⟩ := header_read hf'.rep hc' (s := s') hs'
  obtain ⟨cc', e2', r2'⟩ := source_read hf'.rep (pwSub_entries _) hc' (s := s') hs'
  have sg : ∀ (c : Coll) es var, (kinds.flatMap (kindFuns c es var)).map Fun.sig = kinds.flatMap (kindSigs c es var) := by
    intro c es var
    rw [List.map_flatMap]
    congr 1; funext k
    exact kindFuns_sig _ _ _ _
  refine ⟨hh, cc, hh', cc', _, _, _, _, e1, e2, e1', e2', by rw [sg]; exact r1, r2, by rw [sg]; exact r1', r2', kindFuns_same ?_ ?_ ?_ hvar, ?_⟩
  · intro d
    exact (hp.map Prod.snd).mem_iff
  · rw [hf.ins, hf'.ins]; exact distinct_perm (hp.map _)
  · rw [hf.outs, hf'.outs]; exact distinct_perm (hp.map _)
  · rw [hf.files, hf'.files]; exact distinct_perm (hp.map _)

/-- **C153** (order) The order of the directories, of the files in them and of the lines in these does not matter. -/
theorem C153_reordered (dirs dirs' : List Dir) (hr : Reordered dirs dirs') :
    ((∃ c, collect regexFind dirs = .ok c) ↔ ∃ c, collect regexFind dirs' = .ok c) ∧
    (collect regexFind dirs = .error (.exit 1) ↔ collect regexFind dirs' = .error (.exit 1)) ∧
    ∀ (c c' : Coll), collect regexFind dirs = .ok c → collect regexFind dirs' = .ok c' → ∀ (var var' : List Text) (s s' : Stamp), var.Perm var' →
      ('\n' ∉ s.created ∧ '\n' ∉ s.version ∧ '\n' ∉ s.url ∧ '\n' ∉ s.commit) →
      ('\n' ∉ s'.created ∧ '\n' ∉ s'.version ∧ '\n' ∉ s'.url ∧ '\n' ∉ s'.commit) → (∀ v ∈ var, Clean v) →
      (∀ x ∈ declared regexFind dirs, Clean x.1 ∧ Clean x.2.intype ∧ Clean x.2.outtype) →
      ∃ hh cc hh' cc' funs funs' incs incs', c.headerText s var = .ok hh ∧ c.sourceText s var = .ok cc ∧ c'.headerText s' var' = .ok hh' ∧
        c'.sourceText s' var' = .ok cc' ∧
        HeaderFile hh "PLIBRARY_HH".toList headerIncludes (funs.map Fun.sig) ∧ SourceFile cc "PLIBRARY_CC".toList (sourceIncludes incs) funs ∧
        HeaderFile hh' "PLIBRARY_HH".toList headerIncludes (funs'.map Fun.sig) ∧ SourceFile cc' "PLIBRARY_CC".toList (sourceIncludes incs') funs' ∧
        SameFuns funs funs' ∧ incs.Perm incs' := by
  have hp := declared_perm (find := regexFind) hr
  have ha := C153_accepted regexFind dirs dirs' (hp.map _)
  exact ⟨ha.1, ha.2, fun c c' h h' var var' s s' hvar hs hs' hv hd => C153_same_classes dirs dirs' var var' s s' c c' h h' hp hvar hs hs' hv hd⟩

/-- **C153** (other text) Directories whose headers declare the same classes in the same order give the same collection, hence (at the same time) the same files,
whatever else their files contain. -/
theorem C153_other_text (find : Base → Text → Option (Text × Text × Text)) (dirs dirs' : List Dir) (h : declared find dirs = declared find dirs') :
    collect find dirs = collect find dirs' := by
  have ho := collect_outcome find dirs
  have ho' := collect_outcome find dirs'
  rw [← h] at ho'
  rcases ho with ⟨hn, c, e, hf⟩ | ⟨hn, e⟩ <;> rcases ho' with ⟨hn', c', e', hf'⟩ | ⟨hn', e'⟩
  · rw [e, e']
    obtain ⟨f1, i1, o1, t1⟩ := c
    obtain ⟨f2, i2, o2, t2⟩ := c'
    have hi : i1 = i2 := hf.ins.trans hf'.ins.symm
    have ho : o1 = o2 := hf.outs.trans hf'.outs.symm
    have hF : f1 = f2 := hf.files.trans hf'.files.symm
    subst hi ho hF
    congr 2
    funext b
    refine List.ext_getElem ((hf.rep.rows b).trans (hf'.rep.rows b).symm) fun i h1 h2 => ?_
    have r1 := hf.rep.cols b _ (List.getElem_mem h1)
    have r2 := hf'.rep.cols b _ (List.getElem_mem h2)
    refine List.ext_getElem (r1.trans r2.symm) fun j g1 g2 => ?_
    have hi : i < i1.length := by have := hf.rep.rows b; simp only at this h1; omega
    have hj : j < o1.length := by simp only at r1; omega
    obtain ⟨row, k1, k2⟩ := hf.rep.cells b i j _ _ (List.getElem?_eq_getElem hi) (List.getElem?_eq_getElem hj)
    obtain ⟨row', k1', k2'⟩ := hf'.rep.cells b i j _ _ (List.getElem?_eq_getElem hi) (List.getElem?_eq_getElem hj)
    simp only at k1 k1'
    rw [List.getElem?_eq_getElem h1] at k1
    rw [List.getElem?_eq_getElem h2] at k1'
    obtain rfl := Option.some.inj k1
    obtain rfl := Option.some.inj k1'
    rw [List.getElem?_eq_getElem g1] at k2
    rw [List.getElem?_eq_getElem g2] at k2'
    rw [Option.some.inj k2, Option.some.inj k2']
  · exact absurd hn hn'
  · exact absurd hn' hn
  · rw [e, e']

/-- **C153** (other text) The files written at the same time are the same, or both runs end with the same exit. -/
theorem C153_same_files (find : Base → Text → Option (Text × Text × Text)) (dirs dirs' : List Dir) (h : declared find dirs = declared find dirs') (s : Stamp)
    (var : List Text) : (collect find dirs).bind (fun c => c.headerText s var) = (collect find dirs').bind (fun c => c.headerText s var) ∧
    (collect find dirs).bind (fun c => c.sourceText s var) = (collect find dirs').bind (fun c => c.sourceText s var) := by
  rw [C153_other_text find dirs dirs' h]
  exact ⟨rfl, rfl⟩

/-- **C153** (other text) In particular files that are not headers of a library, and lines that declare no class, can be added or left out. -/
theorem C153_only_declarations (find : Base → Text → Option (Text × Text × Text)) (dirs : List Dir) (keep : Text → Text → Bool) (keepFile : Text → Bool)
    (hk : ∀ file line, keep file line = false → declOf find line = none) (hf : ∀ file, keepFile file = false → ¬ IsLibraryHeader file) :
    collect find (dirs.map fun d => (d.filter fun f => keepFile f.1).map fun f => (f.1, f.2.filter (keep f.1))) = collect find dirs := by
  classical
  apply C153_other_text
  unfold declared
  rw [List.flatMap_map]
  congr 1
  funext d
  induction d with
  | nil => rfl
  | cons f d ih =>
    simp only [List.filter_cons]
    cases hkf : keepFile f.1 with
    | false =>
      have := hf _ hkf
      simp only [this, Bool.false_eq_true, ↓reduceIte, decide_false]
      exact ih
    | true =>
      simp only [↓reduceIte, List.map_cons, List.filter_cons]
      by_cases hl : IsLibraryHeader f.1
      · simp only [hl, decide_true, ↓reduceIte, List.flatMap_cons]
        rw [ih]
        congr 2
        generalize f.2 = ls
        induction ls with
        | nil => rfl
        | cons l ls ih2 =>
          simp only [List.filter_cons]
          cases hkl : keep f.1 l with
          | false =>
            simp only [Bool.false_eq_true, ↓reduceIte, List.filterMap_cons, hk _ _ hkl]
            exact ih2
          | true =>
            simp only [↓reduceIte, List.filterMap_cons, ih2]
      · simp only [hl, decide_false, Bool.false_eq_true, ↓reduceIte]
        exact ih

namespace LibOrderDemo

/-- Two directories with three headers. -/
def dirs : List Dir :=
  [[("A.hh".toList, ["class A : public PSimpleBase<VarContainer, double>".toList, "int f();".toList, "class B : public PFuncBase<double*, int>".toList]),
    ("C.hh".toList, ["class C : public PBasisSetBase<double, double>".toList])],
   [("D.hh".toList, ["class D : public PPieceWiseSimpleBase<VarContainer, double>".toList])]]

/-- Directories, files and lines the other way round. -/
def dirs' : List Dir :=
  [[("D.hh".toList, ["class D : public PPieceWiseSimpleBase<VarContainer, double>".toList])],
   [("C.hh".toList, ["class C : public PBasisSetBase<double, double>".toList]),
    ("A.hh".toList, ["class B : public PFuncBase<double*, int>".toList, "int f();".toList, "class A : public PSimpleBase<VarContainer, double>".toList])]]

theorem reordered : Reordered dirs dirs' := by
  refine ⟨dirs.reverse, (List.reverse_perm _).symm, .cons ⟨_, List.Perm.refl _, .cons ⟨rfl, List.Perm.refl _⟩ .nil⟩ (.cons ⟨_, (List.reverse_perm _).symm,
    .cons ⟨rfl, List.Perm.refl _⟩ (.cons ⟨rfl, ?_⟩ .nil)⟩ .nil)⟩
  decide +kernel

theorem ok (ds : List Dir) (h : ((collect regexFind ds).map fun c => c.filename.length) = .ok 3) : ∃ c, collect regexFind ds = .ok c := by
  cases e : collect regexFind ds with
  | ok c => exact ⟨c, rfl⟩
  | error x => rw [e] at h; cases h

/-- `C153_reordered` applied: the two texts are different, their functions are the same. -/
example : ∃ c c', collect regexFind dirs = .ok c ∧ collect regexFind dirs' = .ok c' ∧ c.intype ≠ c'.intype ∧
    ∃ funs funs' cc cc', c.sourceText exampleStamp ["double*".toList, "X".toList] = .ok cc ∧ c'.sourceText exampleStamp ["X".toList, "double*".toList] = .ok cc' ∧
      (∃ incs, SourceFile cc "PLIBRARY_CC".toList (sourceIncludes incs) funs) ∧ (∃ incs, SourceFile cc' "PLIBRARY_CC".toList (sourceIncludes incs) funs') ∧
      SameFuns funs funs' := by
  obtain ⟨c, hc⟩ := ok dirs (by decide +kernel)
  obtain ⟨c', hc'⟩ := ok dirs' (by decide +kernel)
  have st : '\n' ∉ exampleStamp.created ∧ '\n' ∉ exampleStamp.version ∧ '\n' ∉ exampleStamp.url ∧ '\n' ∉ exampleStamp.commit := by decide +kernel
  have cl : ∀ f ∈ dirs.flatten, ∀ l ∈ f.2, ∀ d, declOf regexFind l = some d → Clean f.1 ∧ Clean d.intype ∧ Clean d.outtype := by
    have : (dirs.flatten.all fun f => f.2.all fun l => match declOf regexFind l with
        | none => true
        | some d => ([f.1, d.intype, d.outtype].all fun t => !t.contains '\"' && !t.contains '\\' && !t.contains '\n')) = true := by decide +kernel
    intro f hf l hl d hd
    have := List.all_eq_true.mp (List.all_eq_true.mp this f hf) l hl
    rw [hd] at this
    simp only [List.all_cons, List.all_nil, Bool.and_true, Bool.and_eq_true, Bool.not_eq_true', List.contains_eq_mem, decide_eq_false_iff_not] at this
    unfold Clean
    tauto
  obtain ⟨hh, cc, hh', cc', funs, funs', incs, incs', e1, e2, e3, e4, r1, r2, r3, r4, r5, r6⟩ := (C153_reordered dirs dirs' reordered).2.2 c c' hc hc'
    ["double*".toList, "X".toList] ["X".toList, "double*".toList] exampleStamp exampleStamp (List.Perm.swap _ _ _) st st (by unfold Clean; decide +kernel) (by
      intro x hx
      simp only [declared, List.mem_flatMap, List.mem_map, List.mem_filterMap, List.mem_filter] at hx
      obtain ⟨d, hd, f, ⟨hf, _⟩, x', ⟨l, hl, hx'⟩, rfl⟩ := hx
      exact cl f (List.mem_flatten.mpr ⟨d, hd, hf⟩) l hl x' hx')
  refine ⟨c, c', hc, hc', ?_, funs, funs', cc, cc', e2, e4, ⟨incs, r2⟩, ⟨incs', r4⟩, r5⟩
  have h1 : ((collect regexFind dirs).map Coll.intype) = .ok ["VarContainer".toList, "double*".toList, "double".toList] := by decide +kernel
  have h2 : ((collect regexFind dirs').map Coll.intype) = .ok ["VarContainer".toList, "double".toList, "double*".toList] := by decide +kernel
  rw [hc] at h1
  rw [hc'] at h2
  rw [Except.ok.inj h1, Except.ok.inj h2]
  decide +kernel

/-- `C153_only_declarations` applied: only the lines that declare a class are kept. -/
example : collect regexFind (dirs.map fun d => (d.filter fun f => isGeneratedHeader f.1).map fun f => (f.1, f.2.filter fun l => (declOf regexFind l).isSome)) =
    collect regexFind dirs :=
  C153_only_declarations regexFind dirs (fun _ l => (declOf regexFind l).isSome) isGeneratedHeader
    (fun _ l h => by simpa using h) (fun f h => by rw [← isGeneratedHeader_iff, h]; decide)

end LibOrderDemo

end Verif
