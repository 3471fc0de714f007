import Verif.Model.Library
import Verif.Lemmas.Core
import Mathlib.Tactic.ByContra
import Mathlib.Data.List.Nodup

/-! Helper lemmas about the library writer: what is collected. -/

namespace Verif
open Spec

theorem isHeader_iff (s : Text) : isHeader s = true ↔ ∃ stem, s = stem ++ ".hh".toList := by
  simp only [isHeader]
  constructor
  · intro h
    split at h
    · cases h
    · split at h
      · rename_i h1 h2
        exact ⟨s.take (s.length - 3), by rw [← h2, List.take_append_drop]⟩
      · cases h
  · rintro ⟨stem, rfl⟩
    have : (stem ++ ".hh".toList).length = stem.length + 3 := by simp
    rw [this, if_neg (by omega), show stem.length + 3 - 3 = stem.length by omega]
    simp

theorem isGeneratedHeader_iff (s : Text) : isGeneratedHeader s = true ↔ IsLibraryHeader s := by
  simp only [isGeneratedHeader, IsLibraryHeader, ← isHeader_iff, List.map_cons, List.map_nil]
  generalize "PLibrary.hh".toList = a
  generalize "PFunction.hh".toList = b
  generalize "PSeriesFunction.hh".toList = c
  generalize "PRealSymFunction.hh".toList = d
  generalize "PComplexSymFunction.hh".toList = e
  cases isHeader s with
  | false => simp
  | true => simp

namespace Coll

/-- The tables list exactly `es`. -/
structure Rep (c : Coll) (es : List Entry) : Prop where
  ins : c.intype.Nodup
  outs : c.outtype.Nodup
  nodup : es.Nodup
  rows : ∀ b, (c.tab b).length = c.intype.length
  cols : ∀ b r, r ∈ c.tab b → r.length = c.outtype.length
  cells : ∀ (b : Base) (i j : Nat) t u, c.intype[i]? = some t → c.outtype[j]? = some u →
    ∃ row, (c.tab b)[i]? = some row ∧ row[j]? = some (namesOf es b t u)
  mem : ∀ e ∈ es, e.intype ∈ c.intype ∧ e.outtype ∈ c.outtype

theorem Rep.filename {c : Coll} {es : List Entry} (h : Rep c es) (f : List Text) : Rep { c with filename := f } es :=
  ⟨h.ins, h.outs, h.nodup, h.rows, h.cols, h.cells, h.mem⟩

theorem rep_empty : Rep empty [] := by
  refine ⟨.nil, .nil, .nil, fun _ => rfl, ?_, ?_, ?_⟩
  · intro b r hr; simp [empty] at hr
  · intro b i j t u h1 h2; simp [empty] at h1
  · simp

theorem mem_namesOf {es : List Entry} {b : Base} {t u n : Text} : n ∈ namesOf es b t u ↔ (⟨b, t, u, n⟩ : Entry) ∈ es := by
  simp only [namesOf, List.mem_map, List.mem_filter, decide_eq_true_eq]
  constructor
  · rintro ⟨e, ⟨he, h1, h2, h3⟩, h4⟩
    obtain ⟨b', t', u', n'⟩ := e
    simp only at h1 h2 h3 h4
    subst h1; subst h2; subst h3; subst h4; exact he
  · intro h; exact ⟨_, ⟨h, rfl, rfl, rfl⟩, rfl⟩

theorem namesOf_eq_nil {es : List Entry} {b : Base} {t u : Text} (h : ∀ n, (⟨b, t, u, n⟩ : Entry) ∉ es) : namesOf es b t u = [] := by
  rw [List.eq_nil_iff_forall_not_mem]
  intro n hn
  exact h n (mem_namesOf.mp hn)

theorem findIdx_mem {l : List Text} {t : Text} (h : t ∈ l) : l.findIdx (· == t) < l.length ∧ l[l.findIdx (· == t)]? = some t := by
  have h1 : l.findIdx (· == t) < l.length := List.findIdx_lt_length_of_exists ⟨t, h, by simp⟩
  refine ⟨h1, ?_⟩
  have h2 := List.findIdx_getElem (p := (· == t)) (w := h1)
  simp only [beq_iff_eq] at h2
  rw [List.getElem?_eq_getElem h1, h2]

theorem findIdx_not_mem {l : List Text} {t : Text} (h : t ∉ l) : l.findIdx (· == t) = l.length := by
  rw [List.findIdx_eq_length]
  intro x hx
  simp only [beq_eq_false_iff_ne]
  rintro rfl; exact h hx

/-- One more distinct element. -/
def distinctStep (acc : List Text) (t : Text) : List Text := if t ∈ acc then acc else acc ++ [t]

theorem addIntype_rep {c : Coll} {es : List Entry} (h : Rep c es) (t : Text) :
    Rep (c.addIntype t).2 es ∧ (c.addIntype t).2.intype[(c.addIntype t).1]? = some t ∧
      (c.addIntype t).2.intype = distinctStep c.intype t ∧ (c.addIntype t).2.outtype = c.outtype ∧
      (c.addIntype t).2.filename = c.filename := by
  by_cases hm : t ∈ c.intype
  · obtain ⟨h1, h2⟩ := findIdx_mem hm
    have e : c.addIntype t = (c.intype.findIdx (· == t), c) := by
      simp only [addIntype]; rw [if_neg (by omega)]
    rw [e]
    exact ⟨h, h2, by simp [distinctStep, hm], rfl, rfl⟩
  · have hk := findIdx_not_mem hm
    have e : c.addIntype t = (c.intype.length,
        { c with intype := c.intype ++ [t], tab := fun b => c.tab b ++ [List.replicate c.outtype.length []] }) := by
      simp only [addIntype]; rw [if_pos hk, hk]
    rw [e]
    refine ⟨⟨?_, h.outs, h.nodup, ?_, ?_, ?_, ?_⟩, ?_, ?_, rfl, rfl⟩
    · show (c.intype ++ [t]).Nodup
      rw [List.nodup_append]
      exact ⟨h.ins, by simp, fun a ha b hb => by simp at hb; subst hb; rintro rfl; exact hm ha⟩
    · intro b; simp [h.rows b]
    · intro b r hr
      rcases List.mem_append.mp hr with hr | hr
      · exact h.cols b r hr
      · simp at hr; subst hr; simp
    · intro b i j t' u hi hj
      simp only at hi hj
      by_cases hlt : i < c.intype.length
      · rw [List.getElem?_append_left hlt] at hi
        obtain ⟨row, h1, h2⟩ := h.cells b i j t' u hi hj
        refine ⟨row, ?_, h2⟩
        show (c.tab b ++ _)[i]? = _
        rw [List.getElem?_append_left (by rw [h.rows]; exact hlt), h1]
      · rw [List.getElem?_append_right (by omega)] at hi
        have hi0 : i - c.intype.length = 0 := by
          by_contra hne
          obtain ⟨m, hm⟩ := Nat.exists_eq_succ_of_ne_zero hne
          rw [hm] at hi; simp at hi
        rw [hi0] at hi; simp at hi; subst hi
        refine ⟨List.replicate c.outtype.length [], ?_, ?_⟩
        · show (c.tab b ++ _)[i]? = _
          rw [List.getElem?_append_right (by rw [h.rows]; omega), h.rows, hi0]; rfl
        · have : namesOf es b t u = [] := namesOf_eq_nil fun n hn => hm (h.mem _ hn).1
          rw [this, List.getElem?_replicate, if_pos (List.getElem?_eq_some_iff.mp hj).1]
    · intro e he
      exact ⟨List.mem_append_left _ (h.mem e he).1, (h.mem e he).2⟩
    · show (c.intype ++ [t])[c.intype.length]? = _
      simp
    · show c.intype ++ [t] = _
      simp [distinctStep, hm]

theorem extendRows_all (rows : List (List (List Text))) : extendRows rows.length rows = .ok (rows.map (· ++ [[]])) := by
  induction rows with
  | nil => rfl
  | cons r rows ih => simp [extendRows, ih]

theorem addOuttype_rep {c : Coll} {es : List Entry} (h : Rep c es) (t : Text) :
    ∃ k c', c.addOuttype t = .ok (k, c') ∧ Rep c' es ∧ c'.outtype[k]? = some t ∧
      c'.outtype = distinctStep c.outtype t ∧ c'.intype = c.intype ∧ c'.filename = c.filename := by
  by_cases hm : t ∈ c.outtype
  · obtain ⟨h1, h2⟩ := findIdx_mem hm
    refine ⟨_, c, ?_, h, h2, by simp [distinctStep, hm], rfl, rfl⟩
    simp only [addOuttype]; rw [if_neg (by omega)]
  · have hk := findIdx_not_mem hm
    have hx : ∀ b, extendRows (c.tab .simple).length (c.tab b) = .ok ((c.tab b).map (· ++ [[]])) := by
      intro b
      rw [show (c.tab .simple).length = (c.tab b).length by rw [h.rows, h.rows]]
      exact extendRows_all _
    refine ⟨c.outtype.length, { c with outtype := c.outtype ++ [t], tab := fun b => (c.tab b).map (· ++ [[]]) }, ?_, ?_, ?_, ?_, rfl, rfl⟩
    · simp only [addOuttype]
      rw [if_pos hk, hk]
      simp only [hx, ok_bind]
      congr 3
      funext b
      cases b <;> rfl
    · refine ⟨h.ins, ?_, h.nodup, ?_, ?_, ?_, ?_⟩
      · show (c.outtype ++ [t]).Nodup
        rw [List.nodup_append]
        exact ⟨h.outs, by simp, fun a ha b hb => by simp at hb; subst hb; rintro rfl; exact hm ha⟩
      · intro b; simp [h.rows b]
      · intro b r hr
        simp only [List.mem_map] at hr
        obtain ⟨r', hr', rfl⟩ := hr
        simp [h.cols b r' hr']
      · intro b i j t' u hi hj
        simp only at hi hj
        have hilt := (List.getElem?_eq_some_iff.mp hi).1
        by_cases hlt : j < c.outtype.length
        · rw [List.getElem?_append_left hlt] at hj
          obtain ⟨row, h1, h2⟩ := h.cells b i j t' u hi hj
          refine ⟨row ++ [[]], ?_, ?_⟩
          · show ((c.tab b).map _)[i]? = _
            rw [List.getElem?_map, h1]; rfl
          · rw [List.getElem?_append_left, h2]
            exact (List.getElem?_eq_some_iff.mp h2).1
        · rw [List.getElem?_append_right (by omega)] at hj
          have hj0 : j - c.outtype.length = 0 := by
            by_contra hne
            obtain ⟨m, hm⟩ := Nat.exists_eq_succ_of_ne_zero hne
            rw [hm] at hj; simp at hj
          rw [hj0] at hj; simp at hj; subst hj
          have hib : i < (c.tab b).length := by rw [h.rows]; exact hilt
          refine ⟨(c.tab b)[i] ++ [[]], ?_, ?_⟩
          · show ((c.tab b).map _)[i]? = _
            rw [List.getElem?_map, List.getElem?_eq_getElem hib]; rfl
          · have hl : (c.tab b)[i].length = c.outtype.length := h.cols b _ (List.getElem_mem hib)
            have : namesOf es b t' t = [] := namesOf_eq_nil fun n hn => hm (h.mem _ hn).2
            rw [this, List.getElem?_append_right (by omega), hl, hj0]; rfl
      · intro e he
        exact ⟨(h.mem e he).1, List.mem_append_left _ (h.mem e he).2⟩
    · show (c.outtype ++ [t])[c.outtype.length]? = _
      simp
    · show c.outtype ++ [t] = _
      simp [distinctStep, hm]

theorem namesOf_append (es fs : List Entry) (b : Base) (t u : Text) :
    namesOf (es ++ fs) b t u = namesOf es b t u ++ namesOf fs b t u := by
  simp [namesOf]

theorem getElem?_nodup {l : List Text} (h : l.Nodup) {i k : Nat} {t : Text} (hi : l[i]? = some t) (hk : l[k]? = some t) : i = k := by
  obtain ⟨h1, h2⟩ := List.getElem?_eq_some_iff.mp hi
  obtain ⟨h3, h4⟩ := List.getElem?_eq_some_iff.mp hk
  exact (List.Nodup.getElem_inj_iff h).mp (h2.trans h4.symm)

theorem store_rep {c : Coll} {es : List Entry} (h : Rep c es) (b : Base) {i j : Nat} {t u : Text} (hi : c.intype[i]? = some t)
    (hj : c.outtype[j]? = some u) (n : Text) :
    ((⟨b, t, u, n⟩ : Entry) ∈ es → c.store b i j n = .error (.exit 1)) ∧
    ((⟨b, t, u, n⟩ : Entry) ∉ es → ∃ c', c.store b i j n = .ok c' ∧ Rep c' (es ++ [⟨b, t, u, n⟩]) ∧ c'.intype = c.intype ∧
      c'.outtype = c.outtype ∧ c'.filename = c.filename) := by
  obtain ⟨row, h1, h2⟩ := h.cells b i j t u hi hj
  obtain ⟨h1l, h1e⟩ := List.getElem?_eq_some_iff.mp h1
  obtain ⟨h2l, h2e⟩ := List.getElem?_eq_some_iff.mp h2
  have g1 : vget (c.tab b) (i : Int) = .ok row := by rw [vget_nat _ _ h1l, h1e]
  have g2 : vget row (j : Int) = .ok (namesOf es b t u) := by rw [vget_nat _ _ h2l, h2e]
  constructor
  · intro hm
    simp only [store, g1, g2, ok_bind]
    rw [if_pos (mem_namesOf.mpr hm)]
  · intro hm
    refine ⟨{ c with tab := fun b' => if b' = b then (c.tab b).set i (row.set j (namesOf es b t u ++ [n])) else c.tab b' }, ?_, ?_, rfl, rfl, rfl⟩
    · simp only [store, g1, g2, ok_bind]
      rw [if_neg fun hc => hm (mem_namesOf.mp hc)]
    · refine ⟨h.ins, h.outs, ?_, ?_, ?_, ?_, ?_⟩
      · rw [List.nodup_append]
        exact ⟨h.nodup, by simp, fun a ha b hb => by simp at hb; subst hb; rintro rfl; exact hm ha⟩
      · intro b'
        by_cases hb : b' = b
        · subst hb; simp [h.rows]
        · simp [hb, h.rows]
      · intro b' r hr
        by_cases hb : b' = b
        · subst hb
          simp only [if_true] at hr
          rcases List.mem_or_eq_of_mem_set hr with hr | rfl
          · exact h.cols _ _ hr
          · simp only [List.length_set]
            exact h.cols _ _ (List.mem_of_getElem? h1)
        · simp only [hb, if_false] at hr
          exact h.cols _ _ hr
      · intro b' i' j' t' u' hi' hj'
        simp only at hi' hj'
        obtain ⟨row', k1, k2⟩ := h.cells b' i' j' t' u' hi' hj'
        rw [namesOf_append]
        by_cases hb : b' = b
        · subst hb
          simp only [if_true]
          by_cases hii : i' = i
          · subst hii
            rw [hi] at hi'; cases hi'
            rw [h1] at k1; cases k1
            refine ⟨row.set j (namesOf es b' t u ++ [n]), by rw [List.getElem?_set_self h1l], ?_⟩
            by_cases hjj : j' = j
            · subst hjj
              rw [hj] at hj'; cases hj'
              rw [List.getElem?_set_self h2l]
              simp [namesOf]
            · rw [List.getElem?_set_ne (Ne.symm hjj), k2]
              have : u ≠ u' := by
                rintro rfl; exact hjj (getElem?_nodup h.outs hj' hj)
              simp [namesOf, this]
          · refine ⟨row', by rw [List.getElem?_set_ne (Ne.symm hii), k1], ?_⟩
            have : t ≠ t' := by
              rintro rfl; exact hii (getElem?_nodup h.ins hi' hi)
            rw [k2]; simp [namesOf, this]
        · simp only [hb, if_false]
          refine ⟨row', k1, ?_⟩
          rw [k2]
          have : ¬ b = b' := fun e => hb e.symm
          simp [namesOf, this]
      · intro e he
        rcases List.mem_append.mp he with he | he
        · exact h.mem e he
        · simp at he; subst he
          exact ⟨List.mem_of_getElem? hi, List.mem_of_getElem? hj⟩

theorem storeAll_rep (bs : List Base) : ∀ {c : Coll} {es : List Entry}, Rep c es → ∀ {i j : Nat} {t u : Text}, c.intype[i]? = some t →
    c.outtype[j]? = some u → ∀ n : Text,
    let fs : List Entry := bs.map fun b => ⟨b, t, u, n⟩
    ((es ++ fs).Nodup → ∃ c', c.storeAll i j n bs = .ok c' ∧ Rep c' (es ++ fs) ∧ c'.intype = c.intype ∧ c'.outtype = c.outtype ∧
      c'.filename = c.filename) ∧
    (¬ (es ++ fs).Nodup → c.storeAll i j n bs = .error (.exit 1)) := by
  induction bs with
  | nil =>
    intro c es h i j t u hi hj n
    exact ⟨fun _ => ⟨c, rfl, by simpa using h, rfl, rfl, rfl⟩, fun hn => absurd (by simpa using h.nodup) hn⟩
  | cons b bs ih =>
    intro c es h i j t u hi hj n fs
    obtain ⟨s1, s2⟩ := store_rep h b hi hj n
    by_cases hm : (⟨b, t, u, n⟩ : Entry) ∈ es
    · refine ⟨fun hn => ?_, fun _ => ?_⟩
      · rw [List.nodup_append] at hn
        exact absurd rfl (hn.2.2 _ hm ⟨b, t, u, n⟩ (by simp [fs]))
      · simp only [storeAll, s1 hm, err_bind]
    · obtain ⟨c', e, hr, e1, e2, e3⟩ := s2 hm
      have := ih hr (i := i) (j := j) (by rw [e1]; exact hi) (by rw [e2]; exact hj) n
      have hfs : es ++ [⟨b, t, u, n⟩] ++ bs.map (fun b => (⟨b, t, u, n⟩ : Entry)) = es ++ fs := by simp [fs]
      simp only [hfs] at this
      refine ⟨fun hn => ?_, fun hn => ?_⟩
      · obtain ⟨c'', k1, k2, k3, k4, k5⟩ := this.1 hn
        exact ⟨c'', by simp only [storeAll, e, ok_bind, k1], k2, k3.trans e1, k4.trans e2, k5.trans e3⟩
      · simp only [storeAll, e, ok_bind, this.2 hn]

/-- What has been collected from the declarations `ds` (with their files). -/
structure Full (c : Coll) (ds : List (Text × Decl)) : Prop where
  rep : Rep c (entries (ds.map Prod.snd))
  ins : c.intype = distinct (ds.map fun d => d.2.intype)
  outs : c.outtype = distinct (ds.map fun d => d.2.outtype)
  files : c.filename = distinct (ds.map Prod.fst)

theorem distinct_snoc (l : List Text) (t : Text) : distinct (l ++ [t]) = distinctStep (distinct l) t := by
  simp only [distinct, List.foldl_append, List.foldl_cons, List.foldl_nil, distinctStep]
  congr

theorem entries_eq_tables (d : Decl) : d.entries = (tables d.base).map fun b => ⟨b, d.intype, d.outtype, d.name⟩ := by
  obtain ⟨b, n, i, o⟩ := d
  cases b <;> rfl

/-- The outcome of collecting `ds`. -/
def Outcome (r : Res Coll) (ds : List (Text × Decl)) : Prop :=
  ((entries (ds.map Prod.snd)).Nodup ∧ ∃ c, r = .ok c ∧ Full c ds) ∨
    (¬ (entries (ds.map Prod.snd)).Nodup ∧ r = .error (.exit 1))

theorem entries_append (a b : List Decl) : entries (a ++ b) = entries a ++ entries b := by simp [entries]

theorem Outcome.bind {r : Res Coll} {ds ds' : List (Text × Decl)} {f : Coll → Res Coll} (h : Outcome r ds)
    (hf : ∀ c, Full c ds → Outcome (f c) (ds ++ ds')) : Outcome (r >>= f) (ds ++ ds') := by
  rcases h with ⟨_, c, rfl, hc⟩ | ⟨hn, rfl⟩
  · exact hf c hc
  · refine .inr ⟨fun hn' => hn ?_, rfl⟩
    rw [List.map_append, entries_append, List.nodup_append] at hn'
    exact hn'.1

variable (find : Base → Text → Option (Text × Text × Text))

/-- One class recognised: tables and types, but not yet the file name. -/
theorem scanClass_some {c : Coll} {ds : List (Text × Decl)} (h : Full c ds) {line : Text} {b : Base} {n i o : Text}
    (hf : find b line = some (n, i, o)) :
    let es := entries (ds.map Prod.snd) ++ Decl.entries ⟨b, n, i, o⟩
    (es.Nodup → ∃ c', scanClass find c line b = .ok (true, c') ∧ Rep c' es ∧ c'.intype = distinctStep c.intype i ∧
      c'.outtype = distinctStep c.outtype o ∧ c'.filename = c.filename) ∧
    (¬ es.Nodup → scanClass find c line b = .error (.exit 1)) := by
  intro es
  obtain ⟨a1, a2, a3, a4, a5⟩ := addIntype_rep h.rep i
  obtain ⟨k, c2, b1, b2, b3, b4, b5, b6⟩ := addOuttype_rep a1 o
  have hs := storeAll_rep (tables b) b2 (i := (c.addIntype i).1) (j := k) (by rw [b5]; exact a2) b3 n
  rw [← entries_eq_tables ⟨b, n, i, o⟩] at hs
  simp only at hs
  constructor
  · intro hn
    obtain ⟨c3, e1, e2, e3, e4, e5⟩ := hs.1 hn
    refine ⟨c3, ?_, e2, ?_, ?_, ?_⟩
    · simp only [scanClass, hf, b1, ok_bind, e1]
    · rw [e3, b5, a3]
    · rw [e4, b4, a4]
    · rw [e5, b6, a5]
  · intro hn
    simp only [scanClass, hf, b1, ok_bind, hs.2 hn, err_bind]

theorem tryBases_true (line : Text) (bs : List Base) (c : Coll) : tryBases find line bs true c = .ok (true, c) := by
  induction bs with
  | nil => rfl
  | cons b bs ih => simp only [tryBases, if_true, ok_bind, ih]

theorem tryBases_spec {c : Coll} {ds : List (Text × Decl)} (h : Full c ds) (line : Text) (bs : List Base) :
    match bs.findSome? fun b => (find b line).map fun (n, i, o) => (⟨b, n, i, o⟩ : Decl) with
    | none => tryBases find line bs false c = .ok (false, c)
    | some d =>
      let es := entries (ds.map Prod.snd) ++ d.entries
      (es.Nodup → ∃ c', tryBases find line bs false c = .ok (true, c') ∧ Rep c' es ∧ c'.intype = distinctStep c.intype d.intype ∧
        c'.outtype = distinctStep c.outtype d.outtype ∧ c'.filename = c.filename) ∧
      (¬ es.Nodup → tryBases find line bs false c = .error (.exit 1)) := by
  induction bs with
  | nil => rfl
  | cons b bs ih =>
    cases hf : find b line with
    | none =>
      have e : tryBases find line (b :: bs) false c = tryBases find line bs false c := by
        simp only [tryBases, scanClass, hf, ok_bind, Bool.false_eq_true, if_false]
      simp only [List.findSome?_cons, hf, Option.map_none, e]
      exact ih
    | some x =>
      obtain ⟨n, i, o⟩ := x
      simp only [List.findSome?_cons, hf, Option.map_some]
      obtain ⟨s1, s2⟩ := scanClass_some find h hf
      constructor
      · intro hn
        obtain ⟨c', e, r⟩ := s1 hn
        refine ⟨c', ?_, r⟩
        simp only [tryBases, Bool.false_eq_true, if_false, e, ok_bind, tryBases_true]
      · intro hn
        simp only [tryBases, Bool.false_eq_true, if_false, s2 hn, err_bind]

theorem scanLine_outcome {c : Coll} {ds : List (Text × Decl)} (h : Full c ds) (file line : Text) :
    Outcome (scanLine find file c line) (ds ++ (declOf find line).toList.map fun x => (file, x)) := by
  have ht := tryBases_spec find h line [.simple, .func, .pwSimple, .pwFunc, .basis]
  change match declOf find line with | none => _ | some d => _ at ht
  cases hd : declOf find line with
  | none =>
    rw [hd] at ht
    simp only at ht
    simp only [scanLine, ht, ok_bind, Option.toList_none, List.map_nil, List.append_nil]
    exact .inl ⟨h.rep.nodup, c, rfl, h⟩
  | some d =>
    rw [hd] at ht
    simp only [Option.toList_some, List.map_cons, List.map_nil] at ht ⊢
    have he : entries ((ds ++ [(file, d)]).map Prod.snd) = entries (ds.map Prod.snd) ++ d.entries := by
      simp [entries]
    by_cases hn : (entries (ds.map Prod.snd) ++ d.entries).Nodup
    · obtain ⟨c', e, hr, h1, h2, h3⟩ := ht.1 hn
      refine .inl ⟨by rw [he]; exact hn, { c' with filename := distinctStep c.filename file }, ?_, ?_⟩
      · simp only [scanLine, e, ok_bind, if_true, h3, distinctStep]
        by_cases hm : file ∈ c.filename
        · simp only [hm, if_true]; rw [← h3]
        · simp only [hm, if_false]
      · refine ⟨by rw [he]; exact hr.filename _, ?_, ?_, ?_⟩
        · show c'.intype = _
          rw [h1, h.ins, List.map_append, List.map_cons, List.map_nil, distinct_snoc]
        · show c'.outtype = _
          rw [h2, h.outs, List.map_append, List.map_cons, List.map_nil, distinct_snoc]
        · show distinctStep c.filename file = _
          rw [h.files, List.map_append, List.map_cons, List.map_nil, distinct_snoc]
    · refine .inr ⟨by rw [he]; exact hn, ?_⟩
      simp only [scanLine, ht.2 hn, err_bind]

theorem scanFile_outcome (file : Text) (lines : List Text) : ∀ {c : Coll} {ds : List (Text × Decl)}, Full c ds →
    Outcome (scanFile find file lines c) (ds ++ (lines.filterMap (declOf find)).map fun x => (file, x)) := by
  induction lines with
  | nil => intro c ds h; simp only [List.filterMap_nil, List.map_nil, List.append_nil]; exact .inl ⟨h.rep.nodup, c, rfl, h⟩
  | cons l ls ih =>
    intro c ds h
    have e : ds ++ ((l :: ls).filterMap (declOf find)).map (fun x => (file, x))
        = (ds ++ (declOf find l).toList.map fun x => (file, x)) ++ (ls.filterMap (declOf find)).map (fun x => (file, x)) := by
      cases hd : declOf find l <;> simp [hd]
    rw [e]
    exact (scanLine_outcome find h file l).bind fun c' h' => ih h'

theorem scanFiles_outcome (fs : Dir) : ∀ {c : Coll} {ds : List (Text × Decl)}, Full c ds →
    Outcome (scanFiles find fs c) (ds ++ fs.flatMap fun f => (f.2.filterMap (declOf find)).map fun x => (f.1, x)) := by
  induction fs with
  | nil => intro c ds h; simp only [List.flatMap_nil, List.append_nil]; exact .inl ⟨h.rep.nodup, c, rfl, h⟩
  | cons f fs ih =>
    intro c ds h
    rw [List.flatMap_cons, ← List.append_assoc]
    exact (scanFile_outcome find f.1 f.2 h).bind fun c' h' => ih h'

theorem collectFrom_outcome (dirs : List Dir) : ∀ {c : Coll} {ds : List (Text × Decl)}, Full c ds →
    Outcome (collectFrom find dirs c) (ds ++ declared find dirs) := by
  induction dirs with
  | nil => intro c ds h; simp only [declared, List.flatMap_nil, List.append_nil]; exact .inl ⟨h.rep.nodup, c, rfl, h⟩
  | cons d dirs ih =>
    intro c ds h
    have hfil : (d.filter fun f => isGeneratedHeader f.1) = d.filter (fun f => @decide (IsLibraryHeader f.1) (Classical.propDecidable _)) := by
      refine List.filter_congr fun f _ => ?_
      rw [Bool.eq_iff_iff, isGeneratedHeader_iff]; exact (@decide_eq_true_iff _ (Classical.propDecidable _)).symm
    have e : ds ++ declared find (d :: dirs) =
        (ds ++ (d.filter fun f => isGeneratedHeader f.1).flatMap fun f => (f.2.filterMap (declOf find)).map fun x => (f.1, x)) ++
          declared find dirs := by
      rw [hfil]; simp [declared]
    rw [e]
    exact (scanFiles_outcome find _ h).bind fun c' h' => ih h'

theorem collect_outcome (dirs : List Dir) : Outcome (collect find dirs) (declared find dirs) := by
  have := collectFrom_outcome find dirs (c := empty) (ds := []) ⟨rep_empty, rfl, rfl, rfl⟩
  rw [List.nil_append] at this; exact this

end Coll
end Verif
