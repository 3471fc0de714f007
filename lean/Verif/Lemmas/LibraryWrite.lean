import Verif.Lemmas.Library

/-! Helper lemmas about the library writer: what is written. -/

namespace Verif
open Spec
namespace Coll

theorem forIdx_list {α β : Type} (f : Nat → Res (List α)) (h : β → List α) (l : List β) : ∀ s : Nat,
    (∀ (i : Nat) t, l[i]? = some t → f (s + i) = .ok (h t)) → forIdx f (List.range' s l.length) = .ok (l.flatMap h) := by
  induction l with
  | nil => intro s _; rfl
  | cons a l ih =>
    intro s hf
    rw [List.length_cons, List.range'_succ, forIdx]
    have h0 := hf 0 a rfl
    rw [Nat.add_zero] at h0
    have hr := ih (s + 1) fun i t ht => by
      have := hf (i + 1) t (by simpa using ht)
      rwa [show s + 1 + i = s + (i + 1) by omega]
    rw [h0, hr]
    rfl

theorem forPairs_list {α : Type} (c : Coll) (f : Nat → Nat → Res (List α)) (h : Text → Text → List α)
    (hf : ∀ (i j : Nat) t u, c.intype[i]? = some t → c.outtype[j]? = some u → f i j = .ok (h t u)) :
    c.forPairs f = .ok (c.intype.flatMap fun t => c.outtype.flatMap (h t)) := by
  unfold forPairs
  rw [List.range_eq_range', List.range_eq_range']
  refine forIdx_list _ (fun t => c.outtype.flatMap (h t)) c.intype 0 fun i t ht => ?_
  rw [Nat.zero_add]
  refine forIdx_list _ (h t) c.outtype 0 fun j u hu => ?_
  rw [Nat.zero_add]
  exact hf i j t u ht hu

theorem cell_rep {c : Coll} {es : List Entry} (h : Rep c es) (b : Base) {i j : Nat} {t u : Text} (hi : c.intype[i]? = some t)
    (hj : c.outtype[j]? = some u) : c.cell b i j = .ok (namesOf es b t u) := by
  obtain ⟨row, h1, h2⟩ := h.cells b i j t u hi hj
  obtain ⟨h1l, h1e⟩ := List.getElem?_eq_some_iff.mp h1
  obtain ⟨h2l, h2e⟩ := List.getElem?_eq_some_iff.mp h2
  simp only [cell, vget_nat _ _ h1l, h1e, ok_bind, vget_nat _ _ h2l, h2e]

/-- The table that decides whether functions of a kind are written. -/
def _root_.Verif.Spec.Kind.tab : Kind → Base
  | .simpleFunction | .simpleBase => .simple
  | .function | .funcBase => .func
  | .pwSimpleBase => .pwSimple
  | .pwFuncBase => .pwFunc
  | .basisSet | .basisSetBase => .basis

/-- The names in the alternatives. -/
def _root_.Verif.Spec.Kind.names (es : List Entry) (k : Kind) (t u : Text) : List Text :=
  namesOf es k.tab t u ++ (if k = .simpleFunction then namesOf es .pwSimple t u else [])

/-- What is listed as a piecewise class is also listed as the class it extends. -/
structure PwSub (es : List Entry) : Prop where
  simple : ∀ t u n, (⟨.pwSimple, t, u, n⟩ : Entry) ∈ es → (⟨.simple, t, u, n⟩ : Entry) ∈ es
  func : ∀ t u n, (⟨.pwFunc, t, u, n⟩ : Entry) ∈ es → (⟨.func, t, u, n⟩ : Entry) ∈ es

theorem pwSub_entries (ds : List Decl) : PwSub (entries ds) := by
  constructor <;>
  · intro t u n h
    simp only [entries, List.mem_flatMap] at h ⊢
    obtain ⟨d, hd, h⟩ := h
    refine ⟨d, hd, ?_⟩
    obtain ⟨b, n', i, o⟩ := d
    cases b <;> simp [Decl.entries] at h ⊢ <;> tauto

theorem headerHas_rep {c : Coll} {es : List Entry} (h : Rep c es) (k : Kind) {i j : Nat} {t u : Text} (hi : c.intype[i]? = some t)
    (hj : c.outtype[j]? = some u) : c.headerHas k i j = .ok (decide ((namesOf es k.tab t u).length > 0)) := by
  cases k <;> simp only [headerHas, cell_rep h _ hi hj, ok_bind] <;> rfl

theorem sourceHas_rep {c : Coll} {es : List Entry} (h : Rep c es) (hp : PwSub es) (k : Kind) {i j : Nat} {t u : Text}
    (hi : c.intype[i]? = some t) (hj : c.outtype[j]? = some u) :
    c.sourceHas k i j = .ok (decide ((namesOf es k.tab t u).length > 0)) := by
  have es' : namesOf es .simple t u = [] → namesOf es .pwSimple t u = [] := fun h0 =>
    namesOf_eq_nil fun n hn => by have := mem_namesOf.mpr (hp.simple t u n hn); rw [h0] at this; cases this
  have ef' : namesOf es .func t u = [] → namesOf es .pwFunc t u = [] := fun h0 =>
    namesOf_eq_nil fun n hn => by have := mem_namesOf.mpr (hp.func t u n hn); rw [h0] at this; cases this
  cases k <;> simp only [sourceHas, cell_rep h _ hi hj, ok_bind]
  case simpleBase =>
    show _ = Except.ok (decide ((namesOf es .simple t u).length > 0))
    by_cases h0 : namesOf es .simple t u = []
    · simp [h0, es' h0]
    · have h1 := List.length_pos_iff.mpr h0
      simp [h1]
  case funcBase =>
    show _ = Except.ok (decide ((namesOf es .func t u).length > 0))
    by_cases h0 : namesOf es .func t u = []
    · simp [h0, ef' h0]
    · have h1 := List.length_pos_iff.mpr h0
      simp [h1]
  all_goals rfl

theorem sourceNames_rep {c : Coll} {es : List Entry} (h : Rep c es) (k : Kind) {i j : Nat} {t u : Text}
    (hi : c.intype[i]? = some t) (hj : c.outtype[j]? = some u) : c.sourceNames k i j = .ok (k.names es t u) := by
  cases k <;> simp [sourceNames, cell_rep h _ hi hj, Kind.names, Kind.tab]

/-- The signatures written for a kind and a pair of types. -/
def sigsOf (es : List Entry) (var : List Text) (k : Kind) (t u : Text) : List Text :=
  if (namesOf es k.tab t u).length > 0 then (kindTypes k var t).map fun a => signature k a.1 u else []

/-- The functions written for a kind and a pair of types. -/
def funsOf (es : List Entry) (var : List Text) (k : Kind) (t u : Text) : List Checkout :=
  if (namesOf es k.tab t u).length > 0 then (kindTypes k var t).map fun a => ⟨signature k a.1 u, (k.names es t u).map (inst a.2)⟩ else []

theorem headerKind_rep {c : Coll} {es : List Entry} (h : Rep c es) (var : List Text) (k : Kind) :
    c.headerKind var k = .ok (c.intype.flatMap fun t => c.outtype.flatMap (sigsOf es var k t)) := by
  refine forPairs_list c _ _ fun i j t u hi hj => ?_
  obtain ⟨h1l, h1e⟩ := List.getElem?_eq_some_iff.mp hi
  obtain ⟨h2l, h2e⟩ := List.getElem?_eq_some_iff.mp hj
  simp only [headerHas_rep h k hi hj, ok_bind, vget_nat _ _ h1l, vget_nat _ _ h2l, h1e, h2e, sigsOf]
  by_cases h0 : (namesOf es k.tab t u).length > 0 <;> simp only [h0, decide_true, decide_false, if_true, if_false, ok_bind, Bool.false_eq_true]

theorem sourceKind_rep {c : Coll} {es : List Entry} (h : Rep c es) (hp : PwSub es) (var : List Text) (k : Kind) :
    c.sourceKind var k = .ok (c.intype.flatMap fun t => c.outtype.flatMap (funsOf es var k t)) := by
  refine forPairs_list c _ _ fun i j t u hi hj => ?_
  obtain ⟨h1l, h1e⟩ := List.getElem?_eq_some_iff.mp hi
  obtain ⟨h2l, h2e⟩ := List.getElem?_eq_some_iff.mp hj
  simp only [sourceHas_rep h hp k hi hj, ok_bind, vget_nat _ _ h1l, vget_nat _ _ h2l, h1e, h2e, funsOf, sourceNames_rep h k hi hj]
  by_cases h0 : (namesOf es k.tab t u).length > 0 <;> simp only [h0, decide_true, decide_false, if_true, if_false, ok_bind, Bool.false_eq_true]

theorem forKinds_list {α : Type} (f : Kind → Res (List α)) (g : Kind → List α) (ks : List Kind) (h : ∀ k, f k = .ok (g k)) :
    forKinds f ks = .ok (ks.flatMap g) := by
  induction ks with
  | nil => rfl
  | cons k ks ih => simp [forKinds, h, ih]

/-- All signatures. -/
def allSigs (c : Coll) (es : List Entry) (var : List Text) : List Text :=
  kinds.flatMap fun k => c.intype.flatMap fun t => c.outtype.flatMap (sigsOf es var k t)

/-- All functions. -/
def allFuns (c : Coll) (es : List Entry) (var : List Text) : List Checkout :=
  kinds.flatMap fun k => c.intype.flatMap fun t => c.outtype.flatMap (funsOf es var k t)

theorem writeHeader_rep {c : Coll} {es : List Entry} (h : Rep c es) (var : List Text) : c.writeHeader var = .ok (allSigs c es var) :=
  forKinds_list _ _ _ fun k => headerKind_rep h var k

theorem writeSource_rep {c : Coll} {es : List Entry} (h : Rep c es) (hp : PwSub es) (var : List Text) :
    c.writeSource var = .ok (allFuns c es var) :=
  forKinds_list _ _ _ fun k => sourceKind_rep h hp var k

theorem allFuns_sig (c : Coll) (es : List Entry) (var : List Text) : (allFuns c es var).map Checkout.sig = allSigs c es var := by
  simp only [allFuns, allSigs, List.map_flatMap]
  congr 1; funext k; congr 1; funext t; congr 1; funext u
  unfold funsOf sigsOf
  split <;> simp

theorem mem_allFuns {c : Coll} {es : List Entry} {var : List Text} {f : Checkout} : f ∈ allFuns c es var ↔
    ∃ k t u a, t ∈ c.intype ∧ u ∈ c.outtype ∧ (namesOf es (Kind.tab k) t u).length > 0 ∧ a ∈ kindTypes k var t ∧
      f = ⟨signature k a.1 u, (k.names es t u).map (inst a.2)⟩ := by
  simp only [allFuns, List.mem_flatMap]
  constructor
  · rintro ⟨k, _, t, ht, u, hu, hf⟩
    unfold funsOf at hf
    split at hf
    · rename_i h0
      obtain ⟨a, ha, rfl⟩ := List.mem_map.mp hf
      exact ⟨k, t, u, a, ht, hu, h0, ha, rfl⟩
    · cases hf
  · rintro ⟨k, t, u, a, ht, hu, h0, ha, rfl⟩
    refine ⟨k, by cases k <;> simp [kinds], t, ht, u, hu, ?_⟩
    unfold funsOf
    rw [if_pos h0]
    exact List.mem_map.mpr ⟨a, ha, rfl⟩

/-- Running a function written for names. -/
theorem run_inst (sig : Text) (v : Option Text) (names : List Text) (n : Text) :
    (⟨sig, names.map (inst v)⟩ : Checkout).run n = if n ∈ names then .ok (inst v n).2 else .error .runtimeError := by
  have hi : ∀ m, (inst v m).1 = m := fun m => by cases v <;> rfl
  unfold Checkout.run
  induction names with
  | nil => rfl
  | cons m ns ih =>
    simp only [List.map_cons, List.find?_cons, hi]
    by_cases h : m = n
    · subst h; simp
    · have : (m == n) = false := by simpa using h
      simp only [this]
      simp only at ih
      rw [ih]
      have h' : ¬ n = m := fun e => h e.symm
      simp [h']

/-! ## Signatures -/

theorem sig_prefix {k k' : Kind} (h : ("checkout( std::string name, " ++ k.cls ++ "< ").toList <+: ("checkout( std::string name, " ++ k'.cls ++ "< ").toList) :
    k = k' := by
  revert h
  cases k <;> cases k' <;> first | (intro _; rfl) | decide +kernel

theorem comma_space : ", ".toList = [',', ' '] := by decide

theorem signature_inj {k k' : Kind} {i i' o o' : Text} (ho : ',' ∉ o) (ho' : ',' ∉ o') (h : signature k i o = signature k' i' o') :
    k = k' ∧ i = i' ∧ o = o' := by
  simp only [signature, List.append_assoc] at h
  have hk : k = k' := by
    rcases List.append_eq_append_iff.mp h with ⟨x, e, _⟩ | ⟨x, e, _⟩
    · exact sig_prefix ⟨x, e.symm⟩
    · exact (sig_prefix ⟨x, e.symm⟩).symm
  subst hk
  have h1 := List.append_cancel_left h
  rw [← List.append_assoc, ← List.append_assoc, ← List.append_assoc i', ← List.append_assoc (i' ++ _)] at h1
  have h2 := List.append_cancel_right h1
  rw [comma_space] at h2
  have h3 := congrArg List.reverse h2
  simp only [List.reverse_append, List.reverse_cons, List.reverse_nil, List.nil_append, List.append_assoc, List.cons_append] at h3
  have key : ∀ {x y u v : Text}, ',' ∉ x → ',' ∉ y → x ++ ' ' :: ',' :: u = y ++ ' ' :: ',' :: v → x = y ∧ u = v := by
    intro x y u v hx hy e
    rcases List.append_eq_append_iff.mp e with ⟨z, e1, e2⟩ | ⟨z, e1, e2⟩
    · rcases z with _ | ⟨c, _ | ⟨d, z⟩⟩
      · simp only [List.append_nil] at e1
        simp only [List.nil_append, List.cons.injEq, true_and] at e2
        exact ⟨e1.symm, e2⟩
      · simp at e2
      · simp only [List.cons_append, List.cons.injEq] at e2
        exact absurd (by rw [e1, ← e2.2.1]; simp) hy
    · rcases z with _ | ⟨c, _ | ⟨d, z⟩⟩
      · simp only [List.append_nil] at e1
        simp only [List.nil_append, List.cons.injEq, true_and] at e2
        exact ⟨e1, e2.symm⟩
      · simp at e2
      · simp only [List.cons_append, List.cons.injEq] at e2
        exact absurd (by rw [e1, ← e2.2.1]; simp) hx
  obtain ⟨r1, r2⟩ := key (by simpa using ho) (by simpa using ho') h3
  exact ⟨rfl, List.reverse_inj.mp r2, List.reverse_inj.mp r1⟩

theorem mem_sigsOf {es : List Entry} {var : List Text} {k : Kind} {t u s : Text} (h : s ∈ sigsOf es var k t u) :
    ∃ a ∈ kindTypes k var t, s = signature k a.1 u := by
  unfold sigsOf at h
  split at h
  · obtain ⟨a, ha, rfl⟩ := List.mem_map.mp h
    exact ⟨a, ha, rfl⟩
  · cases h

theorem kindTypes_iff {k : Kind} {var : List Text} {t : Text} {a : Text × Option Text} :
    a ∈ kindTypes k var t ↔ Instance k var t a.1 a.2 := by
  obtain ⟨i, v⟩ := a
  unfold Instance kindTypes intypes
  generalize "VarContainer".toList = V
  by_cases ht : t = V
  · cases k <;> simp [ht] <;> intro _ <;> exact eq_comm
  · cases k <;> simp [ht]

/-- The types of one kind differ. -/
theorem kindTypes_nodup {k : Kind} {var : List Text} (hv : var.Nodup) (t : Text) : ((kindTypes k var t).map Prod.fst).Nodup := by
  unfold kindTypes intypes
  generalize "VarContainer".toList = V
  cases k <;> simp <;> split <;> simp [Function.comp_def, hv]

theorem allSigs_nodup {c : Coll} {es : List Entry} {var : List Text} (h : Rep c es) (ho : ∀ o ∈ c.outtype, ',' ∉ o) (hv : var.Nodup)
    (hd : ∀ v ∈ var, v ∉ c.intype) : (allSigs c es var).Nodup := by
  have inst_eq : ∀ {k t t'} {a a' : Text × Option Text}, t ∈ c.intype → t' ∈ c.intype → a ∈ kindTypes k var t → a' ∈ kindTypes k var t' →
      a.1 = a'.1 → t = t' := by
    intro k t t' a a' ht ht' ha ha' e
    rw [kindTypes_iff] at ha ha'
    unfold Instance at ha ha'
    split at ha <;> split at ha'
    · rename_i h1 h2; exact h1.1.trans h2.1.symm
    · exact absurd ht' (by rw [← ha'.1, ← e]; exact hd _ ha.1)
    · exact absurd ht (by rw [← ha.1, e]; exact hd _ ha'.1)
    · rw [← ha.1, ← ha'.1, e]
  have hmem : ∀ {k s}, s ∈ c.intype.flatMap (fun t => c.outtype.flatMap (sigsOf es var k t)) →
      ∃ t ∈ c.intype, ∃ u ∈ c.outtype, ∃ a ∈ kindTypes k var t, s = signature k a.1 u := by
    intro k s hs
    simp only [List.mem_flatMap] at hs
    obtain ⟨t, ht, u, hu, hs⟩ := hs
    obtain ⟨a, ha, e⟩ := mem_sigsOf hs
    exact ⟨t, ht, u, hu, a, ha, e⟩
  unfold allSigs
  rw [List.nodup_flatMap]
  refine ⟨fun k _ => ?_, ?_⟩
  · rw [List.nodup_flatMap]
    refine ⟨fun t ht => ?_, ?_⟩
    · rw [List.nodup_flatMap]
      refine ⟨fun u hu => ?_, ?_⟩
      · unfold sigsOf
        split
        · have e : (kindTypes k var t).map (fun a => signature k a.1 u) = ((kindTypes k var t).map Prod.fst).map (fun i => signature k i u) := by
            simp [Function.comp_def]
          rw [e]
          refine List.Nodup.map (fun i i' hi => ?_) (kindTypes_nodup hv t)
          exact (signature_inj (ho u hu) (ho u hu) hi).2.1
        · exact .nil
      · refine List.Pairwise.imp_of_mem ?_ h.outs
        intro u u' hu hu' hne
        intro s hs hs'
        obtain ⟨a, ha, rfl⟩ := mem_sigsOf hs
        obtain ⟨a', ha', e⟩ := mem_sigsOf hs'
        exact hne (signature_inj (ho u hu) (ho u' hu') e).2.2
    · refine List.Pairwise.imp_of_mem ?_ h.ins
      intro t t' ht ht' hne
      intro s hs hs'
      simp only [List.mem_flatMap] at hs hs'
      obtain ⟨u, hu, hs⟩ := hs
      obtain ⟨u', hu', hs'⟩ := hs'
      obtain ⟨a, ha, rfl⟩ := mem_sigsOf hs
      obtain ⟨a', ha', e⟩ := mem_sigsOf hs'
      exact hne (inst_eq ht ht' ha ha' (signature_inj (ho u hu) (ho u' hu') e).2.1)
  · have hk : kinds.Nodup := by decide
    refine List.Pairwise.imp_of_mem ?_ hk
    intro k k' _ _ hne
    intro s hs hs'
    obtain ⟨t, ht, u, hu, a, ha, rfl⟩ := hmem hs
    obtain ⟨t', ht', u', hu', a', ha', e⟩ := hmem hs'
    exact hne (signature_inj (ho u hu) (ho u' hu') e).1

end Coll
end Verif
