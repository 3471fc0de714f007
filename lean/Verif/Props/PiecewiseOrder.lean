import Verif.Props.Piecewise

/-!
# Property C150: lists of pieces that describe the same function

The order of pieces that do not overlap (or agree where they do), the order of the conditions of a piece, and pieces that are never the first to apply do not matter.
-/

namespace Verif
open Spec
variable {V O : Type}

/-- All conditions of the piece hold at the point. -/
def PieceDef.AppliesAt (d : PieceDef V O) (v : V) : Prop := ∀ o ∈ d.conds, o.evalFn v = .ok true

theorem appliesAt_iff {d : PieceDef V O} {v : V} : (d.region.all fun b => b v) = true ↔ d.AppliesAt v := by
  simp only [PieceDef.region, PieceDef.AppliesAt, List.all_map, List.all_eq_true, Function.comp, holdsAt]
  refine forall₂_congr fun o _ => ?_
  cases o.evalFn v with
  | error e => simp
  | ok b => simp

/-- What `firstPiece` finds. -/
theorem firstPiece_spec {defs : List (PieceDef V O)} {v : V} :
    (firstPiece (defs.map PieceDef.region) v = none ∧ ∀ d ∈ defs, ¬ d.AppliesAt v) ∨
    ∃ i d, firstPiece (defs.map PieceDef.region) v = some i ∧ defs[i]? = some d ∧ d.AppliesAt v := by
  cases hi : firstPiece (defs.map PieceDef.region) v with
  | none =>
    refine .inl ⟨rfl, fun d hd h => ?_⟩
    rw [firstPiece, List.findIdx?_eq_none_iff] at hi
    have := hi d.region (List.mem_map_of_mem hd)
    rw [appliesAt_iff.mpr h] at this
    cases this
  | some i =>
    rw [firstPiece, List.findIdx?_eq_some_iff_getElem] at hi
    obtain ⟨h1, h2, _⟩ := hi
    simp only [List.length_map] at h1
    refine .inr ⟨i, defs[i], rfl, List.getElem?_eq_getElem h1, appliesAt_iff.mp (by simpa using h2)⟩

/-- The result of one evaluation, in terms of the definitions. -/
theorem single_spec {n : Nat} {defs : List (PieceDef V O)} {ps : List (Piece (Flex V O) V)} (hb : Built n defs ps)
    (calls : List (FCall V)) (hcalls : ∀ c ∈ calls, c.InRange n) (v : V) (c : Comp) (hc : (getter c : FCall V).InRange n) :
    ((pwSem (single v c) (runCalls pwSem calls (PWFunc.make ps)).2).1 = .error .domainError ∧ ∀ d ∈ defs, ¬ d.AppliesAt v) ∨
    ∃ d ∈ defs, d.AppliesAt v ∧ (pwSem (single v c) (runCalls pwSem calls (PWFunc.make ps)).2).1 = (d.fn c v).map .num := by
  rcases firstPiece_spec (defs := defs) (v := v) with ⟨h1, h2⟩ | ⟨i, d, h1, h2, h3⟩
  · refine .inl ⟨?_, h2⟩
    have h := ((hb.rep).run calls hcalls).1.single v c hc
    rw [hb.regions, h1] at h
    exact h
  · obtain ⟨d', e1, e2⟩ := C55_first_piece hb calls hcalls v c hc i h1
    rw [h2] at e1; cases e1
    exact .inr ⟨d, List.mem_of_getElem? h2, h3, e2⟩

/-- The result of one evaluation is that of the first definition that applies. -/
theorem single_find {n : Nat} {defs : List (PieceDef V O)} {ps : List (Piece (Flex V O) V)} (hb : Built n defs ps)
    (calls : List (FCall V)) (hcalls : ∀ c ∈ calls, c.InRange n) (v : V) (c : Comp) (hc : (getter c : FCall V).InRange n) :
    (pwSem (single v c) (runCalls pwSem calls (PWFunc.make ps)).2).1 =
      match defs.find? fun d => d.region.all fun b => b v with
      | some d => (d.fn c v).map .num
      | none => .error .domainError := by
  have h := ((hb.rep).run calls hcalls).1.single v c hc
  rw [hb.regions] at h
  rw [h, List.find?_eq_bind_findIdx?_getElem?, firstPiece, List.findIdx?_map]
  change (match defs.findIdx? fun d => d.region.all fun b => b v with
    | some i => match (defs.map fun (d : PieceDef V O) => (⟨d.fn, d.region⟩ : PieceIs V O))[i]? with
      | some d => (d.F c v).map FOut.num
      | none => (.error (.ub .oob) : Res (FOut V O))
    | none => .error .domainError) = _
  cases hi : defs.findIdx? fun d => d.region.all fun b => b v with
  | none => rfl
  | some i =>
    obtain ⟨h1, _⟩ := List.findIdx?_eq_some_iff_getElem.mp hi
    simp [h1]

/-- **C150** Two piecewise functions made of the same pieces in different orders, where pieces that both apply at a point have the same value (gradient, Hessian)
there. Every evaluation has the same outcome, after any histories. -/
theorem C150_order {n : Nat} {defs defs' : List (PieceDef V O)} {ps ps' : List (Piece (Flex V O) V)} (hb : Built n defs ps) (hb' : Built n defs' ps')
    (hperm : defs.Perm defs') (v : V) (c : Comp) (hc : (getter c : FCall V).InRange n)
    (hag : ∀ d ∈ defs, ∀ d' ∈ defs, d.AppliesAt v → d'.AppliesAt v → d.fn c v = d'.fn c v)
    (calls calls' : List (FCall V)) (hcalls : ∀ c ∈ calls, c.InRange n) (hcalls' : ∀ c ∈ calls', c.InRange n) :
    (pwSem (single v c) (runCalls pwSem calls (PWFunc.make ps)).2).1 = (pwSem (single v c) (runCalls pwSem calls' (PWFunc.make ps')).2).1 := by
  rcases single_spec hb calls hcalls v c hc with ⟨h1, h2⟩ | ⟨d, h1, h2, h3⟩ <;>
    rcases single_spec hb' calls' hcalls' v c hc with ⟨k1, k2⟩ | ⟨d', k1, k2, k3⟩
  · rw [h1, k1]
  · exact absurd k2 (h2 d' (hperm.mem_iff.mpr k1))
  · exact absurd h2 (k2 d (hperm.mem_iff.mp h1))
  · rw [h3, k3, hag d h1 d' (hperm.mem_iff.mpr k1) h2 k2]

/-- **C150** `in_piece` does not depend on the order of the pieces at all. -/
theorem C150_in_piece {n : Nat} {defs defs' : List (PieceDef V O)} {ps ps' : List (Piece (Flex V O) V)} (hb : Built n defs ps) (hb' : Built n defs' ps')
    (hperm : defs.Perm defs') (v : V) (calls calls' : List (FCall V)) (hcalls : ∀ c ∈ calls, c.InRange n) (hcalls' : ∀ c ∈ calls', c.InRange n) :
    PWFunc.inPiece (runCalls pwSem calls (PWFunc.make ps)).2.pieces v = PWFunc.inPiece (runCalls pwSem calls' (PWFunc.make ps')).2.pieces v ∧
    ∃ b, PWFunc.inPiece (runCalls pwSem calls (PWFunc.make ps)).2.pieces v = .ok b ∧ (b = true ↔ ∃ d ∈ defs, d.AppliesAt v) := by
  have key : ∀ {defs : List (PieceDef V O)} {ps} (_ : Built n defs ps) (calls : List (FCall V)) (_ : ∀ c ∈ calls, c.InRange n),
      PWFunc.inPiece (runCalls pwSem calls (PWFunc.make ps)).2.pieces v = .ok (defs.any fun d => d.region.all fun b => b v) := by
    intro defs ps hb calls hcalls
    have hr := ((hb.rep).run calls hcalls).1.regions
    rw [hb.regions] at hr
    rw [(C56_outside (flexCls V O) _ _ hr v (.evalAt v) rfl).1, List.any_map]
    rfl
  refine ⟨?_, _, key hb calls hcalls, ?_⟩
  · rw [key hb calls hcalls, key hb' calls' hcalls', hperm.any_eq]
  · simp only [List.any_eq_true]
    exact exists_congr fun d => and_congr_right fun _ => appliesAt_iff

/-- **C150** The same for the functions that `simplefunction()`, `grad_simplefunction(di)` and `hess_simplefunction(di, dj)` give. -/
theorem C150_simple {n : Nat} {defs defs' : List (PieceDef V O)} {ps ps' : List (Piece (Flex V O) V)} (hb : Built n defs ps) (hb' : Built n defs' ps')
    (hperm : defs.Perm defs') (c : Comp) (hc : (getter c : FCall V).InRange n)
    (hag : ∀ v, ∀ d ∈ defs, ∀ d' ∈ defs, d.AppliesAt v → d'.AppliesAt v → d.fn c v = d'.fn c v)
    (calls calls' : List (FCall V)) (hcalls : ∀ c ∈ calls, c.InRange n) (hcalls' : ∀ c ∈ calls', c.InRange n) :
    let member : FCall V := match c with | .f => .simple | .g i => .gradSimple i | .h i j => .hessSimple i j
    ∃ o o', (pwSem member (runCalls pwSem calls (PWFunc.make ps)).2).1 = .ok (.simple (some o)) ∧
      (pwSem member (runCalls pwSem calls' (PWFunc.make ps')).2).1 = .ok (.simple (some o')) ∧
      ∀ v, (o.evalAt v).1.map (FOut.num (V := V)) = (o'.evalAt v).1.map FOut.num := by
  have h : ∃ o o', (pwSem (simpleOf c) (runCalls pwSem calls (PWFunc.make ps)).2).1 = .ok (.simple (some o)) ∧
      (pwSem (simpleOf c) (runCalls pwSem calls' (PWFunc.make ps')).2).1 = .ok (.simple (some o')) ∧
      ∀ v, (o.evalAt v).1.map (FOut.num (V := V)) = (o'.evalAt v).1.map FOut.num := by
    have k : ∀ {defs : List (PieceDef V O)} {ps} (_ : Built n defs ps) (calls : List (FCall V)) (_ : ∀ c ∈ calls, c.InRange n),
        ∃ o, (pwSem (simpleOf c) (runCalls pwSem calls (PWFunc.make ps)).2).1 = .ok (.simple (some o)) ∧
        ∀ v, (o.evalAt v).1.map FOut.num = (pwSem (single v c) (runCalls pwSem calls (PWFunc.make ps)).2).1 := by
      intro defs ps hb calls hcalls
      obtain ⟨o, h1, h2⟩ := C58_simple_agrees hb calls hcalls c hc
      refine ⟨o, ?_, h2⟩
      cases c <;> exact congrArg Prod.fst h1
    obtain ⟨o, h1, h2⟩ := k hb calls hcalls
    obtain ⟨o', h1', h2'⟩ := k hb' calls' hcalls'
    exact ⟨o, o', h1, h1', fun v => by rw [h2, h2', C150_order hb hb' hperm v c hc (hag v) calls calls' hcalls hcalls']⟩
  cases c <;> exact h

/-- **C150** A piece that nowhere is the first to apply (each point where it applies is in a piece listed before) can be left out. -/
theorem C150_shadowed {n : Nat} {pre post : List (PieceDef V O)} {d : PieceDef V O} {ps ps' : List (Piece (Flex V O) V)} (hb : Built n (pre ++ d :: post) ps)
    (hb' : Built n (pre ++ post) ps') (v : V) (hsh : d.AppliesAt v → ∃ d' ∈ pre, d'.AppliesAt v) (c : Comp) (hc : (getter c : FCall V).InRange n)
    (calls calls' : List (FCall V)) (hcalls : ∀ c ∈ calls, c.InRange n) (hcalls' : ∀ c ∈ calls', c.InRange n) :
    (pwSem (single v c) (runCalls pwSem calls (PWFunc.make ps)).2).1 = (pwSem (single v c) (runCalls pwSem calls' (PWFunc.make ps')).2).1 := by
  rw [single_find hb calls hcalls v c hc, single_find hb' calls' hcalls' v c hc, List.find?_append, List.find?_append]
  cases hp : pre.find? fun d => d.region.all fun b => b v with
  | some i => rfl
  | none =>
    have hd : (d.region.all fun b => b v) = false := by
      rw [Bool.eq_false_iff]
      intro e
      obtain ⟨d', h1, h2⟩ := hsh (appliesAt_iff.mp e)
      exact absurd (appliesAt_iff.mpr h2) (List.find?_eq_none.mp hp d' h1)
    rw [List.find?_cons_of_neg (by simp [hd])]

/-- With pieces that do not overlap, the piece that applies at a point does not depend on their order. -/
theorem find_perm {defs defs' : List (PieceDef V O)} (hperm : defs.Perm defs') (hdis : defs.Pairwise fun d d' => ∀ v, ¬ (d.AppliesAt v ∧ d'.AppliesAt v)) (v : V) :
    defs.find? (fun d => d.region.all fun b => b v) = defs'.find? (fun d => d.region.all fun b => b v) := by
  have uniq : ∀ d ∈ defs, ∀ d' ∈ defs, d.AppliesAt v → d'.AppliesAt v → d = d' := by
    intro d hd d' hd' h h'
    by_contra hne
    obtain ⟨i, hi, rfl⟩ := List.mem_iff_getElem.mp hd
    obtain ⟨j, hj, rfl⟩ := List.mem_iff_getElem.mp hd'
    rcases Nat.lt_trichotomy i j with k | rfl | k
    · exact List.pairwise_iff_getElem.mp hdis _ _ hi hj k v ⟨h, h'⟩
    · exact hne rfl
    · exact List.pairwise_iff_getElem.mp hdis _ _ hj hi k v ⟨h', h⟩
  cases h : defs.find? fun d => d.region.all fun b => b v with
  | none =>
    symm
    rw [List.find?_eq_none] at h ⊢
    exact fun d hd => h d (hperm.mem_iff.mpr hd)
  | some d =>
    cases h' : defs'.find? fun d => d.region.all fun b => b v with
    | none => exact absurd (List.find?_some h) (List.find?_eq_none.mp h' d (hperm.mem_iff.mp (List.mem_of_find?_eq_some h)))
    | some d' =>
      rw [uniq d (List.mem_of_find?_eq_some h) d' (hperm.mem_iff.mpr (List.mem_of_find?_eq_some h'))
        (appliesAt_iff.mp (by simpa using List.find?_some h)) (appliesAt_iff.mp (by simpa using List.find?_some h'))]

/-- The outcome of a getter, in terms of definitions rather than indices. -/
theorem getter_find {n : Nat} {defs : List (PieceDef V O)} {ps : List (Piece (Flex V O) V)} (hb : Built n defs ps)
    (hdis : defs.Pairwise fun d d' => ∀ v, ¬ (d.AppliesAt v ∧ d'.AppliesAt v))
    (calls : List (FCall V)) (hcalls : ∀ c ∈ calls, c.InRange n) (c : Comp) (hc : (getter c : FCall V).InRange n) :
    (runCalls pwSem (calls ++ [getter c]) (PWFunc.make ps)).1.getLast? =
      some (match (calls.filterMap fun k => k.point.bind fun v => defs.find? fun d => d.region.all fun b => b v).getLast? with
      | none => .error (.ub .uninit)
      | some d => match lastEval d.fn n c (calls.filter fun k => k.point.any fun v => d.region.all fun b => b v) none with
          | some v => (d.fn c v).map .num
          | none => Except.map .num (match storedVal d.f d.g d.h c with | some y => .ok y | none => .error (.ub .uninit))) := by
  rw [C57_getters hb calls hcalls c hc]
  have tgt : ∀ (k : FCall V) i d, defs[i]? = some d → (k.target (defs.map PieceDef.region) = some i ↔ k.point.any (fun v => d.region.all fun b => b v) = true) := by
    intro k i d hd
    rw [FCall.target]
    cases k.point with
    | none => simp
    | some v =>
      simp only [Option.bind_some, Option.any_some]
      constructor
      · intro h
        rcases firstPiece_spec (defs := defs) (v := v) with ⟨h1, _⟩ | ⟨j, d', h1, h2, h3⟩
        · rw [h1] at h; cases h
        · rw [h1] at h; cases h
          rw [hd] at h2; cases h2
          exact appliesAt_iff.mpr h3
      · intro h
        rcases firstPiece_spec (defs := defs) (v := v) with ⟨_, h2⟩ | ⟨j, d', h1, h2, h3⟩
        · exact absurd (appliesAt_iff.mp h) (h2 d (List.mem_of_getElem? hd))
        · rw [h1]
          by_contra hne
          have hne : j ≠ i := fun e => hne (congrArg some e)
          obtain ⟨hi, rfl⟩ := List.getElem?_eq_some_iff.mp hd
          obtain ⟨hj, rfl⟩ := List.getElem?_eq_some_iff.mp h2
          rcases Nat.lt_or_gt_of_ne hne with k | k
          · exact List.pairwise_iff_getElem.mp hdis _ _ hj hi k v ⟨h3, appliesAt_iff.mp h⟩
          · exact List.pairwise_iff_getElem.mp hdis _ _ hi hj k v ⟨appliesAt_iff.mp h, h3⟩
  have key : (lastPiece (defs.map PieceDef.region) calls).bind (fun i => defs[i]?) =
      (calls.filterMap fun k => k.point.bind fun v => defs.find? fun d => d.region.all fun b => b v).getLast? ∧
      ∀ i, lastPiece (defs.map PieceDef.region) calls = some i → ∃ d, defs[i]? = some d := by
    have e : ∀ k : FCall V, (k.target (defs.map PieceDef.region)).bind (fun i => defs[i]?) =
        k.point.bind fun v => defs.find? fun d => d.region.all fun b => b v := by
      intro k
      rw [FCall.target]
      cases k.point with
      | none => rfl
      | some v => rw [Option.bind_some, Option.bind_some, List.find?_eq_bind_findIdx?_getElem?, firstPiece, List.findIdx?_map]; rfl
    have ex : ∀ (k : FCall V) i, k.target (defs.map PieceDef.region) = some i → ∃ d, defs[i]? = some d := by
      intro k i h
      rw [FCall.target] at h
      obtain ⟨v, _, hv⟩ := Option.bind_eq_some_iff.mp h
      have := firstPiece_lt hv
      exact ⟨_, List.getElem?_eq_getElem (by simpa using this)⟩
    have m : (calls.filterMap fun k => k.point.bind fun v => defs.find? fun d => d.region.all fun b => b v).map some =
        (calls.filterMap (FCall.target (defs.map PieceDef.region))).map fun i => defs[i]? := by
      induction calls with
      | nil => rfl
      | cons k calls ih =>
        have ih := ih (fun c hc => hcalls c (by simp [hc]))
        simp only [List.filterMap_cons, ← e k]
        cases hk : k.target (defs.map PieceDef.region) with
        | none => simpa using ih
        | some i =>
          obtain ⟨d, hd⟩ := ex k i hk
          simp only [Option.bind_some, hd, List.map_cons]
          rw [ih]
    have m2 := congrArg List.getLast? m
    simp only [List.getLast?_map] at m2
    refine ⟨?_, fun i hi => ?_⟩
    · unfold lastPiece
      cases h1 : (calls.filterMap (FCall.target (defs.map PieceDef.region))).getLast? with
      | none => rw [h1] at m2; exact (Option.map_eq_none_iff.mp m2).symm
      | some i =>
        rw [h1] at m2
        simp only [Option.map_some, Option.map_eq_some_iff] at m2
        obtain ⟨d, h2, h3⟩ := m2
        rw [h2, h3]; rfl
    · unfold lastPiece at hi
      obtain ⟨k, _, hk⟩ := List.mem_filterMap.mp (List.mem_of_getLast? hi)
      exact ex k i hk
  rw [← key.1]
  cases hl : lastPiece (defs.map PieceDef.region) calls with
  | none => rfl
  | some i =>
    obtain ⟨d, hd⟩ := key.2 i hl
    simp only [Option.bind_some, hd]
    have : callsOn (defs.map PieceDef.region) i calls = calls.filter fun k => k.point.any fun v => d.region.all fun b => b v := by
      unfold callsOn
      refine List.filter_congr fun k _ => ?_
      rw [Bool.eq_iff_iff, decide_eq_true_iff]
      exact tgt k i d hd
    rw [this]
    rfl

/-- **C150** With pieces that do not overlap, the getters have the same outcome after the same calls, whatever the order of the pieces. -/
theorem C150_getters {n : Nat} {defs defs' : List (PieceDef V O)} {ps ps' : List (Piece (Flex V O) V)} (hb : Built n defs ps) (hb' : Built n defs' ps')
    (hperm : defs.Perm defs') (hdis : defs.Pairwise fun d d' => ∀ v, ¬ (d.AppliesAt v ∧ d'.AppliesAt v))
    (calls : List (FCall V)) (hcalls : ∀ c ∈ calls, c.InRange n) (c : Comp) (hc : (getter c : FCall V).InRange n) :
    (runCalls pwSem (calls ++ [getter c]) (PWFunc.make ps)).1.getLast? = (runCalls pwSem (calls ++ [getter c]) (PWFunc.make ps')).1.getLast? := by
  have hdis' : defs'.Pairwise fun d d' => ∀ v, ¬ (d.AppliesAt v ∧ d'.AppliesAt v) :=
    hdis.perm hperm fun {a b} k v h => k v h.symm
  rw [getter_find hb hdis calls hcalls c hc, getter_find hb' hdis' calls hcalls c hc]
  simp only [find_perm hperm hdis]

/-- **C150** The order of the conditions of a piece does not matter. -/
theorem C150_conditions {n : Nat} {pre post : List (PieceDef V O)} {d : PieceDef V O} {cs : List (SObj V Bool)} {ps ps' : List (Piece (Flex V O) V)}
    (hb : Built n (pre ++ d :: post) ps) (hcs : d.conds.Perm cs) (hb' : Built n (pre ++ { d with conds := cs } :: post) ps') (v : V) (c : Comp)
    (hc : (getter c : FCall V).InRange n) (calls calls' : List (FCall V)) (hcalls : ∀ c ∈ calls, c.InRange n) (hcalls' : ∀ c ∈ calls', c.InRange n) :
    (pwSem (single v c) (runCalls pwSem calls (PWFunc.make ps)).2).1 = (pwSem (single v c) (runCalls pwSem calls' (PWFunc.make ps')).2).1 := by
  rw [single_find hb calls hcalls v c hc, single_find hb' calls' hcalls' v c hc, List.find?_append, List.find?_append]
  cases hp : pre.find? fun d => d.region.all fun b => b v with
  | some i => rfl
  | none =>
    have hd : (({ d with conds := cs } : PieceDef V O).region.all fun b => b v) = d.region.all fun b => b v :=
      ((hcs.map holdsAt).all_eq).symm
    simp only [Option.none_or, List.find?_cons, hd]
    cases d.region.all fun b => b v <;> rfl

namespace OrderDemo

/-- A condition. -/
def cond (p : Int → Bool) : SObj Int Bool := ⟨"", some fun x => .ok (p x), none, none, none, none⟩
/-- A function of one variable with a derivative of its own. -/
def piece (f g h : Int → Int) (cs : List (SObj Int Bool)) : PieceDef Int Int :=
  ⟨⟨"f", ["x"], [""]⟩, ⟨"f", some fun x => .ok (f x), none, none, none, none⟩, [⟨"g", some fun x => .ok (g x), none, none, none, none⟩],
    [[⟨"h", some fun x => .ok (h x), none, none, none, none⟩]], cs⟩
/-- x² for 0 ≤ x < 10. -/
def square : PieceDef Int Int := piece (fun x => x * x) (fun x => 2 * x) (fun _ => 2) [cond fun x => decide (0 ≤ x), cond fun x => decide (x < 10)]
/-- -x below 0. -/
def minus : PieceDef Int Int := piece (fun x => -x) (fun _ => -1) (fun _ => 0) [cond fun x => decide (x < 0)]
/-- 7 from 3 to 5. -/
def seven : PieceDef Int Int := piece (fun _ => 7) (fun _ => 0) (fun _ => 0) [cond fun x => decide (3 ≤ x), cond fun x => decide (x ≤ 5)]

theorem built {defs : List (PieceDef Int Int)} (h : ∀ d ∈ defs, d = square ∨ d = minus ∨ d = seven) : ∃ ps, Built 1 defs ps := by
  have : ∃ ps, All2 (fun (d : PieceDef Int Int) p => d.build = .ok p) defs ps := by
    induction defs with
    | nil => exact ⟨[], .nil⟩
    | cons d defs ih =>
      obtain ⟨ps, h2⟩ := ih fun d hd => h d (by simp [hd])
      rcases h d (by simp) with rfl | rfl | rfl <;> exact ⟨_ :: ps, .cons rfl h2⟩
  obtain ⟨ps, h2⟩ := this
  refine ⟨ps, h2, fun d hd => ?_, fun d hd o ho v => ?_⟩
  · rcases h d hd with rfl | rfl | rfl <;> rfl
  · rcases h d hd with rfl | rfl | rfl <;> simp only [square, minus, seven, piece, List.mem_cons, List.not_mem_nil, or_false] at ho
    · rcases ho with rfl | rfl <;> exact ⟨_, rfl⟩
    · subst ho; exact ⟨_, rfl⟩
    · rcases ho with rfl | rfl <;> exact ⟨_, rfl⟩

theorem disjoint : [square, minus].Pairwise fun d d' => ∀ v, ¬ (d.AppliesAt v ∧ d'.AppliesAt v) := by
  refine .cons (fun d hd v h => ?_) (List.pairwise_singleton _ _)
  obtain rfl := List.mem_singleton.mp hd
  have h1 := h.1 (cond fun x => decide (0 ≤ x)) (by simp [square, piece])
  have h2 := h.2 (cond fun x => decide (x < 0)) (by simp [minus, piece])
  simp only [cond, SObj.evalFn, Except.ok.injEq, decide_eq_true_eq] at h1 h2
  omega

/-- `C150_order` and `C150_getters` for x² and -x in either order; the values are not trivial. -/
example : ∃ ps ps', Built 1 [square, minus] ps ∧ Built 1 [minus, square] ps' ∧
    (∀ v, (pwSem (single v .f) (runCalls pwSem [.evalGrad 5] (PWFunc.make ps)).2).1 = (pwSem (single v .f) (PWFunc.make ps')).1) ∧
    (pwSem (single 3 .f) (PWFunc.make ps')).1 = .ok (.num 9) ∧ (pwSem (single (-3) .f) (PWFunc.make ps')).1 = .ok (.num 3) ∧
    (runCalls pwSem ([.evalGrad 5, .eval (-3)] ++ [getter .f]) (PWFunc.make ps)).1.getLast? =
      (runCalls pwSem ([.evalGrad 5, .eval (-3)] ++ [getter .f]) (PWFunc.make ps')).1.getLast? := by
  obtain ⟨ps, hb⟩ := built (defs := [square, minus]) (by simp)
  obtain ⟨ps', hb'⟩ := built (defs := [minus, square]) (by simp)
  have hp : [square, minus].Perm [minus, square] := .swap _ _ _
  have r : ∀ v, (pwSem (single v .f) (PWFunc.make ps')).1 = _ := fun v => single_find hb' [] (by simp) v .f (by simp [getter, FCall.InRange])
  refine ⟨ps, ps', hb, hb', fun v => ?_, (r 3).trans rfl, (r (-3)).trans rfl, ?_⟩
  · refine C150_order hb hb' hp v .f (by simp [getter, FCall.InRange]) ?_ [.evalGrad 5] [] (by simp [FCall.InRange]) (by simp)
    intro d hd d' hd' h h'
    have dj := List.rel_of_pairwise_cons disjoint (List.mem_singleton.mpr rfl) v
    simp only [List.mem_cons, List.not_mem_nil, or_false] at hd hd'
    rcases hd with rfl | rfl <;> rcases hd' with rfl | rfl
    · rfl
    · exact absurd ⟨h, h'⟩ dj
    · exact absurd ⟨h', h⟩ dj
    · rfl
  · exact C150_getters hb hb' hp disjoint _ (by simp [FCall.InRange]) .f (by simp [getter, FCall.InRange])

/-- `C150_shadowed`: the constant 7 from 3 to 5, listed after x², is never reached. -/
example : ∃ ps ps', Built 1 [square, seven, minus] ps ∧ Built 1 [square, minus] ps' ∧
    ∀ v, (pwSem (single v (.g 0)) (PWFunc.make ps)).1 = (pwSem (single v (.g 0)) (PWFunc.make ps')).1 := by
  obtain ⟨ps, hb⟩ := built (defs := [square, seven, minus]) (by simp)
  obtain ⟨ps', hb'⟩ := built (defs := [square, minus]) (by simp)
  refine ⟨ps, ps', hb, hb', fun v => ?_⟩
  refine C150_shadowed (pre := [square]) (post := [minus]) hb hb' v (fun h => ⟨square, by simp, ?_⟩) (.g 0) (by simp [getter, FCall.InRange]) [] [] (by simp) (by simp)
  have h1 := h (cond fun x => decide (3 ≤ x)) (by simp [seven, piece])
  have h2 := h (cond fun x => decide (x ≤ 5)) (by simp [seven, piece])
  simp only [cond, SObj.evalFn, Except.ok.injEq, decide_eq_true_eq] at h1 h2
  intro o ho
  simp only [square, piece, List.mem_cons, List.not_mem_nil, or_false] at ho
  rcases ho with rfl | rfl <;> simp only [cond, SObj.evalFn, Except.ok.injEq, decide_eq_true_eq] <;> omega

/-- `C150_conditions`: the two conditions of x² in the other order; `C150_in_piece`: overlapping pieces in either order. -/
example : ∃ ps ps' qs qs', Built 1 ([] ++ square :: [minus]) ps ∧ Built 1 ([] ++ { square with conds := square.conds.reverse } :: [minus]) ps' ∧
    Built 1 [square, seven] qs ∧ Built 1 [seven, square] qs' ∧
    (∀ v, (pwSem (single v .f) (PWFunc.make ps)).1 = (pwSem (single v .f) (PWFunc.make ps')).1) ∧
    ∀ v, PWFunc.inPiece qs v = PWFunc.inPiece qs' v := by
  obtain ⟨ps, hb⟩ := built (defs := [square, minus]) (by simp)
  obtain ⟨qs, kb⟩ := built (defs := [square, seven]) (by simp)
  obtain ⟨qs', kb'⟩ := built (defs := [seven, square]) (by simp)
  have hb' : ∃ ps', Built 1 [{ square with conds := square.conds.reverse }, minus] ps' := by
    refine ⟨_, .cons rfl (.cons rfl .nil), fun d hd => ?_, fun d hd o ho v => ?_⟩
    · simp only [List.mem_cons, List.not_mem_nil, or_false] at hd
      rcases hd with rfl | rfl <;> rfl
    · simp only [List.mem_cons, List.not_mem_nil, or_false] at hd
      rcases hd with rfl | rfl
      · exact hb.total square (by simp) o (List.mem_reverse.mp ho) v
      · exact hb.total minus (by simp) o ho v
  obtain ⟨ps', hb'⟩ := hb'
  refine ⟨ps, ps', qs, qs', hb, hb', kb, kb', fun v => ?_, fun v => ?_⟩
  · exact C150_conditions (pre := []) (post := [minus]) hb (List.reverse_perm _).symm hb' v .f (by simp [getter, FCall.InRange]) [] [] (by simp) (by simp)
  · exact (C150_in_piece kb kb' (.swap _ _ _) v [] [] (by simp) (by simp)).1

/-- `C150_simple` for x² and -x. -/
example : ∃ ps ps', Built 1 [square, minus] ps ∧ Built 1 [minus, square] ps' ∧
    ∃ o o', (pwSem (.gradSimple 0) (PWFunc.make ps)).1 = .ok (.simple (some o)) ∧ (pwSem (.gradSimple 0) (PWFunc.make ps')).1 = .ok (.simple (some o')) ∧
      ∀ v, (o.evalAt v).1.map (FOut.num (V := Int)) = (o'.evalAt v).1.map FOut.num := by
  obtain ⟨ps, hb⟩ := built (defs := [square, minus]) (by simp)
  obtain ⟨ps', hb'⟩ := built (defs := [minus, square]) (by simp)
  refine ⟨ps, ps', hb, hb', C150_simple hb hb' (.swap _ _ _) (.g 0) (by simp [getter, FCall.InRange]) (fun v d hd d' hd' h h' => ?_) [] [] (by simp) (by simp)⟩
  have dj := List.rel_of_pairwise_cons disjoint (List.mem_singleton.mpr rfl) v
  simp only [List.mem_cons, List.not_mem_nil, or_false] at hd hd'
  rcases hd with rfl | rfl <;> rcases hd' with rfl | rfl
  · rfl
  · exact absurd ⟨h, h'⟩ dj
  · exact absurd ⟨h', h⟩ dj
  · rfl

/-- Where pieces overlap and differ, the order matters: x² before 7 and after it, at 4. -/
example : ∃ ps ps', Built 1 [square, seven] ps ∧ Built 1 [seven, square] ps' ∧ (pwSem (single 4 .f) (PWFunc.make ps)).1 = .ok (.num 16) ∧
    (pwSem (single 4 .f) (PWFunc.make ps')).1 = .ok (.num 7) := by
  obtain ⟨ps, hb⟩ := built (defs := [square, seven]) (by simp)
  obtain ⟨ps', hb'⟩ := built (defs := [seven, square]) (by simp)
  exact ⟨ps, ps', hb, hb', (single_find hb [] (by simp) 4 .f (by simp [getter, FCall.InRange])).trans rfl,
    (single_find hb' [] (by simp) 4 .f (by simp [getter, FCall.InRange])).trans rfl⟩

end OrderDemo

end Verif
