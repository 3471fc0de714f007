import Verif.Model.Piecewise
import Verif.Spec.Piecewise
import Verif.Lemmas.Func

/-! Helper lemmas about piecewise functions. -/

namespace Verif
open Spec
variable {F V O : Type}

/-- The condition handles hold the given predicates. -/
def CondsAre (conds : List (V → Bool)) (cs : List (SFun V Bool)) : Prop :=
  All2 (fun b c => ∀ v, condAt c v = .ok (b v)) conds cs

theorem piece_inPiece {conds : List (V → Bool)} {cs : List (SFun V Bool)} (h : CondsAre conds cs) (v : V) :
    Piece.inPiece cs v = .ok (conds.all fun c => c v) := by
  induction h with
  | nil => rfl
  | cons hb _ ih =>
    simp only [Piece.inPiece, hb v, ok_bind]
    rename_i b _ _ _ _
    cases hbv : b v <;> simp [hbv, ih]

theorem simplePiece_inPiece (cs : List (SFun V Bool)) (v : V) : SimplePiece.inPiece cs v = Piece.inPiece cs v := by
  induction cs with
  | nil => rfl
  | cons c cs ih => simp only [SimplePiece.inPiece, Piece.inPiece, ih]

/-- The conditions of the pieces are those of the regions. -/
def RegionsAre (regions : List (List (V → Bool))) (ps : List (Piece F V)) : Prop :=
  All2 (fun r p => CondsAre r p.conds) regions ps

theorem pw_inPiece {regions : List (List (V → Bool))} {ps : List (Piece F V)} (h : RegionsAre regions ps) (v : V) :
    PWFunc.inPiece ps v = .ok (firstPiece regions v).isSome := by
  induction h with
  | nil => rfl
  | cons hr _ ih =>
    simp only [PWFunc.inPiece, piece_inPiece hr, ok_bind, firstPiece, List.findIdx?_cons]
    split <;> simp_all [firstPiece]

theorem pw_find {regions : List (List (V → Bool))} {ps : List (Piece F V)} (h : RegionsAre regions ps) (k : Nat) (v : V) :
    PWFunc.find ps k v = match firstPiece regions v with | some i => .ok (k + i) | none => .error .domainError := by
  induction h generalizing k with
  | nil => rfl
  | @cons r p regions ps hr _ ih =>
    simp only [PWFunc.find, piece_inPiece hr, ok_bind, firstPiece, List.findIdx?_cons]
    split
    · simp
    · rw [ih]
      simp only [firstPiece]
      cases List.findIdx? (fun conds => conds.all fun c => c v) regions with
      | none => rfl
      | some i => simp; omega

theorem firstPiece_lt {regions : List (List (V → Bool))} {v : V} {i : Nat} (h : firstPiece regions v = some i) :
    i < regions.length := by
  simp only [firstPiece, List.findIdx?_eq_some_iff_getElem] at h
  exact h.1

theorem pw_piece {regions : List (List (V → Bool))} {s : PWFunc F V} (h : RegionsAre regions s.pieces) (v : V) :
    s.piece v = match firstPiece regions v with
      | some i => (.ok i, { s with curr := some i })
      | none => (.error .domainError, s) := by
  simp only [PWFunc.piece, pw_find h]
  cases firstPiece regions v <;> simp

/-- What a piece forwards to its expression. -/
def fwd : FCall V → FCall V
  | .eval v => .evalAt v
  | c => c

/-- What the piece makes of the result. -/
def fwdOut (c : FCall V) (r : Res (FOut V O)) : Res (FOut V O) :=
  match c with
  | .eval _ => r.map fun _ => .void
  | _ => r

theorem piece_sem {C : FClass F V O} {p : Piece F V} {f : F} (hp : p.expr = some f) (c : FCall V)
    (hc : (∃ v, c.point = some v) ∨ ∃ d, c = getter d) :
    (Piece.cls C).sem c p = (fwdOut c (C.sem (fwd c) f).1, { p with expr := some (C.sem (fwd c) f).2 }) := by
  cases c <;> simp [FCall.point, getter] at hc <;>
    first
    | (simp only [FClass.sem, Piece.cls, FBase.sem, Piece.ov, Piece.forward, hp, fwd, fwdOut]; done)
    | (rcases hc with ⟨_ | _ | _, hd⟩ <;> cases hd)

theorem pw_sem_point {C : FClass F V O} {regions : List (List (V → Bool))} {s : PWFunc F V}
    (h : RegionsAre regions s.pieces) {c : FCall V} {v : V} (hc : c.point = some v) :
    (PWFunc.cls C).sem c s = match firstPiece regions v with
      | some i => PWFunc.onPiece C c i { s with curr := some i }
      | none => (.error .domainError, s) := by
  have : (PWFunc.cls C).sem c s = PWFunc.atPoint C c v s := by
    cases c <;> simp [FCall.point] at hc <;> subst hc <;> rfl
  rw [this, PWFunc.atPoint, pw_piece h]
  cases firstPiece regions v <;> rfl

theorem flexCls_sem : (flexCls V O).sem = Flex.sem := rfl

/-- The member that returns a component as a simple function. -/
def simpleOf : Comp → FCall V
  | .f => .simple
  | .g i => .gradSimple i
  | .h i j => .hessSimple i j

theorem FlexRep.simple {n : Nat} {F : Comp → V → Res O} {st : Comp → Option O} {p : Flex V O} (h : FlexRep n F st p)
    (c : Comp) (hc : (Spec.getter c : FCall V).InRange n) :
    ∃ o, Flex.sem (simpleOf c) p = (.ok (.simple (some o)), p) ∧ o.evalFn = F c := by
  have hgl : p.grad.length = n := by have := h.grad.length; simpa using this.symm
  have hhl : p.hess.length = n := by have := h.hess.length; simpa [hessComps] using this.symm
  cases c with
  | f =>
    obtain ⟨o, h1, h2, _⟩ := h.val
    refine ⟨o, ?_, h2⟩
    simp only [simpleOf, Flex.sem, FBase.sem, Flex.ov, h1]
  | g i =>
    simp only [Spec.getter, FCall.InRange] at hc
    have hi : ((List.range n).map Comp.g)[i]? = some (.g i) := by
      rw [List.getElem?_map, List.getElem?_range (by omega)]; rfl
    obtain ⟨b, hb, o, rfl, h2, _⟩ := h.grad.getElem? hi
    obtain ⟨hd, e1, e2⟩ := vget_range hgl hc.1 hc.2
    rw [Int.toNat_natCast, hb] at e2; cases e2
    refine ⟨o, ?_, h2⟩
    simp only [simpleOf, Flex.sem, FBase.sem, Flex.ov, e1, Except.map]
  | h i j =>
    simp only [Spec.getter, FCall.InRange] at hc
    have hi : (hessComps n)[i]? = some ((List.range n).map (Comp.h i)) := by
      rw [hessComps, List.getElem?_map, List.getElem?_range (by omega)]; rfl
    obtain ⟨row, hb, hrow⟩ := h.hess.getElem? hi
    obtain ⟨hd, e1, e2⟩ := vget_range hhl hc.1.1 hc.1.2
    rw [Int.toNat_natCast, hb] at e2; cases e2
    have hrl : row.length = n := by have := hrow.length; simpa using this.symm
    have hj : ((List.range n).map (Comp.h i))[j]? = some (.h i j) := by
      rw [List.getElem?_map, List.getElem?_range (by omega)]; rfl
    obtain ⟨b, hb', o, rfl, h2, _⟩ := hrow.getElem? hj
    obtain ⟨hd, e3, e4⟩ := vget_range hrl hc.2.1 hc.2.2
    rw [Int.toNat_natCast, hb'] at e4; cases e4
    refine ⟨o, ?_, h2⟩
    simp only [simpleOf, Flex.sem, FBase.sem, Flex.ov, e1, e3, Except.bind, Except.map]

/-- A piece as given: its component functions and conditions. -/
structure PieceIs (V O : Type) where
  F : Comp → V → Res O
  conds : List (V → Bool)

/-- Piece `p` holds the functions of `d` with stored values `st`. -/
def PieceRep (n : Nat) (d : PieceIs V O) (st : Comp → Option O) (p : Piece (Flex V O) V) : Prop :=
  CondsAre d.conds p.conds ∧ ∃ f, p.expr = some f ∧ FlexRep n d.F st f

/-- The pieces hold the functions of `ds` with stored values `st`. -/
structure PWRep (n : Nat) (ds : List (PieceIs V O)) (st : Nat → Comp → Option O) (s : PWFunc (Flex V O) V) : Prop where
  len : s.pieces.length = ds.length
  rep : ∀ (i : Nat) d p, ds[i]? = some d → s.pieces[i]? = some p → PieceRep n d (st i) p

namespace PWRep
variable {n : Nat} {ds : List (PieceIs V O)} {st : Nat → Comp → Option O} {s : PWFunc (Flex V O) V}

theorem regions (h : PWRep n ds st s) : RegionsAre (ds.map PieceIs.conds) s.pieces := by
  refine All2.of_getElem? (by simp [h.len]) ?_
  intro i r p hr hp
  rw [List.getElem?_map] at hr
  cases hd : ds[i]? with
  | none => rw [hd] at hr; cases hr
  | some d => rw [hd] at hr; cases hr; exact (h.rep i d p hd hp).1

theorem get (h : PWRep n ds st s) {i : Nat} {d : PieceIs V O} (hd : ds[i]? = some d) :
    ∃ p, s.pieces[i]? = some p ∧ PieceRep n d (st i) p := by
  have hi : i < s.pieces.length := by
    have := (List.getElem?_eq_some_iff.mp hd).1
    rw [h.len]; exact this
  exact ⟨s.pieces[i], List.getElem?_eq_getElem hi, h.rep i d _ hd (List.getElem?_eq_getElem hi)⟩

theorem first {v : V} {i : Nat} (hi : firstPiece (ds.map PieceIs.conds) v = some i) : ∃ d, ds[i]? = some d := by
  have := firstPiece_lt hi
  simp at this
  exact ⟨_, List.getElem?_eq_getElem this⟩

theorem curr (h : PWRep n ds st s) (k : Option Nat) : PWRep n ds st { s with curr := k } := ⟨h.len, h.rep⟩

theorem set (h : PWRep n ds st s) {i : Nat} {d : PieceIs V O} (hd : ds[i]? = some d) {p : Piece (Flex V O) V}
    {u : Comp → Option O} (hp : PieceRep n d u p) :
    PWRep n ds (fun j => if j = i then u else st j) { s with pieces := s.pieces.set i p } := by
  refine ⟨by simp [h.len], ?_⟩
  intro j d' p' hd' hp'
  by_cases hj : j = i
  · subst hj
    rw [hd] at hd'; cases hd'
    have hlt := (List.getElem?_eq_some_iff.mp hp').1
    simp only [List.length_set] at hlt
    simp only [List.getElem?_set_self hlt] at hp'
    cases hp'
    simpa using hp
  · rw [List.getElem?_set_ne (Ne.symm hj)] at hp'
    simpa [hj] using h.rep j d' p' hd' hp'

/-- The stored values after a call. -/
def step (n : Nat) (ds : List (PieceIs V O)) (c : FCall V) (st : Nat → Comp → Option O) : Nat → Comp → Option O :=
  match c.target (ds.map PieceIs.conds) with
  | some i => fun j => if j = i then (match ds[i]? with | some d => callUpd n d.F c (st i) | none => st i) else st j
  | none => st

theorem callUpd_fwd (n : Nat) (F : Comp → V → Res O) (c : FCall V) (st : Comp → Option O) :
    callUpd n F (fwd c) st = callUpd n F c st := by
  cases c <;> rfl

theorem fwd_inRange {c : FCall V} (h : c.InRange n) : (fwd c).InRange n := by
  cases c <;> simpa [fwd, FCall.InRange] using h

theorem getter_cases (c : FCall V) : (∃ v, c.point = some v) ∨ c.point = none := by
  cases c.point <;> simp

theorem onPiece (h : PWRep n ds st s) {i : Nat} {d : PieceIs V O} (hd : ds[i]? = some d) {c : FCall V}
    (hc : (∃ v, c.point = some v) ∨ ∃ d, c = Spec.getter d) :
    ∃ f, FlexRep n d.F (st i) f ∧ (PWFunc.onPiece (flexCls V O) c i s).1 = fwdOut c (Flex.sem (fwd c) f).1 ∧
      (PWFunc.onPiece (flexCls V O) c i s).2.curr = s.curr ∧
      (c.InRange n → PWRep n ds (fun j => if j = i then callUpd n d.F c (st i) else st j) (PWFunc.onPiece (flexCls V O) c i s).2) := by
  obtain ⟨p, hp, hr⟩ := h.get hd
  have hr' := hr
  obtain ⟨hcs, f, hf, hrep⟩ := hr'
  refine ⟨f, hrep, ?_⟩
  simp only [PWFunc.onPiece, hp, piece_sem (C := flexCls V O) hf c hc, flexCls_sem]
  refine ⟨trivial, trivial, fun hin => ?_⟩
  refine h.set hd ⟨hcs, _, rfl, ?_⟩
  rw [← callUpd_fwd]
  exact hrep.call _ (fwd_inRange hin)

theorem call (h : PWRep n ds st s) (c : FCall V) (hc : c.InRange n) :
    PWRep n ds (step n ds c st) ((PWFunc.cls (flexCls V O)).sem c s).2 := by
  rcases getter_cases c with ⟨v, hv⟩ | hv
  · rw [pw_sem_point h.regions hv]
    simp only [step, FCall.target, hv, Option.bind_some]
    cases hi : firstPiece (ds.map PieceIs.conds) v with
    | none => exact h
    | some i =>
      obtain ⟨d, hd⟩ := first hi
      obtain ⟨f, _, _, _, h4⟩ := (h.curr (some i)).onPiece hd (c := c) (.inl ⟨v, hv⟩)
      simp only [hd]
      exact h4 hc
  · simp only [step, FCall.target, hv, Option.bind_none]
    have onC : ∀ c : FCall V, (∃ d, c = Spec.getter d) ∨ True → (∃ di, c = .getGrad di) ∨ (∃ di dj, c = .getHess di dj) ∨ c = .get →
        PWRep n ds st (PWFunc.onCurr (flexCls V O) c s).2 := by
      intro c _ hg
      simp only [PWFunc.onCurr]
      cases hcur : s.curr with
      | none => exact h
      | some i =>
        simp only [PWFunc.onPiece]
        cases hp : s.pieces[i]? with
        | none => exact h
        | some p =>
          have hi : i < ds.length := by rw [← h.len]; exact (List.getElem?_eq_some_iff.mp hp).1
          have hd := List.getElem?_eq_getElem hi
          have hr := h.rep i _ p hd hp
          have key : ((Piece.cls (flexCls V O)).sem c p).2 = p := by
            obtain ⟨_, f, hf, _⟩ := hr
            obtain ⟨b, e, cs⟩ := p
            simp only at hf
            subst hf
            rcases hg with ⟨di, rfl⟩ | ⟨di, dj, rfl⟩ | rfl <;> rfl
          have := h.set hd (p := p) (u := st i) hr
          simp only [key]
          refine ⟨this.len, fun j d' p' hd' hp' => ?_⟩
          have := this.rep j d' p' hd' hp'
          by_cases hj : j = i
          · subst hj; simpa using this
          · simpa [hj] using this
    cases c <;> simp [FCall.point] at hv <;> first
      | exact h
      | exact onC _ (.inr trivial) (by simp)

theorem target_current (h : PWRep n ds st s) (c : FCall V) :
    ((PWFunc.cls (flexCls V O)).sem c s).2.curr = (match c.target (ds.map PieceIs.conds) with | some i => some i | none => s.curr) := by
  rcases getter_cases c with ⟨v, hv⟩ | hv
  · rw [pw_sem_point h.regions hv]
    simp only [FCall.target, hv, Option.bind_some]
    cases hi : firstPiece (ds.map PieceIs.conds) v with
    | none => rfl
    | some i =>
      obtain ⟨d, hd⟩ := first hi
      obtain ⟨f, _, _, h3, _⟩ := (h.curr (some i)).onPiece hd (c := c) (.inl ⟨v, hv⟩)
      exact h3
  · simp only [FCall.target, hv, Option.bind_none]
    have onC : ∀ c, (PWFunc.onCurr (flexCls V O) c s).2.curr = s.curr := by
      intro c
      simp only [PWFunc.onCurr, PWFunc.onPiece]
      split
      · rfl
      · split <;> rfl
    cases c <;> simp [FCall.point] at hv <;> first
      | rfl
      | exact onC _

theorem run (cs : List (FCall V)) : ∀ {st : Nat → Comp → Option O} {s : PWFunc (Flex V O) V}, PWRep n ds st s →
    (∀ c ∈ cs, c.InRange n) →
    PWRep n ds (fun i => match ds[i]? with
      | some d => (callsOn (ds.map PieceIs.conds) i cs).foldl (fun st c => callUpd n d.F c st) (st i)
      | none => st i) (runCalls (PWFunc.cls (flexCls V O)).sem cs s).2 ∧
    (runCalls (PWFunc.cls (flexCls V O)).sem cs s).2.curr =
      (match lastPiece (ds.map PieceIs.conds) cs with | some i => some i | none => s.curr) := by
  induction cs with
  | nil =>
    intro st s h _
    refine ⟨?_, rfl⟩
    refine ⟨h.len, fun i d p hd hp => ?_⟩
    simpa [hd, callsOn] using h.rep i d p hd hp
  | cons c cs ih =>
    intro st s h hcs
    have h1 := h.call c (hcs c (by simp))
    obtain ⟨h2, h3⟩ := ih h1 fun c' hc' => hcs c' (by simp [hc'])
    constructor
    · refine ⟨h2.len, fun i d p hd hp => ?_⟩
      have h4 := h2.rep i d p hd hp
      simp only [hd] at h4 ⊢
      have e : (callsOn (ds.map PieceIs.conds) i (c :: cs)).foldl (fun st c => callUpd n d.F c st) (st i)
          = (callsOn (ds.map PieceIs.conds) i cs).foldl (fun st c => callUpd n d.F c st) (step n ds c st i) := by
        simp only [callsOn, List.filter_cons, step]
        cases ht : c.target (ds.map PieceIs.conds) with
        | none => simp
        | some j =>
          by_cases hj : i = j
          · subst hj; simp [hd]
          · have : ¬ j = i := fun e => hj e.symm
            simp [hj, this]
      rw [e]; exact h4
    · have h5 := h.target_current c
      refine h3.trans ?_
      rw [h5]
      simp only [lastPiece, List.filterMap_cons]
      cases ht : c.target (ds.map PieceIs.conds) with
      | none => rfl
      | some i =>
        cases hl : (List.filterMap (FCall.target (ds.map PieceIs.conds)) cs) with
        | nil => simp
        | cons a l =>
          rw [List.getLast?_cons_cons]
          cases hg : (a :: l).getLast? with
          | none => simp at hg
          | some k => rfl

/-- A single evaluation. -/
theorem single (h : PWRep n ds st s) (v : V) (c : Comp) (hc : (Spec.getter c : FCall V).InRange n) :
    ((PWFunc.cls (flexCls V O)).sem (Spec.single v c) s).1 =
      match firstPiece (ds.map PieceIs.conds) v with
      | some i => match ds[i]? with | some d => (d.F c v).map .num | none => .error (.ub .oob)
      | none => .error .domainError := by
  have hv : (Spec.single v c : FCall V).point = some v := by cases c <;> rfl
  rw [pw_sem_point h.regions hv]
  cases hi : firstPiece (ds.map PieceIs.conds) v with
  | none => rfl
  | some i =>
    obtain ⟨d, hd⟩ := first hi
    obtain ⟨f, h1, h2, _⟩ := (h.curr (some i)).onPiece hd (c := Spec.single v c) (.inl ⟨v, hv⟩)
    simp only [hd]
    rw [h2]
    have hs := h1.single v c hc
    cases c <;> exact hs

/-- The getters. -/
theorem getter (h : PWRep n ds st s) (c : Comp) (hc : (Spec.getter c : FCall V).InRange n) :
    ((PWFunc.cls (flexCls V O)).sem (Spec.getter c) s).1 =
      match s.curr with
      | none => .error (.ub .uninit)
      | some i => if i < ds.length then (match st i c with | some y => .ok y | none => .error (.ub .uninit) : Res O).map .num
        else .error (.ub .oob) := by
  have : (PWFunc.cls (flexCls V O)).sem (Spec.getter c) s = PWFunc.onCurr (flexCls V O) (Spec.getter c) s := by cases c <;> rfl
  rw [this, PWFunc.onCurr]
  cases s.curr with
  | none => rfl
  | some i =>
    by_cases hi : i < ds.length
    · obtain ⟨f, h1, h2, _⟩ := h.onPiece (List.getElem?_eq_getElem hi) (c := Spec.getter c) (.inr ⟨c, rfl⟩)
      simp only [hi, if_true]
      rw [h2]
      have hs := h1.getter c hc
      cases c <;> exact hs
    · have : s.pieces[i]? = none := by rw [List.getElem?_eq_none_iff, h.len]; omega
      simp [PWFunc.onPiece, this, hi]

/-- The simple functions. -/
theorem forward_simple (h : PWRep n ds st s) (c : Comp) (hc : (Spec.getter c : FCall V).InRange n) :
    ∃ qs, PWFunc.simplePieces (flexCls V O) (simpleOf c) s.pieces = .ok qs ∧
      All2 (fun d (q : SimplePiece V O) => CondsAre d.conds q.conds ∧ ∃ o, q.expr = some o ∧ o.evalFn = d.F c) ds qs := by
  have key : ∀ (l : List (PieceIs V O)) (ps : List (Piece (Flex V O) V)),
      All2 (fun d p => ∃ st, PieceRep n d st p) l ps → ∃ qs, PWFunc.simplePieces (flexCls V O) (simpleOf c) ps = .ok qs ∧
      All2 (fun d (q : SimplePiece V O) => CondsAre d.conds q.conds ∧ ∃ o, q.expr = some o ∧ o.evalFn = d.F c) l qs := by
    intro l ps hl
    induction hl with
    | nil => exact ⟨[], rfl, .nil⟩
    | @cons d p l ps hp _ ih =>
      obtain ⟨qs, h1, h2⟩ := ih
      obtain ⟨st, hcs, f, hf, hrep⟩ := hp
      obtain ⟨o, e, ho⟩ := hrep.simple c hc
      refine ⟨⟨o.name, some o, p.conds⟩ :: qs, ?_, .cons ⟨hcs, o, rfl, ho⟩ h2⟩
      have : p.simplePiece (flexCls V O) (simpleOf c) = .ok ⟨o.name, some o, p.conds⟩ := by
        simp only [Piece.simplePiece, Piece.forward, hf, flexCls_sem, e]; rfl
      simp only [PWFunc.simplePieces, this, h1, ok_bind]
  exact key ds s.pieces (All2.of_getElem? h.len.symm fun i d p hd hp => ⟨st i, h.rep i d p hd hp⟩)

end PWRep

theorem pwsimple_eval {c : Comp} {ds : List (PieceIs V O)} {qs : List (SimplePiece V O)}
    (h : All2 (fun d (q : SimplePiece V O) => CondsAre d.conds q.conds ∧ ∃ o, q.expr = some o ∧ o.evalFn = d.F c) ds qs) (v : V) :
    PWSimple.eval qs v = match firstPiece (ds.map PieceIs.conds) v with
      | some i => match ds[i]? with | some d => d.F c v | none => .error (.ub .oob)
      | none => .error .domainError := by
  induction h with
  | nil => rfl
  | @cons d q ds qs hq _ ih =>
    obtain ⟨hcs, o, he, ho⟩ := hq
    simp only [PWSimple.eval, simplePiece_inPiece, piece_inPiece hcs, ok_bind, List.map_cons, firstPiece, List.findIdx?_cons]
    by_cases hb : (d.conds.all fun c => c v) = true
    · simp [hb, SimplePiece.eval, he, ho]
    · simp only [Bool.not_eq_true] at hb
      simp only [hb, ih, firstPiece]
      cases List.findIdx? (fun conds => conds.all fun c => c v) (ds.map PieceIs.conds) <;> simp

/-- The handle prints as `t`. -/
def Prints {V O : Type} (member : SObj V O → Option (Res String)) (h : SFun V O) (t : String) : Prop :=
  ∃ o, h = some o ∧ member o = some (.ok t)

theorem Prints.text {V O : Type} {member : SObj V O → Option (Res String)} {h : SFun V O} {t : String} (hp : Prints member h t) :
    handleText member h = .ok t := by
  obtain ⟨o, rfl, ho⟩ := hp
  simp [handleText, ho]

theorem condLoop_tail (sF sL sM : String) (m : SObj V Bool → Option (Res String)) (n : Nat) {cs : List (SFun V Bool)} {ts : List String}
    (h : All2 (fun c t => Prints m c t) cs ts) : ∀ (i : Nat) (str : String), 0 < i → i + cs.length = n →
    SimplePiece.condLoop sF sL sM m m n cs i str = .ok (str ++ textTail sM sL ts) := by
  induction h with
  | nil => intro i str _ _; simp [SimplePiece.condLoop, textTail]
  | @cons c t cs ts hc hcs ih =>
    intro i str hi hn
    simp only [List.length_cons] at hn
    simp only [SimplePiece.condLoop, hc.text, ok_bind]
    rw [if_neg (by omega)]
    cases hcs with
    | nil =>
      simp only [List.length_nil] at hn
      rw [if_pos (by omega)]
      simp [SimplePiece.condLoop, textTail]
    | cons hc' hcs' =>
      simp only [List.length_cons] at hn ih
      rw [if_neg (by omega), ih (i + 1) _ (by omega) (by omega)]
      simp [textTail, String.append_assoc]

theorem condLoop_text (sF sL sM : String) (m : SObj V Bool → Option (Res String)) {cs : List (SFun V Bool)} {ts : List String}
    (h : All2 (fun c t => Prints m c t) cs ts) (str : String) :
    SimplePiece.condLoop sF sL sM m m cs.length cs 0 str = .ok (pieceText sF sM sL str ts) := by
  cases h with
  | nil => simp [SimplePiece.condLoop, pieceText]
  | @cons c t cs ts hc hcs =>
    simp only [SimplePiece.condLoop, hc.text, ok_bind, if_true]
    rw [condLoop_tail sF sL sM m _ hcs 1 _ (by omega) (by simp; omega)]
    simp [pieceText, String.append_assoc]

theorem textLoop_tail (sF sL sM : String) (m : SimplePiece V O → Res String) (n : Nat) {ps : List (SimplePiece V O)} {ts : List String}
    (h : All2 (fun p t => m p = .ok t) ps ts) : ∀ (i : Nat) (str : String), 0 < i → i + ps.length = n →
    PWSimple.textLoop sF sL sM m n ps i str = .ok (str ++ textTail sM sL ts) := by
  induction h with
  | nil => intro i str _ _; simp [PWSimple.textLoop, textTail]
  | @cons p t ps ts hp hps ih =>
    intro i str hi hn
    simp only [List.length_cons] at hn
    simp only [PWSimple.textLoop, hp, ok_bind]
    rw [if_neg (by omega)]
    cases hps with
    | nil =>
      simp only [List.length_nil] at hn
      rw [if_pos (by omega)]
      simp [PWSimple.textLoop, textTail]
    | cons hc' hcs' =>
      simp only [List.length_cons] at hn ih
      rw [if_neg (by omega), ih (i + 1) _ (by omega) (by omega)]
      simp [textTail, String.append_assoc]

theorem textLoop_text (sF sL sM : String) (m : SimplePiece V O → Res String) {ps : List (SimplePiece V O)} {ts : List String}
    (h : All2 (fun p t => m p = .ok t) ps ts) :
    PWSimple.textLoop sF sL sM m ps.length ps 0 "" = .ok (listText sF sM sL ts) := by
  cases h with
  | nil => simp [PWSimple.textLoop, listText]
  | @cons p t ps ts hp hps =>
    simp only [PWSimple.textLoop, hp, ok_bind, if_true]
    rw [textLoop_tail sF sL sM m _ hps 1 _ (by omega) (by simp; omega)]
    simp [listText, String.append_assoc]

end Verif
