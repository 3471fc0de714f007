import Verif.Lemmas.Piecewise
import Verif.Props.Func

/-!
# Properties C55-C59, C74: piecewise functions
-/

namespace Verif
open Spec
variable {F V O : Type}

/-- Where a condition holds. -/
def holdsAt (o : SObj V Bool) (v : V) : Bool :=
  match o.evalFn v with
  | .ok b => b
  | .error _ => false

/-- What a client gives for one piece: value, gradient and Hessian functions, and the conditions. -/
structure PieceDef (V O : Type) where
  base : FBase
  f : SObj V O
  g : List (SObj V O)
  h : List (List (SObj V O))
  conds : List (SObj V Bool)

namespace PieceDef

/-- The component functions of the piece. -/
def fn (d : PieceDef V O) : Comp → V → Res O := compFn d.f.evalFn (d.g.map SObj.evalFn) (d.h.map fun r => r.map SObj.evalFn)

/-- Its conditions as predicates. -/
def region (d : PieceDef V O) : List (V → Bool) := d.conds.map holdsAt

/-- The client builds the piece: a `PFlexFunction` of the functions, put into a `Piece`. -/
def build (d : PieceDef V O) : Res (Piece (Flex V O) V) := do
  let p ← Flex.make d.base (some d.f) (hs d.g) (d.h.map hs)
  Piece.make (flexCls V O) (some p) (d.conds.map some)

end PieceDef

/-- The pieces `ps` were built from `defs`, all of `n` variables, and no condition throws. -/
structure Built (n : Nat) (defs : List (PieceDef V O)) (ps : List (Piece (Flex V O) V)) : Prop where
  built : All2 (fun d p => d.build = .ok p) defs ps
  vars : ∀ d ∈ defs, d.base.varName.length = n
  total : ∀ d ∈ defs, ∀ o ∈ d.conds, ∀ v, ∃ b, o.evalFn v = .ok b

/-- Calls on a piecewise function whose pieces are `PFlexFunction`s. -/
abbrev pwSem : FCall V → PWFunc (Flex V O) V → Res (FOut V O) × PWFunc (Flex V O) V := (PWFunc.cls (flexCls V O)).sem

theorem condsAre_of {cs : List (SObj V Bool)} (h : ∀ o ∈ cs, ∀ v, ∃ b, o.evalFn v = .ok b) :
    CondsAre (cs.map holdsAt) (cs.map some) := by
  induction cs with
  | nil => exact .nil
  | cons c cs ih =>
    refine .cons ?_ (ih fun o ho => h o (by simp [ho]))
    intro v
    obtain ⟨b, hb⟩ := h c (by simp) v
    simp [condAt, holdsAt, hb]

theorem Built.pieceRep {n : Nat} {d : PieceDef V O} {p : Piece (Flex V O) V} (hb : d.build = .ok p) (hv : d.base.varName.length = n)
    (ht : ∀ o ∈ d.conds, ∀ v, ∃ b, o.evalFn v = .ok b) :
    PieceRep n ⟨d.fn, d.region⟩ (storedVal d.f d.g d.h) p := by
  simp only [PieceDef.build] at hb
  obtain ⟨q, hq, hp⟩ := bind_eq_ok.mp hb
  simp only [Piece.make] at hp
  cases hp
  have hck := check_eq (⟨d.base, some d.f, hs d.g, d.h.map hs⟩ : Flex V O)
  have hs' : sizesOk d.base (hs d.g) (d.h.map hs) ∧ q = ⟨d.base, some d.f, hs d.g, d.h.map hs⟩ := by
    by_cases hs' : sizesOk d.base (hs d.g) (d.h.map hs)
    · simp only [Flex.make, hck.1 hs'] at hq; cases hq; exact ⟨hs', rfl⟩
    · simp only [Flex.make, hck.2 hs'] at hq; cases hq
  obtain ⟨⟨_, h2, h3, h4⟩, rfl⟩ := hs'
  subst hv
  exact ⟨condsAre_of ht, _, rfl, flexRep_mk d.base d.f d.g d.h (by simpa [hs] using h2) (by simpa using h3)
    (fun r hr => by simpa [hs] using h4 (hs r) (List.mem_map_of_mem hr))⟩

theorem Built.rep {n : Nat} {defs : List (PieceDef V O)} {ps : List (Piece (Flex V O) V)} (h : Built n defs ps) :
    PWRep n (defs.map fun d => ⟨d.fn, d.region⟩)
      (fun i => match defs[i]? with | some d => storedVal d.f d.g d.h | none => fun _ => none) (PWFunc.make ps) := by
  refine ⟨by simp [PWFunc.make, h.built.length], ?_⟩
  intro i d p hd hp
  rw [List.getElem?_map] at hd
  cases hi : defs[i]? with
  | none => rw [hi] at hd; cases hd
  | some e =>
    rw [hi] at hd; cases hd
    obtain ⟨p', hp', hb⟩ := h.built.getElem? hi
    have : p' = p := by simp only [PWFunc.make] at hp; rw [hp'] at hp; exact Option.some.inj hp
    subst this
    simp only
    have hm := List.mem_of_getElem? hi
    exact Built.pieceRep hb (h.vars e hm) (h.total e hm)

theorem Built.regions {n : Nat} {defs : List (PieceDef V O)} {ps : List (Piece (Flex V O) V)} (_ : Built n defs ps) :
    (defs.map fun d => (⟨d.fn, d.region⟩ : PieceIs V O)).map PieceIs.conds = defs.map PieceDef.region := by
  simp

/-- **C55** At a point where piece `i` is the first whose conditions hold, the value, gradient and Hessian of the piecewise function
are those of piece `i`, after any history of calls. -/
theorem C55_first_piece {n : Nat} {defs : List (PieceDef V O)} {ps : List (Piece (Flex V O) V)} (hb : Built n defs ps)
    (calls : List (FCall V)) (hcalls : ∀ c ∈ calls, c.InRange n) (v : V) (c : Comp) (hc : (getter c : FCall V).InRange n)
    (i : Nat) (hi : firstPiece (defs.map PieceDef.region) v = some i) :
    ∃ d, defs[i]? = some d ∧
      (pwSem (single v c) (runCalls pwSem calls (PWFunc.make ps)).2).1 = (d.fn c v).map .num := by
  have h := ((hb.rep).run calls hcalls).1.single v c hc
  rw [hb.regions, hi] at h
  have hlt := firstPiece_lt hi
  simp only [List.length_map] at hlt
  refine ⟨defs[i], List.getElem?_eq_getElem hlt, h.trans ?_⟩
  simp [hlt]

/-- **C55** For pieces of any class `C` (a nested piecewise function, a generated class) in any state: an evaluation is forwarded to
the expression of the first piece whose conditions hold, its result returned (nothing, for `eval`), its new state kept, every other
piece left alone. -/
theorem C55_forwards (C : FClass F V O) (s : PWFunc F V) (regions : List (List (V → Bool))) (hr : RegionsAre regions s.pieces)
    (c : FCall V) (v : V) (hc : c.point = some v) (i : Nat) (hi : firstPiece regions v = some i) (p : Piece F V) (f : F)
    (hp : s.pieces[i]? = some p) (hf : p.expr = some f) :
    let d := match c with | .eval v => FCall.evalAt v | c => c
    ((PWFunc.cls C).sem c s).1 = (match c with | .eval _ => (C.sem d f).1.map (fun _ => .void) | _ => (C.sem d f).1) ∧
    ((PWFunc.cls C).sem c s).2 = { s with curr := some i, pieces := s.pieces.set i { p with expr := some (C.sem d f).2 } } := by
  rw [pw_sem_point hr hc, hi]
  simp only [PWFunc.onPiece, hp, piece_sem (C := C) hf c (.inl ⟨v, hc⟩)]
  cases c <;> exact ⟨rfl, rfl⟩

/-- **C56** `in_piece(v)` tells whether some piece's conditions all hold; where none does, every evaluation throws `std::domain_error`
and changes nothing (neither the current piece nor stored values), for pieces of any class in any state. -/
theorem C56_outside (C : FClass F V O) (s : PWFunc F V) (regions : List (List (V → Bool))) (hr : RegionsAre regions s.pieces)
    (v : V) (c : FCall V) (hc : c.point = some v) :
    PWFunc.inPiece s.pieces v = .ok (regions.any fun conds => conds.all fun b => b v) ∧
    ((regions.any fun conds => conds.all fun b => b v) = false → (PWFunc.cls C).sem c s = (.error .domainError, s)) := by
  have e : (firstPiece regions v).isSome = regions.any fun conds => conds.all fun b => b v := by
    simp [firstPiece]
  refine ⟨by rw [pw_inPiece hr, e], fun h => ?_⟩
  rw [← e] at h
  rw [pw_sem_point hr hc]
  cases hf : firstPiece regions v with
  | none => rfl
  | some i => rw [hf] at h; cases h

/-- **C56** The converse: inside some piece an evaluation throws `std::domain_error` only if the expression does. -/
theorem C56_inside {n : Nat} {defs : List (PieceDef V O)} {ps : List (Piece (Flex V O) V)} (hb : Built n defs ps)
    (calls : List (FCall V)) (hcalls : ∀ c ∈ calls, c.InRange n) (v : V) (c : Comp) (hc : (getter c : FCall V).InRange n)
    (hd : ∀ d ∈ defs, ∀ c v, d.fn c v ≠ .error .domainError) :
    PWFunc.inPiece (runCalls pwSem calls (PWFunc.make ps)).2.pieces v = .ok false ↔
      (pwSem (single v c) (runCalls pwSem calls (PWFunc.make ps)).2).1 = .error .domainError := by
  have hr := ((hb.rep).run calls hcalls).1
  rw [pw_inPiece hr.regions, hb.regions]
  cases hf : firstPiece (defs.map PieceDef.region) v with
  | none => rw [hr.single v c hc, hb.regions, hf]; simp
  | some i =>
    obtain ⟨d, hdi, h1⟩ := C55_first_piece hb calls hcalls v c hc i hf
    rw [h1]
    constructor
    · intro h; cases h
    · intro h
      have := hd d (List.mem_of_getElem? hdi) c v
      cases hfn : d.fn c v with
      | ok y => rw [hfn] at h; cases h
      | error e => rw [hfn] at h this; simp only [Except.map] at h; cases h; exact absurd rfl this

/-- **C56** A condition that throws: when it is reached (the pieces before do not apply, the piece's conditions before it hold), its
exception reaches the caller of `in_piece` and of every evaluation, and nothing changes. -/
theorem C56_condition_throws (C : FClass F V O) (s : PWFunc F V) (pre post : List (Piece F V)) (p : Piece F V)
    (hs : s.pieces = pre ++ p :: post) (regions : List (List (V → Bool))) (hr : RegionsAre regions pre) (v : V)
    (hpre : firstPiece regions v = none) (cpre cpost : List (SFun V Bool)) (o : SFun V Bool) (hp : p.conds = cpre ++ o :: cpost)
    (hcp : ∀ c ∈ cpre, condAt c v = .ok true) (e : Err) (he : condAt o v = .error e) (c : FCall V) (hc : c.point = some v) :
    PWFunc.inPiece s.pieces v = .error e ∧ (PWFunc.cls C).sem c s = (.error e, s) := by
  have hin : Piece.inPiece p.conds v = .error e := by
    rw [hp]
    clear hp
    induction cpre with
    | nil => simp [Piece.inPiece, he]
    | cons a l ih =>
      simp only [List.cons_append, Piece.inPiece, hcp a (by simp), ok_bind, Bool.not_true]
      exact ih fun c hc => hcp c (by simp [hc])
  have key : ∀ k, PWFunc.inPiece (pre ++ p :: post) v = .error e ∧ PWFunc.find (pre ++ p :: post) k v = .error e := by
    clear hs
    induction hr with
    | nil => intro k; simp [PWFunc.inPiece, PWFunc.find, hin]
    | @cons r q rs qs hq _ ih =>
      intro k
      simp only [firstPiece, List.findIdx?_cons] at hpre
      split at hpre
      · cases hpre
      · rename_i hne
        simp only [Bool.not_eq_true] at hne
        have hpre' : firstPiece rs v = none := by simpa [firstPiece] using hpre
        simp only [List.cons_append, PWFunc.inPiece, PWFunc.find, piece_inPiece hq, hne, ok_bind]
        exact ⟨(ih hpre' 0).1, (ih hpre' (k + 1)).2⟩
  refine ⟨by rw [hs]; exact (key 0).1, ?_⟩
  have : (PWFunc.cls C).sem c s = PWFunc.atPoint C c v s := by
    cases c <;> simp [FCall.point] at hc <;> subst hc <;> rfl
  rw [this, PWFunc.atPoint, PWFunc.piece, hs, (key 0).2]

/-- **C57** After any history the getters refer to the piece of the last evaluation inside some piece, and return that piece's
component at the point where it was last evaluated (for a component never evaluated: the value stored in the given function,
`SObj.get`). Before any such evaluation the current piece is uninitialised. -/
theorem C57_getters {n : Nat} {defs : List (PieceDef V O)} {ps : List (Piece (Flex V O) V)} (hb : Built n defs ps)
    (calls : List (FCall V)) (hcalls : ∀ c ∈ calls, c.InRange n) (c : Comp) (hc : (getter c : FCall V).InRange n) :
    let regions := defs.map PieceDef.region
    (runCalls pwSem (calls ++ [getter c]) (PWFunc.make ps)).1.getLast? =
      some (match lastPiece regions calls with
      | none => .error (.ub .uninit)
      | some i => match defs[i]? with
        | none => .error (.ub .oob)
        | some d => match lastEval d.fn n c (callsOn regions i calls) none with
          | some v => (d.fn c v).map .num
          | none => Except.map .num (match storedVal d.f d.g d.h c with | some y => .ok y | none => .error (.ub .uninit))) := by
  intro regions
  rw [run_snoc]
  obtain ⟨h1, h2⟩ := (hb.rep).run calls hcalls
  rw [h1.getter c hc, h2, hb.regions]
  cases hl : lastPiece (defs.map PieceDef.region) calls with
  | none => rfl
  | some i =>
    simp only [regions, List.length_map]
    by_cases hi : i < defs.length
    · simp only [hi, if_true, List.getElem?_map, List.getElem?_eq_getElem hi, Option.map_some]
      have hf := foldl_lastEval (n := n) (F := defs[i].fn) c (callsOn (defs.map PieceDef.region) i calls)
        (storedVal defs[i].f defs[i].g defs[i].h) (storedVal defs[i].f defs[i].g defs[i].h) none rfl
      cases he : lastEval defs[i].fn n c (callsOn (defs.map PieceDef.region) i calls) none with
      | none => rw [he] at hf; simp only at hf; rw [hf]; rfl
      | some v =>
        rw [he] at hf
        obtain ⟨y, hy, hst⟩ := hf
        simp only
        rw [hst, hy]
    · simp only [hi, if_false, List.getElem?_eq_none (by omega : defs.length ≤ i)]

/-- **C57** In particular: after an evaluation at `v` that reached component `c` (and any getters after it), the getter returns the
component of the first piece at `v`. -/
theorem C57_last {n : Nat} {defs : List (PieceDef V O)} {ps : List (Piece (Flex V O) V)} (hb : Built n defs ps)
    (calls gets : List (FCall V)) (hcalls : ∀ c ∈ calls, c.InRange n) (e : FCall V) (he : e.InRange n) (v : V) (cs : List Comp)
    (hev : e.evaluates n = some (v, cs)) (hg : ∀ g ∈ gets, g.InRange n ∧ g.point = none)
    (i : Nat) (d : PieceDef V O) (hd : defs[i]? = some d) (hi : firstPiece (defs.map PieceDef.region) v = some i)
    (c : Comp) (hc : (getter c : FCall V).InRange n) (hcs : c ∈ cs) (hok : ∀ c' ∈ cs, ∃ y, d.fn c' v = .ok y) :
    (runCalls pwSem ((calls ++ e :: gets) ++ [getter c]) (PWFunc.make ps)).1.getLast? = some ((d.fn c v).map .num) := by
  have hpt : e.point = some v := by cases e <;> simp [FCall.evaluates] at hev <;> simp [FCall.point, hev.1]
  have hin : ∀ c ∈ calls ++ e :: gets, c.InRange n := by
    intro c hc
    rcases List.mem_append.mp hc with h | h
    · exact hcalls c h
    · rcases List.mem_cons.mp h with rfl | h
      · exact he
      · exact (hg c h).1
  have htg : ∀ g ∈ gets, g.target (defs.map PieceDef.region) = none := fun g hg' => by simp [FCall.target, (hg g hg').2]
  have h := C57_getters hb (calls ++ e :: gets) hin c hc
  simp only at h
  rw [h]
  have hlast : lastPiece (defs.map PieceDef.region) (calls ++ e :: gets) = some i := by
    have h1 : e.target (defs.map PieceDef.region) = some i := by simp [FCall.target, hpt, hi]
    have : List.filterMap (FCall.target (defs.map PieceDef.region)) gets = [] := by
      rw [List.filterMap_eq_nil_iff]; exact htg
    simp [lastPiece, List.filterMap_append, List.filterMap_cons, h1, this]
  have hon : callsOn (defs.map PieceDef.region) i (calls ++ e :: gets) = callsOn (defs.map PieceDef.region) i calls ++ [e] := by
    simp only [callsOn, List.filter_append, List.filter_cons]
    have h1 : e.target (defs.map PieceDef.region) = some i := by simp [FCall.target, hpt, hi]
    have h2 : List.filter (fun c => decide (FCall.target (defs.map PieceDef.region) c = some i)) gets = [] := by
      rw [List.filter_eq_nil_iff]; intro g hg'; simp [htg g hg']
    simp [h1, h2]
  rw [hlast]
  simp only [hd]
  rw [hon]
  have happ : ∀ (l : List (FCall V)) (last : Option V), lastEval d.fn n c (l ++ [e]) last = some v := by
    intro l
    induction l with
    | nil =>
      intro last
      have htw : List.takeWhile (fun c' => isValue (d.fn c' v)) cs = cs := by
        clear hcs hev
        induction cs with
        | nil => rfl
        | cons a l ih =>
          obtain ⟨y, hy⟩ := hok a (by simp)
          rw [List.takeWhile_cons, hy, if_pos (by rfl : isValue (Except.ok y) = true), ih fun c' hc' => hok c' (by simp [hc'])]
      simp only [List.nil_append, lastEval, hev, htw, hcs, if_true]
    | cons a l ih => intro last; simp only [List.cons_append, lastEval]; exact ih _
  rw [happ]

/-- **C58** The simple functions of a piecewise function agree with it: after any history `simplefunction()`,
`grad_simplefunction(di)`, `hess_simplefunction(di,dj)` give a function whose evaluation at any point returns what `operator()(v)`,
`grad(v,di)`, `hess(v,di,dj)` return, or throws what they throw (`std::domain_error` outside every piece). -/
theorem C58_simple_agrees {n : Nat} {defs : List (PieceDef V O)} {ps : List (Piece (Flex V O) V)} (hb : Built n defs ps)
    (calls : List (FCall V)) (hcalls : ∀ c ∈ calls, c.InRange n) (c : Comp) (hc : (getter c : FCall V).InRange n) :
    let s := (runCalls pwSem calls (PWFunc.make ps)).2
    let member : FCall V := match c with | .f => .simple | .g i => .gradSimple i | .h i j => .hessSimple i j
    ∃ o, pwSem member s = (.ok (.simple (some o)), s) ∧ ∀ v, (o.evalAt v).1.map FOut.num = (pwSem (single v c) s).1 := by
  intro s member
  have hr := ((hb.rep).run calls hcalls).1
  obtain ⟨qs, h1, h2⟩ := hr.forward_simple c hc
  refine ⟨PWSimple.toSObj ⟨qs⟩, ?_, fun v => ?_⟩
  · have : pwSem member s = PWFunc.simple (flexCls V O) (simpleOf c) s := by cases c <;> rfl
    rw [this, PWFunc.simple, h1]; rfl
  · have he : ((PWSimple.toSObj ⟨qs⟩ : SObj V O).evalAt v).1 = PWSimple.eval qs v := by
      simp only [SObj.evalAt, SObj.evalFn, PWSimple.toSObj]
      cases PWSimple.eval qs v <;> rfl
    rw [he, pwsimple_eval h2, hr.single v c hc]
    cases firstPiece _ v with
    | none => rfl
    | some i =>
      simp only
      split <;> rfl

/-- **C59** C source and symbolic notation: a piece prints its expression, then all its conditions in order (" if " before the first,
", " before those in the middle, " and " before the last). -/
theorem C59_piece_text (p : SimplePiece V O) (e : String) (cs : List String) :
    (Prints SObj.csrc p.expr e → All2 (Prints SObj.csrc) p.conds cs → p.csrc = .ok (pieceText " if " ", " " and " e cs)) ∧
    (Prints SObj.sym p.expr e → All2 (Prints SObj.sym) p.conds cs → p.sym = .ok (pieceText " if " ", " " and " e cs)) := by
  constructor
  · intro he hc
    simp only [SimplePiece.csrc, he.text, ok_bind]
    exact condLoop_text _ _ _ _ hc e
  · intro he hc
    simp only [SimplePiece.sym, he.text, ok_bind]
    exact condLoop_text _ _ _ _ hc e

/-- **C59** C source and symbolic notation: a piecewise function prints all its pieces in order. -/
theorem C59_list_text (p : PWSimple V O) (ts : List String) :
    (All2 (fun q t => q.csrc = .ok t) p.pieces ts → p.csrc = .ok (listText "" "; " "; and " ts)) ∧
    (All2 (fun q t => q.sym = .ok t) p.pieces ts → p.sym = .ok (listText "" "; " "; and " ts)) :=
  ⟨fun h => textLoop_text _ _ _ _ h, fun h => textLoop_text _ _ _ _ h⟩

/-- **C59** (full statement for latex) A piece prints its expression and all its conditions in latex. -/
def C59_latex_statement (V O : Type) : Prop :=
  ∀ (p : SimplePiece V O) (e : String) (cs : List String), Prints SObj.latex p.expr e → All2 (Prints SObj.latex) p.conds cs →
    p.latex = .ok (pieceText " & \\mbox{ if } " " \\mbox{, } " " \\mbox{ and } " e cs)

/-- **C59** partial: the latex notation is right for pieces with at most two conditions; missing: with more, all but the first and
the last are printed with `sym()`. -/
theorem C59_latex_piece_partial (p : SimplePiece V O) (e : String) (cs : List String) (he : Prints SObj.latex p.expr e)
    (hc : All2 (Prints SObj.latex) p.conds cs) (h2 : p.conds.length ≤ 2) :
    p.latex = .ok (pieceText " & \\mbox{ if } " " \\mbox{, } " " \\mbox{ and } " e cs) := by
  simp only [SimplePiece.latex, he.text, ok_bind]
  have two : ∀ (sF sL sM : String) (m m' : SObj V Bool → Option (Res String)) (l : List (SFun V Bool)), l.length ≤ 2 →
      SimplePiece.condLoop sF sL sM m m' l.length l 0 e = SimplePiece.condLoop sF sL sM m m l.length l 0 e := by
    intro sF sL sM m m' l hl
    rcases l with _ | ⟨a, _ | ⟨b, _ | ⟨c, l⟩⟩⟩
    · rfl
    · simp only [SimplePiece.condLoop, if_true]
    · simp only [SimplePiece.condLoop, List.length_cons, List.length_nil, if_true, Nat.reduceAdd, Nat.reduceSub]
    · simp at hl
  rw [two _ _ _ _ _ _ h2]
  exact condLoop_text _ _ _ _ hc e

/-- **C59** partial: a nonempty piecewise function prints all its pieces in latex, in an array (the pieces' own texts as above). -/
theorem C59_latex_list_partial (p : PWSimple V O) (ts : List String) (h : All2 (fun q t => q.latex = .ok t) p.pieces ts)
    (hne : ts ≠ []) :
    p.latex = .ok ("\\left\\{ \\begin{array}{ll} " ++ listText "" " \\\\ " " \\\\ " ts ++ " \\end{array} \\right.") := by
  simp only [PWSimple.latex, textLoop_text _ _ _ _ h, ok_bind]
  cases ts with
  | nil => simp at hne
  | cons t ts => simp [listText, String.append_assoc]

/-- **C59** violated: three conditions; the middle one is printed in symbolic notation. -/
theorem C59_latex_violated : ¬ C59_latex_statement Int Int := by
  intro h
  let c (l s : String) : SFun Int Bool := some ⟨"", none, none, some (.ok s), some (.ok l), none⟩
  have := h ⟨"", some ⟨"", none, none, none, some (.ok "x"), none⟩, [c "a" "", c "\\beta" "beta", c "d" ""]⟩ "x" ["a", "\\beta", "d"]
    ⟨_, rfl, rfl⟩ (.cons ⟨_, rfl, rfl⟩ (.cons ⟨_, rfl, rfl⟩ (.cons ⟨_, rfl, rfl⟩ .nil)))
  simp [SimplePiece.latex, handleText, SimplePiece.condLoop, c, pieceText, textTail] at this

/-- **C59** violated: the latex of a piecewise function without pieces closes an array that it does not open. -/
theorem C59_latex_empty_violated : (PWSimple.mk [] : PWSimple V O).latex = .ok " \\end{array} \\right." := by
  simp [PWSimple.latex, PWSimple.textLoop]

/-- **C74** (full statement) A piecewise function reports the variables its pieces report, whenever they agree. -/
def C74_statement (V O : Type) : Prop :=
  ∀ (n : Nat) (defs : List (PieceDef V O)) (ps : List (Piece (Flex V O) V)), Built n defs ps → defs ≠ [] →
    (pwSem (O := O) .size (PWFunc.make ps)).1 = .ok (.size n)

/-- **C74** violated: a piecewise function made of pieces reports no variables (and no name), whatever the pieces; asking for the name of
its first variable reads out of bounds. -/
theorem C74_violated (C : FClass F V O) (ps : List (Piece F V)) :
    ((PWFunc.cls C).sem .size (PWFunc.make ps)).1 = .ok (.size 0) ∧ ((PWFunc.cls C).sem .name (PWFunc.make ps)).1 = .ok (.str "") ∧
    ((PWFunc.cls C).sem (.varName 0) (PWFunc.make ps)).1 = .error (.ub .oob) ∧
    ((PWFunc.cls C).sem (.varDesc 0) (PWFunc.make ps)).1 = .error (.ub .oob) := ⟨rfl, rfl, rfl, rfl⟩

/-- **C74** partial: a single piece reports what its expression reports (name, variables, descriptions), for expressions of any class,
and keeps doing so while it is evaluated. -/
theorem C74_piece_partial (C : FClass F V O) (f : F) (conds : List (SFun V Bool)) (p : Piece F V)
    (hp : Piece.make C (some f) conds = .ok p) (calls : List (FCall V)) (c : FCall V)
    (hc : c = .name ∨ c = .size ∨ c = .varNames ∨ c = .varDescs ∨ (∃ i, c = .varName i) ∨ ∃ i, c = .varDesc i) :
    ((Piece.cls C).sem c (runCalls (Piece.cls C).sem calls p).2).1 = (C.sem c f).1 := by
  simp only [Piece.make] at hp
  cases hp
  have hbase : ∀ (c : FCall V) (q : Piece F V), ((Piece.cls C).sem c q).2.base = q.base := by
    intro c q
    cases c <;> simp only [FClass.sem, Piece.cls, FBase.sem, Piece.ov, Piece.forward] <;> first
      | rfl
      | (cases q.expr <;> rfl)
  have hrun : ∀ (cs : List (FCall V)) (q : Piece F V), (runCalls (Piece.cls C).sem cs q).2.base = q.base := by
    intro cs
    induction cs with
    | nil => intro q; rfl
    | cons c cs ih => intro q; exact (ih _).trans (hbase c q)
  have h := hrun calls ⟨C.base f, some f, conds⟩
  rcases hc with rfl | rfl | rfl | rfl | ⟨i, rfl⟩ | ⟨i, rfl⟩ <;> simp only [FClass.sem, Piece.cls, FBase.sem] at h ⊢ <;> rw [h]

/-- x² for x < 0 and x < 100, x + 1 for 0 ≤ x, nothing else. -/
def Demo.pwDefs : List (PieceDef Int Int) :=
  [⟨⟨"sq", ["x"], [""]⟩, ⟨"sq", some fun x => .ok (x * x), none, none, none, none⟩, [⟨"dsq", some fun x => .ok (2 * x), none, none, none, none⟩],
    [[⟨"ddsq", some fun _ => .ok 2, none, none, none, none⟩]],
    [⟨"", some fun x => .ok (decide (x < 0)), none, none, none, none⟩, ⟨"", some fun x => .ok (decide (-100 < x)), none, none, none, none⟩]⟩,
   ⟨⟨"lin", ["x"], [""]⟩, ⟨"lin", some fun x => .ok (x + 1), none, none, none, none⟩, [⟨"dlin", some fun _ => .ok 1, none, none, none, none⟩],
    [[⟨"ddlin", some fun _ => .ok 0, none, none, none, none⟩]],
    [⟨"", some fun x => .ok (decide (-3 < x)), none, none, none, none⟩]⟩]

/-- Non-vacuity of C55-C58: the pieces can be built. -/
theorem Demo.pwBuilt : ∃ ps, Built 1 Demo.pwDefs ps := by
  refine ⟨_, .cons rfl (.cons rfl .nil), ?_, ?_⟩
  · intro d hd
    simp only [Demo.pwDefs, List.mem_cons, List.not_mem_nil, or_false] at hd
    rcases hd with rfl | rfl <;> rfl
  · intro d hd o ho v
    simp only [Demo.pwDefs, List.mem_cons, List.not_mem_nil, or_false] at hd
    rcases hd with rfl | rfl <;> simp only [List.mem_cons, List.not_mem_nil, or_false] at ho
    · rcases ho with rfl | rfl <;> exact ⟨_, rfl⟩
    · subst ho; exact ⟨_, rfl⟩

/-- At -2 both pieces apply and the first counts, at -100 none does, at 5 the second does. -/
example : firstPiece (Demo.pwDefs.map PieceDef.region) (-2) = some 0 ∧ firstPiece (Demo.pwDefs.map PieceDef.region) (-100) = none ∧
    firstPiece (Demo.pwDefs.map PieceDef.region) 5 = some 1 := by decide

/-- The gradient at -2 is that of the square; then, after evaluating the gradient at 5 and failing at -100, the gradient getter
gives 1. -/
example : ∃ ps, Built 1 Demo.pwDefs ps ∧
    (pwSem (single (-2) (.g 0)) (runCalls pwSem [.eval 5, .get] (PWFunc.make ps)).2).1 = .ok (.num (-4)) ∧
    (runCalls pwSem ([.evalGrad 5, .eval (-100)] ++ [getter (.g 0)]) (PWFunc.make ps)).1.getLast? = some (.ok (.num 1)) := by
  obtain ⟨ps, hb⟩ := Demo.pwBuilt
  refine ⟨ps, hb, ?_, ?_⟩
  · obtain ⟨d, hd, h⟩ := C55_first_piece hb [.eval 5, .get] (by simp [FCall.InRange]) (-2) (.g 0) (by simp [getter, FCall.InRange]) 0 (by decide)
    rw [h]
    simp only [Demo.pwDefs, List.getElem?_cons_zero, Option.some.injEq] at hd
    subst hd; rfl
  · rw [C57_getters hb _ (by simp [FCall.InRange]) (.g 0) (by simp [getter, FCall.InRange])]
    rfl

/-- Non-vacuity of C59: three conditions in symbolic notation. -/
example : (⟨"f", some ⟨"f", none, none, some (.ok "x"), none, none⟩,
    ["a", "b", "c"].map fun t => some ⟨"", none, none, some (.ok t), none, none⟩⟩ : SimplePiece Int Int).sym = .ok "x if a, b and c" :=
  ((C59_piece_text _ "x" ["a", "b", "c"]).2 ⟨_, rfl, rfl⟩ (.cons ⟨_, rfl, rfl⟩ (.cons ⟨_, rfl, rfl⟩ (.cons ⟨_, rfl, rfl⟩ .nil)))).trans
    (by simp [pieceText, textTail])

/-- Non-vacuity of C74: a piece over the quadratic, after an evaluation, still reports one variable. -/
example : ((Piece.cls (flexCls Int Int)).sem .size
    (runCalls (Piece.cls (flexCls Int Int)).sem [.evalAt 3] ⟨Demo.quad.base, some Demo.quad, []⟩).2).1 = .ok (.size 1) :=
  (C74_piece_partial (flexCls Int Int) Demo.quad [] _ rfl _ .size (by simp)).trans rfl

end Verif
