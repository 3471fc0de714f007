import Verif.Props.Piecewise

/-!
# Properties C44, C56, C59, continued: pieces used as functions, pieces without texts, empty handles
-/

namespace Verif
open Spec
variable {F V O : Type}

/-- **C59** A piece used as a function (through a handle to its base class) prints the same notation and evaluates in the same way. -/
theorem C59_piece_as_function (p : SimplePiece V O) (v : V) :
    (p.toSObj.evalAt v).1 = p.eval v ∧ (∀ t, p.csrc = .ok t → Prints SObj.csrc (some p.toSObj) t) ∧ (∀ t, p.sym = .ok t → Prints SObj.sym (some p.toSObj) t) ∧
    ∀ t, p.latex = .ok t → Prints SObj.latex (some p.toSObj) t := by
  refine ⟨?_, fun t h => ⟨_, rfl, congrArg some h⟩, fun t h => ⟨_, rfl, congrArg some h⟩, fun t h => ⟨_, rfl, congrArg some h⟩⟩
  simp only [SObj.evalAt, SObj.evalFn, SimplePiece.toSObj]
  cases p.eval v <;> rfl

/-- **C59** The same for a piecewise simple function. -/
theorem C59_list_as_function (p : PWSimple V O) (v : V) :
    (p.toSObj.evalAt v).1 = PWSimple.eval p.pieces v ∧ (∀ t, p.csrc = .ok t → Prints SObj.csrc (some p.toSObj) t) ∧
    (∀ t, p.sym = .ok t → Prints SObj.sym (some p.toSObj) t) ∧ ∀ t, p.latex = .ok t → Prints SObj.latex (some p.toSObj) t := by
  refine ⟨?_, fun t h => ⟨_, rfl, congrArg some h⟩, fun t h => ⟨_, rfl, congrArg some h⟩, fun t h => ⟨_, rfl, congrArg some h⟩⟩
  simp only [SObj.evalAt, SObj.evalFn, PWSimple.toSObj]
  cases PWSimple.eval p.pieces v <;> rfl

/-- **C44** A piece whose expression does not define a notation throws when asked for it. -/
theorem C44_piece_without_text (o : SObj V O) (conds : List (SFun V Bool)) (name : String) :
    (o.csrc = none → (⟨name, some o, conds⟩ : SimplePiece V O).csrc = .error .runtimeError) ∧
    (o.sym = none → (⟨name, some o, conds⟩ : SimplePiece V O).sym = .error .runtimeError) ∧
    (o.latex = none → (⟨name, some o, conds⟩ : SimplePiece V O).latex = .error .runtimeError) := by
  refine ⟨fun h => ?_, fun h => ?_, fun h => ?_⟩
  · simp only [SimplePiece.csrc, handleText, h, err_bind]
  · simp only [SimplePiece.sym, handleText, h, err_bind]
  · simp only [SimplePiece.latex, handleText, h, err_bind]

/-- **C44** So does a piece whose first condition does not define the notation. -/
theorem C44_condition_without_text (p : SimplePiece V O) (o : SObj V Bool) (rest : List (SFun V Bool)) (hp : p.conds = some o :: rest) (e : String) :
    (Prints SObj.csrc p.expr e → o.csrc = none → p.csrc = .error .runtimeError) ∧ (Prints SObj.sym p.expr e → o.sym = none → p.sym = .error .runtimeError) ∧
    (Prints SObj.latex p.expr e → o.latex = none → p.latex = .error .runtimeError) := by
  refine ⟨fun he h => ?_, fun he h => ?_, fun he h => ?_⟩
  · obtain ⟨q, hq, hq2⟩ := he
    simp [SimplePiece.csrc, hq, hq2, hp, SimplePiece.condLoop, handleText, h]
  · obtain ⟨q, hq, hq2⟩ := he
    simp [SimplePiece.sym, hq, hq2, hp, SimplePiece.condLoop, handleText, h]
  · obtain ⟨q, hq, hq2⟩ := he
    simp [SimplePiece.latex, hq, hq2, hp, SimplePiece.condLoop, handleText, h]

/-- **C56** An empty condition handle is undefined behaviour when it is reached (it is neither true nor false). -/
theorem C56_empty_condition (C : FClass F V O) (s : PWFunc F V) (pre post : List (Piece F V)) (p : Piece F V)
    (hs : s.pieces = pre ++ p :: post) (regions : List (List (V → Bool))) (hr : RegionsAre regions pre) (v : V)
    (hpre : firstPiece regions v = none) (cpre cpost : List (SFun V Bool)) (hp : p.conds = cpre ++ none :: cpost)
    (hcp : ∀ c ∈ cpre, ∃ o, c = some o ∧ o.evalFn v = .ok true) (c : FCall V) (hc : c.point = some v) :
    PWFunc.inPiece s.pieces v = .error (.ub .nullDeref) ∧ (PWFunc.cls C).sem c s = (.error (.ub .nullDeref), s) := by
  refine C56_condition_throws C s pre post p hs regions hr v hpre cpre cpost none hp (fun c hc => ?_) _ rfl c hc
  obtain ⟨o, rfl, h⟩ := hcp c hc
  exact h

/-- A piece as the expression of another piece: nested notation. -/
example : (⟨"g", some (⟨"f", some ⟨"f", none, none, some (.ok "x"), none, none⟩, [some ⟨"", none, none, some (.ok "a"), none, none⟩]⟩ : SimplePiece Int Int).toSObj,
    [some ⟨"", none, none, some (.ok "b"), none, none⟩]⟩ : SimplePiece Int Int).sym = .ok "x if a if b" :=
  ((C59_piece_text _ "x if a" ["b"]).2 ((C59_piece_as_function _ 0).2.2.1 _
    (((C59_piece_text _ "x" ["a"]).2 ⟨_, rfl, rfl⟩ (.cons ⟨_, rfl, rfl⟩ .nil)).trans (by simp [pieceText, textTail])))
    (.cons ⟨_, rfl, rfl⟩ .nil)).trans (by simp [pieceText, textTail])

/-- The C source of a piece whose expression has none; of one whose condition has none. -/
example : (⟨"f", some ⟨"f", none, none, some (.ok "x"), none, none⟩, []⟩ : SimplePiece Int Int).csrc = .error .runtimeError ∧
    (⟨"f", some ⟨"f", none, some (.ok "x"), none, none, none⟩, [some ⟨"", none, none, none, none, none⟩]⟩ : SimplePiece Int Int).csrc = .error .runtimeError :=
  ⟨(C44_piece_without_text _ _ _).1 rfl, (C44_condition_without_text _ _ _ rfl "x").1 ⟨_, rfl, rfl⟩ rfl⟩

/-- One piece with an empty condition. -/
example : (PWFunc.cls (flexCls Int Int)).sem (.evalAt 3) (PWFunc.make [⟨Demo.quad.base, some Demo.quad, [none]⟩]) =
    (.error (.ub .nullDeref), PWFunc.make [⟨Demo.quad.base, some Demo.quad, [none]⟩]) :=
  (C56_empty_condition (flexCls Int Int) _ [] [] _ rfl [] .nil 3 rfl [] [] rfl (by simp) (.evalAt 3) rfl).2

end Verif
