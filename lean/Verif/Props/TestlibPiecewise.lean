import Verif.Lemmas.TestlibPiecewise
import Verif.Props.Piecewise
import Verif.Props.Handle
import Verif.Model.TestlibPieceMem
import Mathlib.Analysis.SpecialFunctions.Sqrt
import Mathlib.Analysis.Calculus.Deriv.Inv
import Mathlib.Analysis.Calculus.Deriv.Add
import Mathlib.Analysis.Calculus.Deriv.Mul
import Mathlib.Analysis.Calculus.Deriv.Pow
import Mathlib.Tactic.IntervalCases
import Mathlib.Tactic.FieldSimp
import Mathlib.Tactic.LinearCombination

/-!
# Property C78: the piecewise function shipped in tests/testlib
-/

namespace Verif
open Spec Testlib

/-- The point with these first two coordinates. -/
def pt (x y : ℝ) (rest : List ℝ) : Vec2 := ⟨x :: y :: rest, by simp⟩

theorem objR_eval {t : ClassText} {f : ℝ → ℝ → ℝ} (h : FnMeans t f) (v : Vec2) :
    t.objR.evalFn v = .ok (f (v.1.getD 0 0) (v.1.getD 1 0)) := by
  obtain ⟨⟨a, ha, hv, he⟩, _⟩ := h
  simp only [ClassText.objR, ClassText.objOf, SObj.evalFn, ha, if_pos (hv.trans v.2), he]

theorem objB_eval {t : ClassText} {P : ℝ → ℝ → Prop} (h : CondMeans t P) (v : Vec2) :
    ∃ b : Bool, t.objB.evalFn v = .ok b ∧ (b = true ↔ P (v.1.getD 0 0) (v.1.getD 1 0)) := by
  obtain ⟨⟨c, hc, hv, he⟩, _⟩ := h
  classical
  refine ⟨decide (c.Holds fun i => v.1.getD i 0), ?_, by simp [he]⟩
  simp only [ClassText.objB, ClassText.objOf, SObj.evalFn, hc, if_pos (hv.trans v.2)]

/-- What the constructor is given. -/
noncomputable def myDefs : List (PieceDef Vec2 ℝ) :=
  [⟨myPiece0.base, MyPieceWiseFunc_piece0_f.objR, [MyPieceWiseFunc_piece0_grad_0.objR, MyPieceWiseFunc_piece0_grad_1.objR],
    [[MyPieceWiseFunc_piece0_hess_0_0.objR, MyPieceWiseFunc_piece0_hess_0_1.objR],
     [MyPieceWiseFunc_piece0_hess_1_0.objR, MyPieceWiseFunc_piece0_hess_1_1.objR]],
    [MyPieceWiseFunc_piece0_cond0.objB]⟩,
   ⟨myPiece1.base, MyPieceWiseFunc_piece1_f.objR, [MyPieceWiseFunc_piece1_grad_0.objR, MyPieceWiseFunc_piece1_grad_1.objR],
    [[MyPieceWiseFunc_piece1_hess_0_0.objR, MyPieceWiseFunc_piece1_hess_0_1.objR],
     [MyPieceWiseFunc_piece1_hess_1_0.objR, MyPieceWiseFunc_piece1_hess_1_1.objR]],
    [MyPieceWiseFunc_piece1_cond0.objB, MyPieceWiseFunc_piece1_cond1.objB]⟩,
   ⟨myPiece2.base, MyPieceWiseFunc_piece2_f.objR, [MyPieceWiseFunc_piece2_grad_0.objR, MyPieceWiseFunc_piece2_grad_1.objR],
    [[MyPieceWiseFunc_piece2_hess_0_0.objR, MyPieceWiseFunc_piece2_hess_0_1.objR],
     [MyPieceWiseFunc_piece2_hess_1_0.objR, MyPieceWiseFunc_piece2_hess_1_1.objR]],
    [MyPieceWiseFunc_piece2_cond0.objB, MyPieceWiseFunc_piece2_cond1.objB]⟩]

theorem myBuilt : ∃ ps, Built 2 myDefs ps ∧
    myPieceWise = .ok ⟨⟨"MyPieceWiseFunc", ["x", "y"], ["x variable", "y variable"]⟩, none, ps⟩ := by
  refine ⟨_, ⟨.cons rfl (.cons rfl (.cons rfl .nil)), ?_, ?_⟩, rfl⟩
  · intro d hd
    simp only [myDefs, List.mem_cons, List.not_mem_nil, or_false] at hd
    rcases hd with rfl | rfl | rfl <;> rfl
  · intro d hd o ho v
    simp only [myDefs, List.mem_cons, List.not_mem_nil, or_false] at hd
    have key : ∀ {t P}, CondMeans t P → ∃ b, t.objB.evalFn v = .ok b := fun h => (objB_eval h v).imp fun _ h => h.1
    rcases hd with rfl | rfl | rfl <;> simp only [List.mem_cons, List.not_mem_nil, or_false] at ho
    · subst ho; exact key condMeans_0_cond0
    · rcases ho with rfl | rfl
      · exact key condMeans_1_cond0
      · exact key condMeans_1_cond1
    · rcases ho with rfl | rfl
      · exact key condMeans_2_cond0
      · exact key condMeans_2_cond1

theorem holdsAt_iff {t : ClassText} {P : ℝ → ℝ → Prop} (h : CondMeans t P) (x y : ℝ) (rest : List ℝ) :
    holdsAt t.objB (pt x y rest) = true ↔ P x y := by
  obtain ⟨b, h1, h2⟩ := objB_eval h (pt x y rest)
  rw [holdsAt, h1]
  simpa [pt] using h2

theorem first_of_point (x y : ℝ) (rest : List ℝ) : firstPiece (myDefs.map PieceDef.region) (pt x y rest) = some (pieceOf x y) := by
  have h0 := holdsAt_iff condMeans_0_cond0 x y rest
  have h1 := holdsAt_iff condMeans_1_cond0 x y rest
  have h2 := holdsAt_iff condMeans_1_cond1 x y rest
  have h3 := holdsAt_iff condMeans_2_cond0 x y rest
  have h4 := holdsAt_iff condMeans_2_cond1 x y rest
  simp only [firstPiece, myDefs, List.map_cons, List.map_nil, PieceDef.region, List.findIdx?_cons, List.findIdx?_nil, List.all_cons,
    List.all_nil, Bool.and_true, pieceOf]
  by_cases hx : x < 0
  · rw [if_pos hx, if_pos (h0.mpr hx)]
  · rw [if_neg hx, if_neg (fun h => hx (h0.mp h))]
    have hx' : 0 ≤ x := not_lt.mp hx
    by_cases hr : x ^ 2 + y ^ 2 < 1 / 4
    · rw [if_pos hr, h1.mpr hr, h2.mpr hx']; rfl
    · rw [if_neg hr, h3.mpr (not_lt.mp hr), h4.mpr hx']
      have : holdsAt MyPieceWiseFunc_piece1_cond0.objB (pt x y rest) = false := Bool.eq_false_iff.mpr fun h => hr (h1.mp h)
      rw [this]; rfl

/-- **C78** Every point lies in exactly one piece, and `piece()` reports which; `in_piece()` is always true. -/
theorem C78_partition (s0 : PWFunc (Flex Vec2 ℝ) Vec2) (hs : myPieceWise = .ok s0) (calls : List (FCall Vec2))
    (hcalls : ∀ c ∈ calls, c.InRange 2) (x y : ℝ) (rest : List ℝ) :
    let s := (runCalls pwSem calls s0).2
    (s.piece (pt x y rest)).1 = .ok (pieceOf x y) ∧ PWFunc.inPiece s.pieces (pt x y rest) = .ok true ∧
    ∀ i p, s.pieces[i]? = some p → Piece.inPiece p.conds (pt x y rest) = .ok (decide (i = pieceOf x y)) := by
  intro s
  obtain ⟨ps, hb, h0⟩ := myBuilt
  rw [hs] at h0; cases h0
  have hrep : PWRep 2 _ _ (⟨⟨"MyPieceWiseFunc", ["x", "y"], ["x variable", "y variable"]⟩, none, ps⟩ : PWFunc (Flex Vec2 ℝ) Vec2) :=
    ⟨hb.rep.len, hb.rep.rep⟩
  have hr := (hrep.run calls hcalls).1
  have hreg := hr.regions
  rw [hb.regions] at hreg
  refine ⟨?_, ?_, ?_⟩
  · have := pw_piece hreg (pt x y rest)
    rw [first_of_point] at this
    exact congrArg Prod.fst this
  · rw [pw_inPiece hreg, first_of_point]; rfl
  · intro i p hp
    have hlen : s.pieces.length = 3 := by rw [hr.len]; rfl
    have hlt : i < 3 := by rw [← hlen]; exact (List.getElem?_eq_some_iff.mp hp).1
    obtain ⟨r, hri⟩ : ∃ r, (myDefs.map PieceDef.region)[i]? = some r :=
      ⟨_, List.getElem?_eq_getElem (by simp only [List.length_map]; exact hlt)⟩
    obtain ⟨p', hp', hrp⟩ := hreg.getElem? hri
    have : p' = p := Option.some.inj (hp'.symm.trans hp)
    subst this
    rw [piece_inPiece hrp]
    have h0 := holdsAt_iff condMeans_0_cond0 x y rest
    have h1 := holdsAt_iff condMeans_1_cond0 x y rest
    have h2 := holdsAt_iff condMeans_1_cond1 x y rest
    have h3 := holdsAt_iff condMeans_2_cond0 x y rest
    have h4 := holdsAt_iff condMeans_2_cond1 x y rest
    congr 1
    rw [Bool.eq_iff_iff, decide_eq_true_iff, pieceOf]
    interval_cases i <;> simp only [myDefs, List.map_cons, List.map_nil, PieceDef.region, List.getElem?_cons_zero,
      List.getElem?_cons_succ, Option.some.injEq] at hri <;> subst hri <;>
      simp only [List.all_cons, List.all_nil, Bool.and_true, Bool.and_eq_true, h0, h1, h2, h3, h4]
    · split
      · simpa
      · rename_i h; split <;> simp [h]
    · split
      · rename_i h; simp; intro _; exact h
      · split
        · rename_i h h'; simp; exact ⟨by simpa using h', not_lt.mp h⟩
        · rename_i h h'; simp; intro hh; exact absurd (by simpa using hh) h'
    · split
      · rename_i h; simp; intro _; exact h
      · split
        · rename_i h h'; simp; intro hh; exact absurd h' (not_lt.mpr (by simpa using hh))
        · rename_i h h'; simp; exact ⟨by simpa using h', not_lt.mp h⟩

theorem InRange_cases {c : Comp} (hc : (getter c : FCall Vec2).InRange 2) :
    c = .f ∨ c = .g 0 ∨ c = .g 1 ∨ c = .h 0 0 ∨ c = .h 0 1 ∨ c = .h 1 0 ∨ c = .h 1 1 := by
  cases c with
  | f => simp
  | g i =>
    simp only [getter, FCall.InRange] at hc
    have : i < 2 := by omega
    interval_cases i <;> simp
  | h i j =>
    simp only [getter, FCall.InRange] at hc
    have : i < 2 := by omega
    have : j < 2 := by omega
    interval_cases i <;> interval_cases j <;> simp

theorem myDefs_fn (c : Comp) (hc : (getter c : FCall Vec2).InRange 2) (x y : ℝ) (rest : List ℝ) (i : Nat) (d : PieceDef Vec2 ℝ)
    (hd : myDefs[i]? = some d) :
    d.fn c (pt x y rest) = .ok (pieceFn i c x y) := by
  have hlt : i < 3 := (List.getElem?_eq_some_iff.mp hd).1
  interval_cases i <;> simp only [myDefs, List.getElem?_cons_zero, List.getElem?_cons_succ, Option.some.injEq] at hd <;> subst hd <;>
    rcases InRange_cases hc with rfl | rfl | rfl | rfl | rfl | rfl | rfl
  · exact objR_eval fnMeans_0_f (pt x y rest)
  · exact objR_eval fnMeans_0_grad_0 (pt x y rest)
  · exact objR_eval fnMeans_0_grad_1 (pt x y rest)
  · exact objR_eval fnMeans_0_hess_0_0 (pt x y rest)
  · exact objR_eval fnMeans_0_hess_0_1 (pt x y rest)
  · exact objR_eval fnMeans_0_hess_1_0 (pt x y rest)
  · exact objR_eval fnMeans_0_hess_1_1 (pt x y rest)
  · exact objR_eval fnMeans_1_f (pt x y rest)
  · exact objR_eval fnMeans_1_grad_0 (pt x y rest)
  · exact objR_eval fnMeans_1_grad_1 (pt x y rest)
  · exact objR_eval fnMeans_1_hess_0_0 (pt x y rest)
  · exact objR_eval fnMeans_1_hess_0_1 (pt x y rest)
  · exact objR_eval fnMeans_1_hess_1_0 (pt x y rest)
  · exact objR_eval fnMeans_1_hess_1_1 (pt x y rest)
  · exact objR_eval fnMeans_2_f (pt x y rest)
  · exact objR_eval fnMeans_2_grad_0 (pt x y rest)
  · exact objR_eval fnMeans_2_grad_1 (pt x y rest)
  · exact objR_eval fnMeans_2_hess_0_0 (pt x y rest)
  · exact objR_eval fnMeans_2_hess_0_1 (pt x y rest)
  · exact objR_eval fnMeans_2_hess_1_0 (pt x y rest)
  · exact objR_eval fnMeans_2_hess_1_1 (pt x y rest)

/-- **C78** The constructor succeeds, and after any history of calls the value, gradient and Hessian at a point are those of the
piecewise function. -/
theorem C78_values : ∃ s0, myPieceWise = .ok s0 ∧ ∀ (calls : List (FCall Vec2)), (∀ c ∈ calls, c.InRange 2) →
    ∀ (c : Comp), (getter c : FCall Vec2).InRange 2 → ∀ (x y : ℝ) (rest : List ℝ),
      (pwSem (single (pt x y rest) c) (runCalls pwSem calls s0).2).1 = .ok (.num (pieceWiseFn c x y)) := by
  obtain ⟨ps, hb, h0⟩ := myBuilt
  refine ⟨_, h0, fun calls hcalls c hc x y rest => ?_⟩
  have hrep : PWRep 2 _ _ (⟨⟨"MyPieceWiseFunc", ["x", "y"], ["x variable", "y variable"]⟩, none, ps⟩ : PWFunc (Flex Vec2 ℝ) Vec2) :=
    ⟨hb.rep.len, hb.rep.rep⟩
  have h := (hrep.run calls hcalls).1.single (pt x y rest) c hc
  rw [hb.regions, first_of_point] at h
  have hlt := firstPiece_lt (first_of_point x y rest)
  simp only [List.length_map] at hlt
  refine h.trans ?_
  have hf := myDefs_fn c hc x y rest (pieceOf x y) _ (List.getElem?_eq_getElem hlt)
  simp only [List.getElem?_map, List.getElem?_eq_getElem hlt, Option.map_some]
  rw [hf]
  rfl

/-- **C78** It reports its name and its two variables, always. -/
theorem C78_names (s0 : PWFunc (Flex Vec2 ℝ) Vec2) (hs : myPieceWise = .ok s0) (calls : List (FCall Vec2)) :
    let s := (runCalls pwSem calls s0).2
    (pwSem (O := ℝ) .name s).1 = .ok (.str "MyPieceWiseFunc") ∧ (pwSem (O := ℝ) .size s).1 = .ok (.size 2) ∧
    (pwSem (O := ℝ) (.varName 0) s).1 = .ok (.str "x") ∧ (pwSem (O := ℝ) (.varName 1) s).1 = .ok (.str "y") ∧
    (pwSem (O := ℝ) (.varDesc 0) s).1 = .ok (.str "x variable") ∧ (pwSem (O := ℝ) (.varDesc 1) s).1 = .ok (.str "y variable") := by
  intro s
  obtain ⟨ps, hb, h0⟩ := myBuilt
  rw [hs] at h0; cases h0
  have hbase : ∀ (c : FCall Vec2) (q : PWFunc (Flex Vec2 ℝ) Vec2), (pwSem (O := ℝ) c q).2.base = q.base := by
    intro c q
    have hp : ∀ c i (q : PWFunc (Flex Vec2 ℝ) Vec2), (PWFunc.onPiece (flexCls Vec2 ℝ) c i q).2.base = q.base := by
      intro c i q; simp only [PWFunc.onPiece]; split <;> rfl
    have hc : ∀ c (q : PWFunc (Flex Vec2 ℝ) Vec2), (PWFunc.onCurr (flexCls Vec2 ℝ) c q).2.base = q.base := by
      intro c q; simp only [PWFunc.onCurr]; split
      · rfl
      · exact hp _ _ _
    have ha : ∀ c v (q : PWFunc (Flex Vec2 ℝ) Vec2), (PWFunc.atPoint (flexCls Vec2 ℝ) c v q).2.base = q.base := by
      intro c v q
      simp only [PWFunc.atPoint, PWFunc.piece]
      split
      · rename_i h; split at h <;> cases h; rfl
      · rename_i h; split at h <;> cases h; exact hp _ _ _
    cases c <;> simp only [pwSem, FClass.sem, PWFunc.cls, FBase.sem, PWFunc.ov, PWFunc.simple, ha, hc]
  have hrun : ∀ (cs : List (FCall Vec2)) (q : PWFunc (Flex Vec2 ℝ) Vec2), (runCalls (pwSem (O := ℝ)) cs q).2.base = q.base := by
    intro cs
    induction cs with
    | nil => intro q; rfl
    | cons c cs ih => intro q; exact (ih _).trans (hbase c q)
  have h := hrun calls ⟨⟨"MyPieceWiseFunc", ["x", "y"], ["x variable", "y variable"]⟩, none, ps⟩
  change s.base = _ at h
  simp only [pwSem, FClass.sem, PWFunc.cls, FBase.sem, PWFunc.ov, h]
  exact ⟨trivial, rfl, rfl, rfl, rfl, rfl⟩

/-- **C78** The classes of its three pieces, used on their own, report their names and the same two variables, always. -/
theorem C78_piece_names (i : Nat) (p : Flex Vec2 ℝ) (hp : [myPiece0, myPiece1, myPiece2][i]? = some p) (calls : List (FCall Vec2)) :
    let s := (runCalls (flexCls Vec2 ℝ).sem calls p).2
    ((flexCls Vec2 ℝ).sem .name s).1 = .ok (.str s!"MyPieceWiseFunc_piece{i}") ∧ ((flexCls Vec2 ℝ).sem .size s).1 = .ok (.size 2) ∧
    ((flexCls Vec2 ℝ).sem .varNames s).1 = .ok (.strs ["x", "y"]) ∧
    ((flexCls Vec2 ℝ).sem .varDescs s).1 = .ok (.strs ["x variable", "y variable"]) := by
  intro s
  have hrun : ∀ (cs : List (FCall Vec2)) (q : Flex Vec2 ℝ), (runCalls (flexCls Vec2 ℝ).sem cs q).2.base = q.base := by
    intro cs
    induction cs with
    | nil => intro q; rfl
    | cons c cs ih =>
      intro q
      refine (ih _).trans ?_
      cases c <;> simp only [FClass.sem, flexCls, FBase.sem, Flex.ov, Flex.evalAt, Flex.gradAt, Flex.hessAt, Flex.evalGrad, Flex.evalHess] <;>
        repeat' (first | rfl | split)
  have h : s.base = p.base := hrun calls p
  have hi : i < 3 := by
    have := (List.getElem?_eq_some_iff.mp hp).1
    simpa using this
  simp only [FClass.sem, flexCls, FBase.sem, h]
  interval_cases i <;> simp only [List.getElem?_cons_zero, List.getElem?_cons_succ, Option.some.injEq] at hp <;> subst hp <;>
    exact ⟨rfl, rfl, rfl, rfl⟩

/-! ## Derivatives -/

theorem radius_pos {x y : ℝ} (h : 0 < x ^ 2 + y ^ 2) : 0 < radius x y := Real.sqrt_pos.mpr h

theorem radius_sq (x y : ℝ) : radius x y ^ 2 = x ^ 2 + y ^ 2 := Real.sq_sqrt (sq_sum_nonneg x y)

theorem radius_comm (x y : ℝ) : radius x y = radius y x := by rw [radius, radius, add_comm]

theorem hasDerivAt_radius {x y : ℝ} (h : 0 < x ^ 2 + y ^ 2) : HasDerivAt (fun t => radius t y) (x / radius x y) x := by
  have h1 : HasDerivAt (fun t : ℝ => t ^ 2 + y ^ 2) (2 * x) x := by simpa using (hasDerivAt_pow 2 x).add_const (y ^ 2)
  have := h1.sqrt (ne_of_gt h)
  refine this.congr_deriv ?_
  show 2 * x / (2 * radius x y) = _
  have := radius_pos h
  field_simp

theorem hasDerivAt_quot {x y a b : ℝ} (h : 0 < x ^ 2 + y ^ 2) :
    HasDerivAt (fun t => (a * t + b) / radius t y) (a / radius x y - (a * x + b) * x / radius x y ^ 3) x := by
  have hr := radius_pos h
  have h1 : HasDerivAt (fun t : ℝ => a * t + b) a x := by simpa using ((hasDerivAt_id x).const_mul a).add_const b
  refine (h1.div (hasDerivAt_radius h) (ne_of_gt hr)).congr_deriv ?_
  field_simp

theorem outer_x {x y : ℝ} (h : 0 < x ^ 2 + y ^ 2) :
    HasDerivAt (fun t => outerFn .f t y) (outerFn (.g 0) x y) x ∧ HasDerivAt (fun t => outerFn (.g 0) t y) (outerFn (.h 0 0) x y) x ∧
      HasDerivAt (fun t => outerFn (.g 1) t y) (outerFn (.h 1 0) x y) x := by
  refine ⟨(hasDerivAt_radius h).sub_const _, ?_, ?_⟩
  · have := hasDerivAt_quot (a := 1) (b := 0) h
    simp only [one_mul, add_zero] at this
    exact this.congr_deriv (by simp only [outerFn]; ring)
  · have := hasDerivAt_quot (a := 0) (b := y) h
    simp only [zero_mul, zero_add] at this
    exact this.congr_deriv (by simp only [outerFn]; ring)

theorem outer_y {x y : ℝ} (h : 0 < x ^ 2 + y ^ 2) :
    HasDerivAt (fun t => outerFn .f x t) (outerFn (.g 1) x y) y ∧ HasDerivAt (fun t => outerFn (.g 0) x t) (outerFn (.h 0 1) x y) y ∧
      HasDerivAt (fun t => outerFn (.g 1) x t) (outerFn (.h 1 1) x y) y := by
  obtain ⟨h1, h2, h3⟩ := outer_x (x := y) (y := x) (by rwa [add_comm])
  simp only [outerFn, radius_comm _ x] at h1 h2 h3 ⊢
  exact ⟨h1, h3.congr_deriv (by ring), h2⟩

theorem disc_x (x y : ℝ) :
    HasDerivAt (fun t => discFn .f t y) (discFn (.g 0) x y) x ∧ HasDerivAt (fun t => discFn (.g 0) t y) (discFn (.h 0 0) x y) x ∧
      HasDerivAt (fun t => discFn (.g 1) t y) (discFn (.h 1 0) x y) x := by
  refine ⟨?_, ?_, ?_⟩
  · simpa [discFn] using (hasDerivAt_pow 2 x).add_const (y ^ 2)
  · simpa [discFn] using (hasDerivAt_id x).const_mul 2
  · simpa [discFn] using hasDerivAt_const x (2 * y)

theorem disc_y (x y : ℝ) :
    HasDerivAt (fun t => discFn .f x t) (discFn (.g 1) x y) y ∧ HasDerivAt (fun t => discFn (.g 0) x t) (discFn (.h 0 1) x y) y ∧
      HasDerivAt (fun t => discFn (.g 1) x t) (discFn (.h 1 1) x y) y := by
  refine ⟨?_, ?_, ?_⟩
  · simpa [discFn] using (hasDerivAt_pow 2 y).const_add (x ^ 2)
  · simpa [discFn] using hasDerivAt_const y (2 * x)
  · simpa [discFn] using (hasDerivAt_id y).const_mul 2

theorem pw_left {c : Comp} {x y : ℝ} (h : x < 0) : pieceWiseFn c x y = leftFn c x y := by simp only [pieceWiseFn, pieceOf, if_pos h, pieceFn]
theorem pw_disc {c : Comp} {x y : ℝ} (h : 0 ≤ x) (h' : x ^ 2 + y ^ 2 < 1 / 4) : pieceWiseFn c x y = discFn c x y := by
  simp only [pieceWiseFn, pieceOf, if_neg (not_lt.mpr h), if_pos h', pieceFn]
theorem pw_outer {c : Comp} {x y : ℝ} (h : 0 ≤ x) (h' : ¬ x ^ 2 + y ^ 2 < 1 / 4) : pieceWiseFn c x y = outerFn c x y := by
  simp only [pieceWiseFn, pieceOf, if_neg (not_lt.mpr h), if_neg h', pieceFn]

/-- A function that is one of two everywhere, glued where they agree to first order. -/
theorem glue {A : Set ℝ} {f h1 h2 : ℝ → ℝ} {p d : ℝ} (e1 : ∀ t ∈ A, f t = h1 t) (e2 : ∀ t ∈ Aᶜ, f t = h2 t) (he : h1 p = h2 p)
    (d1 : HasDerivAt h1 d p) (d2 : HasDerivAt h2 d p) : HasDerivAt f d p := by
  have hp : f p = h1 p := by
    by_cases h : p ∈ A
    · exact e1 p h
    · exact (e2 p h).trans he.symm
  have a := (d1.hasDerivWithinAt (s := A)).congr e1 hp
  have b := (d2.hasDerivWithinAt (s := Aᶜ)).congr e2 (hp.trans he)
  have := a.union b
  rwa [Set.union_compl_self, hasDerivWithinAt_univ] at this

/-- On the circle the two pieces agree to first order. -/
theorem circle {x y : ℝ} (h : x ^ 2 + y ^ 2 = 1 / 4) : discFn .f x y = outerFn .f x y ∧ discFn (.g 0) x y = outerFn (.g 0) x y ∧
    discFn (.g 1) x y = outerFn (.g 1) x y := by
  have hr : radius x y = 1 / 2 := by
    rw [radius, h, show (1 / 4 : ℝ) = (1 / 2) ^ 2 by norm_num]
    exact Real.sqrt_sq (by norm_num)
  simp only [discFn, outerFn, hr, h]
  norm_num
  constructor <;> ring

theorem near_lt {g : ℝ → ℝ} (hg : Continuous g) {p c : ℝ} (h : g p < c) : ∀ᶠ t in nhds p, g t < c := hg.continuousAt.eventually_lt_const h
theorem near_gt {g : ℝ → ℝ} (hg : Continuous g) {p c : ℝ} (h : c < g p) : ∀ᶠ t in nhds p, c < g t := hg.continuousAt.eventually_const_lt h

/-- Away from `x = 0` and the circle the function is one of the three near the point, in both directions. -/
theorem near_x {x y : ℝ} (c : Comp) (hx : x ≠ 0) (hr : 0 ≤ x → x ^ 2 + y ^ 2 ≠ 1 / 4) :
    (x < 0 ∧ (fun t => pieceWiseFn c t y) =ᶠ[nhds x] fun t => leftFn c t y) ∨
    (0 ≤ x ∧ x ^ 2 + y ^ 2 < 1 / 4 ∧ (fun t => pieceWiseFn c t y) =ᶠ[nhds x] fun t => discFn c t y) ∨
    (0 ≤ x ∧ 1 / 4 < x ^ 2 + y ^ 2 ∧ (fun t => pieceWiseFn c t y) =ᶠ[nhds x] fun t => outerFn c t y) := by
  have cont : Continuous fun t : ℝ => t ^ 2 + y ^ 2 := by fun_prop
  rcases lt_or_gt_of_ne hx with h | h
  · exact .inl ⟨h, (near_lt continuous_id h).mono fun t ht => pw_left ht⟩
  · rcases lt_or_gt_of_ne (hr h.le) with h' | h'
    · exact .inr (.inl ⟨h.le, h', ((near_gt continuous_id h).and (near_lt cont h')).mono fun t ht => pw_disc (le_of_lt ht.1) ht.2⟩)
    · exact .inr (.inr ⟨h.le, h', ((near_gt continuous_id h).and (near_gt cont h')).mono fun t ht =>
        pw_outer (le_of_lt ht.1) (not_lt.mpr (le_of_lt ht.2))⟩)

theorem near_y {x y : ℝ} (c : Comp) (hr : 0 ≤ x → x ^ 2 + y ^ 2 ≠ 1 / 4) :
    (x < 0 ∧ (fun t => pieceWiseFn c x t) =ᶠ[nhds y] fun t => leftFn c x t) ∨
    (0 ≤ x ∧ x ^ 2 + y ^ 2 < 1 / 4 ∧ (fun t => pieceWiseFn c x t) =ᶠ[nhds y] fun t => discFn c x t) ∨
    (0 ≤ x ∧ 1 / 4 < x ^ 2 + y ^ 2 ∧ (fun t => pieceWiseFn c x t) =ᶠ[nhds y] fun t => outerFn c x t) := by
  have cont : Continuous fun t : ℝ => x ^ 2 + t ^ 2 := by fun_prop
  rcases lt_or_ge x 0 with h | h
  · exact .inl ⟨h, Filter.Eventually.of_forall fun t => pw_left h⟩
  · rcases lt_or_gt_of_ne (hr h) with h' | h'
    · exact .inr (.inl ⟨h, h', (near_lt cont h').mono fun t ht => pw_disc h ht⟩)
    · exact .inr (.inr ⟨h, h', (near_gt cont h').mono fun t ht => pw_outer h (not_lt.mpr (le_of_lt ht))⟩)

/-- **C78** The gradient is the derivative of the value: with respect to `y` everywhere, with respect to `x` everywhere but on the line
`x = 0`, so also on the circle where two pieces meet. The Hessian is the derivative of the gradient away from the circle and the line.
`F` is what the object returns. -/
theorem C78_derivatives (s0 : PWFunc (Flex Vec2 ℝ) Vec2) (hs : myPieceWise = .ok s0) (calls : List (FCall Vec2))
    (hcalls : ∀ c ∈ calls, c.InRange 2) : ∃ F : Comp → ℝ → ℝ → ℝ,
    (∀ c : Comp, (getter c : FCall Vec2).InRange 2 → ∀ x y rest,
      (pwSem (single (pt x y rest) c) (runCalls pwSem calls s0).2).1 = .ok (.num (F c x y))) ∧
    (∀ x y, HasDerivAt (fun t => F .f x t) (F (.g 1) x y) y) ∧
    (∀ x y, x ≠ 0 → HasDerivAt (fun t => F .f t y) (F (.g 0) x y) x) ∧
    (∀ x y, (0 ≤ x → x ^ 2 + y ^ 2 ≠ 1 / 4) → ∀ i < 2, HasDerivAt (fun t => F (.g i) x t) (F (.h i 1) x y) y) ∧
    ∀ x y, x ≠ 0 → (0 ≤ x → x ^ 2 + y ^ 2 ≠ 1 / 4) → ∀ i < 2, HasDerivAt (fun t => F (.g i) t y) (F (.h i 0) x y) x := by
  obtain ⟨s1, h1, hv⟩ := C78_values
  rw [hs] at h1; cases h1
  refine ⟨pieceWiseFn, fun c hc x y rest => hv calls hcalls c hc x y rest, ?_, ?_, ?_, ?_⟩
  · intro x y
    by_cases hc : 0 ≤ x ∧ x ^ 2 + y ^ 2 = 1 / 4
    · have e : pieceWiseFn (.g 1) x y = outerFn (.g 1) x y := pw_outer hc.1 (by rw [hc.2]; exact lt_irrefl _)
      rw [e]
      refine glue (A := {t | x ^ 2 + t ^ 2 < 1 / 4}) (fun t ht => pw_disc hc.1 ht) (fun t ht => pw_outer hc.1 ht) (circle hc.2).1 ?_
        (outer_y (by rw [hc.2]; norm_num)).1
      rw [← (circle hc.2).2.2]; exact (disc_y x y).1
    · rcases near_y (x := x) (y := y) .f (fun h h' => hc ⟨h, h'⟩) with ⟨h, e⟩ | ⟨h, h', e⟩ | ⟨h, h', e⟩
      · rw [pw_left h]; exact (hasDerivAt_const y x).congr_of_eventuallyEq e
      · rw [pw_disc h h']; exact (disc_y x y).1.congr_of_eventuallyEq e
      · rw [pw_outer h (not_lt.mpr h'.le)]; exact (outer_y (lt_trans (by norm_num) h')).1.congr_of_eventuallyEq e
  · intro x y hx
    by_cases hc : 0 ≤ x ∧ x ^ 2 + y ^ 2 = 1 / 4
    · have e : pieceWiseFn (.g 0) x y = outerFn (.g 0) x y := pw_outer hc.1 (by rw [hc.2]; exact lt_irrefl _)
      have hpos : 0 < x := lt_of_le_of_ne hc.1 (Ne.symm hx)
      rw [e]
      have hg : HasDerivAt (fun t => if t ^ 2 + y ^ 2 < 1 / 4 then discFn .f t y else outerFn .f t y) (outerFn (.g 0) x y) x := by
        refine glue (A := {t | t ^ 2 + y ^ 2 < 1 / 4}) (fun t ht => if_pos ht) (fun t ht => if_neg ht) (circle hc.2).1 ?_
          (outer_x (by rw [hc.2]; norm_num)).1
        rw [← (circle hc.2).2.1]; exact (disc_x x y).1
      refine hg.congr_of_eventuallyEq ((near_gt continuous_id hpos).mono fun t ht => ?_)
      have ht : 0 ≤ t := le_of_lt ht
      by_cases h : t ^ 2 + y ^ 2 < 1 / 4
      · simp only [if_pos h]; exact pw_disc ht h
      · simp only [if_neg h]; exact pw_outer ht h
    · rcases near_x (x := x) (y := y) .f hx (fun h h' => hc ⟨h, h'⟩) with ⟨h, e⟩ | ⟨h, h', e⟩ | ⟨h, h', e⟩
      · rw [pw_left h]; exact (hasDerivAt_id x).congr_of_eventuallyEq e
      · rw [pw_disc h h']; exact (disc_x x y).1.congr_of_eventuallyEq e
      · rw [pw_outer h (not_lt.mpr h'.le)]; exact (outer_x (lt_trans (by norm_num) h')).1.congr_of_eventuallyEq e
  · intro x y hc i hi
    rcases near_y (x := x) (y := y) (.g i) hc with ⟨h, e⟩ | ⟨h, h', e⟩ | ⟨h, h', e⟩
    · rw [pw_left h]
      interval_cases i
      · exact (hasDerivAt_const y 1).congr_of_eventuallyEq e
      · exact (hasDerivAt_const y 0).congr_of_eventuallyEq e
    · rw [pw_disc h h']
      interval_cases i
      · exact (disc_y x y).2.1.congr_of_eventuallyEq e
      · exact (disc_y x y).2.2.congr_of_eventuallyEq e
    · rw [pw_outer h (not_lt.mpr h'.le)]
      interval_cases i
      · exact (outer_y (lt_trans (by norm_num) h')).2.1.congr_of_eventuallyEq e
      · exact (outer_y (lt_trans (by norm_num) h')).2.2.congr_of_eventuallyEq e
  · intro x y hx hc i hi
    rcases near_x (x := x) (y := y) (.g i) hx hc with ⟨h, e⟩ | ⟨h, h', e⟩ | ⟨h, h', e⟩
    · rw [pw_left h]
      interval_cases i
      · exact (hasDerivAt_const x 1).congr_of_eventuallyEq e
      · exact (hasDerivAt_const x 0).congr_of_eventuallyEq e
    · rw [pw_disc h h']
      interval_cases i
      · exact (disc_x x y).2.1.congr_of_eventuallyEq e
      · exact (disc_x x y).2.2.congr_of_eventuallyEq e
    · rw [pw_outer h (not_lt.mpr h'.le)]
      interval_cases i
      · exact (outer_x (lt_trans (by norm_num) h')).2.1.congr_of_eventuallyEq e
      · exact (outer_x (lt_trans (by norm_num) h')).2.2.congr_of_eventuallyEq e

/-! ## Texts -/

/-- What a component prints is what it computes. -/
def PrintsR (o : SObj Vec2 ℝ) (f : ℝ → ℝ → ℝ) : Prop :=
  (∀ x y rest, (SObj.sem (.evalAt (pt x y rest)) o).1 = .ok (.num (f x y))) ∧
  (∃ t, (SObj.sem .csrc o).1 = .ok (.str t) ∧ RMeans cpp t.toList f) ∧
  (∃ t, (SObj.sem .sym o).1 = .ok (.str t) ∧ RMeans symb t.toList f) ∧
  ∃ t, (SObj.sem .latex o).1 = .ok (.str t) ∧ RMeans Spec.latex t.toList f

/-- What a condition prints is what it tests. -/
def PrintsB (o : SObj Vec2 Bool) (P : ℝ → ℝ → Prop) : Prop :=
  (∀ x y rest, ∃ b, (SObj.sem (.evalAt (pt x y rest)) o).1 = .ok (.num b) ∧ (b = true ↔ P x y)) ∧
  (∃ t, (SObj.sem .csrc o).1 = .ok (.str t) ∧ CMeans cpp t.toList P) ∧
  (∃ t, (SObj.sem .sym o).1 = .ok (.str t) ∧ CMeans symb t.toList P) ∧
  ∃ t, (SObj.sem .latex o).1 = .ok (.str t) ∧ CMeans Spec.latex t.toList P

theorem printsR_of {t : ClassText} {f : ℝ → ℝ → ℝ} (h : FnMeans t f) : PrintsR t.objR f := by
  refine ⟨fun x y rest => ?_, ⟨_, rfl, by simpa using h.2.1⟩, ⟨_, rfl, by simpa using h.2.2.1⟩, ⟨_, rfl, by simpa using h.2.2.2⟩⟩
  have := objR_eval h (pt x y rest)
  simp only [SObj.sem, SObj.evalAt, this]; rfl

theorem printsB_of {t : ClassText} {P : ℝ → ℝ → Prop} (h : CondMeans t P) : PrintsB t.objB P := by
  refine ⟨fun x y rest => ?_, ⟨_, rfl, by simpa using h.2.1⟩, ⟨_, rfl, by simpa using h.2.2.1⟩, ⟨_, rfl, by simpa using h.2.2.2⟩⟩
  obtain ⟨b, h1, h2⟩ := objB_eval h (pt x y rest)
  exact ⟨b, by simp only [SObj.sem, SObj.evalAt, h1]; rfl, h2⟩

/-- **C77** The same for `MyPieceWiseFunc`: each of its three pieces has conditions that print what they test (the region of the piece),
and value, gradient and Hessian functions that print what they compute (the components of the piece). -/
theorem C77_piecewise_texts (s0 : PWFunc (Flex Vec2 ℝ) Vec2) (hs : myPieceWise = .ok s0) :
    s0.pieces.length = 3 ∧ ∀ i p, s0.pieces[i]? = some p →
    (∃ f, p.expr = some f ∧ ∀ c : Comp, (getter c : FCall Vec2).InRange 2 → ∃ o,
      ((flexCls Vec2 ℝ).sem (match c with | .f => .simple | .g di => .gradSimple di | .h di dj => .hessSimple di dj) f).1 =
        .ok (.simple (some o)) ∧ PrintsR o (pieceFn i c)) ∧
    ∃ conds : List (ℝ → ℝ → Prop), All2 (fun h P => ∃ o, h = some o ∧ PrintsB o P) p.conds conds ∧
      ∀ x y, (∀ P ∈ conds, P x y) ↔ i = pieceOf x y := by
  have hs' := hs
  simp only [myPieceWise, Piece.make, ok_bind] at hs'
  cases hs'
  refine ⟨rfl, fun i p hp => ?_⟩
  have hlt : i < 3 := (List.getElem?_eq_some_iff.mp hp).1
  constructor
  · interval_cases i <;> simp only [List.getElem?_cons_zero, List.getElem?_cons_succ, Option.some.injEq] at hp <;> subst hp <;>
      refine ⟨_, rfl, fun c hc => ?_⟩ <;>
      rcases InRange_cases hc with rfl | rfl | rfl | rfl | rfl | rfl | rfl
    · exact ⟨_, rfl, printsR_of fnMeans_0_f⟩
    · exact ⟨_, rfl, printsR_of fnMeans_0_grad_0⟩
    · exact ⟨_, rfl, printsR_of fnMeans_0_grad_1⟩
    · exact ⟨_, rfl, printsR_of fnMeans_0_hess_0_0⟩
    · exact ⟨_, rfl, printsR_of fnMeans_0_hess_0_1⟩
    · exact ⟨_, rfl, printsR_of fnMeans_0_hess_1_0⟩
    · exact ⟨_, rfl, printsR_of fnMeans_0_hess_1_1⟩
    · exact ⟨_, rfl, printsR_of fnMeans_1_f⟩
    · exact ⟨_, rfl, printsR_of fnMeans_1_grad_0⟩
    · exact ⟨_, rfl, printsR_of fnMeans_1_grad_1⟩
    · exact ⟨_, rfl, printsR_of fnMeans_1_hess_0_0⟩
    · exact ⟨_, rfl, printsR_of fnMeans_1_hess_0_1⟩
    · exact ⟨_, rfl, printsR_of fnMeans_1_hess_1_0⟩
    · exact ⟨_, rfl, printsR_of fnMeans_1_hess_1_1⟩
    · exact ⟨_, rfl, printsR_of fnMeans_2_f⟩
    · exact ⟨_, rfl, printsR_of fnMeans_2_grad_0⟩
    · exact ⟨_, rfl, printsR_of fnMeans_2_grad_1⟩
    · exact ⟨_, rfl, printsR_of fnMeans_2_hess_0_0⟩
    · exact ⟨_, rfl, printsR_of fnMeans_2_hess_0_1⟩
    · exact ⟨_, rfl, printsR_of fnMeans_2_hess_1_0⟩
    · exact ⟨_, rfl, printsR_of fnMeans_2_hess_1_1⟩
  · have hpart : ∀ x y : ℝ, (x < 0 ↔ 0 = pieceOf x y) ∧ ((x ^ 2 + y ^ 2 < 1 / 4 ∧ 0 ≤ x) ↔ 1 = pieceOf x y) ∧
        ((1 / 4 ≤ x ^ 2 + y ^ 2 ∧ 0 ≤ x) ↔ 2 = pieceOf x y) := by
      intro x y
      simp only [pieceOf]
      rcases lt_or_ge x 0 with h | h
      · simp [h]
      · have h' := not_lt.mpr h
        rcases lt_or_ge (x ^ 2 + y ^ 2) (1 / 4) with g | g
        · simp only [h', g, if_true, if_false, h, not_le.mpr g]; simp
        · simp only [h', not_lt.mpr g, if_false, h, g]; simp
    interval_cases i <;> simp only [List.getElem?_cons_zero, List.getElem?_cons_succ, Option.some.injEq] at hp <;> subst hp
    · refine ⟨[_], .cons ⟨_, rfl, printsB_of condMeans_0_cond0⟩ .nil, fun x y => ?_⟩
      simpa using (hpart x y).1
    · refine ⟨[_, _], .cons ⟨_, rfl, printsB_of condMeans_1_cond0⟩ (.cons ⟨_, rfl, printsB_of condMeans_1_cond1⟩ .nil), fun x y => ?_⟩
      simpa using (hpart x y).2.1
    · refine ⟨[_, _], .cons ⟨_, rfl, printsB_of condMeans_2_cond0⟩ (.cons ⟨_, rfl, printsB_of condMeans_2_cond1⟩ .nil), fun x y => ?_⟩
      simpa using (hpart x y).2.2

/-- Non-vacuity: the object exists, the calls are in range, and at (3, 4) the value is 5 - 1/4, the gradient (3/5, 4/5). -/
example : ∃ s0, myPieceWise = .ok s0 ∧ (∀ c ∈ ([.evalAt (pt (-1) 2 []), .evalGrad (pt 3 4 []), .get] : List (FCall Vec2)), c.InRange 2) ∧
    (pwSem (single (pt 3 4 []) .f) (runCalls pwSem [.evalAt (pt (-1) 2 []), .evalGrad (pt 3 4 []), .get] s0).2).1 = .ok (.num (19 / 4)) ∧
    (pwSem (single (pt 3 4 []) (.g 1)) (runCalls pwSem [.evalAt (pt (-1) 2 []), .evalGrad (pt 3 4 []), .get] s0).2).1 =
      .ok (.num (4 / 5)) := by
  obtain ⟨s0, h0, hv⟩ := C78_values
  have hr : radius 3 4 = 5 := by
    rw [radius, show (3 ^ 2 + 4 ^ 2 : ℝ) = 5 ^ 2 by norm_num]; exact Real.sqrt_sq (by norm_num)
  have hin : ∀ c ∈ ([.evalAt (pt (-1) 2 []), .evalGrad (pt 3 4 []), .get] : List (FCall Vec2)), c.InRange 2 := by
    simp [FCall.InRange]
  refine ⟨s0, h0, hin, ?_, ?_⟩
  · rw [hv _ hin .f (by simp [getter, FCall.InRange]), pw_outer (by norm_num) (by norm_num)]
    simp only [outerFn, hr]; norm_num
  · rw [hv _ hin (.g 1) (by simp [getter, FCall.InRange]), pw_outer (by norm_num) (by norm_num)]
    simp only [outerFn, hr]

end Verif

namespace Verif
open Spec Testlib
variable {Obj Call Out : Type}

/-! ## C79: copies of generated pieces -/

/-- What a client expects of such objects (a value each, a copy being a copy), as operations on values; `assign` is left out. -/
def GOp.asValue (fresh : Obj) : GOp Call → HOp Obj Call
  | .new => .ofObj fresh
  | .copy g => .copy g
  | .assign h g => .assign h g
  | .call h c => .call h c
  | .destroy h => .destroy h

/-- What is left of it: a copy is a new object. -/
def GOp.asFresh (fresh : Obj) : GOp Call → HOp Obj Call
  | .copy _ => .ofObj fresh
  | op => op.asValue fresh

/-- Operations of a client, as long as it does not assign: on existing objects only. -/
def GOp.LegalRun (fresh : Obj) (sem : Call → Obj → Res Out × Obj) : List (GOp Call) → Vals Obj → Prop
  | [], _ => True
  | op :: ops, s => (∀ h g, op ≠ .assign h g) ∧ s.Legal (op.asValue fresh) ∧ LegalRun fresh sem ops (s.step sem (op.asFresh fresh)).2

/-- **C79** (full statement) Histories of construction, copying, assignment, calls and destruction of generated pieces behave as if each
were a value of its own. -/
def C79_statement (fresh : Obj) (sem : Call → Obj → Res Out × Obj) : Prop :=
  ∀ ops : List (GOp Call), Vals.LegalRun sem (ops.map (GOp.asValue fresh)) Vals.start →
    (GenMem.run fresh sem ops Mem.start).1 = (Vals.start.run sem (ops.map (GOp.asValue fresh))).1

theorem gen_run_rel (fresh : Obj) (sem : Call → Obj → Res Out × Obj) : ∀ (ops : List (GOp Call)) (m : Mem Obj) (s : Vals Obj),
    Mem.Rel m s → GOp.LegalRun fresh sem ops s →
    (GenMem.run fresh sem ops m).1 = (s.run sem (ops.map (GOp.asFresh fresh))).1 ∧
      Mem.Rel (GenMem.run fresh sem ops m).2 (s.run sem (ops.map (GOp.asFresh fresh))).2 ∧
      (GenMem.run fresh sem ops m) = Mem.run sem (ops.map (GOp.asFresh fresh)) m ∧
      Vals.LegalRun sem (ops.map (GOp.asFresh fresh)) s := by
  intro ops
  induction ops with
  | nil => intro m s hr _; exact ⟨rfl, hr, rfl, trivial⟩
  | cons op ops ih =>
    intro m s hr hl
    obtain ⟨hna, hop, hl⟩ := hl
    have hleg : s.Legal (op.asFresh fresh) := by
      cases op with
      | copy g => trivial
      | assign h g => exact absurd rfl (hna h g)
      | _ => exact hop
    have hstep : GenMem.step fresh sem m op = m.step sem (op.asFresh fresh) := by
      cases op with
      | copy g =>
        obtain ⟨v, hv⟩ := hop
        have hlt : g < m.handles.length := by rw [hr.hlen]; exact (List.getElem?_eq_some_iff.mp hv).1
        have := hr.hrel g _ _ (List.getElem?_eq_getElem hlt) hv
        have hp : ∃ p, m.handles[g]? = some (some p) := by
          rw [List.getElem?_eq_getElem hlt]
          cases hx : m.handles[g] with
          | none => rw [hx] at this; simp [Mem.HRel] at this
          | some p => exact ⟨p, rfl⟩
        obtain ⟨p, hp⟩ := hp
        simp only [GenMem.step, GenMem.copyCtor, Mem.ptr_eq hp]
        rfl
      | assign h g => exact absurd rfl (hna h g)
      | _ => rfl
    have h1 := Mem.run_rel sem [op.asFresh fresh] hr ⟨hleg, trivial⟩
    simp only [Mem.run, Vals.run, List.cons.injEq, and_true] at h1
    obtain ⟨i1, i2, i3, i4⟩ := ih _ _ h1.2 hl
    simp only [GenMem.run, hstep, List.map_cons, Vals.run, Mem.run, i1, h1.1]
    exact ⟨trivial, i2, by rw [← i1, i3], hleg, i4⟩

/-- **C79** partial: without assignment. In every history of construction, copying, calls and destruction each object behaves as a value
of its own, where a copy is a new object (it computes the same functions, as it is of the same class, but has not been evaluated); no
memory error occurs and nothing leaks. Missing: assignment, and the stored results of a copied object. -/
theorem C79_copies_partial (fresh : Obj) (sem : Call → Obj → Res Out × Obj) (ops : List (GOp Call))
    (hl : GOp.LegalRun fresh sem ops Vals.start) :
    let vals := Vals.start.run sem (ops.map (GOp.asFresh fresh))
    (GenMem.run fresh sem ops Mem.start).1 = vals.1 ∧
    (∀ e, .error e ∈ (GenMem.run fresh sem ops Mem.start).1 → ∃ c o, (sem c o).1 = .error e) ∧
    ((∀ v ∈ vals.2.handles, v = none) → ∀ x ∈ (GenMem.run fresh sem ops Mem.start).2.heap, x = none) := by
  intro vals
  obtain ⟨h1, _, h3, h4⟩ := gen_run_rel fresh sem ops _ _ Mem.rel_start hl
  refine ⟨h1, ?_, ?_⟩
  · rw [h3]; exact fun e he => C39_no_memory_error sem _ h4 e he
  · rw [h3]
    intro hh
    refine C39_all_freed sem _ h4 hh ?_
    have hraw : ∀ (ops : List (GOp Call)) (s : Vals Obj), (s.run sem (ops.map (GOp.asFresh fresh))).2.raws = s.raws := by
      intro ops
      induction ops with
      | nil => intro s; rfl
      | cons op ops ih =>
        intro s
        simp only [List.map_cons, Vals.run, ih]
        cases op <;> simp only [GOp.asFresh, GOp.asValue, Vals.step]
        split <;> rfl
    rw [hraw]; intro v hv; cases hv

/-- **C79** violated: a copy of an evaluated piece has not been evaluated; for every function with a defined value its stored value is
lost. -/
theorem C79_copy_violated {V O : Type} (f : Flex V O) (o : SObj V O) (hf : f.val = some o) (ho : o.val = none) (v : V) (y : O)
    (hy : o.evalFn v = .ok y) :
    (GenMem.run f Flex.sem [.new, .call 0 (.evalAt v), .copy 0, .call 0 .get, .call 1 .get] Mem.start).1 =
      [.ok none, .ok (some (.num y)), .ok none, .ok (some (.num y)), .error (.ub .uninit)] := by
  simp [GenMem.run, GenMem.step, GenMem.copyCtor, Mem.objCtor, Mem.alloc, Mem.push, Mem.start, Mem.forward, Mem.ptr, Mem.deref,
    Flex.sem, FBase.sem, Flex.ov, Flex.evalAt, SFun.evalAt, SFun.get, hf, ho, hy, SObj.evalAt, SObj.get, Except.map]

/-- **C79** violated: assignment of one live object to another (whatever they are) has no defined result; and if it returned, destroying
both would delete the components of the source twice, and those of the target would never be deleted. -/
theorem C79_assign_violated (fresh : Obj) (sem : Call → Obj → Res Out × Obj) (ops : List (GOp Call)) (h g : Nat)
    (hl : GOp.LegalRun fresh sem ops Vals.start) (hne : h ≠ g) (a b : Obj)
    (hh : (Vals.start.run sem (ops.map (GOp.asFresh fresh))).2.handles[h]? = some (some (some a)))
    (hg : (Vals.start.run sem (ops.map (GOp.asFresh fresh))).2.handles[g]? = some (some (some b))) :
    let m := (GenMem.run fresh sem ops Mem.start).2
    (GenMem.run fresh sem [.assign h g, .destroy h, .destroy g] m).1 =
      [.error (.ub .missingReturn), .ok none, .error (.ub .doubleFree)] ∧
    ∃ p : Nat, m.handles[h]? = some (some (some p)) ∧
      (GenMem.run fresh sem [.assign h g, .destroy h, .destroy g] m).2.heap[p]? = some (some a) := by
  intro m
  obtain ⟨_, hr, _, _⟩ := gen_run_rel fresh sem ops _ _ Mem.rel_start hl
  change Mem.Rel m _ at hr
  have get : ∀ (i : Nat) o, (Vals.start.run sem (ops.map (GOp.asFresh fresh))).2.handles[i]? = some (some (some o)) →
      ∃ p : Nat, m.handles[i]? = some (some (some p)) ∧ m.heap[p]? = some (some o) := by
    intro i o hi
    have hlt : i < m.handles.length := by rw [hr.hlen]; exact (List.getElem?_eq_some_iff.mp hi).1
    have := hr.hrel i _ _ (List.getElem?_eq_getElem hlt) hi
    rw [List.getElem?_eq_getElem hlt]
    cases hx : m.handles[i] with
    | none => rw [hx] at this; simp [Mem.HRel] at this
    | some p => cases p with
      | none => rw [hx] at this; simp [Mem.HRel] at this
      | some p => rw [hx] at this; exact ⟨p, rfl, this⟩
  obtain ⟨p, hp, hpa⟩ := get h a hh
  obtain ⟨q, hq, hqb⟩ := get g b hg
  have hpq : p ≠ q := by
    intro e; subst e
    have := hr.inj (.inl h) (.inl g) p hp hq
    exact hne (Sum.inl.inj this)
  have l1 := (List.getElem?_eq_some_iff.mp hp).1
  have l2 := (List.getElem?_eq_some_iff.mp hq).1
  have l3 := (List.getElem?_eq_some_iff.mp hqb).1
  have e1 : GenMem.step fresh sem m (.assign h g) = (.error (.ub .missingReturn), m.setPtr h (some (some q))) := by
    simp only [GenMem.step, GenMem.assign, Mem.ptr_eq hp, Mem.ptr_eq hq]
  have p1 : (m.setPtr h (some (some q))).handles[h]? = some (some (some q)) := by simp [Mem.setPtr, l1]
  have p2 : (m.setPtr h (some (some q))).handles[g]? = some (some (some q)) := by
    simp only [Mem.setPtr, List.getElem?_set_ne hne, hq]
  have e2 : GenMem.step fresh sem (m.setPtr h (some (some q))) (.destroy h) =
      (.ok none, ⟨m.heap.set q none, (m.handles.set h (some (some q))).set h none, m.raws⟩) := by
    simp only [GenMem.step, Mem.dtor]
    rw [Mem.ptr_eq p1]
    simp only [ok_bind, Mem.delPtr, Mem.del, Mem.setPtr, hqb, Mem.done]
  have p3 : (⟨m.heap.set q none, (m.handles.set h (some (some q))).set h none, m.raws⟩ : Mem Obj).handles[g]? =
      some (some (some q)) := by simp only [List.getElem?_set_ne hne, hq]
  have p4 : (m.heap.set q none)[q]? = some none := List.getElem?_set_self l3
  have e3 : GenMem.step fresh sem (⟨m.heap.set q none, (m.handles.set h (some (some q))).set h none, m.raws⟩ : Mem Obj) (.destroy g) =
      (.error (.ub .doubleFree), ⟨m.heap.set q none, (m.handles.set h (some (some q))).set h none, m.raws⟩) := by
    simp only [GenMem.step, Mem.dtor, Mem.ptr_eq p3, ok_bind, Mem.delPtr, Mem.del, p4, err_bind, Mem.done]
  simp only [GenMem.run, e1, e2, e3, true_and]
  exact ⟨p, hp, by rw [List.getElem?_set_ne hpq.symm, hpa]⟩

/-- Non-vacuity: three objects, one a copy, evaluated and destroyed; and two that can be assigned. -/
example : GOp.LegalRun 5 Demo.accSem [.new, .call 0 3, .copy 0, .call 1 1, .destroy 0, .new, .destroy 1, .destroy 2] Vals.start ∧
    (GenMem.run 5 Demo.accSem [.new, .call 0 3, .copy 0, .call 1 1] Mem.start).1 = [.ok none, .ok (some 8), .ok none, .ok (some 6)] ∧
    GOp.LegalRun 5 Demo.accSem [.new, .copy 0] Vals.start ∧
    (Vals.start.run Demo.accSem (([.new, .copy 0] : List (GOp Nat)).map (GOp.asFresh 5))).2.handles = [some (some 5), some (some 5)] := by
  refine ⟨?_, rfl, ?_, rfl⟩ <;>
    simp [GOp.LegalRun, GOp.asValue, GOp.asFresh, Vals.Legal, Vals.start, Vals.step, Vals.fn]

end Verif
