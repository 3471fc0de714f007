import Verif.Model.SpecialPiecewise
import Verif.Spec.SpecialPiecewise
import Verif.Props.TestlibPiecewise
import Verif.Lemmas.Rounding

/-!
# C124: the shipped piecewise function on doubles
-/

namespace Verif
open Spec Testlib

/-! ### The conditions as they are read -/

theorem read_0_cond0 : cpp.readCmp MyPieceWiseFunc_piece0_cond0.eval = some ⟨true, .var 0, .num 0⟩ := by decide +kernel
theorem read_1_cond0 : cpp.readCmp MyPieceWiseFunc_piece1_cond0.eval =
    some ⟨true, .add (.mul (.var 0) (.var 0)) (.mul (.var 1) (.var 1)), .num (1 / 4)⟩ := by decide +kernel
theorem read_1_cond1 : cpp.readCmp MyPieceWiseFunc_piece1_cond1.eval = some ⟨false, .var 0, .num 0⟩ := by decide +kernel
theorem read_2_cond0 : cpp.readCmp MyPieceWiseFunc_piece2_cond0.eval =
    some ⟨false, .add (.mul (.var 0) (.var 0)) (.mul (.var 1) (.var 1)), .num (1 / 4)⟩ := by decide +kernel
theorem read_2_cond1 : cpp.readCmp MyPieceWiseFunc_piece2_cond1.eval = some ⟨false, .var 0, .num 0⟩ := by decide +kernel

section machine
variable {N : Type} (M : Machine N)

/-- The point with these first two coordinates. -/
def ptM (x y : N) (rest : List N) : VecOf N := ⟨x :: y :: rest, by simp⟩

/-- The computed `x² + y²`. -/
def sumSq (x y : N) : N := M.add (M.mul x x) (M.mul y y)

theorem objMB_eval {t : ClassText} {c : Cmp} (h : cpp.readCmp t.eval = some c) (hv : c.vars ≤ 2) (v : VecOf N) :
    (t.objMB M).evalFn v = .ok (c.compute M fun i => v.1.getD i (M.lit 0)) := by
  simp only [ClassText.objMB, ClassText.objOf, SObj.evalFn, h, if_pos (hv.trans v.2)]

theorem objM_eval {t : ClassText} {a : RAst} (h : cpp.read t.eval = some a) (hv : a.vars ≤ 2) (v : VecOf N) :
    (t.objM M).evalFn v = .ok (a.compute M fun i => v.1.getD i (M.lit 0)) := by
  simp only [ClassText.objM, ClassText.objOf, SObj.evalFn, h, if_pos (hv.trans v.2)]

/-- What the constructor is given. -/
def defsM : List (PieceDef (VecOf N) N) :=
  [⟨(pieceM0 M).base, MyPieceWiseFunc_piece0_f.objM M, [MyPieceWiseFunc_piece0_grad_0.objM M, MyPieceWiseFunc_piece0_grad_1.objM M],
    [[MyPieceWiseFunc_piece0_hess_0_0.objM M, MyPieceWiseFunc_piece0_hess_0_1.objM M],
     [MyPieceWiseFunc_piece0_hess_1_0.objM M, MyPieceWiseFunc_piece0_hess_1_1.objM M]],
    [MyPieceWiseFunc_piece0_cond0.objMB M]⟩,
   ⟨(pieceM1 M).base, MyPieceWiseFunc_piece1_f.objM M, [MyPieceWiseFunc_piece1_grad_0.objM M, MyPieceWiseFunc_piece1_grad_1.objM M],
    [[MyPieceWiseFunc_piece1_hess_0_0.objM M, MyPieceWiseFunc_piece1_hess_0_1.objM M],
     [MyPieceWiseFunc_piece1_hess_1_0.objM M, MyPieceWiseFunc_piece1_hess_1_1.objM M]],
    [MyPieceWiseFunc_piece1_cond0.objMB M, MyPieceWiseFunc_piece1_cond1.objMB M]⟩,
   ⟨(pieceM2 M).base, MyPieceWiseFunc_piece2_f.objM M, [MyPieceWiseFunc_piece2_grad_0.objM M, MyPieceWiseFunc_piece2_grad_1.objM M],
    [[MyPieceWiseFunc_piece2_hess_0_0.objM M, MyPieceWiseFunc_piece2_hess_0_1.objM M],
     [MyPieceWiseFunc_piece2_hess_1_0.objM M, MyPieceWiseFunc_piece2_hess_1_1.objM M]],
    [MyPieceWiseFunc_piece2_cond0.objMB M, MyPieceWiseFunc_piece2_cond1.objMB M]⟩]

theorem builtM : ∃ ps, Built 2 (defsM M) ps ∧
    pieceWiseM M = .ok ⟨⟨"MyPieceWiseFunc", ["x", "y"], ["x variable", "y variable"]⟩, none, ps⟩ := by
  refine ⟨_, ⟨.cons rfl (.cons rfl (.cons rfl .nil)), ?_, ?_⟩, rfl⟩
  · intro d hd
    simp only [defsM, List.mem_cons, List.not_mem_nil, or_false] at hd
    rcases hd with rfl | rfl | rfl <;> rfl
  · intro d hd o ho v
    simp only [defsM, List.mem_cons, List.not_mem_nil, or_false] at hd
    rcases hd with rfl | rfl | rfl <;> simp only [List.mem_cons, List.not_mem_nil, or_false] at ho
    · subst ho; exact ⟨_, objMB_eval M read_0_cond0 (by decide) v⟩
    · rcases ho with rfl | rfl
      · exact ⟨_, objMB_eval M read_1_cond0 (by decide) v⟩
      · exact ⟨_, objMB_eval M read_1_cond1 (by decide) v⟩
    · rcases ho with rfl | rfl
      · exact ⟨_, objMB_eval M read_2_cond0 (by decide) v⟩
      · exact ⟨_, objMB_eval M read_2_cond1 (by decide) v⟩

theorem holdsM {t : ClassText} {c : Cmp} (h : cpp.readCmp t.eval = some c) (hv : c.vars ≤ 2) (x y : N) (rest : List N) :
    holdsAt (t.objMB M) (ptM x y rest) = c.compute M fun i => (x :: y :: rest).getD i (M.lit 0) := by
  rw [holdsAt, objMB_eval M h hv]; rfl

/-- The conditions of the three pieces at a point. -/
theorem regionsM (x y : N) (rest : List N) : ((defsM M).map PieceDef.region).map (fun conds => conds.all fun c => c (ptM x y rest)) =
    [M.lt x (M.lit 0), M.lt (sumSq M x y) (M.lit (1 / 4)) && M.ge x (M.lit 0), M.ge (sumSq M x y) (M.lit (1 / 4)) && M.ge x (M.lit 0)] := by
  simp only [defsM, List.map_cons, List.map_nil, PieceDef.region, List.all_cons, List.all_nil, Bool.and_true,
    holdsM M read_0_cond0 (by decide), holdsM M read_1_cond0 (by decide), holdsM M read_1_cond1 (by decide),
    holdsM M read_2_cond0 (by decide), holdsM M read_2_cond1 (by decide)]
  rfl

/-- The first piece in a list of truth values. -/
theorem firstPiece_map {V : Type} (regions : List (List (V → Bool))) (v : V) :
    firstPiece regions v = (regions.map fun conds => conds.all fun c => c v).findIdx? id := by
  rw [List.findIdx?_map]; rfl

/-- The state after any calls. -/
theorem afterM (s0 : PWFunc (Flex (VecOf N) N) (VecOf N)) (hs : pieceWiseM M = .ok s0) (calls : List (FCall (VecOf N)))
    (hcalls : ∀ c ∈ calls, c.InRange 2) :
    ∃ st, PWRep 2 ((defsM M).map fun d => (⟨d.fn, d.region⟩ : PieceIs (VecOf N) N)) st (runCalls pwSem calls s0).2 ∧
      RegionsAre ((defsM M).map PieceDef.region) (runCalls pwSem calls s0).2.pieces ∧ (runCalls pwSem calls s0).2.pieces.length = 3 := by
  obtain ⟨ps, hb, h0⟩ := builtM M
  rw [hs] at h0; cases h0
  have hrep : PWRep 2 _ _ (⟨⟨"MyPieceWiseFunc", ["x", "y"], ["x variable", "y variable"]⟩, none, ps⟩ : PWFunc (Flex (VecOf N) N) (VecOf N)) :=
    ⟨hb.rep.len, hb.rep.rep⟩
  have hr := (hrep.run calls hcalls).1
  have hreg := hr.regions
  rw [hb.regions] at hreg
  exact ⟨_, hr, hreg, by rw [hr.len]; rfl⟩

/-- Which piece is found, and what each piece says of the point. -/
theorem pieceM_generic {s : PWFunc (Flex (VecOf N) N) (VecOf N)} {st : Nat → Comp → Option N}
    (hr : PWRep 2 ((defsM M).map fun d => (⟨d.fn, d.region⟩ : PieceIs (VecOf N) N)) st s)
    (hreg : RegionsAre ((defsM M).map PieceDef.region) s.pieces) (hlen : s.pieces.length = 3) (x y : N) (rest : List N) {f0 f1 f2 : Bool}
    (e0 : M.lt x (M.lit 0) = f0) (e1 : (M.lt (sumSq M x y) (M.lit (1 / 4)) && M.ge x (M.lit 0)) = f1)
    (e2 : (M.ge (sumSq M x y) (M.lit (1 / 4)) && M.ge x (M.lit 0)) = f2) :
    s.piece (ptM x y rest) = (match [f0, f1, f2].findIdx? id with
      | some i => (.ok i, { s with curr := some i })
      | none => (.error .domainError, s)) ∧
    PWFunc.inPiece s.pieces (ptM x y rest) = .ok ([f0, f1, f2].findIdx? id).isSome ∧
    (∀ (i : Nat) p, s.pieces[i]? = some p → ∃ b, [f0, f1, f2][i]? = some b ∧ Piece.inPiece p.conds (ptM x y rest) = .ok b) ∧
    ([f0, f1, f2].findIdx? id = none → ∀ c : FCall (VecOf N), c.point = some (ptM x y rest) → pwSem (O := N) c s = (.error .domainError, s)) ∧
    (∀ i, [f0, f1, f2].findIdx? id = some i → ∀ c, (getter c : FCall (VecOf N)).InRange 2 → ∀ d, (defsM M)[i]? = some d →
      ∀ r, d.fn c (ptM x y rest) = .ok r → (pwSem (single (ptM x y rest) c) s).1 = .ok (.num r)) := by
  have hf : firstPiece ((defsM M).map PieceDef.region) (ptM x y rest) = [f0, f1, f2].findIdx? id := by
    rw [firstPiece_map, regionsM, e0, e1, e2]
  refine ⟨?_, ?_, ?_, ?_, ?_⟩
  · rw [pw_piece hreg, hf]
    rfl
  · rw [pw_inPiece hreg, hf]
  · intro i p hp
    have hlt : i < 3 := by rw [← hlen]; exact (List.getElem?_eq_some_iff.mp hp).1
    obtain ⟨r, hri⟩ : ∃ r, ((defsM M).map PieceDef.region)[i]? = some r :=
      ⟨_, List.getElem?_eq_getElem (by simp only [List.length_map]; exact hlt)⟩
    obtain ⟨p', hp', hrp⟩ := hreg.getElem? hri
    have : p' = p := Option.some.inj (hp'.symm.trans hp)
    subst this
    refine ⟨_, ?_, piece_inPiece hrp _⟩
    rw [← e0, ← e1, ← e2, ← regionsM M x y rest, List.getElem?_map, hri]
    rfl
  · intro hn c hc
    show (PWFunc.cls _).sem c s = _
    rw [pw_sem_point hreg hc, hf, hn]
  · intro i hi c hc d hd r hdr
    have h := hr.single (ptM x y rest) c hc
    have hmap : ((defsM M).map fun d => (⟨d.fn, d.region⟩ : PieceIs (VecOf N) N)).map PieceIs.conds = (defsM M).map PieceDef.region := by simp
    rw [hmap, hf, hi] at h
    refine h.trans ?_
    simp only [List.getElem?_map, hd, Option.map_some]
    rw [hdr]
    rfl

theorem evalM {t : ClassText} {f : ℝ → ℝ → ℝ} (h : FnMeans t f) (v : VecOf N) : ∃ r, (t.objM M).evalFn v = .ok r := by
  obtain ⟨⟨a, ha, hv, _⟩, _⟩ := h
  exact ⟨_, objM_eval M ha hv v⟩

theorem rangeM {c : Comp} (hc : (getter c : FCall (VecOf N)).InRange 2) :
    c = .f ∨ c = .g 0 ∨ c = .g 1 ∨ c = .h 0 0 ∨ c = .h 0 1 ∨ c = .h 1 0 ∨ c = .h 1 1 :=
  InRange_cases (c := c) (by cases c <;> exact hc)

/-- Every component of every piece is computed. -/
theorem fnM (c : Comp) (hc : (getter c : FCall (VecOf N)).InRange 2) (v : VecOf N) (i : Nat) (d : PieceDef (VecOf N) N)
    (hd : (defsM M)[i]? = some d) : ∃ r, d.fn c v = .ok r := by
  have hlt : i < 3 := (List.getElem?_eq_some_iff.mp hd).1
  interval_cases i <;> simp only [defsM, List.getElem?_cons_zero, List.getElem?_cons_succ, Option.some.injEq] at hd <;> subst hd <;>
    rcases rangeM hc with rfl | rfl | rfl | rfl | rfl | rfl | rfl
  · exact evalM M fnMeans_0_f v
  · exact evalM M fnMeans_0_grad_0 v
  · exact evalM M fnMeans_0_grad_1 v
  · exact evalM M fnMeans_0_hess_0_0 v
  · exact evalM M fnMeans_0_hess_0_1 v
  · exact evalM M fnMeans_0_hess_1_0 v
  · exact evalM M fnMeans_0_hess_1_1 v
  · exact evalM M fnMeans_1_f v
  · exact evalM M fnMeans_1_grad_0 v
  · exact evalM M fnMeans_1_grad_1 v
  · exact evalM M fnMeans_1_hess_0_0 v
  · exact evalM M fnMeans_1_hess_0_1 v
  · exact evalM M fnMeans_1_hess_1_0 v
  · exact evalM M fnMeans_1_hess_1_1 v
  · exact evalM M fnMeans_2_f v
  · exact evalM M fnMeans_2_grad_0 v
  · exact evalM M fnMeans_2_grad_1 v
  · exact evalM M fnMeans_2_hess_0_0 v
  · exact evalM M fnMeans_2_hess_0_1 v
  · exact evalM M fnMeans_2_hess_1_0 v
  · exact evalM M fnMeans_2_hess_1_1 v

end machine

section ieee
variable {K : Type} [Field K] [LinearOrder K] [IsStrictOrderedRing K] {rnd : K → Dbl K} {pow : Dbl K → Dbl K → Dbl K} {sqrt : Dbl K → Dbl K}

omit [Field K] [IsStrictOrderedRing K] in
/-- A number is less than a finite one, or not. -/
theorem lt_or_ge [Field K] (pow : Dbl K → Dbl K → Dbl K) (sqrt : Dbl K → Dbl K) (rnd : K → Dbl K) {x : Dbl K} (hx : x ≠ .nan) (a : K) :
    (Machine.ieee rnd pow sqrt).ge x (.fin a) = !(Machine.ieee rnd pow sqrt).lt x (.fin a) := by
  cases x with
  | fin y => simp [Machine.ieee, Dbl.lt, ← decide_not, not_lt]
  | inf => rfl
  | ninf => rfl
  | nan => exact absurd rfl hx

omit [IsStrictOrderedRing K] in
theorem nan_lt_ge (rnd : K → Dbl K) (pow : Dbl K → Dbl K → Dbl K) (sqrt : Dbl K → Dbl K) (a : K) :
    (Machine.ieee rnd pow sqrt).lt .nan (.fin a) = false ∧ (Machine.ieee rnd pow sqrt).ge .nan (.fin a) = false := ⟨rfl, rfl⟩

theorem square_ok (H : MayOverflow rnd) {x : Dbl K} (hx : x ≠ .nan) :
    (Machine.ieee rnd pow sqrt).mul x x ≠ .nan ∧ (Machine.ieee rnd pow sqrt).mul x x ≠ .ninf ∧
      ∀ a, (Machine.ieee rnd pow sqrt).mul x x = .fin a → True := by
  cases x with
  | fin y => exact ⟨H.number _, H.nonneg _ (mul_self_nonneg y), fun _ _ => trivial⟩
  | inf => exact ⟨by simp [Machine.ieee], by simp [Machine.ieee], fun _ _ => trivial⟩
  | ninf => exact ⟨by simp [Machine.ieee], by simp [Machine.ieee], fun _ _ => trivial⟩
  | nan => exact absurd rfl hx

theorem sumSq_ok (H : MayOverflow rnd) {x y : Dbl K} (hx : x ≠ .nan) (hy : y ≠ .nan) : sumSq (Machine.ieee rnd pow sqrt) x y ≠ .nan := by
  obtain ⟨a1, a2, _⟩ := square_ok (pow := pow) (sqrt := sqrt) H hx
  obtain ⟨b1, b2, _⟩ := square_ok (pow := pow) (sqrt := sqrt) H hy
  unfold sumSq
  revert a1 a2 b1 b2
  generalize (Machine.ieee rnd pow sqrt).mul x x = p
  generalize (Machine.ieee rnd pow sqrt).mul y y = q
  intro a1 a2 b1 b2
  cases p with
  | fin a =>
    cases q with
    | fin b => exact H.number _
    | inf => simp [Machine.ieee]
    | ninf => exact absurd rfl b2
    | nan => exact absurd rfl b1
  | inf =>
    cases q with
    | fin b => simp [Machine.ieee]
    | inf => simp [Machine.ieee]
    | ninf => exact absurd rfl b2
    | nan => exact absurd rfl b1
  | ninf => exact absurd rfl a2
  | nan => exact absurd rfl a1

theorem mul_nan (rnd : K → Dbl K) : (Machine.ieee rnd pow sqrt).mul .nan .nan = .nan := rfl

theorem sumSq_nan (rnd : K → Dbl K) (x : Dbl K) : sumSq (Machine.ieee rnd pow sqrt) x .nan = .nan := by
  unfold sumSq
  rw [mul_nan]
  generalize (Machine.ieee rnd pow sqrt).mul x x = p
  cases p <;> rfl

/-- **C124** On doubles that are not NaN, infinities included, and with overflow of intermediate results: exactly one piece contains the point, it is found, and every component is computed. -/
theorem C124_defined (H : MayOverflow rnd) (s0 : PWFunc (Flex (VecOf (Dbl K)) (Dbl K)) (VecOf (Dbl K)))
    (hs : pieceWiseM (Machine.ieee rnd pow sqrt) = .ok s0) (calls : List (FCall (VecOf (Dbl K)))) (hcalls : ∀ c ∈ calls, c.InRange 2)
    (x y : Dbl K) (rest : List (Dbl K)) (hx : x ≠ .nan) (hy : y ≠ .nan) :
    let s := (runCalls pwSem calls s0).2
    ∃ i, (s.piece (ptM x y rest)).1 = .ok i ∧ PWFunc.inPiece s.pieces (ptM x y rest) = .ok true ∧
      (∀ (j : Nat) p, s.pieces[j]? = some p → Piece.inPiece p.conds (ptM x y rest) = .ok (decide (j = i))) ∧
      ∀ c, (getter c : FCall (VecOf (Dbl K))).InRange 2 → ∃ r, (pwSem (single (ptM x y rest) c) s).1 = .ok (.num r) := by
  intro s
  obtain ⟨st, hr, hreg, hlen⟩ := afterM _ s0 hs calls hcalls
  obtain ⟨g1, g2, g3, _, g5⟩ := pieceM_generic _ hr hreg hlen x y rest rfl rfl rfl
  have l0 : (Machine.ieee rnd pow sqrt).lit 0 = .fin 0 := by simp only [Machine.ieee, Rat.cast_zero]; exact H.zero
  have l4 : (Machine.ieee rnd pow sqrt).lit (1 / 4) = .fin (1 / 4) := by
    have : ((1 / 4 : ℚ) : K) = 1 / 4 := by push_cast; rfl
    simp only [Machine.ieee, this]; exact H.quarter
  have hge := lt_or_ge pow sqrt rnd hx 0
  have hsg := lt_or_ge pow sqrt rnd (sumSq_ok (pow := pow) (sqrt := sqrt) H hx hy) (1 / 4)
  simp only [l0, l4, hge, hsg] at g1 g2 g3 g5
  have hcomp : ∀ i, i < 3 → [(Machine.ieee rnd pow sqrt).lt x (.fin 0),
      (Machine.ieee rnd pow sqrt).lt (sumSq (Machine.ieee rnd pow sqrt) x y) (.fin (1 / 4)) && !(Machine.ieee rnd pow sqrt).lt x (.fin 0),
      !(Machine.ieee rnd pow sqrt).lt (sumSq (Machine.ieee rnd pow sqrt) x y) (.fin (1 / 4)) && !(Machine.ieee rnd pow sqrt).lt x (.fin 0)].findIdx? id
        = some i → ∀ c, (getter c : FCall (VecOf (Dbl K))).InRange 2 → ∃ r, (pwSem (single (ptM x y rest) c) s).1 = .ok (.num r) := by
    intro i hi hf c hc
    have hd : (defsM (Machine.ieee rnd pow sqrt))[i]? = some ((defsM (Machine.ieee rnd pow sqrt))[i]'hi) := List.getElem?_eq_getElem hi
    obtain ⟨r, hr⟩ := fnM _ c hc (ptM x y rest) i _ hd
    exact ⟨r, g5 i hf c hc _ hd r hr⟩
  have hsh : s = (runCalls pwSem calls s0).2 := rfl
  rw [← hsh] at g1 g2 g3 hlen
  revert g1 g2 g3 hcomp
  generalize (Machine.ieee rnd pow sqrt).lt x (.fin 0) = a
  generalize (Machine.ieee rnd pow sqrt).lt (sumSq (Machine.ieee rnd pow sqrt) x y) (.fin (1 / 4)) = b
  intro g1 g2 g3 hcomp
  cases a
  · cases b
    · refine ⟨2, congrArg Prod.fst g1, g2, ?_, hcomp 2 (by omega) rfl⟩
      intro j p hp
      obtain ⟨v, h1, h2⟩ := g3 j p hp
      have hj : j < 3 := by rw [← hlen]; exact (List.getElem?_eq_some_iff.mp hp).1
      rw [h2]
      interval_cases j <;> simp_all
    · refine ⟨1, congrArg Prod.fst g1, g2, ?_, hcomp 1 (by omega) rfl⟩
      intro j p hp
      obtain ⟨v, h1, h2⟩ := g3 j p hp
      have hj : j < 3 := by rw [← hlen]; exact (List.getElem?_eq_some_iff.mp hp).1
      rw [h2]
      interval_cases j <;> simp_all
  · refine ⟨0, congrArg Prod.fst g1, g2, ?_, hcomp 0 (by omega) rfl⟩
    intro j p hp
    obtain ⟨v, h1, h2⟩ := g3 j p hp
    have hj : j < 3 := by rw [← hlen]; exact (List.getElem?_eq_some_iff.mp hp).1
    rw [h2]
    interval_cases j <;> simp_all

/-- **C124** At a point with `x = NaN`, or with `y = NaN` and `x` not negative, no piece contains the point, every evaluation throws
`domain_error`, and nothing changes. -/
theorem C124_nan (H : MayOverflow rnd) (s0 : PWFunc (Flex (VecOf (Dbl K)) (Dbl K)) (VecOf (Dbl K)))
    (hs : pieceWiseM (Machine.ieee rnd pow sqrt) = .ok s0) (calls : List (FCall (VecOf (Dbl K)))) (hcalls : ∀ c ∈ calls, c.InRange 2)
    (x y : Dbl K) (rest : List (Dbl K)) (hn : x = .nan ∨ (y = .nan ∧ Dbl.lt x (.fin 0) = false)) :
    let s := (runCalls pwSem calls s0).2
    PWFunc.inPiece s.pieces (ptM x y rest) = .ok false ∧
      (∀ p ∈ s.pieces, Piece.inPiece p.conds (ptM x y rest) = .ok false) ∧
      s.piece (ptM x y rest) = (.error .domainError, s) ∧
      ∀ c : FCall (VecOf (Dbl K)), c.point = some (ptM x y rest) → pwSem (O := Dbl K) c s = (.error .domainError, s) := by
  intro s
  obtain ⟨st, hr, hreg, hlen⟩ := afterM _ s0 hs calls hcalls
  obtain ⟨g1, g2, g3, g4, _⟩ := pieceM_generic _ hr hreg hlen x y rest rfl rfl rfl
  have l0 : (Machine.ieee rnd pow sqrt).lit 0 = .fin 0 := by simp only [Machine.ieee, Rat.cast_zero]; exact H.zero
  have l4 : (Machine.ieee rnd pow sqrt).lit (1 / 4) = .fin (1 / 4) := by
    have : ((1 / 4 : ℚ) : K) = 1 / 4 := by push_cast; rfl
    simp only [Machine.ieee, this]; exact H.quarter
  have f0 : (Machine.ieee rnd pow sqrt).lt x (.fin 0) = false := by
    rcases hn with rfl | ⟨_, h⟩
    · rfl
    · exact h
  have f1 : ((Machine.ieee rnd pow sqrt).lt (sumSq (Machine.ieee rnd pow sqrt) x y) (.fin (1 / 4)) && (Machine.ieee rnd pow sqrt).ge x (.fin 0)) = false := by
    rcases hn with rfl | ⟨rfl, _⟩
    · rw [(nan_lt_ge rnd pow sqrt 0).2, Bool.and_false]
    · rw [sumSq_nan, (nan_lt_ge rnd pow sqrt _).1, Bool.false_and]
  have f2 : ((Machine.ieee rnd pow sqrt).ge (sumSq (Machine.ieee rnd pow sqrt) x y) (.fin (1 / 4)) && (Machine.ieee rnd pow sqrt).ge x (.fin 0)) = false := by
    rcases hn with rfl | ⟨rfl, _⟩
    · rw [(nan_lt_ge rnd pow sqrt 0).2, Bool.and_false]
    · rw [sumSq_nan, (nan_lt_ge rnd pow sqrt _).2, Bool.false_and]
  simp only [l0, l4, f0, f1, f2] at g1 g2 g3 g4
  refine ⟨g2, ?_, g1, g4 rfl⟩
  intro p hp
  obtain ⟨j, hj⟩ := List.getElem?_of_mem hp
  obtain ⟨v, h1, h2⟩ := g3 j p hj
  have hlt : j < 3 := by rw [← hlen]; exact (List.getElem?_eq_some_iff.mp hj).1
  rw [h2]
  interval_cases j <;> simp_all

theorem read_0_f : cpp.read MyPieceWiseFunc_piece0_f.eval = some (.var 0) := by decide +kernel
theorem read_0_g0 : cpp.read MyPieceWiseFunc_piece0_grad_0.eval = some (.num 1) := by decide +kernel
theorem read_0_g1 : cpp.read MyPieceWiseFunc_piece0_grad_1.eval = some (.num 0) := by decide +kernel
theorem read_0_h00 : cpp.read MyPieceWiseFunc_piece0_hess_0_0.eval = some (.num 0) := by decide +kernel
theorem read_0_h01 : cpp.read MyPieceWiseFunc_piece0_hess_0_1.eval = some (.num 0) := by decide +kernel
theorem read_0_h10 : cpp.read MyPieceWiseFunc_piece0_hess_1_0.eval = some (.num 0) := by decide +kernel
theorem read_0_h11 : cpp.read MyPieceWiseFunc_piece0_hess_1_1.eval = some (.num 0) := by decide +kernel
theorem read_1_f : cpp.read MyPieceWiseFunc_piece1_f.eval = some (.add (.mul (.var 0) (.var 0)) (.mul (.var 1) (.var 1))) := by decide +kernel
theorem read_1_g0 : cpp.read MyPieceWiseFunc_piece1_grad_0.eval = some (.mul (.num 2) (.var 0)) := by decide +kernel
theorem read_1_g1 : cpp.read MyPieceWiseFunc_piece1_grad_1.eval = some (.mul (.num 2) (.var 1)) := by decide +kernel
theorem read_1_h00 : cpp.read MyPieceWiseFunc_piece1_hess_0_0.eval = some (.num 2) := by decide +kernel
theorem read_1_h01 : cpp.read MyPieceWiseFunc_piece1_hess_0_1.eval = some (.num 0) := by decide +kernel
theorem read_1_h10 : cpp.read MyPieceWiseFunc_piece1_hess_1_0.eval = some (.num 0) := by decide +kernel
theorem read_1_h11 : cpp.read MyPieceWiseFunc_piece1_hess_1_1.eval = some (.num 2) := by decide +kernel

/-- **C124** At a point with negative `x` (`-∞` included) and any `y`, NaN included: the first piece, whose value is `x`, whose gradient is
`(1, 0)` and whose Hessian is zero, without any rounding. -/
theorem C124_left (H : MayOverflow rnd) (s0 : PWFunc (Flex (VecOf (Dbl K)) (Dbl K)) (VecOf (Dbl K)))
    (hs : pieceWiseM (Machine.ieee rnd pow sqrt) = .ok s0) (calls : List (FCall (VecOf (Dbl K)))) (hcalls : ∀ c ∈ calls, c.InRange 2)
    (x y : Dbl K) (rest : List (Dbl K)) (hx : Dbl.lt x (.fin 0) = true) :
    let s := (runCalls pwSem calls s0).2
    (s.piece (ptM x y rest)).1 = .ok 0 ∧ PWFunc.inPiece s.pieces (ptM x y rest) = .ok true ∧
      (pwSem (single (ptM x y rest) .f) s).1 = .ok (.num x) ∧
      (pwSem (single (ptM x y rest) (.g 0)) s).1 = .ok (.num (.fin 1)) ∧
      (pwSem (single (ptM x y rest) (.g 1)) s).1 = .ok (.num (.fin 0)) ∧
      ∀ i j : Nat, i < 2 → j < 2 → (pwSem (single (ptM x y rest) (.h i j)) s).1 = .ok (.num (.fin 0)) := by
  intro s
  obtain ⟨st, hr, hreg, hlen⟩ := afterM _ s0 hs calls hcalls
  obtain ⟨g1, g2, _, _, g5⟩ := pieceM_generic _ hr hreg hlen x y rest rfl rfl rfl
  have l0 : (Machine.ieee rnd pow sqrt).lit 0 = .fin 0 := by simp only [Machine.ieee, Rat.cast_zero]; exact H.zero
  have l1 : (Machine.ieee rnd pow sqrt).lit 1 = .fin 1 := by simp only [Machine.ieee, Rat.cast_one]; exact H.one
  have f0 : (Machine.ieee rnd pow sqrt).lt x (.fin 0) = true := hx
  simp only [l0, f0] at g1 g2 g5
  have g := fun c hc r h => g5 0 rfl c hc _ rfl r h
  refine ⟨congrArg Prod.fst g1, g2, ?_, ?_, ?_, ?_⟩
  · exact g .f trivial x (objM_eval (Machine.ieee rnd pow sqrt) read_0_f (by decide) (ptM x y rest))
  · refine g (.g 0) ⟨by decide, by decide⟩ _ ((objM_eval (Machine.ieee rnd pow sqrt) read_0_g0 (by decide) (ptM x y rest)).trans ?_)
    rw [RAst.compute, l1]
  · refine g (.g 1) ⟨by decide, by decide⟩ _ ((objM_eval (Machine.ieee rnd pow sqrt) read_0_g1 (by decide) (ptM x y rest)).trans ?_)
    rw [RAst.compute, l0]
  · intro i j h1 h2
    have hh : ∀ o : ClassText, cpp.read o.eval = some (.num 0) → (o.objM (Machine.ieee rnd pow sqrt)).evalFn (ptM x y rest) = .ok (.fin 0) := by
      intro o ho
      rw [objM_eval _ ho (by decide), RAst.compute, l0]
    interval_cases i <;> interval_cases j
    · exact g (.h 0 0) ⟨⟨by decide, by decide⟩, ⟨by decide, by decide⟩⟩ _ (hh _ read_0_h00)
    · exact g (.h 0 1) ⟨⟨by decide, by decide⟩, ⟨by decide, by decide⟩⟩ _ (hh _ read_0_h01)
    · exact g (.h 1 0) ⟨⟨by decide, by decide⟩, ⟨by decide, by decide⟩⟩ _ (hh _ read_0_h10)
    · exact g (.h 1 1) ⟨⟨by decide, by decide⟩, ⟨by decide, by decide⟩⟩ _ (hh _ read_0_h11)

/-- The sum of squares without overflow. -/
theorem sumSq_fin [FloorRing K] {r : K → K} {u : K} (R : Rounding r u) (hu : u < 1) (x y : K) :
    ∃ q, sumSq (Machine.ieee (fun a => .fin (r a)) pow sqrt) (.fin x) (.fin y) = .fin q ∧
      (1 - u) ^ 2 * (x ^ 2 + y ^ 2) ≤ q ∧ q ≤ (1 + u) ^ 2 * (x ^ 2 + y ^ 2) := by
  refine ⟨r (r (x * x) + r (y * y)), rfl, ?_, ?_⟩
  · have h1 := R.lower (mul_self_nonneg x)
    have h2 := R.lower (mul_self_nonneg y)
    have h3 := R.lower (add_nonneg (R.nonneg (mul_self_nonneg x)) (R.nonneg (mul_self_nonneg y)))
    refine le_trans ?_ h3
    have h4 : (1 - u) * ((1 - u) * (x * x) + (1 - u) * (y * y)) ≤ (1 - u) * (r (x * x) + r (y * y)) :=
      mul_le_mul_of_nonneg_left (add_le_add h1 h2) (by linarith)
    calc _ = (1 - u) * ((1 - u) * (x * x) + (1 - u) * (y * y)) := by ring
      _ ≤ _ := h4
  · have h0 := R.u_nonneg
    have h1 := R.upper (mul_self_nonneg x)
    have h2 := R.upper (mul_self_nonneg y)
    have h3 := R.upper (add_nonneg (R.nonneg (mul_self_nonneg x)) (R.nonneg (mul_self_nonneg y)))
    refine le_trans h3 ?_
    have h4 : (1 + u) * (r (x * x) + r (y * y)) ≤ (1 + u) * ((1 + u) * (x * x) + (1 + u) * (y * y)) :=
      mul_le_mul_of_nonneg_left (add_le_add h1 h2) (by linarith)
    calc _ ≤ (1 + u) * ((1 + u) * (x * x) + (1 + u) * (y * y)) := h4
      _ = _ := by ring

/-- **C124** At a finite point with `x ≥ 0`, without overflow: the disc `x² + y² < 1/4` and its outside are told apart up to the rounding of
`x² + y²`, and in the disc the value and the gradient are right up to their rounding and the Hessian is exact. -/
theorem C124_disc [FloorRing K] {r : K → K} {u : K} (R : Rounding r u) (hu : u < 1) (h4 : IsFloat r (1 / 4)) (h2 : IsFloat r 2)
    (s0 : PWFunc (Flex (VecOf (Dbl K)) (Dbl K)) (VecOf (Dbl K)))
    (hs : pieceWiseM (Machine.ieee (fun a => .fin (r a)) pow sqrt) = .ok s0) (calls : List (FCall (VecOf (Dbl K))))
    (hcalls : ∀ c ∈ calls, c.InRange 2) (x y : K) (rest : List (Dbl K)) (hx : 0 ≤ x) :
    let s := (runCalls pwSem calls s0).2
    let p := ptM (.fin x) (.fin y) rest
    ((s.piece p).1 = .ok 1 ∨ (s.piece p).1 = .ok 2) ∧
      ((1 + u) ^ 2 * (x ^ 2 + y ^ 2) < 1 / 4 → (s.piece p).1 = .ok 1) ∧
      (1 / 4 ≤ (1 - u) ^ 2 * (x ^ 2 + y ^ 2) → (s.piece p).1 = .ok 2) ∧
      ((s.piece p).1 = .ok 1 →
        (∃ q, (pwSem (single p .f) s).1 = .ok (.num (.fin q)) ∧ |q - (x ^ 2 + y ^ 2)| ≤ ((1 + u) ^ 2 - 1) * (x ^ 2 + y ^ 2)) ∧
        (∃ q, (pwSem (single p (.g 0)) s).1 = .ok (.num (.fin q)) ∧ |q - 2 * x| ≤ u * |2 * x|) ∧
        (∃ q, (pwSem (single p (.g 1)) s).1 = .ok (.num (.fin q)) ∧ |q - 2 * y| ≤ u * |2 * y|) ∧
        ∀ i j : Nat, i < 2 → j < 2 → (pwSem (single p (.h i j)) s).1 = .ok (.num (.fin (if i = j then 2 else 0)))) := by
  intro s p
  obtain ⟨st, hr, hreg, hlen⟩ := afterM _ s0 hs calls hcalls
  obtain ⟨g1, _, _, _, g5⟩ := pieceM_generic _ hr hreg hlen (.fin x) (.fin y) rest rfl rfl rfl
  obtain ⟨q, hq, q1, q2⟩ := sumSq_fin (pow := pow) (sqrt := sqrt) R hu x y
  have l0 : (Machine.ieee (fun a => .fin (r a)) pow sqrt).lit 0 = (.fin 0 : Dbl K) := by simp only [Machine.ieee, Rat.cast_zero, R.zero]
  have l2 : (Machine.ieee (fun a => .fin (r a)) pow sqrt).lit 2 = (.fin 2 : Dbl K) := by
    have : ((2 : ℚ) : K) = 2 := by norm_num
    simp only [Machine.ieee, this]; exact congrArg _ h2
  have l4 : (Machine.ieee (fun a => .fin (r a)) pow sqrt).lit (1 / 4) = (.fin (1 / 4) : Dbl K) := by
    have : ((1 / 4 : ℚ) : K) = 1 / 4 := by push_cast; rfl
    simp only [Machine.ieee, this]; exact congrArg _ h4
  have f0 : (Machine.ieee (fun a => .fin (r a)) pow sqrt).lt (.fin x) (.fin 0) = false := decide_eq_false (not_lt.mpr hx)
  have f1 : (Machine.ieee (fun a => .fin (r a)) pow sqrt).ge (.fin x) (.fin 0) = true := decide_eq_true hx
  have hsg := lt_or_ge pow sqrt (fun a => .fin (r a)) (x := .fin q) (by simp) (1 / 4)
  simp only [l0, l4, hq, hsg, f0, f1, Bool.and_true] at g1 g5
  have hsh : s = (runCalls pwSem calls s0).2 := rfl
  have hp : p = ptM (.fin x) (.fin y) rest := rfl
  rw [← hsh, ← hp] at g1
  by_cases hlt : q < 1 / 4
  · have e : (Machine.ieee (fun a => .fin (r a)) pow sqrt).lt (.fin q) (.fin (1 / 4)) = true := decide_eq_true hlt
    simp only [e] at g1 g5
    have h1 : (s.piece p).1 = .ok 1 := congrArg Prod.fst g1
    have g := fun c hc r h => g5 1 rfl c hc _ rfl r h
    refine ⟨.inl h1, fun _ => h1, fun h => absurd (lt_of_le_of_lt (h.trans q1) hlt) (lt_irrefl _), fun _ => ⟨?_, ?_, ?_, ?_⟩⟩
    · refine ⟨q, g .f trivial _ ((objM_eval (Machine.ieee (fun a => .fin (r a)) pow sqrt) read_1_f (by decide) p).trans (congrArg _ hq)), ?_⟩
      have h0 := R.u_nonneg
      have hn : 0 ≤ x ^ 2 + y ^ 2 := by positivity
      rw [abs_le]
      constructor
      · nlinarith [mul_nonneg (mul_nonneg h0 h0) hn]
      · nlinarith
    · refine ⟨r (2 * x), g (.g 0) ⟨by decide, by decide⟩ _
        ((objM_eval (Machine.ieee (fun a => .fin (r a)) pow sqrt) read_1_g0 (by decide) p).trans ?_), R.err _⟩
      rw [RAst.compute, RAst.compute, l2]
      rfl
    · refine ⟨r (2 * y), g (.g 1) ⟨by decide, by decide⟩ _
        ((objM_eval (Machine.ieee (fun a => .fin (r a)) pow sqrt) read_1_g1 (by decide) p).trans ?_), R.err _⟩
      rw [RAst.compute, RAst.compute, l2]
      rfl
    · intro i j hi hj
      have hh : ∀ (o : ClassText) (n : ℚ) (z : K), cpp.read o.eval = some (.num n) →
          (Machine.ieee (fun a => .fin (r a)) pow sqrt).lit n = .fin z →
          (o.objM (Machine.ieee (fun a => .fin (r a)) pow sqrt)).evalFn p = .ok (.fin z) := by
        intro o n z ho hz
        rw [objM_eval _ ho (Nat.zero_le _), RAst.compute, hz]
      interval_cases i <;> interval_cases j
      · exact g (.h 0 0) ⟨⟨by decide, by decide⟩, ⟨by decide, by decide⟩⟩ _ (hh _ 2 2 read_1_h00 l2)
      · exact g (.h 0 1) ⟨⟨by decide, by decide⟩, ⟨by decide, by decide⟩⟩ _ (hh _ 0 0 read_1_h01 l0)
      · exact g (.h 1 0) ⟨⟨by decide, by decide⟩, ⟨by decide, by decide⟩⟩ _ (hh _ 0 0 read_1_h10 l0)
      · exact g (.h 1 1) ⟨⟨by decide, by decide⟩, ⟨by decide, by decide⟩⟩ _ (hh _ 2 2 read_1_h11 l2)
  · have e : (Machine.ieee (fun a => .fin (r a)) pow sqrt).lt (.fin q) (.fin (1 / 4)) = false := decide_eq_false hlt
    simp only [e] at g1
    have h1 : (s.piece p).1 = .ok 2 := congrArg Prod.fst g1
    exact ⟨.inr h1, fun h => absurd (lt_of_le_of_lt q2 h) hlt, fun _ => h1, fun h => by rw [h1] at h; simp at h⟩

end ieee

/-! ### With real numbers, and outside the disc -/

theorem compute_real (v : Nat → ℝ) (a : RAst) : a.compute Machine.real v = a.eval v := by
  induction a with
  | num q => rfl
  | var i => rfl
  | add a b ha hb => rw [RAst.compute, RAst.eval, ha, hb]; rfl
  | sub a b ha hb => rw [RAst.compute, RAst.eval, ha, hb]; rfl
  | mul a b ha hb => rw [RAst.compute, RAst.eval, ha, hb]; rfl
  | div a b ha hb => rw [RAst.compute, RAst.eval, ha, hb]; rfl
  | neg a ha => rw [RAst.compute, RAst.eval, ha]; rfl
  | pow a b ha hb => rw [RAst.compute, RAst.eval, ha, hb]; rfl
  | sqrt a ha => rw [RAst.compute, RAst.eval, ha]; rfl

/-- **C124** Computed with real numbers, the classes are those of C78: the same function objects. -/
theorem C124_real (t : ClassText) : t.objM Machine.real = t.objR := by
  unfold ClassText.objM ClassText.objR
  congr 1
  funext v
  cases cpp.read t.eval with
  | none => rfl
  | some a =>
    simp only [compute_real]
    simp only [Machine.real, Rat.cast_zero]

theorem read_2_f : cpp.read MyPieceWiseFunc_piece2_f.eval =
    some (.sub (.pow (.add (.mul (.var 1) (.var 1)) (.mul (.var 0) (.var 0))) (.div (.num 1) (.num 2))) (.num (1 / 4))) := by decide +kernel

/-- **C124** Outside the disc, with a `pow(·, 1/2)` whose relative error is at most `w`: the error of the value. -/
theorem C124_outside {r : ℝ → ℝ} {u w : ℝ} (R : Rounding r u) (hu : u < 1) (h4 : IsFloat r (1 / 4)) (h2 : IsFloat r 2)
    (hh : IsFloat r (1 / 2)) {pow : Dbl ℝ → Dbl ℝ → Dbl ℝ} {sqrt : Dbl ℝ → Dbl ℝ}
    (hpow : ∀ a, 0 ≤ a → ∃ b, pow (.fin a) (.fin (1 / 2)) = .fin b ∧ |b - √a| ≤ w * √a)
    (s0 : PWFunc (Flex (VecOf (Dbl ℝ)) (Dbl ℝ)) (VecOf (Dbl ℝ)))
    (hs : pieceWiseM (Machine.ieee (fun a => .fin (r a)) pow sqrt) = .ok s0) (calls : List (FCall (VecOf (Dbl ℝ))))
    (hcalls : ∀ c ∈ calls, c.InRange 2) (x y : ℝ) (rest : List (Dbl ℝ)) (hx : 0 ≤ x) :
    let s := (runCalls pwSem calls s0).2
    let p := ptM (.fin x) (.fin y) rest
    let e := (w * (1 + u) + u) * √(x ^ 2 + y ^ 2)
    (s.piece p).1 = .ok 2 → ∃ q, (pwSem (single p .f) s).1 = .ok (.num (.fin q)) ∧
      |q - (√(x ^ 2 + y ^ 2) - 1 / 4)| ≤ e + u * (|√(x ^ 2 + y ^ 2) - 1 / 4| + e) := by
  intro s p e h2p
  obtain ⟨st, hr, hreg, hlen⟩ := afterM _ s0 hs calls hcalls
  obtain ⟨g1, _, _, _, g5⟩ := pieceM_generic _ hr hreg hlen (.fin x) (.fin y) rest rfl rfl rfl
  have hsh : s = (runCalls pwSem calls s0).2 := rfl
  have hp : p = ptM (.fin x) (.fin y) rest := rfl
  rw [← hsh, ← hp] at g1
  obtain ⟨q, hq, q1, q2⟩ := sumSq_fin (pow := pow) (sqrt := sqrt) R hu y x
  have hu0 := R.u_nonneg
  have hn : 0 ≤ x ^ 2 + y ^ 2 := by positivity
  have hq0 : 0 ≤ q := le_trans (by positivity) q1
  obtain ⟨b, hb, be⟩ := hpow q hq0
  have hw : 0 ≤ w := by
    obtain ⟨b, _, h⟩ := hpow 1 (by norm_num)
    rw [Real.sqrt_one, mul_one] at h
    exact le_trans (abs_nonneg _) h
  have hval : (MyPieceWiseFunc_piece2_f.objM (Machine.ieee (fun a => .fin (r a)) pow sqrt)).evalFn p = .ok (.fin (r (b - 1 / 4))) := by
    rw [objM_eval _ read_2_f (by decide) p]
    have c1 : (Machine.ieee (fun a => .fin (r a)) pow sqrt).lit 1 = (.fin 1 : Dbl ℝ) := by simp only [Machine.ieee, Rat.cast_one, R.one]
    have c2 : (Machine.ieee (fun a => .fin (r a)) pow sqrt).lit 2 = (.fin 2 : Dbl ℝ) := by
      have : ((2 : ℚ) : ℝ) = 2 := by norm_num
      simp only [Machine.ieee, this]; exact congrArg _ h2
    have c4 : (Machine.ieee (fun a => .fin (r a)) pow sqrt).lit (1 / 4) = (.fin (1 / 4) : Dbl ℝ) := by
      have : ((1 / 4 : ℚ) : ℝ) = 1 / 4 := by push_cast; rfl
      simp only [Machine.ieee, this]; exact congrArg _ h4
    have cd : (Machine.ieee (fun a => .fin (r a)) pow sqrt).div (.fin 1) (.fin 2) = (.fin (1 / 2) : Dbl ℝ) := by
      simp only [Machine.ieee]
      rw [if_neg (by norm_num)]
      exact congrArg _ hh
    have cq : RAst.compute (Machine.ieee (fun a => .fin (r a)) pow sqrt) (fun i => p.1.getD i ((Machine.ieee (fun a => .fin (r a)) pow sqrt).lit 0))
        (.add (.mul (.var 1) (.var 1)) (.mul (.var 0) (.var 0))) = .fin q := hq
    have cp : (Machine.ieee (fun a => .fin (r a)) pow sqrt).pow (.fin q) (.fin (1 / 2)) = .fin b := hb
    show Except.ok ((Machine.ieee (fun a => .fin (r a)) pow sqrt).sub ((Machine.ieee (fun a => .fin (r a)) pow sqrt).pow
      (RAst.compute (Machine.ieee (fun a => .fin (r a)) pow sqrt) (fun i => p.1.getD i ((Machine.ieee (fun a => .fin (r a)) pow sqrt).lit 0))
        (.add (.mul (.var 1) (.var 1)) (.mul (.var 0) (.var 0))))
      ((Machine.ieee (fun a => .fin (r a)) pow sqrt).div ((Machine.ieee (fun a => .fin (r a)) pow sqrt).lit 1)
        ((Machine.ieee (fun a => .fin (r a)) pow sqrt).lit 2))) ((Machine.ieee (fun a => .fin (r a)) pow sqrt).lit (1 / 4))) = _
    rw [cq, c1, c2, c4, cd, cp]
    rfl
  refine ⟨r (b - 1 / 4), ?_, ?_⟩
  · refine g5 2 ?_ .f trivial _ rfl _ hval
    revert g1
    generalize [_, _, _].findIdx? id = o
    intro g1
    cases o with
    | none => rw [g1] at h2p; simp at h2p
    | some i => rw [g1] at h2p; simpa using h2p
  · have he : |b - √(x ^ 2 + y ^ 2)| ≤ e := by
      have s1 : √q ≤ (1 + u) * √(x ^ 2 + y ^ 2) := by
        have : √q ≤ √((1 + u) ^ 2 * (x ^ 2 + y ^ 2)) := Real.sqrt_le_sqrt (by linarith)
        rwa [Real.sqrt_mul (by positivity), Real.sqrt_sq (by linarith)] at this
      have s2 : (1 - u) * √(x ^ 2 + y ^ 2) ≤ √q := by
        have : √((1 - u) ^ 2 * (x ^ 2 + y ^ 2)) ≤ √q := Real.sqrt_le_sqrt (by linarith)
        rwa [Real.sqrt_mul (by positivity), Real.sqrt_sq (by linarith)] at this
      have h3 : |√q - √(x ^ 2 + y ^ 2)| ≤ u * √(x ^ 2 + y ^ 2) := by
        rw [abs_le]; constructor <;> linarith
      calc |b - √(x ^ 2 + y ^ 2)| = |(b - √q) + (√q - √(x ^ 2 + y ^ 2))| := by ring_nf
        _ ≤ |b - √q| + |√q - √(x ^ 2 + y ^ 2)| := abs_add_le _ _
        _ ≤ w * ((1 + u) * √(x ^ 2 + y ^ 2)) + u * √(x ^ 2 + y ^ 2) :=
            add_le_add (be.trans (mul_le_mul_of_nonneg_left s1 hw)) h3
        _ = e := by simp only [e]; ring
    have h5 : |r (b - 1 / 4) - (b - 1 / 4)| ≤ u * |b - 1 / 4| := R.err _
    have h6 : |b - 1 / 4| ≤ |√(x ^ 2 + y ^ 2) - 1 / 4| + e := by
      calc |b - 1 / 4| = |(√(x ^ 2 + y ^ 2) - 1 / 4) + (b - √(x ^ 2 + y ^ 2))| := by ring_nf
        _ ≤ _ := (abs_add_le _ _).trans (by linarith)
    calc _ = |(b - √(x ^ 2 + y ^ 2)) + (r (b - 1 / 4) - (b - 1 / 4))| := by ring_nf
      _ ≤ |b - √(x ^ 2 + y ^ 2)| + |r (b - 1 / 4) - (b - 1 / 4)| := abs_add_le _ _
      _ ≤ _ := add_le_add he (h5.trans (mul_le_mul_of_nonneg_left h6 hu0))

/-! ### The hypotheses can be met -/

namespace SpecialDemo

/-- Rounding to binary64 with overflow (numbers of at least `2^1024` are infinite). -/
def over (a : ℚ) : Dbl ℚ :=
  if (2 : ℚ) ^ 1024 ≤ nearestEven 53 a then .inf else if nearestEven 53 a ≤ -(2 : ℚ) ^ 1024 then .ninf else .fin (nearestEven 53 a)

theorem ne0 : nearestEven 53 (0 : ℚ) = 0 := by decide +kernel
theorem ne1 : nearestEven 53 (1 : ℚ) = 1 := by decide +kernel
theorem ne2 : nearestEven 53 (2 : ℚ) = 2 := by decide +kernel
theorem ne4 : nearestEven 53 (1 / 4 : ℚ) = 1 / 4 := by decide +kernel

theorem over_ok : MayOverflow over where
  zero := by unfold over; rw [ne0, if_neg (by decide +kernel), if_neg (by decide +kernel)]
  one := by unfold over; rw [ne1, if_neg (by decide +kernel), if_neg (by decide +kernel)]
  quarter := by unfold over; rw [ne4, if_neg (by decide +kernel), if_neg (by decide +kernel)]
  number a := by unfold over; split_ifs <;> simp
  nonneg a h := by
    unfold over
    have := (nearestEven_rounding (K := ℚ) (p := 53) (by norm_num)).nonneg h
    have h1 : ¬ nearestEven 53 a ≤ -(2 : ℚ) ^ 1024 := by
      have h2 : (0 : ℚ) < 2 ^ 1024 := by positivity
      exact fun h3 => absurd (lt_of_le_of_lt (this.trans h3) (neg_neg_of_pos h2)) (lt_irrefl _)
    rw [if_neg h1]
    split_ifs <;> simp

/-- The object exists: `x = 1`, `y = 2^600` overflows in `y²`, and still the third piece is found. -/
example : ∃ s0, pieceWiseM (Machine.ieee over (fun _ _ => .nan) (fun _ => .nan)) = .ok s0 ∧
    (∃ i, (s0.piece (ptM (.fin 1) (.fin (2 ^ 600)) [])).1 = .ok i) ∧
    (s0.piece (ptM .nan (.fin 1) [])).1 = .error .domainError ∧ (s0.piece (ptM .ninf .nan [])).1 = .ok 0 := by
  obtain ⟨ps, _, h⟩ := builtM (Machine.ieee over (fun _ _ => .nan) (fun _ => .nan))
  refine ⟨_, h, ?_, ?_, ?_⟩
  · obtain ⟨i, hi, _⟩ := C124_defined over_ok _ h [] (by simp) (.fin 1) (.fin (2 ^ 600)) [] (by simp) (by simp)
    exact ⟨i, hi⟩
  · have := (C124_nan over_ok _ h [] (by simp) .nan (.fin 1) [] (.inl rfl)).2.2.1
    exact congrArg Prod.fst this
  · exact (C124_left over_ok _ h [] (by simp) .ninf .nan [] rfl).1

/-- Without overflow, in the disc: `x = y = 1/4`. -/
example : ∃ s0, pieceWiseM (Machine.ieee (fun a => .fin (nearestEven 53 a : ℚ)) (fun _ _ => .nan) (fun _ => .nan)) = .ok s0 ∧
    (s0.piece (ptM (.fin (1 / 4)) (.fin (1 / 4)) [])).1 = .ok 1 := by
  obtain ⟨ps, _, h⟩ := builtM (Machine.ieee (fun a => .fin (nearestEven 53 a : ℚ)) (fun _ _ => .nan) (fun _ => .nan))
  refine ⟨_, h, ?_⟩
  exact (C124_disc (nearestEven_rounding (K := ℚ) (p := 53) (by norm_num)) (by norm_num) ne4 ne2 _ h [] (by simp)
    (1 / 4) (1 / 4) [] (by norm_num)).2.1 (by norm_num)

/-- Outside the disc, with an exact `pow`: `x = 3`, `y = 4`. -/
example : ∃ s0, pieceWiseM (Machine.ieee (fun a => .fin (id a : ℝ)) (fun a _ => match a with | .fin a => .fin (√a) | b => b) (fun a => a)) = .ok s0 ∧
    ∃ q, (pwSem (single (ptM (.fin 3) (.fin 4) []) .f) s0).1 = .ok (.num (.fin q)) ∧ |q - (√(3 ^ 2 + 4 ^ 2) - 1 / 4)| ≤ 0 := by
  obtain ⟨ps, _, h⟩ := builtM (Machine.ieee (fun a => .fin (id a : ℝ)) (fun a _ => match a with | .fin a => .fin (√a) | b => b) (fun a => a))
  refine ⟨_, h, ?_⟩
  have h2 := (C124_disc (id_rounding (K := ℝ)) (by norm_num) rfl rfl _ h [] (by simp) 3 4 [] (by norm_num)).2.2.1 (by norm_num)
  obtain ⟨q, h3, h4⟩ := C124_outside (w := 0) (id_rounding (K := ℝ)) (by norm_num) rfl rfl rfl
    (fun a _ => ⟨√a, rfl, by simp⟩) _ h [] (by simp) 3 4 [] (by norm_num) h2
  exact ⟨q, h3, by simpa using h4⟩

end SpecialDemo
end Verif
