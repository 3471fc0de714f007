import Verif.Props.Piecewise
import Mathlib.Algebra.Order.Field.Rat
import Mathlib.Tactic.NormNum

/-!
# C154: piecewise functions inside piecewise functions
-/

namespace Verif
open Spec

namespace Spec
variable {V O : Type}

mutual
/-- A function given by an expression, or by a list of branches. -/
inductive Tree (V O : Type) where
  | leaf (o : SObj V O)
  | node (bs : Branches V O)
/-- Conditions and what to use where all of them hold, in this order. -/
inductive Branches (V O : Type) where
  | nil
  | cons (conds : List (SObj V Bool)) (t : Tree V O) (rest : Branches V O)
end

/-- All conditions are true. -/
def Hold (cs : List (SObj V Bool)) (v : V) : Prop := ∀ c ∈ cs, c.evalFn v = .ok true

/-- No condition throws. -/
def NoThrow (cs : List (SObj V Bool)) (v : V) : Prop := ∀ c ∈ cs, ∃ b, c.evalFn v = .ok b

mutual
/-- Taking the first branch that applies, again and again, one comes to the expression `o`. -/
inductive Leads : Tree V O → V → SObj V O → Prop
  | leaf (o : SObj V O) (v : V) : Leads (.leaf o) v o
  | node {bs : Branches V O} {v : V} {o : SObj V O} : LeadsB bs v o → Leads (.node bs) v o
/-- The same for branches. -/
inductive LeadsB : Branches V O → V → SObj V O → Prop
  | here {cs : List (SObj V Bool)} {t : Tree V O} {bs : Branches V O} {v : V} {o : SObj V O} : Hold cs v → Leads t v o → LeadsB (.cons cs t bs) v o
  | skip {cs : List (SObj V Bool)} {t : Tree V O} {bs : Branches V O} {v : V} {o : SObj V O} : ¬ Hold cs v → LeadsB bs v o → LeadsB (.cons cs t bs) v o
end

mutual
/-- Taking the first branch that applies, again and again, one comes to branches none of which applies. -/
inductive Stuck : Tree V O → V → Prop
  | node {bs : Branches V O} {v : V} : StuckB bs v → Stuck (.node bs) v
/-- The same for branches. -/
inductive StuckB : Branches V O → V → Prop
  | none (v : V) : StuckB .nil v
  | here {cs : List (SObj V Bool)} {t : Tree V O} {bs : Branches V O} {v : V} : Hold cs v → Stuck t v → StuckB (.cons cs t bs) v
  | skip {cs : List (SObj V Bool)} {t : Tree V O} {bs : Branches V O} {v : V} : ¬ Hold cs v → StuckB bs v → StuckB (.cons cs t bs) v
end

mutual
/-- No condition in the tree throws at `v`. -/
def Tree.Tame : Tree V O → V → Prop
  | .leaf _, _ => True
  | .node bs, v => bs.Tame v
/-- The same for branches. -/
def Branches.Tame : Branches V O → V → Prop
  | .nil, _ => True
  | .cons cs t bs, v => NoThrow cs v ∧ t.Tame v ∧ bs.Tame v
end

mutual
/-- The tree without inner nodes: an expression with all conditions on the way to it. -/
def Tree.flat : Tree V O → List (SObj V Bool) → List (List (SObj V Bool) × SObj V O)
  | .leaf o, pre => [(pre, o)]
  | .node bs, pre => bs.flat pre
/-- The same for branches. -/
def Branches.flat : Branches V O → List (SObj V Bool) → List (List (SObj V Bool) × SObj V O)
  | .nil, _ => []
  | .cons cs t bs, pre => t.flat (pre ++ cs) ++ bs.flat pre
end

end Spec

namespace PieceNest
variable {V O : Type}

/-- A `SimplePiece` of an expression and conditions (SimplePiece.hh:27-32). -/
def pieceOf (o : SObj V O) (cs : List (SObj V Bool)) : SimplePiece V O := ⟨o.name, some o, cs.map some⟩

mutual
/-- The object made of the tree: an expression as it is, branches as a `PPieceWiseSimpleBase` of `SimplePiece`s (PPieceWiseSimpleBase.hh:20-31, SimplePiece.hh:27-32). -/
def obj : Tree V O → SObj V O
  | .leaf o => o
  | .node bs => PWSimple.toSObj ⟨pieces bs⟩
/-- The pieces of the branches. -/
def pieces : Branches V O → List (SimplePiece V O)
  | .nil => []
  | .cons cs t bs => pieceOf (obj t) cs :: pieces bs
end

/-- The pieces of the tree without inner nodes. -/
def flatPieces (l : List (List (SObj V Bool) × SObj V O)) : List (SimplePiece V O) := l.map fun x => pieceOf x.2 x.1

theorem in_hold {cs : List (SObj V Bool)} {v : V} (h : Hold cs v) : SimplePiece.inPiece (cs.map some) v = .ok true := by
  induction cs with
  | nil => rfl
  | cons c cs ih =>
    simp only [List.map_cons, SimplePiece.inPiece, condAt, h c (by simp), ok_bind, Bool.not_true]
    exact ih fun c hc => h c (by simp [hc])

theorem in_not {cs : List (SObj V Bool)} {v : V} (hn : NoThrow cs v) (h : ¬ Hold cs v) : SimplePiece.inPiece (cs.map some) v = .ok false := by
  induction cs with
  | nil => exact absurd (fun c hc => absurd hc (by simp)) h
  | cons c cs ih =>
    obtain ⟨b, hb⟩ := hn c (by simp)
    simp only [List.map_cons, SimplePiece.inPiece, condAt, hb, ok_bind]
    cases b with
    | false => rfl
    | true =>
      exact ih (fun c hc => hn c (by simp [hc])) fun h' => h fun d hd => by
        rcases List.mem_cons.mp hd with rfl | hd
        · exact hb
        · exact h' d hd

theorem eval_hold {o : SObj V O} {cs : List (SObj V Bool)} {v : V} (h : Hold cs v) (ps : List (SimplePiece V O)) :
    PWSimple.eval (pieceOf o cs :: ps) v = o.evalFn v := by
  simp only [PWSimple.eval, pieceOf, in_hold h, ok_bind, if_true, SimplePiece.eval]

theorem eval_not {o : SObj V O} {cs : List (SObj V Bool)} {v : V} (hn : NoThrow cs v) (h : ¬ Hold cs v) (ps : List (SimplePiece V O)) :
    PWSimple.eval (pieceOf o cs :: ps) v = PWSimple.eval ps v := by
  simp only [PWSimple.eval, pieceOf, in_not hn h, ok_bind]
  rfl

theorem obj_node (bs : Branches V O) (v : V) : (obj (.node bs)).evalFn v = PWSimple.eval (pieces bs) v := by
  rw [obj]; rfl

mutual
theorem eval_tree {v : V} : ∀ (t : Tree V O), t.Tame v → (∀ o, Leads t v o → (obj t).evalFn v = o.evalFn v) ∧
    (Stuck t v → (obj t).evalFn v = .error .domainError) ∧ ((∃ o, Leads t v o) ∨ Stuck t v)
  | .leaf o, _ => by
    refine ⟨fun o' h => ?_, fun h => (by cases h), .inl ⟨o, .leaf o v⟩⟩
    cases h
    rw [obj]
  | .node bs, ht => by
    rw [Tree.Tame] at ht
    obtain ⟨h1, h2, h3⟩ := eval_branches bs ht
    refine ⟨fun o h => ?_, fun h => ?_, ?_⟩
    · cases h with | node h => rw [obj_node]; exact h1 o h
    · cases h with | node h => rw [obj_node]; exact h2 h
    · rcases h3 with ⟨o, h⟩ | h
      · exact .inl ⟨o, .node h⟩
      · exact .inr (.node h)
theorem eval_branches {v : V} : ∀ (bs : Branches V O), bs.Tame v → (∀ o, LeadsB bs v o → PWSimple.eval (pieces bs) v = o.evalFn v) ∧
    (StuckB bs v → PWSimple.eval (pieces bs) v = .error .domainError) ∧ ((∃ o, LeadsB bs v o) ∨ StuckB bs v)
  | .nil, _ => by
    refine ⟨fun o h => (by cases h), fun _ => ?_, .inr (.none v)⟩
    rw [pieces]; rfl
  | .cons cs t bs, ht => by
    rw [Branches.Tame] at ht
    obtain ⟨hn, ht, hb⟩ := ht
    obtain ⟨h1, h2, h3⟩ := eval_tree t ht
    obtain ⟨k1, k2, k3⟩ := eval_branches bs hb
    rw [pieces]
    by_cases hc : Hold cs v
    · rw [eval_hold hc]
      refine ⟨fun o h => ?_, fun h => ?_, ?_⟩
      · cases h with
        | here _ h => exact h1 o h
        | skip h _ => exact absurd hc h
      · cases h with
        | here _ h => exact h2 h
        | skip h _ => exact absurd hc h
      · rcases h3 with ⟨o, h⟩ | h
        · exact .inl ⟨o, .here hc h⟩
        · exact .inr (.here hc h)
    · rw [eval_not hn hc]
      refine ⟨fun o h => ?_, fun h => ?_, ?_⟩
      · cases h with
        | here h _ => exact absurd h hc
        | skip _ h => exact k1 o h
      · cases h with
        | here h _ => exact absurd h hc
        | skip _ h => exact k2 h
      · rcases k3 with ⟨o, h⟩ | h
        · exact .inl ⟨o, .skip hc h⟩
        · exact .inr (.skip hc h)
end

theorem hold_append {a b : List (SObj V Bool)} {v : V} : Hold (a ++ b) v ↔ Hold a v ∧ Hold b v := by
  simp only [Hold, List.mem_append, or_imp, forall_and]

theorem noThrow_append {a b : List (SObj V Bool)} {v : V} : NoThrow (a ++ b) v ↔ NoThrow a v ∧ NoThrow b v := by
  simp only [NoThrow, List.mem_append, or_imp, forall_and]

theorem flatPieces_append (a b : List (List (SObj V Bool) × SObj V O)) : flatPieces (a ++ b) = flatPieces a ++ flatPieces b := by
  simp [flatPieces]

mutual
theorem flat_tree {v : V} : ∀ (t : Tree V O), t.Tame v → ∀ (pre : List (SObj V Bool)), NoThrow pre v → ∀ rest : List (SimplePiece V O),
    (∀ o, Hold pre v → Leads t v o → PWSimple.eval (flatPieces (t.flat pre) ++ rest) v = o.evalFn v) ∧
    (¬ Hold pre v → PWSimple.eval (flatPieces (t.flat pre) ++ rest) v = PWSimple.eval rest v)
  | .leaf o, _, pre, hp, rest => by
    rw [Tree.flat]
    refine ⟨fun o' h hl => ?_, fun h => eval_not hp h _⟩
    cases hl
    exact eval_hold h _
  | .node bs, ht, pre, hp, rest => by
    rw [Tree.Tame] at ht
    rw [Tree.flat]
    obtain ⟨h1, h2⟩ := flat_branches bs ht pre hp rest
    refine ⟨fun o h hl => ?_, h2⟩
    cases hl with | node hl => exact h1 o h hl
theorem flat_branches {v : V} : ∀ (bs : Branches V O), bs.Tame v → ∀ (pre : List (SObj V Bool)), NoThrow pre v → ∀ rest : List (SimplePiece V O),
    (∀ o, Hold pre v → LeadsB bs v o → PWSimple.eval (flatPieces (bs.flat pre) ++ rest) v = o.evalFn v) ∧
    (¬ Hold pre v → PWSimple.eval (flatPieces (bs.flat pre) ++ rest) v = PWSimple.eval rest v)
  | .nil, _, pre, _, rest => by
    rw [Branches.flat]
    exact ⟨fun o _ hl => (by cases hl), fun _ => rfl⟩
  | .cons cs t bs, ht, pre, hp, rest => by
    rw [Branches.Tame] at ht
    obtain ⟨hn, ht, hb⟩ := ht
    rw [Branches.flat, flatPieces_append, List.append_assoc]
    obtain ⟨h1, h2⟩ := flat_tree t ht (pre ++ cs) (noThrow_append.mpr ⟨hp, hn⟩) (flatPieces (bs.flat pre) ++ rest)
    obtain ⟨k1, k2⟩ := flat_branches bs hb pre hp rest
    refine ⟨fun o h hl => ?_, fun h => ?_⟩
    · cases hl with
      | here hc hl => exact h1 o (hold_append.mpr ⟨h, hc⟩) hl
      | skip hc hl => rw [h2 fun h' => hc (hold_append.mp h').2]; exact k1 o h hl
    · rw [h2 fun h' => h (hold_append.mp h').1]; exact k2 h
end

end PieceNest
open PieceNest

variable {V O : Type}

/-- **C154** (construction) The piece of an object made from a tree is what the constructor of `SimplePiece` returns. -/
theorem C154_built (cs : List (SObj V Bool)) (t : Tree V O) : SimplePiece.make (some (obj t)) (cs.map some) = .ok (pieceOf (obj t) cs) := rfl

/-- **C154** (nested) At every point where no condition throws: following the first branch that applies one comes to an expression, and evaluation has its
outcome; or to branches none of which applies, and evaluation throws `std::domain_error`. -/
theorem C154_nested (t : Tree V O) (v : V) (ht : t.Tame v) :
    (∃ o, Leads t v o ∧ ((obj t).evalAt v).1 = (o.evalAt v).1) ∨ (Stuck t v ∧ ((obj t).evalAt v).1 = .error .domainError) := by
  obtain ⟨h1, h2, h3⟩ := eval_tree t ht
  have e : ∀ o : SObj V O, (o.evalAt v).1 = o.evalFn v := fun o => by
    simp only [SObj.evalAt]
    cases o.evalFn v <;> rfl
  simp only [e]
  rcases h3 with ⟨o, h⟩ | h
  · exact .inl ⟨o, h, h1 o h⟩
  · exact .inr ⟨h, h2 h⟩

/-- **C154** (flat) The list of the expressions, each with all conditions on the way to it, is the same function wherever the branches lead to an expression. -/
theorem C154_flat (t : Tree V O) (v : V) (ht : t.Tame v) (o : SObj V O) (h : Leads t v o) :
    ((PWSimple.toSObj ⟨flatPieces (t.flat [])⟩ : SObj V O).evalAt v).1 = ((obj t).evalAt v).1 := by
  have e : ∀ o : SObj V O, (o.evalAt v).1 = o.evalFn v := fun o => by
    simp only [SObj.evalAt]
    cases o.evalFn v <;> rfl
  rw [e, e, (eval_tree t ht).1 o h]
  have := (flat_tree t ht [] (fun c hc => absurd hc (by simp)) []).1 o (fun c hc => absurd hc (by simp)) h
  rw [List.append_nil] at this
  exact this

namespace NestDemo

/-- A condition. -/
def cond (p : ℚ → Bool) : SObj ℚ Bool := ⟨"", some fun x => .ok (p x), none, none, none, none⟩
/-- An expression. -/
def num (f : ℚ → ℚ) : SObj ℚ ℚ := ⟨"", some fun x => .ok (f x), none, none, none, none⟩

/-- Below 10: below 0 it is -1, from 0 to 5 it is x; then 7 for all below 20. -/
def tree : Tree ℚ ℚ := .node (.cons [cond (· < 10)] (.node (.cons [cond (· < 0)] (.leaf (num fun _ => -1))
  (.cons [cond (0 ≤ ·), cond (· < 5)] (.leaf (num id)) .nil))) (.cons [cond (· < 20)] (.leaf (num fun _ => 7)) .nil))

theorem tame (v : ℚ) : tree.Tame v := by
  simp [tree, Tree.Tame, Branches.Tame, NoThrow, cond, SObj.evalFn]
  exact ⟨le_or_gt 10 v, ⟨le_or_gt 0 v, lt_or_ge v 0, le_or_gt 5 v⟩, le_or_gt 20 v⟩

/-- At 3, 6 and 30 (nested), and 3 and 15 (both): a value, `std::domain_error`, `std::domain_error`. -/
example : ((obj tree).evalAt 3).1 = .ok 3 ∧ ((obj tree).evalAt 15).1 = .ok 7 ∧ ((obj tree).evalAt 6).1 = .error .domainError ∧
    ((obj tree).evalAt 30).1 = .error .domainError := by decide +kernel

/-- `C154_flat` applied. -/
example : ((PWSimple.toSObj ⟨flatPieces (tree.flat [])⟩ : SObj ℚ ℚ).evalAt 3).1 = ((obj tree).evalAt 3).1 :=
  C154_flat tree 3 (tame 3) (num id) (.node (.here (by simp [Hold, cond, SObj.evalFn]; norm_num) (.node (.skip (by simp [Hold, cond, SObj.evalFn])
    (.here (by simp [Hold, cond, SObj.evalFn]; norm_num) (.leaf _ _))))))

end NestDemo

/-- **C154** (not covered) Where the inner branches do not cover the region of their piece the two differ: the nested function throws `std::domain_error` (while its
`in_piece` is true), the flat one goes on to the later pieces. -/
theorem C154_uncovered : Stuck NestDemo.tree 6 ∧ ((obj NestDemo.tree).evalAt 6).1 = .error .domainError ∧
    PWSimple.inPiece (match NestDemo.tree with | .node bs => pieces bs | .leaf _ => []) 6 = .ok true ∧
    ((PWSimple.toSObj ⟨flatPieces (NestDemo.tree.flat [])⟩ : SObj ℚ ℚ).evalAt 6).1 = .ok 7 := by
  refine ⟨.node (.here ?_ (.node (.skip ?_ (.skip ?_ (.none _))))), by decide +kernel, by decide +kernel, by decide +kernel⟩
  all_goals simp [Hold, NestDemo.cond, SObj.evalFn] <;> norm_num

end Verif
