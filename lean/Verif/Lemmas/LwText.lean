import Verif.Spec.LwText
import Verif.Model.LwText
import Verif.Lemmas.LibraryWrite

/-! Helper lemmas: reading the generated text. -/

namespace Verif
open Spec Spec.Cpp
namespace LwText

theorem after_append (p t : Text) : after p (p ++ t) = some t := by
  induction p with
  | nil => cases t <;> rfl
  | cons c p ih => simp [after, ih]

theorem before_append (e t : Text) : before e (t ++ e) = some t := by
  simp [before, after_append]

theorem upto_append (c : Char) (a b : Text) (h : c ∉ a) : upto c (a ++ c :: b) = some (a, b) := by
  induction a with
  | nil => simp [upto]
  | cons d a ih =>
    have h1 : d ≠ c := fun e => h (by simp [e])
    have h2 : c ∉ a := fun e => h (by simp [e])
    simp [upto, h1, ih h2]

theorem literal_append (s r : Text) (h1 : '"' ∉ s) (h2 : '\\' ∉ s) : literal ('"' :: (s ++ '"' :: r)) = some (s, r) := by
  have e : after ['"'] ('"' :: (s ++ '"' :: r)) = some (s ++ '"' :: r) := after_append ['"'] _
  simp [literal, e, upto_append _ s r h1, h2]

theorem linesFrom_append (cur l t : Text) (h : '\n' ∉ l) : linesFrom cur (l ++ '\n' :: t) = (cur ++ l) :: linesFrom [] t := by
  induction l generalizing cur with
  | nil => simp [linesFrom]
  | cons c l ih =>
    have h1 : c ≠ '\n' := fun e => h (by simp [e])
    have h2 : '\n' ∉ l := fun e => h (by simp [e])
    simp [linesFrom, h1, ih _ h2]

theorem lines_join (ls : List Text) (h : ∀ l ∈ ls, '\n' ∉ l) : lines (Coll.joinLines ls) = ls := by
  unfold lines
  induction ls with
  | nil => rfl
  | cons l ls ih =>
    have e : Coll.joinLines (l :: ls) = l ++ '\n' :: Coll.joinLines ls := by simp [Coll.joinLines]
    rw [e, linesFrom_append _ _ _ (h l (by simp)), ih fun x hx => h x (by simp [hx])]
    rfl

theorem readLines_append (a b : List Text) (x y : List Line) (ha : readLines a = some x) (hb : readLines b = some y) :
    readLines (a ++ b) = some (x ++ y) := by
  induction a generalizing x with
  | nil => simp only [readLines, Option.some.injEq] at ha; subst ha; exact hb
  | cons l a ih =>
    simp only [readLines, Option.bind_eq_bind, Option.bind_eq_some_iff] at ha
    obtain ⟨z, hz, zs, hzs, e⟩ := ha
    cases e
    simp [readLines, hz, ih zs hzs]

theorem readLines_map {α : Type} (l : List α) (f : α → Text) (g : α → Line) (h : ∀ a ∈ l, readLine (f a) = some (g a)) :
    readLines (l.map f) = some (l.map g) := by
  induction l with
  | nil => rfl
  | cons a l ih =>
    simp [readLines, h a (by simp), ih fun x hx => h x (by simp [hx])]

theorem readLines_flatMap {α : Type} (l : List α) (f : α → List Text) (g : α → List Line) (h : ∀ a ∈ l, readLines (f a) = some (g a)) :
    readLines (l.flatMap f) = some (l.flatMap g) := by
  induction l with
  | nil => rfl
  | cons a l ih =>
    rw [List.flatMap_cons, List.flatMap_cons]
    exact readLines_append _ _ _ _ (h a (by simp)) (ih fun x hx => h x (by simp [hx]))

theorem code_append (a b : List Line) : code (a ++ b) = code a ++ code b := by simp [code]

/-! ## Lines -/

theorem readLine_comment (r : Text) : readLine ("// ".toList ++ r) = some .comment := rfl

theorem readLine_define (r : Text) : readLine ("        void PLibrary::".toList ++ r) = some (.defines r) := rfl

theorem readLine_decl (r x : Text) (h : before ";".toList ("checkout".toList ++ r) = some x) :
    readLine ("        void checkout".toList ++ r) = some (.declares x) := by
  show first ((before ";".toList ("checkout".toList ++ r)).map Line.declares :: _) = _
  rw [h]; rfl

theorem readLine_incl (f : Text) : readLine ("#include \"".toList ++ f) = some (.incl ('"' :: f)) := rfl

theorem readLine_typedef (type name : Text) (h : ' ' ∉ name) :
    readLine ("            typedef ".toList ++ (type ++ ' ' :: name ++ ";".toList)) = some (.typedef type name) := by
  show first (readTypedef ("typedef ".toList ++ (type ++ ' ' :: name ++ ";".toList)) :: _) = _
  have e : readTypedef ("typedef ".toList ++ (type ++ ' ' :: name ++ ";".toList)) = some (.typedef type name) := by
    simp only [readTypedef, after_append, before_append, Option.bind_eq_bind, Option.bind_some]
    simp only [List.reverse_append, List.reverse_cons, List.append_assoc, List.singleton_append,
      upto_append _ name.reverse _ (by simpa using h), List.reverse_reverse, Option.bind_some]
  rw [e]; rfl

theorem readLine_throw (a b : Text) (ha : '"' ∉ a ∧ '\\' ∉ a) (hb : '"' ∉ b ∧ '\\' ∉ b) :
    readLine ("            throw std::runtime_error( ".toList ++ ('"' :: (a ++ '"' :: (" + name + ".toList ++ ('"' :: (b ++ '"' :: ");".toList)))))) =
      some (.throws false a b) := by
  show first [readThrow false ("throw std::runtime_error( ".toList ++ ('"' :: (a ++ '"' :: (" + name + ".toList ++ ('"' :: (b ++ '"' :: ");".toList))))))] = _
  simp only [readThrow, after_append, literal_append _ _ ha.1 ha.2, literal_append _ _ hb.1 hb.2, Option.bind_eq_bind, Option.bind_some, if_true,
    first]

theorem readLine_else_throw (a b : Text) (ha : '"' ∉ a ∧ '\\' ∉ a) (hb : '"' ∉ b ∧ '\\' ∉ b) :
    readLine ("            else throw std::runtime_error( ".toList ++ ('"' :: (a ++ '"' :: (" + name + ".toList ++ ('"' :: (b ++ '"' :: ");".toList)))))) =
      some (.throws true a b) := by
  show first [readThrow true ("throw std::runtime_error( ".toList ++ ('"' :: (a ++ '"' :: (" + name + ".toList ++ ('"' :: (b ++ '"' :: ");".toList)))))), _] = _
  simp only [readThrow, after_append, literal_append _ _ ha.1 ha.2, literal_append _ _ hb.1 hb.2, Option.bind_eq_bind, Option.bind_some, if_true,
    first]

theorem readLine_alt (n target x : Text) (e : Expr) (hn : '"' ∉ n ∧ '\\' ∉ n) (ht : ' ' ∉ target) (hx : readExpr x = some e) :
    readLine ("            if( name == ".toList ++ ('"' :: (n ++ '"' :: (") { ".toList ++ ((target ++ ' ' :: ("= ".toList ++ x)) ++ "; return;}".toList))))) =
      some (.alt n target e) := by
  show first (readAlt ("if( name == ".toList ++ ('"' :: (n ++ '"' :: (") { ".toList ++ ((target ++ ' ' :: ("= ".toList ++ x)) ++ "; return;}".toList))))) :: _) = _
  have : readAlt ("if( name == ".toList ++ ('"' :: (n ++ '"' :: (") { ".toList ++ ((target ++ ' ' :: ("= ".toList ++ x)) ++ "; return;}".toList))))) =
      some (.alt n target e) := by
    simp only [readAlt, after_append, literal_append _ _ hn.1 hn.2, before_append, upto_append _ target _ ht, hx, Option.bind_eq_bind, Option.bind_some]
  rw [this]; rfl

theorem readCall_plain (c : Text) : readCall (c ++ "()".toList) = some (c, []) := by
  unfold readCall; rw [before_append]; rfl

theorem readCall_N (c : Text) : readCall (c ++ "(N)".toList) = some (c, ["N".toList]) := by
  have h : before "()".toList (c ++ "(N)".toList) = none := by
    unfold before; rw [List.reverse_append]; rfl
  unfold readCall; rw [h, before_append]; rfl

/-- The arguments of the constructors. -/
def argsOf (k : Kind) : List Text := if isBasis k then ["N".toList] else []

theorem readCall_args (k : Kind) (c : Text) : readCall (c ++ (Coll.altArgs k).toList) = some (c, argsOf k) := by
  cases k <;> first | exact readCall_plain c | exact readCall_N c

/-- What is read from an alternative. -/
def exprOf (k : Kind) (cls : Text) : Expr :=
  match Coll.wrapperAlias k with
  | some w => .wrap w.toList cls (argsOf k)
  | none => .new cls (argsOf k)

theorem readExpr_new (k : Kind) (c : Text) : readExpr ("new ".toList ++ (c ++ (Coll.altArgs k).toList)) = some (.new c (argsOf k)) := by
  unfold readExpr
  simp only [after_append, readCall_args, Option.bind_eq_bind, Option.bind_some]
  rfl

theorem readExpr_wrap (k : Kind) (w : Text) (hw : after "new ".toList (w ++ ("( ".toList ++ (c ++ (Coll.altArgs k).toList) ++ " )".toList)) = none)
    (hp : '(' ∉ w) :
    readExpr (w ++ ("( ".toList ++ (c ++ (Coll.altArgs k).toList) ++ " )".toList)) = some (.wrap w c (argsOf k)) := by
  unfold readExpr
  rw [hw]
  have e : w ++ ("( ".toList ++ (c ++ (Coll.altArgs k).toList) ++ " )".toList) = w ++ '(' :: (" ".toList ++ ((c ++ (Coll.altArgs k).toList) ++ " )".toList)) := by
    rw [List.append_assoc]; rfl
  rw [e]
  simp only [upto_append _ w _ hp, after_append, before_append, readCall_args, Option.bind_eq_bind, Option.bind_some]
  rfl

/-- The line read from an alternative. -/
def altOf (k : Kind) (a : Text × Text) : Line := .alt a.1 (Coll.altTarget k).toList (exprOf k a.2)

theorem readLine_altLine (k : Kind) (a : Text × Text) (ha : '"' ∉ a.1 ∧ '\\' ∉ a.1) : readLine (Coll.altLine k a) = some (altOf k a) := by
  have ht : ' ' ∉ (Coll.altTarget k).toList := by cases k <;> decide
  have key : ∀ x, readExpr x = some (exprOf k a.2) →
      readLine ("            if( name == \"".toList ++ a.1 ++ "\") { ".toList ++ (Coll.altTarget k).toList ++ " = ".toList ++ x ++ "; return;}".toList) =
        some (altOf k a) := by
    intro x hx
    have := readLine_alt a.1 (Coll.altTarget k).toList x _ ha ht hx
    rw [← altOf] at this
    rw [← this]
    congr 1
    have e1 : "            if( name == \"".toList = "            if( name == ".toList ++ ['"'] := by decide
    have e2 : "\") { ".toList = '"' :: ") { ".toList := by decide
    have e3 : " = ".toList = ' ' :: "= ".toList := by decide
    rw [e1, e2, e3]
    simp only [List.append_assoc, List.cons_append, List.nil_append]
  unfold Coll.altLine
  refine key _ ?_
  unfold exprOf
  cases k <;> simp only [Coll.wrapperAlias]
  · rw [show ∀ x y z w v : Text, x ++ y ++ z ++ w ++ v = x ++ (y ++ (z ++ w) ++ v) by simp]
    exact readExpr_wrap .simpleFunction _ rfl (by decide)
  · rw [show ∀ x y z w v : Text, x ++ y ++ z ++ w ++ v = x ++ (y ++ (z ++ w) ++ v) by simp]
    exact readExpr_wrap .function _ rfl (by decide)
  · rw [show ∀ x y z w v : Text, x ++ y ++ z ++ w ++ v = x ++ (y ++ (z ++ w) ++ v) by simp]
    exact readExpr_wrap .basisSet _ rfl (by decide)
  all_goals
    rw [List.append_assoc]
    exact readExpr_new _ _

/-! ## Functions -/

/-- The text before the name in the message. -/
def typeText (k : Kind) (i o : Text) : Text := k.cls.toList ++ "< ".toList ++ i ++ ", ".toList ++ o ++ " > ".toList

/-- The typedef. -/
def preOf (k : Kind) (i o : Text) : List Line :=
  match Coll.wrapperAlias k with
  | some w => [.typedef (fullType k i o) w.toList]
  | none => []

/-- The throw. -/
def throwOf (k : Kind) (i o : Text) (arg : Option Text) : Line :=
  .throws (decide (k = .simpleFunction ∧ arg.isSome)) (fullType k i o ++ " ".toList) " was not found in the PLibrary".toList

/-- The function read. -/
def funOf (k : Kind) (i o : Text) (arg : Option Text) (names : List Text) : Fun where
  sig := Coll.signature k i o
  body := preOf k i o ++ names.map (fun n => altOf k (Coll.inst arg n)) ++ [throwOf k i o arg]

theorem cls_eq (k : Kind) : k.cls.toList = typeName k := by cases k <;> rfl

theorem typeText_eq (k : Kind) (i o : Text) : typeText k i o = fullType k i o ++ " ".toList := by
  unfold typeText fullType
  rw [cls_eq, show " > ".toList = " >".toList ++ " ".toList by decide]
  simp only [List.append_assoc]

theorem clean_full {i o : Text} (k : Kind) (hi : Clean i) (ho : Clean o) : Clean (fullType k i o) := by
  have h : ∀ c ∈ ['"', '\\', '\n'], c ∉ i → c ∉ o → c ∉ fullType k i o := by
    intro c hc h1 h2
    have a1 : ∀ c ∈ ['"', '\\', '\n'], c ∉ typeName k := by
      cases k <;> decide
    have a2 : ∀ c ∈ ['"', '\\', '\n'], c ∉ "< ".toList ∧ c ∉ ", ".toList ∧ c ∉ " >".toList := by decide
    have b2 := a2 c hc
    unfold fullType
    intro hm
    rcases List.mem_append.mp hm with hm | hm
    · rcases List.mem_append.mp hm with hm | hm
      · rcases List.mem_append.mp hm with hm | hm
        · rcases List.mem_append.mp hm with hm | hm
          · rcases List.mem_append.mp hm with hm | hm
            · exact a1 c hc hm
            · exact b2.1 hm
          · exact h1 hm
        · exact b2.2.1 hm
      · exact h2 hm
    · exact b2.2.2 hm
  exact ⟨h _ (by simp) hi.1 ho.1, h _ (by simp) hi.2.1 ho.2.1, h _ (by simp) hi.2.2 ho.2.2⟩

theorem clean_typeText {i o : Text} (k : Kind) (hi : Clean i) (ho : Clean o) : '"' ∉ typeText k i o ∧ '\\' ∉ typeText k i o := by
  have h := clean_full k hi ho
  rw [typeText_eq]
  simp only [List.mem_append, not_or]
  exact ⟨⟨h.1, by decide⟩, h.2.1, by decide⟩

theorem readLine_throwLine (k : Kind) {i o : Text} (arg : Option Text) (hi : Clean i) (ho : Clean o) :
    readLine (Coll.throwLine k i o arg) =
      some (throwOf k i o arg) := by
  have hc := clean_typeText k hi ho
  have e2 : " > \" + name + \" was not found in the PLibrary\");".toList =
      " > ".toList ++ ('"' :: (" + name + ".toList ++ ('"' :: (" was not found in the PLibrary".toList ++ '"' :: ");".toList)))) := by decide
  unfold throwOf
  rw [← typeText_eq]
  unfold Coll.throwLine
  by_cases h : k = .simpleFunction ∧ arg.isSome = true
  · rw [if_pos h, decide_eq_true h, ← readLine_else_throw _ _ hc (by decide)]
    congr 1
    have e1 : "            else throw std::runtime_error( \"".toList = "            else throw std::runtime_error( ".toList ++ ['"'] := by decide
    rw [e1, e2, typeText]
    simp only [List.append_assoc, List.cons_append, List.nil_append]
  · rw [if_neg h, decide_eq_false h, ← readLine_throw _ _ hc (by decide)]
    congr 1
    have e1 : "            throw std::runtime_error( \"".toList = "            throw std::runtime_error( ".toList ++ ['"'] := by decide
    rw [e1, e2, typeText]
    simp only [List.append_assoc, List.cons_append, List.nil_append]

theorem inst_fst (arg : Option Text) (n : Text) : (Coll.inst arg n).1 = n := by cases arg <;> rfl

theorem readLines_fun (k : Kind) {i o : Text} (arg : Option Text) (names : List Text) (hi : Clean i) (ho : Clean o)
    (hn : ∀ n ∈ names, '"' ∉ n ∧ '\\' ∉ n) :
    readLines (Coll.funLines k i o arg names) = some (funOf k i o arg names).code := by
  unfold Coll.funLines Fun.code funOf
  refine (readLines_append _ _ ([.defines (Coll.signature k i o), .opens] ++ preOf k i o ++ names.map (fun n => altOf k (Coll.inst arg n)))
    [throwOf k i o arg, .closes] ?_ ?_).trans ?_
  · refine readLines_append _ _ _ _ (readLines_append _ _ _ _ rfl ?_) (readLines_map _ _ _ fun n hm => ?_)
    · have key : ∀ w : String, ' ' ∉ w.toList → readLines ["            typedef ".toList ++ k.cls.toList ++ "< ".toList ++ i ++ ", ".toList ++ o ++ " > ".toList ++ w.toList ++ ";".toList] =
          some [.typedef (fullType k i o) w.toList] := by
        intro w hw
        have := readLine_typedef (fullType k i o) w.toList hw
        have e : "            typedef ".toList ++ k.cls.toList ++ "< ".toList ++ i ++ ", ".toList ++ o ++ " > ".toList ++ w.toList ++ ";".toList =
            "            typedef ".toList ++ (fullType k i o ++ ' ' :: w.toList ++ ";".toList) := by
          have h2 := typeText_eq k i o
          have e3 : fullType k i o ++ ' ' :: w.toList ++ ";".toList = fullType k i o ++ " ".toList ++ (w.toList ++ ";".toList) := by
            rw [show " ".toList = [' '] by decide]; simp only [List.append_assoc, List.cons_append, List.nil_append]
          rw [e3, ← h2, typeText]
          simp only [List.append_assoc]
        rw [e]
        simp only [readLines, this, Option.bind_eq_bind, Option.bind_some]
      cases k <;> first | exact key _ (by decide) | rfl
    · refine readLine_altLine k _ ?_
      rw [inst_fst]; exact hn n hm
  · simp only [readLines, readLine_throwLine k arg hi ho, Option.bind_eq_bind, Option.bind_some]
    rfl
  · congr 1; simp

theorem target_eq (k : Kind) : (Coll.altTarget k).toList = paramName k := by cases k <;> rfl

theorem signature_eq (k : Kind) (i o : Text) : Coll.signature k i o = sigOf k i o := by
  unfold Coll.signature sigOf fullType
  have e : ∀ x : String, ("checkout( std::string name, " ++ x ++ "< ").toList = "checkout( std::string name, ".toList ++ (x.toList ++ "< ".toList) := by
    intro x; simp only [String.toList_append, List.append_assoc]
  rw [e, cls_eq]
  have e2 : (" > " ++ k.param ++ ")").toList = " >".toList ++ ((if isWrapper k then " &" else " *&").toList ++ (paramName k ++ (if isBasis k then ", int N)" else ")").toList)) := by
    cases k <;> decide
  rw [e2]
  simp only [List.append_assoc]

/-! ## Calls -/

theorem exec_alts (k : Kind) (i o : Text) (arg : Option Text) (name : Text) (types : List (Text × Text)) (rest : List Line)
    (ht : ∀ w, Coll.wrapperAlias k = some w → types.find? (fun x => x.1 == w.toList) = some (w.toList, fullType k i o))
    (names : List Text) : ∀ b : Bool, exec name types b (names.map (fun n => altOf k (Coll.inst arg n)) ++ rest) =
      if name ∈ names then some (provides k i o (className arg name)) else exec name types (b || !names.isEmpty) rest := by
  induction names with
  | nil => intro b; simp
  | cons n ns ih =>
    intro b
    have ha : assign types (Coll.altTarget k).toList (exprOf k (Coll.inst arg n).2) = some (provides k i o (className arg n)) := by
      have hc : (Coll.inst arg n).2 = className arg n := by cases arg <;> rfl
      unfold exprOf provides
      rw [target_eq, hc]
      cases k <;> simp only [Coll.wrapperAlias, assign, isWrapper, isBasis, argsOf] at ht ⊢ <;>
        first | rfl | (rw [ht _ rfl]; rfl)
    rw [List.map_cons, List.cons_append, altOf, exec, ha]
    simp only [inst_fst]
    by_cases h : name = n
    · subst h; simp
    · rw [if_neg h, ih true]
      simp [h]

theorem call_funOf (k : Kind) (i o : Text) (arg : Option Text) (names : List Text) (hne : names ≠ []) (name : Text) :
    (funOf k i o arg names).call name = some (if name ∈ names then provides k i o (className arg name) else notFound k i o name) := by
  have key : ∀ types, (∀ w, Coll.wrapperAlias k = some w → types.find? (fun x => x.1 == w.toList) = some (w.toList, fullType k i o)) →
      exec name types false (names.map (fun n => altOf k (Coll.inst arg n)) ++
        [throwOf k i o arg]) =
      some (if name ∈ names then provides k i o (className arg name) else notFound k i o name) := by
    intro types ht
    rw [exec_alts k i o arg name types _ ht names false]
    by_cases h : name ∈ names
    · simp only [if_pos h]
    · have : (false || !names.isEmpty) = true := by simp [hne]
      rw [if_neg h, if_neg h, this, throwOf, exec]
      simp [notFound, List.append_assoc]
  unfold Fun.call funOf
  cases hw : Coll.wrapperAlias k with
  | none =>
    have : preOf k i o = [] := by unfold preOf; rw [hw]
    simp only [this, List.nil_append]
    exact key [] (by simp [hw])
  | some w =>
    have : preOf k i o = [.typedef (fullType k i o) w.toList] := by unfold preOf; rw [hw]
    simp only [this, List.cons_append, List.nil_append, exec]
    exact key _ (by rw [hw]; intro v hv; cases hv; simp)

end LwText
end Verif

namespace Verif
open Spec Spec.Cpp
namespace LwText
open Coll

/-! ## Newlines -/

/-- No newline. -/
def NN (t : Text) : Prop := '\n' ∉ t

theorem nn_append {a b : Text} (ha : NN a) (hb : NN b) : NN (a ++ b) := by
  intro h
  rcases List.mem_append.mp h with h | h
  · exact ha h
  · exact hb h

theorem word_clean {n : Text} (h : Word n) : Clean n := by
  refine ⟨?_, ?_, ?_⟩ <;>
  · intro hc
    have := h _ hc
    revert this
    decide

theorem nn_lit (k : Kind) : NN k.cls.toList ∧ NN (altTarget k).toList ∧ NN (altArgs k).toList ∧ NN (k.param).toList ∧
    ∀ w, wrapperAlias k = some w → NN w.toList := by
  unfold NN
  cases k <;> refine ⟨by decide, by decide, by decide, by decide, fun w hw => ?_⟩ <;> cases hw <;> decide

theorem nn_signature (k : Kind) {i o : Text} (hi : NN i) (ho : NN o) : NN (signature k i o) := by
  rw [signature_eq]
  unfold sigOf fullType
  have h1 : NN (typeName k) := by rw [← cls_eq]; exact (nn_lit k).1
  have h2 : NN (paramName k) := by rw [← target_eq]; exact (nn_lit k).2.1
  have l1 : NN "checkout( std::string name, ".toList := by unfold NN; decide
  have l2 : NN "< ".toList := by unfold NN; decide
  have l3 : NN ", ".toList := by unfold NN; decide
  have l4 : NN " >".toList := by unfold NN; decide
  have l5 : NN (if isWrapper k then " &" else " *&").toList := by unfold NN; cases k <;> decide
  have l6 : NN (if isBasis k then ", int N)" else ")").toList := by unfold NN; cases k <;> decide
  exact nn_append (nn_append (nn_append (nn_append l1 (nn_append (nn_append (nn_append (nn_append h1 l2) hi) l3) (nn_append ho l4) |> fun h => by
    simpa only [List.append_assoc] using h)) l5) h2) l6

theorem nn_inst {arg : Option Text} {n : Text} (ha : ∀ v, arg = some v → NN v) (hn : NN n) : NN (inst arg n).2 := by
  cases arg with
  | none => exact hn
  | some v =>
    have l1 : NN "< ".toList := by unfold NN; decide
    have l2 : NN " >".toList := by unfold NN; decide
    exact nn_append (nn_append (nn_append hn l1) (ha v rfl)) l2

theorem nn_funLines (k : Kind) {i o : Text} {arg : Option Text} {names : List Text} (hi : NN i) (ho : NN o)
    (ha : ∀ v, arg = some v → NN v) (hn : ∀ n ∈ names, NN n) : ∀ l ∈ funLines k i o arg names, NN l := by
  intro l hl
  have hc := nn_lit k
  unfold funLines at hl
  simp only [List.mem_append, List.mem_cons, List.not_mem_nil, or_false, List.mem_map] at hl
  rcases hl with (((rfl | rfl) | hl) | ⟨n, hn', rfl⟩) | rfl | rfl
  · exact nn_append (by unfold NN; decide) (nn_signature k hi ho)
  · unfold NN; decide
  · cases hw : wrapperAlias k with
    | none => rw [hw] at hl; cases hl
    | some w =>
      rw [hw] at hl
      simp only [List.mem_cons, List.not_mem_nil, or_false] at hl
      subst hl
      refine nn_append (nn_append (nn_append (nn_append (nn_append (nn_append (nn_append (nn_append ?_ hc.1) ?_) hi) ?_) ho) ?_) (hc.2.2.2.2 w hw)) ?_ <;>
        (unfold NN; decide)
  · have h1 : NN (inst arg n).1 := by rw [inst_fst]; exact hn n hn'
    have h2 := nn_inst ha (hn n hn')
    unfold altLine
    refine nn_append (nn_append (nn_append (nn_append (nn_append (nn_append ?_ h1) ?_) hc.2.1) ?_) ?_) ?_
    · unfold NN; decide
    · unfold NN; decide
    · unfold NN; decide
    · cases hw : wrapperAlias k with
      | none => exact nn_append (nn_append (by unfold NN; decide) h2) hc.2.2.1
      | some w => exact nn_append (nn_append (nn_append (nn_append (hc.2.2.2.2 w hw) (by unfold NN; decide)) h2) hc.2.2.1) (by unfold NN; decide)
    · unfold NN; decide
  · unfold throwLine
    refine nn_append (nn_append (nn_append (nn_append (nn_append (nn_append ?_ hc.1) ?_) hi) ?_) ho) ?_
    · split <;> (unfold NN; decide)
    all_goals (unfold NN; decide)
  · unfold NN; decide

/-! ## Files -/

/-- The lines written for a kind and a pair of types. -/
def linesOf (es : List Entry) (var : List Text) (k : Kind) (t u : Text) : List Text :=
  if (namesOf es k.tab t u).length > 0 then (kindTypes k var t).flatMap fun a => funLines k a.1 u a.2 (k.names es t u) else []

/-- The functions read for a kind and a pair of types. -/
def funsRead (es : List Entry) (var : List Text) (k : Kind) (t u : Text) : List Fun :=
  if (namesOf es k.tab t u).length > 0 then (kindTypes k var t).map fun a => funOf k a.1 u a.2 (k.names es t u) else []

theorem sourceKindLines_rep {c : Coll} {es : List Entry} (h : Rep c es) (hp : PwSub es) (var : List Text) (k : Kind) :
    c.sourceKindLines var k = .ok (c.intype.flatMap fun t => c.outtype.flatMap (linesOf es var k t)) := by
  refine forPairs_list c _ _ fun i j t u hi hj => ?_
  obtain ⟨h1l, h1e⟩ := List.getElem?_eq_some_iff.mp hi
  obtain ⟨h2l, h2e⟩ := List.getElem?_eq_some_iff.mp hj
  simp only [sourceHas_rep h hp k hi hj, ok_bind, vget_nat _ _ h1l, vget_nat _ _ h2l, h1e, h2e, linesOf, sourceNames_rep h k hi hj]
  by_cases h0 : (namesOf es k.tab t u).length > 0 <;> simp only [h0, decide_true, decide_false, if_true, if_false, ok_bind, Bool.false_eq_true]

/-- All functions of a kind, as read. -/
def kindFuns (c : Coll) (es : List Entry) (var : List Text) (k : Kind) : List Fun :=
  c.intype.flatMap fun t => c.outtype.flatMap (funsRead es var k t)

/-- What is needed of the names and types. -/
structure CleanColl (c : Coll) (es : List Entry) (var : List Text) : Prop where
  ins : ∀ t ∈ c.intype, Clean t
  outs : ∀ t ∈ c.outtype, Clean t
  vars : ∀ v ∈ var, Clean v
  names : ∀ e ∈ es, Clean e.name
  files : ∀ f ∈ c.filename, Clean f

theorem CleanColl.name {c : Coll} {es : List Entry} {var : List Text} (h : CleanColl c es var) {k : Kind} {t u n : Text}
    (hn : n ∈ k.names es t u) : Clean n := by
  unfold Kind.names at hn
  rcases List.mem_append.mp hn with hn | hn
  · exact h.names _ (mem_namesOf.mp hn)
  · split at hn
    · exact h.names _ (mem_namesOf.mp hn)
    · cases hn

theorem CleanColl.types {c : Coll} {es : List Entry} {var : List Text} (h : CleanColl c es var) {k : Kind} {t : Text} (ht : t ∈ c.intype)
    {a : Text × Option Text} (ha : a ∈ kindTypes k var t) : Clean a.1 ∧ ∀ v, a.2 = some v → Clean v := by
  have := kindTypes_iff.mp ha
  unfold Instance at this
  split at this
  · refine ⟨h.vars _ this.1, fun v hv => ?_⟩
    rw [this.2] at hv; cases hv; exact h.vars _ this.1
  · rw [this.1]
    refine ⟨h.ins _ ht, fun v hv => ?_⟩
    rw [this.2] at hv; cases hv

theorem readLines_kind {c : Coll} {es : List Entry} {var : List Text} (h : CleanColl c es var) (k : Kind) :
    readLines (c.intype.flatMap fun t => c.outtype.flatMap (linesOf es var k t)) = some ((kindFuns c es var k).flatMap Fun.code) := by
  unfold kindFuns
  rw [List.flatMap_assoc]
  refine readLines_flatMap _ _ _ fun t ht => ?_
  rw [List.flatMap_assoc]
  refine readLines_flatMap _ _ _ fun u hu => ?_
  unfold linesOf funsRead
  split
  · rw [List.flatMap_map]
    refine readLines_flatMap _ _ _ fun a ha => ?_
    exact readLines_fun k a.2 _ (h.types ht ha).1 (h.outs u hu) fun n hn => ⟨(h.name hn).1, (h.name hn).2.1⟩
  · rfl

theorem nn_kind {c : Coll} {es : List Entry} {var : List Text} (h : CleanColl c es var) (k : Kind) :
    ∀ l ∈ (c.intype.flatMap fun t => c.outtype.flatMap (linesOf es var k t)), '\n' ∉ l := by
  intro l hl
  simp only [List.mem_flatMap] at hl
  obtain ⟨t, ht, u, hu, hl⟩ := hl
  unfold linesOf at hl
  split at hl
  · obtain ⟨a, ha, hl⟩ := List.mem_flatMap.mp hl
    have hc := h.types ht ha
    exact nn_funLines k hc.1.2.2 (h.outs u hu).2.2 (fun v hv => (hc.2 v hv).2.2) (fun n hn => (h.name hn).2.2) l hl
  · cases hl

theorem code_fun (k : Kind) (i o : Text) (arg : Option Text) (names : List Text) : code (funOf k i o arg names).code = (funOf k i o arg names).code := by
  unfold code
  rw [List.filter_eq_self]
  intro l hl
  unfold Fun.code funOf preOf throwOf at hl
  simp only [List.mem_append, List.mem_cons, List.not_mem_nil, or_false, List.mem_map] at hl
  rcases hl with ((rfl | rfl) | (hl | ⟨_, _, rfl⟩) | rfl) | rfl <;> try (simp [altOf]; done)
  split at hl
  · simp only [List.mem_cons, List.not_mem_nil, or_false] at hl; subst hl; simp
  · cases hl

theorem stmt_fun (k : Kind) (i o : Text) (arg : Option Text) (names : List Text) : ∀ l ∈ (funOf k i o arg names).body, l.IsStmt := by
  intro l hl
  unfold funOf preOf throwOf at hl
  simp only [List.mem_append, List.mem_cons, List.not_mem_nil, or_false, List.mem_map] at hl
  rcases hl with (hl | ⟨_, _, rfl⟩) | rfl <;> try (simp [altOf, Line.IsStmt]; done)
  split at hl
  · simp only [List.mem_cons, List.not_mem_nil, or_false] at hl; subst hl; simp [Line.IsStmt]
  · cases hl

theorem mem_kindFuns {c : Coll} {es : List Entry} {var : List Text} {k : Kind} {f : Fun} : f ∈ kindFuns c es var k ↔
    ∃ t u a, t ∈ c.intype ∧ u ∈ c.outtype ∧ (namesOf es (Kind.tab k) t u).length > 0 ∧ a ∈ kindTypes k var t ∧
      f = funOf k a.1 u a.2 (k.names es t u) := by
  simp only [kindFuns, List.mem_flatMap]
  constructor
  · rintro ⟨t, ht, u, hu, hf⟩
    unfold funsRead at hf
    split at hf
    · rename_i h0
      obtain ⟨a, ha, rfl⟩ := List.mem_map.mp hf
      exact ⟨t, u, a, ht, hu, h0, ha, rfl⟩
    · cases hf
  · rintro ⟨t, u, a, ht, hu, h0, ha, rfl⟩
    refine ⟨t, ht, u, hu, ?_⟩
    unfold funsRead
    rw [if_pos h0]
    exact List.mem_map.mpr ⟨a, ha, rfl⟩

theorem code_kind (c : Coll) (es : List Entry) (var : List Text) (k : Kind) :
    code ((kindFuns c es var k).flatMap Fun.code) = (kindFuns c es var k).flatMap Fun.code := by
  unfold code
  rw [List.filter_eq_self]
  intro l hl
  obtain ⟨f, hf, hl⟩ := List.mem_flatMap.mp hl
  obtain ⟨t, u, a, _, _, _, _, rfl⟩ := mem_kindFuns.mp hf
  have := code_fun k a.1 u a.2 (k.names es t u)
  unfold code at this
  exact List.filter_eq_self.mp this l hl

theorem kindFuns_sig (c : Coll) (es : List Entry) (var : List Text) (k : Kind) :
    (kindFuns c es var k).map Fun.sig = c.intype.flatMap fun t => c.outtype.flatMap (sigsOf es var k t) := by
  simp only [kindFuns, List.map_flatMap]
  congr 1; funext t; congr 1; funext u
  unfold funsRead sigsOf
  split
  · simp [funOf, Function.comp_def]
  · rfl

theorem readLine_declLine (k : Kind) (i o : Text) : readLine (declLine (signature k i o)) = some (.declares (signature k i o)) := by
  have e : declLine (signature k i o) = "        void checkout".toList ++
      ("( std::string name, ".toList ++ fullType k i o ++ (if isWrapper k then " &" else " *&").toList ++ paramName k ++
    (if isBasis k then ", int N)" else ")").toList ++ ";".toList) := by
    rw [signature_eq]
    unfold declLine sigOf
    rw [show "        void checkout".toList = "        void ".toList ++ "checkout".toList by decide,
      show "checkout( std::string name, ".toList = "checkout".toList ++ "( std::string name, ".toList by decide]
    simp only [List.append_assoc]
  rw [e]
  refine readLine_decl _ _ ?_
  rw [show ∀ a b d : Text, a ++ (b ++ d) = (a ++ b) ++ d from fun a b d => (List.append_assoc a b d).symm, before_append, signature_eq]
  unfold sigOf
  rw [show "checkout( std::string name, ".toList = "checkout".toList ++ "( std::string name, ".toList by decide]
  simp only [List.append_assoc]

/-- The signatures of a kind. -/
def kindSigs (c : Coll) (es : List Entry) (var : List Text) (k : Kind) : List Text :=
  c.intype.flatMap fun t => c.outtype.flatMap (sigsOf es var k t)

theorem mem_kindSigs {c : Coll} {es : List Entry} {var : List Text} {k : Kind} {s : Text} (h : s ∈ kindSigs c es var k) :
    ∃ t u a, t ∈ c.intype ∧ u ∈ c.outtype ∧ a ∈ kindTypes k var t ∧ s = signature k a.1 u := by
  simp only [kindSigs, List.mem_flatMap] at h
  obtain ⟨t, ht, u, hu, h⟩ := h
  obtain ⟨a, ha, e⟩ := mem_sigsOf h
  exact ⟨t, u, a, ht, hu, ha, e⟩

theorem readLines_decls (c : Coll) (es : List Entry) (var : List Text) (k : Kind) :
    readLines ((kindSigs c es var k).map declLine) = some ((kindSigs c es var k).map .declares) := by
  refine readLines_map _ _ _ fun s hs => ?_
  obtain ⟨t, u, a, _, _, _, rfl⟩ := mem_kindSigs hs
  exact readLine_declLine _ _ _

theorem nn_decls {c : Coll} {es : List Entry} {var : List Text} (h : CleanColl c es var) (k : Kind) :
    ∀ l ∈ (kindSigs c es var k).map declLine, '\n' ∉ l := by
  intro l hl
  obtain ⟨s, hs, rfl⟩ := List.mem_map.mp hl
  obtain ⟨t, u, a, ht, hu, ha, rfl⟩ := mem_kindSigs hs
  exact nn_append (nn_append (by unfold NN; decide) (nn_signature k (h.types ht ha).1.2.2 (h.outs u hu).2.2)) (by unfold NN; decide)

theorem code_decls (l : List Text) : code (l.map .declares) = l.map .declares := by
  unfold code
  rw [List.filter_eq_self]
  intro x hx
  obtain ⟨s, _, rfl⟩ := List.mem_map.mp hx
  simp

theorem code_incls (l : List Text) : code (l.map .incl) = l.map .incl := by
  unfold code
  rw [List.filter_eq_self]
  intro x hx
  obtain ⟨s, _, rfl⟩ := List.mem_map.mp hx
  simp

/-- No newlines in the stamp. -/
def StampOk (s : Stamp) : Prop := '\n' ∉ s.created ∧ '\n' ∉ s.version ∧ '\n' ∉ s.url ∧ '\n' ∉ s.commit

theorem readLines_stamp (s : Stamp) : readLines s.lines = some [.comment, .comment, .comment, .comment, .blank] := rfl

theorem nn_stamp {s : Stamp} (h : StampOk s) : ∀ l ∈ s.lines, '\n' ∉ l := by
  intro l hl
  simp only [Stamp.lines, List.mem_cons, List.not_mem_nil, or_false] at hl
  rcases hl with rfl | rfl | rfl | rfl | rfl
  · exact nn_append (by unfold NN; decide) h.1
  · exact nn_append (by unfold NN; decide) h.2.1
  · exact nn_append (by unfold NN; decide) h.2.2.1
  · exact nn_append (by unfold NN; decide) h.2.2.2
  · simp

theorem nnl_append {a b : List Text} (ha : ∀ l ∈ a, '\n' ∉ l) (hb : ∀ l ∈ b, '\n' ∉ l) : ∀ l ∈ a ++ b, '\n' ∉ l := by
  intro l hl
  rcases List.mem_append.mp hl with h | h
  · exact ha l h
  · exact hb l h

end LwText
end Verif
