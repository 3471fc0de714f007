import Verif.Model.Coordinate
import Verif.Lemmas.Core
import Verif.Lemmas.Stream
import Verif.Lemmas.DemoVtk

/-!
# Coordinates (C91)
-/

namespace Verif
open Spec IStream
variable {K : Type}

/-- The value assigned last to component `i`. -/
def lastWrite (ws : List (Int × K)) (i : Int) : Option K := (ws.reverse.find? fun w => w.1 = i).map Prod.snd

/-- **C91** (storage) A coordinate of dimension `d` has size `d`, and after any assignments within the dimension component `i` is the value
assigned to it last; reading a component that was never assigned is undefined, as is any component out of the dimension. -/
theorem C91_components (d : Nat) (ws : List (Int × K)) (hw : ∀ w ∈ ws, 0 ≤ w.1 ∧ w.1 < d) :
    ∃ c, Coord.assign ws (Coord.fresh d) = .ok c ∧ c.size = d ∧
      (∀ i : Int, 0 ≤ i → i < d → c.get i = match lastWrite ws i with | some x => .ok x | none => .error (.ub .uninit)) ∧
      ∀ i : Int, i < 0 ∨ d ≤ i → c.get i = .error (.ub .oob) ∧ ∀ x, c.set i x = .error (.ub .oob) := by
  have key : ∀ (ws : List (Int × K)) (c : Coord K), c.val.length = d → (∀ w ∈ ws, 0 ≤ w.1 ∧ w.1 < d) →
      ∃ c', Coord.assign ws c = .ok c' ∧ c'.val.length = d ∧
        ∀ i : Nat, i < d → c'.val[i]? = some ((lastWrite ws i).or ((c.val[i]?).join)) := by
    intro ws
    induction ws with
    | nil =>
      intro c hc _
      refine ⟨c, rfl, hc, fun i hi => ?_⟩
      rw [List.getElem?_eq_getElem (by omega)]
      simp [lastWrite]
    | cons w ws ih =>
      intro c hc hw
      obtain ⟨h1, h2⟩ := hw w (by simp)
      have hs : c.set w.1 w.2 = .ok ⟨c.val.set w.1.toNat (some w.2)⟩ := by
        rw [Coord.set, vset, if_pos ⟨h1, by omega⟩]; rfl
      obtain ⟨c', e1, e2, e3⟩ := ih ⟨c.val.set w.1.toNat (some w.2)⟩ (by simp [hc]) fun x hx => hw x (by simp [hx])
      refine ⟨c', by simp only [Coord.assign, hs, ok_bind, e1], e2, fun i hi => ?_⟩
      rw [e3 i hi]
      congr 1
      simp only [lastWrite, List.reverse_cons, List.find?_append]
      cases hf : ws.reverse.find? (fun w => decide (w.1 = (i : Int))) with
      | some y => simp
      | none =>
        simp only [Option.map_none, Option.none_or]
        by_cases hwi : w.1 = (i : Int)
        · have : w.1.toNat = i := by omega
          simp [hwi, this, hc, hi]
        · have : w.1.toNat ≠ i := by omega
          simp [hwi, List.getElem?_set, this]
  obtain ⟨c, e1, e2, e3⟩ := key ws (Coord.fresh d) (by simp [Coord.fresh]) hw
  refine ⟨c, e1, by simp [Coord.size, e2], ?_, ?_⟩
  · intro i h0 h1
    have := e3 i.toNat (by omega)
    have hi : ((i.toNat : Nat) : Int) = i := Int.toNat_of_nonneg h0
    rw [hi] at this
    have hfr : ((Coord.fresh (K := K) d).val[i.toNat]?).join = none := by
      simp [Coord.fresh, List.getElem?_replicate]
      split <;> rfl
    rw [hfr, Option.or_none] at this
    rw [Coord.get, vget, if_pos h0, this]
    simp only [ok_bind]
    cases lastWrite ws i <;> rfl
  · intro i hi
    have hget : vget c.val i = .error (.ub .oob) := by
      rw [vget]
      split
      · rw [List.getElem?_eq_none (by omega)]
      · rfl
    have hset : ∀ x, vset c.val i x = .error (.ub .oob) := by
      intro x
      rw [vset, if_neg (by omega)]
    refine ⟨by rw [Coord.get, hget]; rfl, fun x => by rw [Coord.set, hset]; rfl⟩

/-- **C91** (printing) `operator<<` on a coordinate whose components were all assigned writes them in order, separated by single blanks, with
nothing before and nothing behind; if numbers are written so that they can be read back, extracting as many numbers from the text (followed
by a line end) gives the components again. -/
theorem C91_print (fmt : K → List Char) (xs : List K) :
    Coord.print fmt ⟨xs.map some⟩ = .ok (List.intercalate [' '] (xs.map fmt)) ∧
    ∀ (scan : List Char → Option K × List Char) (zero : K), (∀ x ∈ xs, Denotes scan (fmt x) x) → ∀ old : List K, old.length = xs.length →
      ∀ text, Coord.print fmt ⟨xs.map some⟩ = .ok text → ∀ rest,
      readNums scan zero old (ofText (text ++ '\n' :: rest)) = (ofText ('\n' :: rest), xs) := by
  have hget : ∀ i : Nat, (h : i < xs.length) → Coord.get ⟨xs.map some⟩ (i : Int) = .ok xs[i] := by
    intro i h
    rw [Coord.get, vget_nat _ _ (by simpa using h)]
    simp [bind, Except.bind]
  have loop : ∀ (n i : Nat) (out : List Char), i + n = xs.length →
      Coord.printLoop fmt ⟨xs.map some⟩ n i out = .ok (out ++ List.intercalate [' '] ((xs.drop i).map fmt)) := by
    intro n
    induction n with
    | zero => intro i out h; simp [Coord.printLoop, List.drop_of_length_le (by omega : xs.length ≤ i)]
    | succ n ih =>
      intro i out h
      have hi : i < xs.length := by omega
      simp only [Coord.printLoop, hget i hi, ok_bind]
      rw [ih (i + 1) _ (by omega), List.drop_eq_getElem_cons hi]
      have hsz : Coord.size (K := K) ⟨xs.map some⟩ = xs.length := by simp [Coord.size]
      rw [hsz]
      cases n with
      | zero =>
        rw [if_neg (by omega), List.drop_of_length_le (by omega : xs.length ≤ i + 1)]
        simp
      | succ n =>
        rw [if_pos (by omega), List.drop_eq_getElem_cons (show i + 1 < xs.length by omega)]
        generalize xs[i] = a
        generalize xs[i + 1] = b
        generalize List.drop (i + 1 + 1) xs = r
        simp [List.intercalate, List.intersperse]
  have hp : Coord.print fmt ⟨xs.map some⟩ = .ok (List.intercalate [' '] (xs.map fmt)) := by
    have := loop xs.length 0 [] (by omega)
    simpa [Coord.print, Coord.size] using this
  refine ⟨hp, fun scan zero hden old hold text ht rest => ?_⟩
  rw [hp] at ht; cases ht
  have key : ∀ (ys : List K) (y : K), (∀ x ∈ y :: ys, Denotes scan (fmt x) x) → ∀ (old : List K) (pre : List Char), (∀ c ∈ pre, Blank c) →
      old.length = ys.length + 1 →
      readNums scan zero old (ofText (pre ++ (List.intercalate [' '] ((y :: ys).map fmt) ++ '\n' :: rest))) =
        (ofText ('\n' :: rest), y :: ys) := by
    intro ys
    induction ys with
    | nil =>
      intro y hy old pre hpre hlen
      cases old with
      | nil => simp at hlen
      | cons o old =>
        have : old = [] := by simpa using hlen
        subst this
        have := extract_token scan zero (some o) pre (fmt y) ('\n' :: rest) y hpre (startsBlank_newline rest) (hy y (by simp))
        simp only [readNums, List.map_cons, List.map_nil]
        simp only [List.append_assoc] at this
        rw [show List.intercalate [' '] [fmt y] = fmt y by simp [List.intercalate, List.intersperse], this]
        rfl
    | cons z ys ih =>
      intro y hy old pre hpre hlen
      cases old with
      | nil => simp at hlen
      | cons o old =>
        have e := extract_token scan zero (some o) pre (fmt y) (' ' :: (List.intercalate [' '] ((z :: ys).map fmt) ++ '\n' :: rest)) y hpre
          (startsBlank_space _) (hy y (by simp))
        have e2 := ih z (fun x hx => hy x (by simp [hx])) old [' '] (by simp [Blank]) (by simpa using hlen)
        have e0 : pre ++ (List.intercalate [' '] ((y :: z :: ys).map fmt) ++ '\n' :: rest) =
            pre ++ fmt y ++ ' ' :: (List.intercalate [' '] ((z :: ys).map fmt) ++ '\n' :: rest) := by
          simp [List.intercalate, List.intersperse, List.append_assoc]
        rw [e0]
        simp only [readNums, e]
        simp only [List.singleton_append] at e2
        simp only [e2, Option.getD_some]
  cases xs with
  | nil =>
    have : old = [] := by simpa using hold
    subst this
    rfl
  | cons x xs => exact key xs x hden old [] (by simp) (by simpa using hold)

/-- Three assignments, one component twice. -/
example : ∃ c, Coord.assign [(0, (1 : ℚ)), (1, 5), (0, 2)] (Coord.fresh 2) = .ok c ∧ c.get 0 = .ok 2 ∧ c.get 1 = .ok 5 := by
  obtain ⟨c, h1, _, h3, _⟩ := C91_components 2 [(0, (1 : ℚ)), (1, 5), (0, 2)] (by decide +kernel)
  exact ⟨c, h1, h3 0 (by decide) (by decide), h3 1 (by decide) (by decide)⟩

/-- The point `(7, 0, 12)` is written and read back. -/
example : Coord.print (fun n : ℚ => dec n.num.toNat) ⟨[some 7, some 0, some 12]⟩ = .ok "7 0 12".toList ∧
    ∀ rest, readNums Demo.scanDec 0 [0, 0, 0] (ofText ("7 0 12".toList ++ '\n' :: rest)) = (ofText ('\n' :: rest), [7, 0, 12]) := by
  obtain ⟨h1, h2⟩ := C91_print (fun n : ℚ => dec n.num.toNat) [7, 0, 12]
  have e : Coord.print (fun n : ℚ => dec n.num.toNat) ⟨[some 7, some 0, some 12]⟩ = .ok "7 0 12".toList := by decide +kernel
  refine ⟨e, h2 Demo.scanDec 0 ?_ [0, 0, 0] rfl _ e⟩
  intro x hx
  simp only [List.mem_cons, List.not_mem_nil, or_false] at hx
  rcases hx with rfl | rfl | rfl
  · exact_mod_cast Demo.denotes_scanDec 7
  · exact_mod_cast Demo.denotes_scanDec 0
  · exact_mod_cast Demo.denotes_scanDec 12

end Verif
