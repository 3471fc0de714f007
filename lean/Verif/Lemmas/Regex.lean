import Verif.Model.Library
import Verif.Lemmas.Core
import Mathlib.Tactic.ByContra

/-! Helper lemmas about the regular expression. -/

namespace Verif
open Spec

/-- The texts match the items. -/
def Matches : List Item → List Text → Prop
  | [], [] => True
  | .one p :: r, w :: ws => (∃ c, w = [c] ∧ p c = true) ∧ Matches r ws
  | .star p :: r, w :: ws => (∀ c ∈ w, p c = true) ∧ Matches r ws
  | _, _ => False

theorem Matches.length : ∀ {r : List Item} {ws : List Text}, Matches r ws → ws.length = r.length
  | [], [], _ => rfl
  | .one _ :: _, _ :: _, h => by simp [Matches.length h.2]
  | .star _ :: _, _ :: _, h => by simp [Matches.length h.2]
  | [], _ :: _, h => h.elim
  | .one _ :: _, [], h => h.elim
  | .star _ :: _, [], h => h.elim

theorem starLoop_sound {p : Char → Bool} {k : Text → Option (List Text)} : ∀ {s : Text} {m : List Text}, starLoop p k s = some m →
    ∃ w r mr, m = w :: mr ∧ s = w ++ r ∧ (∀ c ∈ w, p c = true) ∧ k r = some mr ∧
      ∀ v r', s = v ++ r' → (∀ c ∈ v, p c = true) → v.length > w.length → k r' = none
  | [], m, h => by
    simp only [starLoop, Option.map_eq_some_iff] at h
    obtain ⟨mr, h, rfl⟩ := h
    refine ⟨[], [], mr, rfl, rfl, by simp, h, ?_⟩
    intro v r' hv _ hl
    have := congrArg List.length hv
    simp at this; simp at hl; omega
  | c :: s, m, h => by
    simp only [starLoop] at h
    by_cases hc : p c = true
    · simp only [hc, if_true] at h
      cases hs : starLoop p k s with
      | none =>
        simp only [hs, Option.map_eq_some_iff] at h
        obtain ⟨mr, h, rfl⟩ := h
        refine ⟨[], c :: s, mr, rfl, rfl, by simp, h, ?_⟩
        intro v r' hv hp hl
        rcases v with _ | ⟨d, v⟩
        · simp at hl
        · simp only [List.cons_append, List.cons.injEq] at hv
          obtain ⟨rfl, hv⟩ := hv
          by_contra hk
          obtain ⟨mr', hk⟩ := Option.ne_none_iff_exists'.mp hk
          have : ∀ (v r' : Text) (mr' : List Text) (s : Text), s = v ++ r' → (∀ c ∈ v, p c = true) → k r' = some mr' → starLoop p k s ≠ none := by
            intro v r' mr' s hs hv hk
            induction v generalizing s with
            | nil =>
              rw [List.nil_append] at hs; subst hs
              cases s with
              | nil => simp [starLoop, hk]
              | cons a s =>
                simp only [starLoop]
                split
                · split <;> simp [hk]
                · simp [hk]
            | cons a v ih =>
              subst hs
              have h1 := ih _ rfl fun c hc => hv c (by simp [hc])
              simp only [List.cons_append, starLoop, hv a (by simp), if_true]
              split
              · simp
              · rename_i h0
                obtain ⟨m', hm'⟩ := Option.ne_none_iff_exists'.mp h1
                cases m' with
                | cons x y => exact absurd hm' (h0 x y)
                | nil =>
                  exfalso
                  revert hm'
                  generalize v ++ r' = z
                  cases z with
                  | nil => simp [starLoop]
                  | cons z1 z2 =>
                    simp only [starLoop]
                    split
                    · split <;> simp
                    · simp
          exact this v r' mr' s hv (fun c hc => hp c (by simp [hc])) hk hs
      | some m' =>
        obtain ⟨w, r, mr, rfl, rfl, hw, hk, hmax⟩ := starLoop_sound hs
        simp only [hs, Option.some.injEq] at h
        subst h
        refine ⟨c :: w, r, mr, rfl, rfl, ?_, hk, ?_⟩
        · intro d hd
          rcases List.mem_cons.mp hd with rfl | hd
          · exact hc
          · exact hw d hd
        · intro v r' hv hp hl
          rcases v with _ | ⟨d, v⟩
          · simp at hl
          · simp only [List.cons_append, List.cons.injEq] at hv
            exact hmax v r' hv.2 (fun c hc => hp c (by simp [hc])) (by simpa using hl)
    · simp only [hc, Bool.false_eq_true, if_false, Option.map_eq_some_iff] at h
      obtain ⟨mr, h, rfl⟩ := h
      refine ⟨[], c :: s, mr, rfl, rfl, by simp, h, ?_⟩
      intro v r' hv hp hl
      rcases v with _ | ⟨d, v⟩
      · simp at hl
      · simp only [List.cons_append, List.cons.injEq] at hv
        exact absurd (hp d (by simp)) (by rw [← hv.1]; exact hc)

theorem starLoop_complete {p : Char → Bool} {k : Text → Option (List Text)} {r : Text} (hk : k r ≠ none) : ∀ {w : Text},
    (∀ c ∈ w, p c = true) → ∃ v mr, starLoop p k (w ++ r) = some (v :: mr)
  | [], _ => by
    obtain ⟨mr, hk⟩ := Option.ne_none_iff_exists'.mp hk
    cases r with
    | nil => exact ⟨[], mr, by simp [starLoop, hk]⟩
    | cons a s =>
      simp only [List.nil_append, starLoop]
      split
      · split
        · exact ⟨_, _, rfl⟩
        · exact ⟨[], mr, by simp [hk]⟩
      · exact ⟨[], mr, by simp [hk]⟩
  | c :: w, hw => by
    obtain ⟨v, mr, h⟩ := starLoop_complete hk (w := w) fun c hc => hw c (by simp [hc])
    exact ⟨c :: v, mr, by simp [starLoop, hw c (by simp), h]⟩

/-- The longest possible repetition is taken. -/
theorem starLoop_eq {p : Char → Bool} {k : Text → Option (List Text)} {w r : Text} {mr : List Text} (hw : ∀ c ∈ w, p c = true)
    (hk : k r = some mr) (hmax : ∀ v r', r = v ++ r' → v ≠ [] → (∀ c ∈ v, p c = true) → k r' = none) :
    starLoop p k (w ++ r) = some (w :: mr) := by
  obtain ⟨v, mr', h⟩ := starLoop_complete (k := k) (r := r) (by rw [hk]; simp) hw
  obtain ⟨w', r', mr'', h1, h2, h3, h4, h5⟩ := starLoop_sound h
  cases h1
  have hl : w.length = v.length := by
    rcases Nat.lt_trichotomy w.length v.length with hlt | he | hgt
    · exfalso
      have hpre : ∃ x, v = w ++ x ∧ r = x ++ r' := by
        rcases List.append_eq_append_iff.mp h2 with ⟨x, e1, e2⟩ | ⟨x, e1, e2⟩
        · exact ⟨x, e1, e2⟩
        · exfalso
          have := congrArg List.length e1
          simp at this; omega
      obtain ⟨x, rfl, e⟩ := hpre
      have := hmax x r' e (by rintro rfl; simp at hlt) fun c hc => h3 c (by simp [hc])
      rw [this] at h4; cases h4
    · exact he
    · exfalso
      have := h5 w r rfl hw hgt
      rw [hk] at this; cases this
  obtain ⟨rfl, rfl⟩ := List.append_inj h2 hl
  rw [hk] at h4; cases h4
  exact h

theorem match_append_sound (R : List Item) : ∀ {A : List Item} {s : Text} {m : List Text}, matchItems (A ++ R) s = some m →
    ∃ mA mR s', m = mA ++ mR ∧ Matches A mA ∧ s = mA.flatten ++ s' ∧ matchItems R s' = some mR
  | [], s, m, h => ⟨[], m, s, rfl, trivial, rfl, h⟩
  | .one p :: A, s, m, h => by
    cases s with
    | nil => simp [matchItems] at h
    | cons c s =>
      simp only [List.cons_append, matchItems] at h
      split at h
      · rename_i hc
        simp only [Option.map_eq_some_iff] at h
        obtain ⟨m', h, rfl⟩ := h
        obtain ⟨mA, mR, s', rfl, h1, rfl, h2⟩ := match_append_sound R h
        exact ⟨[c] :: mA, mR, s', rfl, ⟨⟨c, rfl, hc⟩, h1⟩, by simp, h2⟩
      · cases h
  | .star p :: A, s, m, h => by
    simp only [List.cons_append, matchItems] at h
    obtain ⟨w, r, mr, rfl, rfl, hw, hk, _⟩ := starLoop_sound h
    obtain ⟨mA, mR, s', rfl, h1, rfl, h2⟩ := match_append_sound R hk
    exact ⟨w :: mA, mR, s', rfl, ⟨hw, h1⟩, by simp, h2⟩

theorem match_complete (r : Text) : ∀ {A : List Item} {mA : List Text}, Matches A mA → matchItems A (mA.flatten ++ r) ≠ none
  | [], [], _ => by simp [matchItems]
  | .one p :: A, _ :: ws, h => by
    obtain ⟨⟨c, rfl, hc⟩, h⟩ := h
    have := match_complete r h
    simp only [List.flatten_cons, List.singleton_append, List.cons_append, matchItems, hc, if_true]
    simpa using this
  | .star p :: A, w :: ws, h => by
    have := match_complete r h.2
    obtain ⟨v, mr, e⟩ := starLoop_complete (k := matchItems A) this h.1
    simp only [List.flatten_cons, List.append_assoc, matchItems]
    rw [e]; simp
  | [], _ :: _, h => h.elim
  | .one _ :: _, [], h => h.elim
  | .star _ :: _, [], h => h.elim

theorem matches_append : ∀ {A B : List Item} {ma mb : List Text}, Matches A ma → Matches B mb → Matches (A ++ B) (ma ++ mb)
  | [], _, [], _, _, h => h
  | .one _ :: _, _, _ :: _, _, h, h' => ⟨h.1, matches_append h.2 h'⟩
  | .star _ :: _, _, _ :: _, _, h, h' => ⟨h.1, matches_append h.2 h'⟩
  | [], _, _ :: _, _, h, _ => h.elim
  | .one _ :: _, _, [], _, h, _ => h.elim
  | .star _ :: _, _, [], _, h, _ => h.elim

/-- Texts of a literal. -/
def litMatch (t : String) : List Text := t.toList.map fun c => [c]

theorem litMatch_flatten (t : String) : (litMatch t).flatten = t.toList := by
  unfold litMatch
  induction t.toList with
  | nil => rfl
  | cons c l ih => simp [ih]

theorem matches_lits (g : Nat) (t : String) (ws : List Text) : Matches ((lits g t).map Prod.snd) ws ↔ ws = litMatch t := by
  unfold lits litMatch
  induction t.toList generalizing ws with
  | nil => cases ws <;> simp [Matches]
  | cons c l ih =>
    cases ws with
    | nil => simp [Matches]
    | cons w ws =>
      simp only [List.map_cons, Matches, ih, beq_iff_eq, List.cons.injEq]
      constructor
      · rintro ⟨⟨d, rfl, rfl⟩, rfl⟩; exact ⟨rfl, rfl⟩
      · rintro ⟨rfl, rfl⟩; exact ⟨⟨c, rfl, rfl⟩, rfl⟩

/-- A literal. -/
theorem match_lits (g : Nat) (t : String) {R : List Item} {s : Text} {m : List Text} (h : matchItems R s = some m) :
    matchItems ((lits g t).map Prod.snd ++ R) (t.toList ++ s) = some (litMatch t ++ m) := by
  unfold lits litMatch
  induction t.toList with
  | nil => simpa using h
  | cons c l ih =>
    simp only [List.map_cons, List.cons_append, matchItems, beq_self_eq_true, if_true]
    rw [ih]; rfl

/-- A repetition that the next character ends. -/
theorem match_star {p : Char → Bool} {w s : Text} {R : List Item} {m : List Text} (hw : ∀ c ∈ w, p c = true)
    (hs : ∀ c r, s = c :: r → p c = false) (h : matchItems R s = some m) : matchItems (.star p :: R) (w ++ s) = some (w :: m) := by
  refine starLoop_eq hw h fun v r' hv hne hp => ?_
  rcases v with _ | ⟨c, v⟩
  · exact absurd rfl hne
  · have := hs c (v ++ r') (by simpa using hv)
    rw [hp c (by simp)] at this; cases this

/-- `\s+` -/
theorem match_plus {p : Char → Bool} {w s : Text} {R : List Item} {m : List Text} (hw : ∀ c ∈ w, p c = true) (hne : w ≠ [])
    (hs : ∀ c r, s = c :: r → p c = false) (h : matchItems R s = some m) :
    ∃ c v, w = c :: v ∧ matchItems (.one p :: .star p :: R) (w ++ s) = some ([c] :: v :: m) := by
  rcases w with _ | ⟨c, v⟩
  · exact absurd rfl hne
  · refine ⟨c, v, rfl, ?_⟩
    have := match_star (w := v) (fun c hc => hw c (by simp [hc])) hs h
    simp [matchItems, hw c (by simp)]
    exact this

theorem search_sound (items : List Item) : ∀ {s : Text} {m : List Text}, search items s = some m →
    ∃ pre suf, s = pre ++ suf ∧ matchItems items suf = some m
  | [], m, h => ⟨[], [], rfl, h⟩
  | c :: s, m, h => by
    simp only [search] at h
    split at h
    · rename_i m' hm
      cases h
      exact ⟨[], c :: s, rfl, hm⟩
    · obtain ⟨pre, suf, e, h'⟩ := search_sound items h
      exact ⟨c :: pre, suf, by rw [e]; rfl, h'⟩

theorem search_eq (items : List Item) {suf : Text} {m : List Text} (h : matchItems items suf = some m) : ∀ {pre : Text},
    (∀ a b, pre = a ++ b → b ≠ [] → matchItems items (b ++ suf) = none) → search items (pre ++ suf) = some m
  | [], _ => by
    cases suf with
    | nil => exact h
    | cons c s => simp [search, h]
  | c :: pre, hn => by
    have h0 := hn [] (c :: pre) rfl (by simp)
    simp only [List.cons_append] at h0 ⊢
    simp only [search, h0]
    exact search_eq items h fun a b e hb => hn (c :: a) b (by rw [e]; rfl) hb

theorem search_none (items : List Item) {s : Text} (h : ∀ a b, s = a ++ b → matchItems items b = none) : search items s = none := by
  cases hs : search items s with
  | none => rfl
  | some m =>
    obtain ⟨pre, suf, e, hm⟩ := search_sound items hs
    rw [h pre suf e] at hm; cases hm

/-! ## Groups -/

theorem groupOf_append {p1 p2 : List (Nat × Item)} {m1 m2 : List Text} (h : m1.length = p1.length) (g : Nat) :
    groupOf (p1 ++ p2) (m1 ++ m2) g = groupOf p1 m1 g ++ groupOf p2 m2 g := by
  simp [groupOf, List.zip_append h.symm, List.filterMap_append]

theorem groupOf_same {g : Nat} : ∀ {p : List (Nat × Item)} {m : List Text}, (∀ x ∈ p, x.1 = g) → m.length = p.length →
    groupOf p m g = m.flatten
  | [], [], _, _ => rfl
  | x :: p, w :: m, h, hl => by
    have := groupOf_same (p := p) (m := m) (fun y hy => h y (by simp [hy])) (by simpa using hl)
    have hx := h x (by simp)
    obtain ⟨a, it⟩ := x
    simp only at hx; subst hx
    simp only [groupOf] at this ⊢
    simp [this]
  | [], _ :: _, _, hl => by simp at hl
  | _ :: _, [], _, hl => by simp at hl

theorem groupOf_other {g h : Nat} (hgh : h ≠ g) : ∀ {p : List (Nat × Item)} {m : List Text}, (∀ x ∈ p, x.1 = h) → groupOf p m g = []
  | [], _, _ => rfl
  | x :: p, [], _ => by simp [groupOf]
  | x :: p, w :: m, hx => by
    have := groupOf_other hgh (p := p) (m := m) fun y hy => hx y (by simp [hy])
    have hx := hx x (by simp)
    obtain ⟨a, it⟩ := x
    simp only at hx; subst hx
    simp only [groupOf] at this ⊢
    simp only [List.zip_cons_cons, List.filterMap_cons, hgh, if_false]
    exact this

/-! ## The pattern in parts -/

/-- `(class\s+)` -/
def part1 : List (Nat × Item) := lits 1 "class" ++ sp1 1
/-- `(\s*:\s*public\s+ BASE \s*<\s*)` -/
def part3 (b : Base) : List (Nat × Item) :=
  sp0 3 ++ lits 3 ":" ++ sp0 3 ++ lits 3 "public" ++ sp1 3 ++ lits 3 (baseName b) ++ sp0 3 ++ lits 3 "<" ++ sp0 3
/-- `(\s*,\s*)` -/
def part5 : List (Nat × Item) := sp0 5 ++ lits 5 "," ++ sp0 5
/-- `(\s*>)` -/
def part7 : List (Nat × Item) := sp0 7 ++ lits 7 ">"

theorem pattern_parts (b : Base) : pattern b =
    part1 ++ ([(2, .star isWord)] ++ (part3 b ++ ([(4, .star fun _ => true)] ++ (part5 ++ ([(6, .star fun _ => true)] ++ part7))))) := by
  simp [pattern, part1, part3, part5, part7]

theorem lab_lits (g : Nat) (t : String) : ∀ x ∈ lits g t, x.1 = g := by
  intro x hx; simp [lits] at hx; obtain ⟨c, _, rfl⟩ := hx; rfl

theorem lab1 : ∀ x ∈ part1, x.1 = 1 := by
  intro x hx
  simp only [part1, List.mem_append, sp1, List.mem_cons, List.not_mem_nil, or_false] at hx
  rcases hx with hx | rfl | rfl
  · exact lab_lits _ _ _ hx
  all_goals rfl

theorem lab3 (b : Base) : ∀ x ∈ part3 b, x.1 = 3 := by
  intro x hx
  simp only [part3, List.mem_append, sp1, sp0, List.mem_cons, List.not_mem_nil, or_false] at hx
  rcases hx with (((((((rfl | hx) | rfl) | hx) | (rfl | rfl)) | hx) | rfl) | hx) | rfl
  all_goals first | rfl | exact lab_lits _ _ _ hx

theorem lab5 : ∀ x ∈ part5, x.1 = 5 := by
  intro x hx
  simp only [part5, List.mem_append, sp0, List.mem_cons, List.not_mem_nil, or_false] at hx
  rcases hx with (rfl | hx) | rfl
  all_goals first | rfl | exact lab_lits _ _ _ hx

theorem lab7 : ∀ x ∈ part7, x.1 = 7 := by
  intro x hx
  simp only [part7, List.mem_append, sp0, List.mem_cons, List.not_mem_nil, or_false] at hx
  rcases hx with rfl | hx
  all_goals first | rfl | exact lab_lits _ _ _ hx

/-- The groups of a match given in parts. -/
theorem groups (b : Base) {m1 m3 m5 m7 : List Text} {w2 w4 w6 : Text} (h1 : m1.length = part1.length) (h3 : m3.length = (part3 b).length)
    (h5 : m5.length = part5.length) :
    let m := m1 ++ ([w2] ++ (m3 ++ ([w4] ++ (m5 ++ ([w6] ++ m7)))))
    groupOf (pattern b) m 2 = w2 ∧ groupOf (pattern b) m 4 = w4 ∧ groupOf (pattern b) m 6 = w6 := by
  have s : ∀ (g : Nat) (p : Char → Bool) (w : Text), groupOf [(g, .star p)] [w] g = w := by intro g p w; simp [groupOf]
  have o : ∀ (g h : Nat) (p : Char → Bool) (w : Text), h ≠ g → groupOf [(h, .star p)] [w] g = [] := by
    intro g h p w hgh; simp [groupOf, hgh]
  intro m
  refine ⟨?_, ?_, ?_⟩
  all_goals
    simp only [m, pattern_parts]
    rw [groupOf_append h1, groupOf_append (by rfl), groupOf_append h3, groupOf_append (by rfl), groupOf_append h5, groupOf_append (by rfl)]
    rw [groupOf_other (by decide) lab1, groupOf_other (by decide) (lab3 b), groupOf_other (by decide) lab5, groupOf_other (by decide) lab7]
    simp [s, o]

end Verif
