import Verif.Lemmas.Regex
import Mathlib.Data.List.Basic

/-! Helper lemmas: the lines the regular expression recognises. -/

namespace Verif
open Spec

theorem matches_split : ∀ {A B : List Item} {m : List Text}, Matches (A ++ B) m → ∃ ma mb, m = ma ++ mb ∧ Matches A ma ∧ Matches B mb
  | [], _, m, h => ⟨[], m, rfl, trivial, h⟩
  | .one _ :: _, _, w :: m, h => by
    obtain ⟨ma, mb, rfl, h1, h2⟩ := matches_split h.2
    exact ⟨w :: ma, mb, rfl, ⟨h.1, h1⟩, h2⟩
  | .star _ :: _, _, w :: m, h => by
    obtain ⟨ma, mb, rfl, h1, h2⟩ := matches_split h.2
    exact ⟨w :: ma, mb, rfl, ⟨h.1, h1⟩, h2⟩
  | .one _ :: _, _, [], h => h.elim
  | .star _ :: _, _, [], h => h.elim

theorem space_iff (c : Char) : isSpace c = true ↔ c ∈ [' ', '\n', '\t', '\r', '\x0b', '\x0c'] := by
  simp [isSpace, or_assoc]

theorem blanks_iff (t : Text) : Blanks t ↔ ∀ c ∈ t, isSpace c = true := by
  simp only [Blanks, space_iff]

theorem word_iff (t : Text) : Word t ↔ ∀ c ∈ t, isWord c = true := by
  simp [Word, isWord]

theorem baseName_eq (b : Base) : baseName b = b.cpp := by cases b <;> rfl

theorem matches_star1 {p : Char → Bool} {m : List Text} (h : Matches [.star p] m) : ∃ w, m = [w] ∧ ∀ c ∈ w, p c = true := by
  match m, h with
  | [w], h => exact ⟨w, rfl, h.1⟩

theorem matches_plus {p : Char → Bool} {m : List Text} (h : Matches [.one p, .star p] m) :
    ∃ c v, m = [[c], v] ∧ ∀ d ∈ c :: v, p d = true := by
  match m, h with
  | [_, v], ⟨⟨c, rfl, hc⟩, h, _⟩ =>
    refine ⟨c, v, rfl, fun d hd => ?_⟩
    rcases List.mem_cons.mp hd with rfl | hd
    · exact hc
    · exact h d hd

theorem part1_sound {m : List Text} (h : Matches (part1.map Prod.snd) m) :
    ∃ s1, Blanks s1 ∧ s1 ≠ [] ∧ m.flatten = "class".toList ++ s1 := by
  rw [part1, List.map_append] at h
  obtain ⟨ma, mb, rfl, h1, h2⟩ := matches_split h
  rw [matches_lits] at h1
  obtain ⟨c, v, rfl, hv⟩ := matches_plus h2
  refine ⟨c :: v, (blanks_iff _).mpr hv, by simp, ?_⟩
  rw [h1, List.flatten_append, litMatch_flatten]; simp

theorem part3_sound {b : Base} {m : List Text} (h : Matches ((part3 b).map Prod.snd) m) :
    ∃ s2 s3 s4 s5 s6, Blanks s2 ∧ Blanks s3 ∧ Blanks s4 ∧ s4 ≠ [] ∧ Blanks s5 ∧ Blanks s6 ∧
      m.flatten = s2 ++ ":".toList ++ s3 ++ "public".toList ++ s4 ++ b.cpp.toList ++ s5 ++ "<".toList ++ s6 := by
  simp only [part3, List.map_append] at h
  obtain ⟨m, m9, rfl, h, h9⟩ := matches_split h
  obtain ⟨m, m8, rfl, h, h8⟩ := matches_split h
  obtain ⟨m, m7, rfl, h, h7⟩ := matches_split h
  obtain ⟨m, m6, rfl, h, h6⟩ := matches_split h
  obtain ⟨m, m5, rfl, h, h5⟩ := matches_split h
  obtain ⟨m, m4, rfl, h, h4⟩ := matches_split h
  obtain ⟨m, m3, rfl, h, h3⟩ := matches_split h
  obtain ⟨m1, m2, rfl, h1, h2⟩ := matches_split h
  obtain ⟨s2, rfl, b2⟩ := matches_star1 h1
  rw [matches_lits] at h2 h4 h6 h8
  obtain ⟨s3, rfl, b3⟩ := matches_star1 h3
  obtain ⟨c, v, rfl, b4⟩ := matches_plus h5
  obtain ⟨s5, rfl, b5⟩ := matches_star1 h7
  obtain ⟨s6, rfl, b6⟩ := matches_star1 h9
  refine ⟨s2, s3, c :: v, s5, s6, (blanks_iff _).mpr b2, (blanks_iff _).mpr b3, (blanks_iff _).mpr b4, by simp,
    (blanks_iff _).mpr b5, (blanks_iff _).mpr b6, ?_⟩
  rw [h2, h4, h6, h8]
  simp only [List.flatten_append, litMatch_flatten, baseName_eq, List.flatten_cons, List.flatten_nil, List.append_nil]
  simp

theorem part5_sound {m : List Text} (h : Matches (part5.map Prod.snd) m) :
    ∃ s7 s8, Blanks s7 ∧ Blanks s8 ∧ m.flatten = s7 ++ ",".toList ++ s8 := by
  simp only [part5, List.map_append] at h
  obtain ⟨m, m3, rfl, h, h3⟩ := matches_split h
  obtain ⟨m1, m2, rfl, h1, h2⟩ := matches_split h
  obtain ⟨s7, rfl, b7⟩ := matches_star1 h1
  rw [matches_lits] at h2
  obtain ⟨s8, rfl, b8⟩ := matches_star1 h3
  refine ⟨s7, s8, (blanks_iff _).mpr b7, (blanks_iff _).mpr b8, ?_⟩
  rw [h2]
  simp only [List.flatten_append, litMatch_flatten, List.flatten_cons, List.flatten_nil, List.append_nil]

theorem part7_sound {m : List Text} (h : Matches (part7.map Prod.snd) m) :
    ∃ s9, Blanks s9 ∧ m.flatten = s9 ++ ">".toList := by
  simp only [part7, List.map_append] at h
  obtain ⟨m1, m2, rfl, h1, h2⟩ := matches_split h
  obtain ⟨s7, rfl, b7⟩ := matches_star1 h1
  rw [matches_lits] at h2
  refine ⟨s7, (blanks_iff _).mpr b7, ?_⟩
  rw [h2]
  simp only [List.flatten_append, litMatch_flatten, List.flatten_cons, List.flatten_nil, List.append_nil]

/-- `\s*,\s*.*\s*>` matches if there is a comma at once and a `>` later. -/
theorem rest_complete {o post : Text} :
    matchItems ((part5 ++ ([(6, Item.star fun _ => true)] ++ part7)).map Prod.snd) (',' :: o ++ '>' :: post) ≠ none := by
  have h : Matches ((part5 ++ ([(6, Item.star fun _ => true)] ++ part7)).map Prod.snd) [[], [','], [], o, [], ['>']] := by
    simp only [part5, part7, sp0, List.map_append]
    refine matches_append (ma := [[], [','], []]) (matches_append (ma := [[], [',']]) (matches_append (ma := [[]]) ?_ ?_) ?_)
      (matches_append (ma := [o]) ?_ (matches_append (ma := [[]]) ?_ ?_))
    · simp [Matches]
    · rw [matches_lits]; rfl
    · simp [Matches]
    · simp [Matches]
    · simp [Matches]
    · rw [matches_lits]; rfl
  have := match_complete post h
  simpa using this

theorem last_complete {o post : Text} : matchItems (part7.map Prod.snd) ('>' :: post) ≠ none := by
  have h : Matches (part7.map Prod.snd) [[], ['>']] := by
    simp only [part7, sp0, List.map_append]
    refine matches_append (ma := [[]]) ?_ ?_
    · simp [Matches]
    · rw [matches_lits]; rfl
  have := match_complete post h
  simpa using this

/-- The rest after the input type. -/
theorem rest_sound {s : Text} {m : List Text} (h : matchItems ((part5 ++ ([(6, Item.star fun _ => true)] ++ part7)).map Prod.snd) s = some m) :
    ∃ m5 w6 m7 s7 s8 s9 post, m = m5 ++ ([w6] ++ m7) ∧ m5.length = part5.length ∧ Blanks s7 ∧ Blanks s8 ∧ Blanks s9 ∧
      s = s7 ++ ",".toList ++ s8 ++ w6 ++ s9 ++ ">".toList ++ post ∧ '>' ∉ post := by
  rw [List.map_append] at h
  obtain ⟨m5, m', s', rfl, h5, rfl, h'⟩ := match_append_sound _ h
  clear h
  rename _ => h
  rw [List.map_append, List.map_cons, List.map_nil, List.singleton_append] at h
  change starLoop _ _ _ = _ at h
  obtain ⟨w6, r, m7, rfl, rfl, _, hk, hmax⟩ := starLoop_sound h
  have hk' := hk
  rw [← List.append_nil (part7.map Prod.snd)] at hk'
  obtain ⟨m7', mx, post, rfl, h7, rfl, hx⟩ := match_append_sound _ hk'
  simp only [matchItems, Option.some.injEq] at hx
  subst hx
  obtain ⟨s7, s8, b7, b8, e5⟩ := part5_sound h5
  obtain ⟨s9, b9, e7⟩ := part7_sound h7
  refine ⟨m5, w6, m7', s7, s8, s9, post, by simp, by rw [h5.length]; simp, b7, b8, b9, by rw [e5, e7]; simp, ?_⟩
  intro hp
  obtain ⟨a, b, rfl⟩ := List.append_of_mem hp
  have := hmax (w6 ++ m7'.flatten ++ a) ('>' :: b) (by simp) (by simp) (by rw [e7]; simp; omega)
  exact last_complete (o := []) this

/-- What a recognised line looks like. -/
theorem regexFind_sound {b : Base} {line name i o : Text} (h : regexFind b line = some (name, i, o)) :
    ∃ l : DeclLine, l.text = line ∧ l.Valid ∧ l.decl = ⟨b, name, i, o⟩ ∧ ',' ∉ o ∧ '>' ∉ l.post := by
  simp only [regexFind, Option.map_eq_some_iff] at h
  obtain ⟨m, hs, hm⟩ := h
  obtain ⟨pre, suf, rfl, h⟩ := search_sound _ hs
  rw [pattern_parts, List.map_append] at h
  obtain ⟨m1, _, s1, rfl, h1, rfl, ha⟩ := match_append_sound _ h
  clear h
  rw [List.map_append] at ha
  obtain ⟨m2, _, s2, rfl, h2, rfl, hb⟩ := match_append_sound _ ha
  clear ha
  rw [List.map_append] at hb
  obtain ⟨m3, _, s3, rfl, h3, rfl, h⟩ := match_append_sound _ hb
  clear hb
  rw [List.map_append, List.map_cons, List.map_nil, List.singleton_append] at h
  change starLoop _ _ _ = _ at h
  obtain ⟨w4, r, mr, rfl, rfl, _, hk, hmax⟩ := starLoop_sound h
  obtain ⟨m5, w6, m7, s7, s8, s9, post, rfl, l5, b7, b8, b9, e5, hp⟩ := rest_sound hk
  obtain ⟨nm, rfl, hn⟩ := matches_star1 h2
  obtain ⟨x1, b1, n1, e1⟩ := part1_sound h1
  obtain ⟨x2, x3, x4, x5, x6, b2, b3, b4, n4, b5, b6, e3⟩ := part3_sound h3
  have g := groups b (m1 := m1) (m3 := m3) (m5 := m5) (m7 := m7) (w2 := nm) (w4 := w4) (w6 := w6) (by rw [h1.length]; simp)
    (by rw [h3.length]; simp) l5
  simp only [List.singleton_append, List.cons_append, List.nil_append] at g hm
  obtain ⟨g2, g4, g6⟩ := g
  rw [g2, g4, g6] at hm
  simp only [Prod.mk.injEq] at hm
  obtain ⟨rfl, rfl, rfl⟩ := hm
  have hc : ',' ∉ w6 := by
    intro hc
    obtain ⟨p, q, rfl⟩ := List.append_of_mem hc
    have := hmax (w4 ++ s7 ++ ",".toList ++ s8 ++ p) (',' :: (q ++ s9) ++ '>' :: post) (by rw [e5]; simp) (by simp) (by simp; omega)
    exact rest_complete this
  have ht : (DeclLine.mk ⟨b, nm, w4, w6⟩ pre x1 x2 x3 x4 x5 x6 s7 s8 s9 post).text = pre ++ (m1.flatten ++ ([nm].flatten ++ (m3.flatten ++ (w4 ++ r)))) := by
    rw [e1, e3, e5]
    unfold DeclLine.text
    simp only [List.append_assoc, List.flatten_cons, List.flatten_nil, List.append_nil]
  exact ⟨_, ht, DeclLine.Valid.mk b1 n1 b2 b3 b4 n4 b5 b6 b7 b8 b9 ((word_iff _).mpr hn), rfl, hc, hp⟩

/-! ## Lines that are recognised -/

/-- The comma is the last one that a `>` follows. -/
theorem no_later {X post : Text} (hX : ',' ∉ X) (hp : '>' ∉ post) {v s : Text} (e : X ++ '>' :: post = v ++ s) :
    matchItems ((part5 ++ ([(6, Item.star fun _ => true)] ++ part7)).map Prod.snd) s = none := by
  cases hm : matchItems ((part5 ++ ([(6, Item.star fun _ => true)] ++ part7)).map Prod.snd) s with
  | none => rfl
  | some m =>
    exfalso
    obtain ⟨m5, w6, m7, s7, s8, s9, q, _, _, _, _, _, rfl, _⟩ := rest_sound hm
    have e' : X ++ '>' :: post = (v ++ s7) ++ ',' :: (s8 ++ w6 ++ s9 ++ '>' :: q) := by rw [e]; simp
    rcases List.append_eq_append_iff.mp e' with ⟨x, e1, e2⟩ | ⟨x, e1, e2⟩
    · rcases x with _ | ⟨a, x⟩
      · simp at e2
      · simp only [List.cons_append, List.cons.injEq] at e2
        exact hp (by rw [e2.2]; simp)
    · rcases x with _ | ⟨a, x⟩
      · simp at e2
      · simp only [List.cons_append, List.cons.injEq] at e2
        exact hX (by rw [e1, ← e2.1]; simp)

theorem no_last {post : Text} (hp : '>' ∉ post) {v s : Text} (e : '>' :: post = v ++ s) (hv : v ≠ []) :
    matchItems (part7.map Prod.snd) s = none := by
  cases hm : matchItems (part7.map Prod.snd) s with
  | none => rfl
  | some m =>
    exfalso
    rw [← List.append_nil (part7.map Prod.snd)] at hm
    obtain ⟨m7, mx, q, _, h7, rfl, _⟩ := match_append_sound _ hm
    obtain ⟨s9, _, e7⟩ := part7_sound h7
    rcases v with _ | ⟨a, v⟩
    · exact hv rfl
    · simp only [List.cons_append, List.cons.injEq] at e
      exact hp (by rw [e.2, e7]; simp)

theorem not_space {c : Char} {r : Text} {t : Text} (h : NoLeadingBlank t) (e : t = c :: r) : isSpace c = false := by
  have := h c r e
  rw [blanks_iff] at this
  cases hs : isSpace c with
  | false => rfl
  | true => exact absurd (by simpa using hs) this

theorem word_not_space {c : Char} (h : isWord c = true) : isSpace c = false := by
  cases hs : isSpace c with
  | false => rfl
  | true =>
    rw [space_iff] at hs
    exfalso
    simp only [List.mem_cons, List.not_mem_nil, or_false] at hs
    rcases hs with rfl | rfl | rfl | rfl | rfl | rfl <;> revert h <;> decide

theorem space_not_word {c : Char} (h : isSpace c = true) : isWord c = false := by
  cases hw : isWord c with
  | false => rfl
  | true => rw [word_not_space hw] at h; cases h

/-- Match of the whole pattern at `class`. -/
theorem match_line (l : DeclLine) (hv : l.Valid) (hname : l.decl.name ≠ []) (hi : NoLeadingBlank l.decl.intype) (hi0 : l.decl.intype ≠ [])
    (ho : NoLeadingBlank l.decl.outtype) (ho0 : l.decl.outtype ≠ []) (hoc : ',' ∉ l.decl.outtype) (hp : '>' ∉ l.post) :
    ∃ m1 m3 m5 m7, m1.length = part1.length ∧ m3.length = (part3 l.decl.base).length ∧ m5.length = part5.length ∧
      matchItems ((pattern l.decl.base).map Prod.snd) ("class".toList ++ l.s1 ++ l.decl.name ++ l.s2 ++ ":".toList ++ l.s3 ++ "public".toList ++ l.s4 ++
        l.decl.base.cpp.toList ++ l.s5 ++ "<".toList ++ l.s6 ++ l.decl.intype ++ l.s7 ++ ",".toList ++ l.s8 ++ l.decl.outtype ++ l.s9 ++
        ">".toList ++ l.post) =
      some (m1 ++ ([l.decl.name] ++ (m3 ++ ([l.decl.intype ++ l.s7] ++ (m5 ++ ([l.decl.outtype ++ l.s9] ++ m7)))))) := by
  obtain ⟨⟨b, name, i, o⟩, pre, s1, s2, s3, s4, s5, s6, s7, s8, s9, post⟩ := l
  obtain ⟨b1, n1, b2, b3, b4, n4, b5, b6, b7, b8, b9, hw⟩ := hv
  simp only [blanks_iff] at b1 b2 b3 b4 b5 b6 b7 b8 b9
  rw [word_iff] at hw
  simp only at *
  -- part 7
  have e7 : matchItems (part7.map Prod.snd) ('>' :: post) = some ([[]] ++ litMatch ">") := by
    have h0 : matchItems [] post = some [] := rfl
    have h1 := match_lits 7 ">" h0
    rw [List.append_nil, List.append_nil] at h1
    have h2 := match_star (p := isSpace) (w := []) (s := '>' :: post) (by simp)
      (by intro c r e; cases e; decide) (R := (lits 7 ">").map Prod.snd) h1
    simpa [part7, sp0] using h2
  -- group 6
  have e6 : matchItems (([(6, Item.star fun _ => true)] ++ part7).map Prod.snd) (o ++ s9 ++ '>' :: post) =
      some ((o ++ s9) :: ([[]] ++ litMatch ">")) := by
    rw [List.map_append, List.map_cons, List.map_nil, List.singleton_append]
    change starLoop _ _ _ = _
    refine starLoop_eq (by simp) e7 fun v r' e hne _ => no_last hp e hne
  -- part 5
  have e5 : matchItems ((part5 ++ ([(6, Item.star fun _ => true)] ++ part7)).map Prod.snd) (',' :: (s8 ++ (o ++ s9 ++ '>' :: post))) =
      some (([[]] ++ litMatch "," ++ [s8]) ++ ([o ++ s9] ++ ([[]] ++ litMatch ">"))) := by
    have h1 := match_star (p := isSpace) (w := s8) (s := o ++ s9 ++ '>' :: post) b8
      (by
        intro c r e
        rcases o with _ | ⟨d, o⟩
        · exact absurd rfl ho0
        · simp only [List.cons_append, List.cons.injEq] at e
          rw [← e.1]; exact not_space ho rfl) e6
    have h2 := match_lits 5 "," h1
    have h3 := match_star (p := isSpace) (w := []) (by simp) (by intro c r e; cases e; decide) h2
    simpa [part5, sp0] using h3
  -- group 4
  have e4 : matchItems (([(4, Item.star fun _ => true)] ++ (part5 ++ ([(6, Item.star fun _ => true)] ++ part7))).map Prod.snd)
      (i ++ s7 ++ ',' :: (s8 ++ (o ++ s9 ++ '>' :: post))) =
      some ((i ++ s7) :: (([[]] ++ litMatch "," ++ [s8]) ++ ([o ++ s9] ++ ([[]] ++ litMatch ">")))) := by
    rw [List.map_append, List.map_cons, List.map_nil, List.singleton_append]
    change starLoop _ _ _ = _
    refine starLoop_eq (by simp) e5 fun v r' e hne _ => ?_
    rcases v with _ | ⟨d, v⟩
    · exact absurd rfl hne
    · simp only [List.cons_append, List.cons.injEq] at e
      refine no_later (X := s8 ++ (o ++ s9)) (post := post) (v := v) ?_ hp (by simpa using e.2)
      intro hc
      simp only [List.mem_append] at hc
      rcases hc with hc | hc | hc
      · exact absurd (b8 _ hc) (by decide)
      · exact hoc hc
      · exact absurd (b9 _ hc) (by decide)
  -- part 3
  obtain ⟨d4, v4, hd4, _⟩ : ∃ c v, s4 = c :: v ∧ True := by
    rcases s4 with _ | ⟨c, v⟩
    · exact absurd rfl n4
    · exact ⟨c, v, rfl, trivial⟩
  have e3 : matchItems ((part3 b ++ ([(4, Item.star fun _ => true)] ++ (part5 ++ ([(6, Item.star fun _ => true)] ++ part7)))).map Prod.snd)
      (s2 ++ (":".toList ++ (s3 ++ ("public".toList ++ (s4 ++ (b.cpp.toList ++ (s5 ++ ("<".toList ++ (s6 ++
        (i ++ s7 ++ ',' :: (s8 ++ (o ++ s9 ++ '>' :: post)))))))))))) =
      some (([s2] ++ litMatch ":" ++ [s3] ++ litMatch "public" ++ [[d4], v4] ++ litMatch (baseName b) ++ [s5] ++ litMatch "<" ++ [s6]) ++
        ([i ++ s7] ++ (([[]] ++ litMatch "," ++ [s8]) ++ ([o ++ s9] ++ ([[]] ++ litMatch ">"))))) := by
    have h1 := match_star (p := isSpace) (w := s6) b6
      (by
        intro c r e
        rcases i with _ | ⟨d, i⟩
        · exact absurd rfl hi0
        · simp only [List.cons_append, List.cons.injEq] at e
          rw [← e.1]; exact not_space hi rfl) e4
    have h2 := match_lits 3 "<" h1
    have h3 := match_star (p := isSpace) (w := s5) b5 (by intro c r e; cases e; decide) h2
    have h4 := match_lits 3 (baseName b) h3
    rw [baseName_eq] at h4
    obtain ⟨c, v, e, h5⟩ := match_plus (p := isSpace) (w := s4) b4 n4
      (by intro c r e; cases b <;> · cases e; decide) h4
    rw [hd4] at e; cases e
    have h6 := match_lits 3 "public" h5
    have h7 := match_star (p := isSpace) (w := s3) b3 (by intro c r e; cases e; decide) h6
    have h8 := match_lits 3 ":" h7
    have h9 := match_star (p := isSpace) (w := s2) b2 (by intro c r e; cases e; decide) h8
    rw [hd4]
    rw [baseName_eq]
    simp only [part3, sp0, sp1, List.map_append, List.append_assoc, List.map_cons, List.map_nil, List.cons_append, List.nil_append, baseName_eq] at h9 ⊢
    rw [hd4] at h9
    exact h9
  -- group 2
  obtain ⟨d1, v1, hd1, _⟩ : ∃ c v, s1 = c :: v ∧ True := by
    rcases s1 with _ | ⟨c, v⟩
    · exact absurd rfl n1
    · exact ⟨c, v, rfl, trivial⟩
  have e2 := match_star (p := isWord) (w := name) hw
    (by
      intro c r e
      rcases s2 with _ | ⟨d, s2⟩
      · cases e; decide
      · simp only [List.cons_append, List.cons.injEq] at e
        rw [← e.1]; exact space_not_word (b2 d (by simp))) e3
  obtain ⟨c, v, e, e1⟩ := match_plus (p := isSpace) (w := s1) b1 n1
      (by
        intro c r e
        rcases name with _ | ⟨d, name⟩
        · exact absurd rfl hname
        · simp only [List.cons_append, List.cons.injEq] at e
          rw [← e.1]; exact word_not_space (hw d (by simp))) e2
  rw [hd1] at e; cases e
  have e0 := match_lits 1 "class" e1
  refine ⟨litMatch "class" ++ [[d1], v1], [s2] ++ litMatch ":" ++ [s3] ++ litMatch "public" ++ [[d4], v4] ++ litMatch (baseName b) ++ [s5] ++ litMatch "<" ++ [s6],
    [[]] ++ litMatch "," ++ [s8], [[]] ++ litMatch ">", ?_, ?_, ?_, ?_⟩
  · simp [litMatch, part1, lits, sp1]
  · simp [litMatch, part3, lits, sp1, sp0]
  · simp [litMatch, part5, lits, sp0]
  · rw [pattern_parts]
    simp only [part1, sp1, List.map_append, List.append_assoc, List.map_cons, List.map_nil, List.cons_append, List.nil_append] at e0 ⊢
    exact e0

theorem split_at {a : Char} {x y u v : Text} (hx : a ∉ x) (hy : a ∉ y) (e : x ++ a :: u = y ++ a :: v) : x = y := by
  rcases List.append_eq_append_iff.mp e with ⟨z, e1, e2⟩ | ⟨z, e1, e2⟩
  · rcases z with _ | ⟨c, z⟩
    · simpa using e1.symm
    · simp only [List.cons_append, List.cons.injEq] at e2
      exact absurd (by rw [e1, ← e2.1]; simp) hy
  · rcases z with _ | ⟨c, z⟩
    · simpa using e1
    · simp only [List.cons_append, List.cons.injEq] at e2
      exact absurd (by rw [e1, ← e2.1]; simp) hx

theorem dropWhile_block {p : Char → Bool} {w s : Text} (hw : ∀ c ∈ w, p c = true) (hs : ∀ c r, s = c :: r → p c = false) :
    (w ++ s).dropWhile p = s := by
  induction w with
  | nil =>
    cases s with
    | nil => rfl
    | cons c r => simp [List.dropWhile_cons, hs c r rfl]
  | cons a w ih =>
    rw [List.cons_append, List.dropWhile_cons, if_pos (hw a (by simp))]
    exact ih fun c hc => hw c (by simp [hc])

/-- Two readings of the same text as `class` and a name. -/
theorem one_class {b s1 name s2 x1 nm x2 : Text} (b1 : ∀ c ∈ s1, isSpace c = true) (n1 : s1 ≠ []) (hw : ∀ c ∈ name, isWord c = true)
    (hn : name ≠ []) (b2 : ∀ c ∈ s2, isSpace c = true) (y1 : ∀ c ∈ x1, isSpace c = true) (m1 : x1 ≠ [])
    (hv : ∀ c ∈ nm, isWord c = true) (y2 : ∀ c ∈ x2, isSpace c = true)
    (e : b ++ ("class".toList ++ (s1 ++ (name ++ s2))) = "class".toList ++ (x1 ++ (nm ++ x2))) : b = [] := by
  have hne : ∀ {w : Text} {p : Char → Bool}, w ≠ [] → (∀ c ∈ w, p c = true) → ∀ t, ∃ c r, w.reverse ++ t = c :: r ∧ p c = true := by
    intro w p hw hp t
    cases hr : w.reverse with
    | nil => exact absurd (by simpa using hr) hw
    | cons c r => exact ⟨c, r ++ t, rfl, hp c (by rw [← List.mem_reverse, hr]; simp)⟩
  have e' := congrArg List.reverse e
  simp only [List.reverse_append, List.append_assoc] at e'
  have c0 : ("class".toList : Text).reverse = ['s', 's', 'a', 'l', 'c'] := by decide
  rw [c0] at e'
  -- blanks
  have d1 := congrArg (List.dropWhile isSpace) e'
  rw [dropWhile_block (by simpa using b2)
    (by
      intro c r h
      obtain ⟨c', r', h', hc⟩ := hne hn hw (s1.reverse ++ (['s', 's', 'a', 'l', 'c'] ++ b.reverse))
      rw [h'] at h; cases h; exact word_not_space hc)] at d1
  by_cases h0 : nm = []
  · exfalso
    subst h0
    have hb : ∀ c ∈ x2.reverse ++ x1.reverse, isSpace c = true := by
      intro c hc
      simp only [List.mem_append, List.mem_reverse] at hc
      rcases hc with hc | hc
      · exact y2 c hc
      · exact y1 c hc
    have d2 : (x2.reverse ++ ([] ++ (x1.reverse ++ ['s', 's', 'a', 'l', 'c']))).dropWhile isSpace = ['s', 's', 'a', 'l', 'c'] := by
      rw [List.nil_append, ← List.append_assoc]
      exact dropWhile_block hb (by intro c r h; cases h; decide)
    rw [List.reverse_nil, d2] at d1
    have d3 := congrArg (List.dropWhile isWord) d1
    rw [dropWhile_block (by simpa using hw)
      (by
        intro c r h
        obtain ⟨c', r', h', hc⟩ := hne n1 b1 (['s', 's', 'a', 'l', 'c'] ++ b.reverse)
        rw [h'] at h; cases h; exact space_not_word hc)] at d3
    have : List.dropWhile isWord ['s', 's', 'a', 'l', 'c'] = [] := by decide
    rw [this] at d3
    simp at d3
  · rw [dropWhile_block (by simpa using y2)
      (by
        intro c r h
        obtain ⟨c', r', h', hc⟩ := hne h0 hv (x1.reverse ++ ['s', 's', 'a', 'l', 'c'])
        rw [h'] at h; cases h; exact word_not_space hc)] at d1
    have d3 := congrArg (List.dropWhile isWord) d1
    rw [dropWhile_block (by simpa using hw)
      (by
        intro c r h
        obtain ⟨c', r', h', hc⟩ := hne n1 b1 (['s', 's', 'a', 'l', 'c'] ++ b.reverse)
        rw [h'] at h; cases h; exact space_not_word hc),
      dropWhile_block (by simpa using hv)
      (by
        intro c r h
        obtain ⟨c', r', h', hc⟩ := hne m1 y1 ['s', 's', 'a', 'l', 'c']
        rw [h'] at h; cases h; exact space_not_word hc)] at d3
    have d4 := congrArg (List.dropWhile isSpace) d3
    rw [dropWhile_block (by simpa using b1) (by intro c r h; cases h; decide),
      dropWhile_block (by simpa using y1) (by intro c r h; cases h; decide)] at d4
    have := congrArg List.length d4
    simpa using this

theorem colon_not_space : isSpace ':' = false := by decide

theorem no_earlier (b' : Base) {pre s1 name s2 tail : Text} (hpre : ':' ∉ pre) (b1 : ∀ c ∈ s1, isSpace c = true) (n1 : s1 ≠ [])
    (hw : ∀ c ∈ name, isWord c = true) (hn : name ≠ []) (b2 : ∀ c ∈ s2, isSpace c = true) {x : Text} (hx : x ≠ [])
    (hsub : ∃ a, pre = a ++ x) :
    matchItems ((pattern b').map Prod.snd) (x ++ ("class".toList ++ (s1 ++ (name ++ (s2 ++ ':' :: tail))))) = none := by
  cases hm : matchItems ((pattern b').map Prod.snd) (x ++ ("class".toList ++ (s1 ++ (name ++ (s2 ++ ':' :: tail))))) with
  | none => rfl
  | some m =>
    exfalso
    rw [pattern_parts, List.map_append] at hm
    obtain ⟨m1, _, t1, _, h1, e1, ha⟩ := match_append_sound _ hm
    rw [List.map_append] at ha
    obtain ⟨m2, _, t2, _, h2, rfl, hb⟩ := match_append_sound _ ha
    rw [List.map_append] at hb
    obtain ⟨m3, _, t3, _, h3, rfl, h⟩ := match_append_sound _ hb
    obtain ⟨nm, rfl, hv⟩ := matches_star1 h2
    obtain ⟨x1, y1, k1, f1⟩ := part1_sound h1
    obtain ⟨x2, x3, x4, x5, x6, y2, _, _, _, _, _, f3⟩ := part3_sound h3
    rw [blanks_iff] at y1 y2
    rw [f1, f3] at e1
    have hspace : ∀ {t : Text}, (∀ c ∈ t, isSpace c = true) → ':' ∉ t := fun ht hc => by
      have := ht _ hc; rw [colon_not_space] at this; cases this
    have hword : ∀ {t : Text}, (∀ c ∈ t, isWord c = true) → ':' ∉ t := fun ht hc => absurd (ht _ hc) (by decide)
    have hcl : ':' ∉ "class".toList := by decide
    have hxn : ':' ∉ x := fun hc => by
      obtain ⟨a, rfl⟩ := hsub
      exact hpre (by simp [hc])
    have := split_at (a := ':') (x := x ++ ("class".toList ++ (s1 ++ (name ++ s2)))) (y := "class".toList ++ (x1 ++ (nm ++ x2)))
      (u := tail) (v := x3 ++ "public".toList ++ x4 ++ b'.cpp.toList ++ x5 ++ "<".toList ++ x6 ++ t3)
      (by
        simp only [List.mem_append, not_or]
        exact ⟨hxn, hcl, hspace b1, hword hw, hspace b2⟩)
      (by
        simp only [List.mem_append, not_or]
        exact ⟨hcl, hspace y1, hword hv, hspace y2⟩)
      (by simpa using e1)
    exact hx (one_class b1 n1 hw hn b2 y1 k1 hv y2 this)

/-- A line whose declaration is recognised. -/
theorem regexFind_line (l : DeclLine) (hv : l.Valid) (hpre : ':' ∉ l.pre) (hname : l.decl.name ≠ []) (hi : NoLeadingBlank l.decl.intype)
    (hi0 : l.decl.intype ≠ []) (ho : NoLeadingBlank l.decl.outtype) (ho0 : l.decl.outtype ≠ []) (hoc : ',' ∉ l.decl.outtype)
    (hp : '>' ∉ l.post) :
    regexFind l.decl.base l.text = some (l.decl.name, l.decl.intype ++ l.s7, l.decl.outtype ++ l.s9) := by
  obtain ⟨m1, m3, m5, m7, h1, h3, h5, hm⟩ := match_line l hv hname hi hi0 ho ho0 hoc hp
  have hcolon : ":".toList = [':'] := by decide
  obtain ⟨tail, htail⟩ : ∃ tail, tail = l.s3 ++ "public".toList ++ l.s4 ++
        l.decl.base.cpp.toList ++ l.s5 ++ "<".toList ++ l.s6 ++ l.decl.intype ++ l.s7 ++ ",".toList ++ l.s8 ++ l.decl.outtype ++ l.s9 ++
        ">".toList ++ l.post := ⟨_, rfl⟩
  have hc : "class".toList ++ l.s1 ++ l.decl.name ++ l.s2 ++ ":".toList ++ l.s3 ++ "public".toList ++ l.s4 ++
        l.decl.base.cpp.toList ++ l.s5 ++ "<".toList ++ l.s6 ++ l.decl.intype ++ l.s7 ++ ",".toList ++ l.s8 ++ l.decl.outtype ++ l.s9 ++
        ">".toList ++ l.post = "class".toList ++ (l.s1 ++ (l.decl.name ++ (l.s2 ++ ':' :: tail))) := by
    rw [htail, hcolon]
    simp only [List.append_assoc, List.cons_append, List.nil_append]
  rw [hc] at hm
  have ht : l.text = l.pre ++ ("class".toList ++ (l.s1 ++ (l.decl.name ++ (l.s2 ++ ':' :: tail)))) := by
    rw [← hc]; unfold DeclLine.text; (repeat rw [List.append_assoc])
  have hs := search_eq _ hm (pre := l.pre) fun a x e hx =>
    no_earlier l.decl.base hpre ((blanks_iff _).mp hv.b1) hv.n1 ((word_iff _).mp hv.word) hname ((blanks_iff _).mp hv.b2) hx ⟨a, e⟩
  obtain ⟨g2, g4, g6⟩ := groups l.decl.base (m7 := m7) (w2 := l.decl.name) (w4 := l.decl.intype ++ l.s7) (w6 := l.decl.outtype ++ l.s9) h1 h3 h5
  rw [regexFind, ht, hs, Option.map_some, g2, g4, g6]

/-- A line without the name of a base class is not recognised as a class derived from it. -/
theorem regexFind_none {b : Base} {line : Text} (h : ¬ b.cpp.toList <:+: line) : regexFind b line = none := by
  cases hf : regexFind b line with
  | none => rfl
  | some x =>
    obtain ⟨n, i, o⟩ := x
    obtain ⟨l, e, _, hd, _⟩ := regexFind_sound hf
    exfalso
    apply h
    refine ⟨l.pre ++ "class".toList ++ l.s1 ++ l.decl.name ++ l.s2 ++ ":".toList ++ l.s3 ++ "public".toList ++ l.s4,
      l.s5 ++ "<".toList ++ l.s6 ++ l.decl.intype ++ l.s7 ++ ",".toList ++ l.s8 ++ l.decl.outtype ++ l.s9 ++ ">".toList ++ l.post, ?_⟩
    rw [← e]
    have hb : l.decl.base = b := by rw [hd]
    rw [← hb]
    unfold DeclLine.text; (repeat rw [List.append_assoc])

end Verif
