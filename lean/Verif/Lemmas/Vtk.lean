import Verif.Model.Vtk
import Verif.Lemmas.Stream
import Verif.Lemmas.Core

/-!
# Lemmas about the vtk reader
-/

namespace Verif.Vtk
open Verif IStream Spec

variable {K : Type} {d : Nat} [Field K] [LinearOrder K] [FloorRing K]

theorem hdrNat_section (kw : List Char) (n : Nat) (rest : List Char) (cur : Option Nat) (hne : kw ≠ [])
    (hkw : ∀ c ∈ kw, ¬ Blank c) (hr : LineEnd rest) : hdrNat (kw ++ ' ' :: dec n ++ rest) cur = some n := by
  have h : kw ++ ' ' :: dec n ++ rest = kw ++ ' ' :: (dec n ++ rest) := by simp
  rw [h, hdrNat, word_line kw (dec n) rest hne hkw]
  exact extract_snd_end n cur rfl hr.2

theorem hdrName_section (kw nm rest cur : List Char) (hne : kw ≠ []) (hkw : ∀ c ∈ kw, ¬ Blank c) (hnm : nm ≠ [])
    (hnb : ∀ c ∈ nm, ¬ Blank c) (hr : LineEnd rest) : hdrName (kw ++ ' ' :: nm ++ rest) cur = nm := by
  have h : kw ++ ' ' :: nm ++ rest = kw ++ ' ' :: (nm ++ rest) := by simp
  rw [h, hdrName, word_line kw nm rest hne hkw]
  exact word_snd_end cur hnm hnb hr.2

theorem dec_no_newline (n : Nat) : '\n' ∉ dec n := fun h => by
  have := Nat.isDigit_of_mem_toDigits (b := 10) (by decide) (by decide) h
  exact absurd this (by decide)

theorem forall₂_append_right {α β : Type} {R : α → β → Prop} (a b : List β) :
    ∀ l, List.Forall₂ R l (a ++ b) → ∃ l1 l2, l = l1 ++ l2 ∧ List.Forall₂ R l1 a ∧ List.Forall₂ R l2 b := by
  induction a with
  | nil => intro l h; exact ⟨[], l, rfl, .nil, h⟩
  | cons x a ih =>
    intro l h
    cases h with
    | @cons y _ ys _ hy hys =>
      obtain ⟨l1, l2, rfl, h1, h2⟩ := ih ys hys
      exact ⟨y :: l1, l2, rfl, .cons hy h1, h2⟩

omit [LinearOrder K] [FloorRing K] in
theorem readCoord_layout (scan : List Char → Option K × List Char) (p : Fin d → K) :
    ∀ (js : List (Fin d)) (toks more : List (List Char)) (x : List Char) (c : Fin d → Option K),
      List.Forall₂ (Denotes scan) toks (js.map p) → Layout (toks ++ more) x →
      ∃ y, Layout more y ∧ ∀ r, readCoord scan js (ofText (x ++ r)) c =
        (ofText (y ++ r), fun i => if i ∈ js then some (p i) else c i) := by
  intro js
  induction js with
  | nil =>
    intro toks more x c hf hx
    cases hf
    exact ⟨x, hx, fun r => by simp [readCoord]⟩
  | cons j js ih =>
    intro toks more x c hf hx
    cases hf with
    | @cons t _ ts _ ht hts =>
      obtain ⟨y, hy, he⟩ := extract_layout scan 0 (c j) (by simpa using hx) ht
      obtain ⟨z, hz, he2⟩ := ih ts more y (fun i => if i = j then some (p j) else c i) hts hy
      refine ⟨z, hz, fun r => ?_⟩
      simp only [readCoord, he r, he2 r]
      congr 1
      funext i
      by_cases h1 : i = j
      · subst h1; simp
      · simp [h1]

omit [LinearOrder K] [FloorRing K] in
theorem readPts_layout (scan : List Char → Option K × List Char) :
    ∀ (pts : List (Fin d → K)) (rows : List (List (List Char))) (more : List (List Char)) (x : List Char)
      (c : Fin d → Option K),
      List.Forall₂ (PointRow scan) pts rows → Layout (rows.flatten ++ more) x →
      ∃ y c', Layout more y ∧ ∀ r, readPts scan pts.length (ofText (x ++ r)) c = (.ok pts, ofText (y ++ r), c') := by
  intro pts
  induction pts with
  | nil =>
    intro rows more x c hf hx
    cases hf
    exact ⟨x, c, by simpa using hx, fun r => rfl⟩
  | cons p pts ih =>
    intro rows more x c hf hx
    cases hf with
    | @cons _ row _ rows hrow hrows =>
      obtain ⟨extra, hlen, hrow⟩ := hrow
      obtain ⟨t1, t2, rfl, h1, h2⟩ := forall₂_append_right _ _ _ hrow
      have hof : List.ofFn p = (List.finRange d).map p := List.ofFn_eq_map
      rw [hof] at h1
      simp only [List.flatten_cons, List.append_assoc] at hx
      obtain ⟨y, hy, he⟩ := readCoord_layout scan p (List.finRange d) t1 (t2 ++ (rows.flatten ++ more)) x c h1 hx
      have hc1 : (fun i => if i ∈ List.finRange d then some (p i) else c i) = fun i => some (p i) := by
        funext i; simp
      rw [hc1] at he
      have hs2 : ∃ z, Layout (rows.flatten ++ more) z ∧
          ∀ r, (if d = 2 then (extract scan 0 (ofText (y ++ r)) none).1 else ofText (y ++ r)) = ofText (z ++ r) := by
        by_cases hd : d = 2
        · rw [if_pos hd] at hlen
          obtain ⟨e, rfl⟩ := List.length_eq_one_iff.mp hlen
          cases h2 with
          | @cons t _ ts _ ht hts =>
            cases hts
            obtain ⟨z, hz, hze⟩ := extract_layout scan 0 none (by simpa using hy) ht
            exact ⟨z, hz, fun r => by rw [if_pos hd, hze r]⟩
        · rw [if_neg hd] at hlen
          have : extra = [] := List.length_eq_zero_iff.mp hlen
          subst this
          cases h2
          exact ⟨y, by simpa using hy, fun r => by rw [if_neg hd]⟩
      obtain ⟨z, hz, hze⟩ := hs2
      obtain ⟨z', c', hz', he'⟩ := ih rows more z (fun i => some (p i)) hrows hz
      refine ⟨z', c', hz', fun r => ?_⟩
      simp only [List.length_cons, readPts, he r, hze r, he' r]
      simp [Except.map]

theorem readCellsTxt_layout :
    ∀ (cells : List (List Nat)) (more : List (List Char)) (x : List Char) (u : Option Nat) (cn : List Nat),
      Layout ((cells.flatMap fun c => c.length :: c).map dec ++ more) x →
      ∃ y u' cn', Layout more y ∧
        ∀ r, readCellsTxt cells.length (ofText (x ++ r)) u cn = (.ok cells, ofText (y ++ r), u', cn') := by
  intro cells
  induction cells with
  | nil => intro more x u cn hx; exact ⟨x, u, cn, by simpa using hx, fun r => rfl⟩
  | cons c cells ih =>
    intro more x u cn hx
    simp only [List.flatMap_cons, List.cons_append, List.map_cons, List.map_append, List.append_assoc] at hx
    obtain ⟨y, hy, he⟩ := extract_layout scanNat 0 u hx (denotes_dec c.length)
    have hlen : (vresize cn c.length 0).length = c.length := by
      simp [vresize]; omega
    have hf : List.Forall₂ (Denotes scanNat) (c.map dec) c := by
      rw [List.forall₂_map_left_iff]
      exact List.forall₂_same.mpr fun n _ => denotes_dec n
    obtain ⟨z, hz, he2⟩ := readNums_layout scanNat 0 (vresize cn c.length 0) c (c.map dec) _ y hlen hf hy
    obtain ⟨z', u', cn', hz', he3⟩ := ih more z (some c.length) c hz
    refine ⟨z', u', cn', hz', fun r => ?_⟩
    simp only [List.length_cons, readCellsTxt, he r, he2 r, he3 r, Except.map]

theorem readTypes_layout :
    ∀ (types : List Nat) (more : List (List Char)) (x : List Char) (u : Option Nat), (∀ t ∈ types, t = 9 ∨ t = 12) →
      Layout (types.map dec ++ more) x →
      ∃ y u', Layout more y ∧ ∀ r, readTypes types.length (ofText (x ++ r)) u = (.ok (), ofText (y ++ r), u') := by
  intro types
  induction types with
  | nil => intro more x u _ hx; exact ⟨x, u, by simpa using hx, fun r => rfl⟩
  | cons t types ih =>
    intro more x u ht hx
    obtain ⟨y, hy, he⟩ := extract_layout scanNat 0 u (by simpa using hx) (denotes_dec t)
    obtain ⟨z, u', hz, he2⟩ := ih more y (some t) (fun a ha => ht a (by simp [ha])) hy
    refine ⟨z, u', hz, fun r => ?_⟩
    have : ¬ (t ≠ 9 ∧ t ≠ 12) := by rcases ht t (by simp) with h | h <;> simp [h]
    simp only [List.length_cons, readTypes, he r, if_neg this, he2 r]

/-- From `st` the loop always gets to `st'`. -/
def MReach (scan : List Char → Option K × List Char) (E : MeshOps K d) (st st' : MSt K d) : Prop :=
  ∃ k, ∀ fuel, meshLoop scan E (fuel + k) st = meshLoop scan E fuel st'

theorem MReach.refl {scan : List Char → Option K × List Char} {E : MeshOps K d} (st : MSt K d) : MReach scan E st st :=
  ⟨0, fun _ => rfl⟩

theorem MReach.trans {scan : List Char → Option K × List Char} {E : MeshOps K d} {a b c : MSt K d}
    (h1 : MReach scan E a b) (h2 : MReach scan E b c) : MReach scan E a c := by
  obtain ⟨k1, h1⟩ := h1; obtain ⟨k2, h2⟩ := h2
  exact ⟨k2 + k1, fun f => by rw [← Nat.add_assoc, h1, h2]⟩

theorem MReach.step {scan : List Char → Option K × List Char} {E : MeshOps K d} {st st' : MSt K d}
    (he : st.s.eof = false) (h : meshStep scan E st = (.ok false, st')) : MReach scan E st st' :=
  ⟨1, fun f => by simp [meshLoop, he, h]⟩

theorem plain_prefix {kws : List (List Char)} {l : List Char} (h : PlainLine kws l) {kw : List Char} (hk : kw ∈ kws) :
    kw.isPrefixOf l = false := by
  cases hb : kw.isPrefixOf l with
  | false => rfl
  | true => exact absurd (List.isPrefixOf_iff_prefix.mp hb) (h.2 kw hk)

/-- Lines without a keyword are skipped. -/
theorem mesh_skip (scan : List Char → Option K × List Char) (E : MeshOps K d) (r : List Char) :
    ∀ (ls : List (List Char)), (∀ l ∈ ls, PlainLine [kwPoints, kwCells, kwTypes] l) → ∀ st : MSt K d,
      st.s = ofText (linesText ls ++ r) → ∃ line, MReach scan E st { st with s := ofText r, line := line } := by
  intro ls
  induction ls with
  | nil =>
    intro _ st hs
    exact ⟨st.line, by
      have : st = { st with s := ofText r } := by cases st; simp_all [linesText]
      exact this ▸ MReach.refl st⟩
  | cons l ls ih =>
    intro hl st hs
    have hp := hl l (by simp)
    have hs' : st.s = ofText (l ++ '\n' :: (linesText ls ++ r)) := by rw [hs]; simp [linesText]
    have hstep : meshStep scan E st = (.ok false, { st with s := ofText (linesText ls ++ r), line := l }) := by
      simp only [meshStep, hs', getline_line l _ st.line hp.1]
      simp [plain_prefix hp (kw := kwPoints) (by simp), plain_prefix hp (kw := kwCells) (by simp),
        plain_prefix hp (kw := kwTypes) (by simp)]
    obtain ⟨line, hr⟩ := ih (fun a ha => hl a (by simp [ha])) { st with s := ofText (linesText ls ++ r), line := l } rfl
    exact ⟨line, (MReach.step (by rw [hs']; rfl) hstep).trans hr⟩

theorem blank_plain {l : List Char} (hn : '\n' ∉ l) (hl : ∀ c ∈ l, Blank c) (kws : List (List Char))
    (hk : ∀ kw ∈ kws, ∃ c r, kw = c :: r ∧ ¬ Blank c) : PlainLine kws l := by
  refine ⟨hn, fun kw hkw hpre => ?_⟩
  obtain ⟨c, r, rfl, hc⟩ := hk kw hkw
  obtain ⟨t, rfl⟩ := hpre
  exact hc (hl c (by simp))

theorem mesh_skip_blank (scan : List Char → Option K × List Char) (E : MeshOps K d) (x r : List Char) (hx : Layout [] x)
    (st : MSt K d) (hs : st.s = ofText (x ++ r)) : ∃ line, MReach scan E st { st with s := ofText r, line := line } := by
  cases hx with
  | nil w hw =>
    obtain ⟨ls, h1, h2⟩ := blank_lines w hw
    rw [h1] at hs
    refine mesh_skip scan E r ls (fun l hl => ?_) st hs
    refine blank_plain (h2 l hl).1 (h2 l hl).2 _ ?_
    intro kw hkw
    simp only [List.mem_cons, List.not_mem_nil, or_false] at hkw
    rcases hkw with rfl | rfl | rfl
    · exact ⟨'P', _, rfl, by decide⟩
    · exact ⟨'C', _, rfl, by decide⟩
    · exact ⟨'C', _, rfl, by decide⟩

theorem isPrefixOf_append (a b : List Char) : a.isPrefixOf (a ++ b) = true := by
  rw [List.isPrefixOf_iff_prefix]; exact List.prefix_append a b

/-- A section line up to its newline. -/
theorem sectionLine_eq (kw : String) (n : Nat) (rest r : List Char) :
    sectionLine kw n rest ++ r = (kw.toList ++ ' ' :: dec n ++ rest) ++ '\n' :: r := by simp [sectionLine]

theorem section_no_newline (kw : List Char) (n : Nat) (rest : List Char) (hkw : '\n' ∉ kw) (hr : LineEnd rest) :
    '\n' ∉ kw ++ ' ' :: dec n ++ rest := by
  simp only [List.mem_append, List.mem_cons, not_or]
  exact ⟨⟨hkw, by decide, dec_no_newline n⟩, hr.1⟩

/-- The POINTS section, from its header line on. -/
theorem points_step (scan : List Char → Option K × List Char) (E : MeshOps K d)
    (pts : List (Fin d → K)) (rows : List (List (List Char)))
    (r1 xp r : List Char) (hr : LineEnd r1) (hf : List.Forall₂ (PointRow scan) pts rows) (hx : Layout rows.flatten xp)
    (st : MSt K d) (hs : st.s = ofText (sectionLine "POINTS" pts.length r1 ++ xp ++ r)) :
    (∀ e, E.points st.mesh pts = .error e → ∃ st', meshStep scan E st = (.error e, st')) ∧
    (∀ m, E.points st.mesh pts = .ok m → ∃ (y : List Char) (st' : MSt K d), Layout [] y ∧ st'.s = ofText (y ++ r) ∧
      st'.mesh = m ∧ meshStep scan E st = (.ok false, st')) := by
  have hkw : "POINTS".toList = kwPoints := by decide
  rw [List.append_assoc, sectionLine_eq, hkw] at hs
  obtain ⟨y, c', hy, hread⟩ := readPts_layout scan pts rows [] xp st.coord hf (by simpa using hx)
  have hline := getline_line (kwPoints ++ ' ' :: dec pts.length ++ r1) (xp ++ r) st.line
    (section_no_newline _ _ _ (by decide) hr)
  have hpre : kwPoints.isPrefixOf (kwPoints ++ ' ' :: dec pts.length ++ r1) = true := by
    rw [List.append_assoc]; exact isPrefixOf_append _ _
  have hh := hdrNat_section kwPoints pts.length r1 st.npoints (by decide) (by decide) hr
  have hstep : meshStep scan E st =
      match E.points st.mesh pts with
      | .error e => (.error e, { st with s := ofText (y ++ r), line := kwPoints ++ ' ' :: dec pts.length ++ r1,
                                         coord := c', npoints := some pts.length })
      | .ok m => (.ok false, { st with s := ofText (y ++ r), line := kwPoints ++ ' ' :: dec pts.length ++ r1,
                                       coord := c', npoints := some pts.length, mesh := m }) := by
    simp only [meshStep, hs, hline, hpre, if_true, pointsSection, hh, hread r]
    cases E.points st.mesh pts <;> rfl
  rw [hstep]
  constructor
  · intro e he; rw [he]; exact ⟨_, rfl⟩
  · intro m hm; rw [hm]; exact ⟨y, _, hy, rfl, rfl, rfl⟩

/-- The CELLS section, from its header line on. -/
theorem cells_step (scan : List Char → Option K × List Char) (E : MeshOps K d) (cells : List (List Nat))
    (r1 xp r : List Char) (hr : LineEnd r1) (hx : Layout ((cells.flatMap fun c => c.length :: c).map dec) xp)
    (st : MSt K d) (hs : st.s = ofText (sectionLine "CELLS" cells.length r1 ++ xp ++ r)) :
    (∀ e, E.cells st.mesh cells = .error e → ∃ st', meshStep scan E st = (.error e, st')) ∧
    (∀ m, E.cells st.mesh cells = .ok m → ∃ (y : List Char) (st' : MSt K d), Layout [] y ∧ st'.s = ofText (y ++ r) ∧
      st'.mesh = m ∧ meshStep scan E st = (.ok false, st')) := by
  have hkw : "CELLS".toList = kwCells := by decide
  rw [List.append_assoc, sectionLine_eq, hkw] at hs
  obtain ⟨y, u', cn', hy, hread⟩ := readCellsTxt_layout cells [] xp st.uli st.cellNode (by simpa using hx)
  have hline := getline_line (kwCells ++ ' ' :: dec cells.length ++ r1) (xp ++ r) st.line
    (section_no_newline _ _ _ (by decide) hr)
  have hpre : kwCells.isPrefixOf (kwCells ++ ' ' :: dec cells.length ++ r1) = true := by
    rw [List.append_assoc]; exact isPrefixOf_append _ _
  have hpre1 : kwPoints.isPrefixOf (kwCells ++ ' ' :: dec cells.length ++ r1) = false := by
    simp [kwPoints, kwCells, List.isPrefixOf]
  have hh := hdrNat_section kwCells cells.length r1 st.ncells (by decide) (by decide) hr
  have hstep : meshStep scan E st =
      match E.cells st.mesh cells with
      | .error e => (.error e, { st with s := ofText (y ++ r), line := kwCells ++ ' ' :: dec cells.length ++ r1,
                                         uli := u', cellNode := cn', ncells := some cells.length })
      | .ok m => (.ok false, { st with s := ofText (y ++ r), line := kwCells ++ ' ' :: dec cells.length ++ r1,
                                       uli := u', cellNode := cn', ncells := some cells.length, mesh := m }) := by
    simp only [meshStep, hs, hline, hpre, hpre1, if_true, Bool.false_eq_true, if_false, cellsSection, hh, hread r]
    cases E.cells st.mesh cells <;> rfl
  rw [hstep]
  constructor
  · intro e he; rw [he]; exact ⟨_, rfl⟩
  · intro m hm; rw [hm]; exact ⟨y, _, hy, rfl, rfl, rfl⟩

/-- The CELL_TYPES section, from its header line on. -/
theorem types_step (scan : List Char → Option K × List Char) (E : MeshOps K d) (types : List Nat)
    (r1 xp r : List Char) (hr : LineEnd r1) (ht : ∀ t ∈ types, t = 9 ∨ t = 12) (hx : Layout (types.map dec) xp)
    (st : MSt K d) (hs : st.s = ofText (sectionLine "CELL_TYPES" types.length r1 ++ xp ++ r)) :
    ∃ (y : List Char) (st' : MSt K d), Layout [] y ∧ st'.s = ofText (y ++ r) ∧ st'.mesh = st.mesh ∧
      meshStep scan E st = (.ok true, st') := by
  have hkw : "CELL_TYPES".toList = kwTypes := by decide
  rw [List.append_assoc, sectionLine_eq, hkw] at hs
  obtain ⟨y, u', hy, hread⟩ := readTypes_layout types [] xp st.uli ht (by simpa using hx)
  have hline := getline_line (kwTypes ++ ' ' :: dec types.length ++ r1) (xp ++ r) st.line
    (section_no_newline _ _ _ (by decide) hr)
  have hpre : kwTypes.isPrefixOf (kwTypes ++ ' ' :: dec types.length ++ r1) = true := by
    rw [List.append_assoc]; exact isPrefixOf_append _ _
  have hpre1 : kwPoints.isPrefixOf (kwTypes ++ ' ' :: dec types.length ++ r1) = false := by
    simp [kwPoints, kwTypes, List.isPrefixOf]
  have hpre2 : kwCells.isPrefixOf (kwTypes ++ ' ' :: dec types.length ++ r1) = false := by
    simp [kwCells, kwTypes, List.isPrefixOf]
  have hh := hdrNat_section kwTypes types.length r1 st.ncells (by decide) (by decide) hr
  refine ⟨y, { st with s := ofText (y ++ r), line := kwTypes ++ ' ' :: dec types.length ++ r1, uli := u',
                       ncells := some types.length }, hy, rfl, rfl, ?_⟩
  simp only [meshStep, hs, hline, hpre, hpre1, hpre2, if_true, Bool.false_eq_true, if_false, typesSection, hh, hread r]

/-! ### The loop of `Body::read_vtk` -/

omit [LinearOrder K] [FloorRing K]

/-- From `st` the loop always gets to `st'`. -/
def BReach (scan : List Char → Option K × List Char) (st st' : BSt K d) : Prop :=
  ∃ k, ∀ fuel, bodyLoop scan (fuel + k) st = bodyLoop scan fuel st'

theorem BReach.refl {scan : List Char → Option K × List Char} (st : BSt K d) : BReach scan st st := ⟨0, fun _ => rfl⟩

theorem BReach.trans {scan : List Char → Option K × List Char} {a b c : BSt K d}
    (h1 : BReach scan a b) (h2 : BReach scan b c) : BReach scan a c := by
  obtain ⟨k1, h1⟩ := h1; obtain ⟨k2, h2⟩ := h2
  exact ⟨k2 + k1, fun f => by rw [← Nat.add_assoc, h1, h2]⟩

theorem BReach.step {scan : List Char → Option K × List Char} {st st' : BSt K d}
    (he : st.s.eof = false) (h : bodyStep scan st = (.ok (), st')) : BReach scan st st' :=
  ⟨1, fun f => by simp [bodyLoop, he, h]⟩

theorem body_skip (scan : List Char → Option K × List Char) (r : List Char) :
    ∀ (ls : List (List Char)), (∀ l ∈ ls, PlainLine [kwData, kwScalars] l) → ∀ st : BSt K d,
      st.s = ofText (linesText ls ++ r) → ∃ line, BReach scan st { st with s := ofText r, line := line } := by
  intro ls
  induction ls with
  | nil =>
    intro _ st hs
    exact ⟨st.line, by
      have : st = { st with s := ofText r } := by cases st; simp_all [linesText]
      exact this ▸ BReach.refl st⟩
  | cons l ls ih =>
    intro hl st hs
    have hp := hl l (by simp)
    have hs' : st.s = ofText (l ++ '\n' :: (linesText ls ++ r)) := by rw [hs]; simp [linesText]
    have hstep : bodyStep scan st = (.ok (), { st with s := ofText (linesText ls ++ r), line := l }) := by
      simp only [bodyStep, hs', getline_line l _ st.line hp.1]
      simp [plain_prefix hp (kw := kwData) (by simp), plain_prefix hp (kw := kwScalars) (by simp)]
    obtain ⟨line, hr⟩ := ih (fun a ha => hl a (by simp [ha])) { st with s := ofText (linesText ls ++ r), line := l } rfl
    exact ⟨line, (BReach.step (by rw [hs']; rfl) hstep).trans hr⟩

theorem body_skip_blank (scan : List Char → Option K × List Char) (x r : List Char) (hx : Layout [] x)
    (st : BSt K d) (hs : st.s = ofText (x ++ r)) : ∃ line, BReach scan st { st with s := ofText r, line := line } := by
  cases hx with
  | nil w hw =>
    obtain ⟨ls, h1, h2⟩ := blank_lines w hw
    rw [h1] at hs
    refine body_skip scan r ls (fun l hl => ?_) st hs
    refine blank_plain (h2 l hl).1 (h2 l hl).2 _ ?_
    intro kw hkw
    simp only [List.mem_cons, List.not_mem_nil, or_false] at hkw
    rcases hkw with rfl | rfl
    · exact ⟨'P', _, rfl, by decide⟩
    · exact ⟨'S', _, rfl, by decide⟩

/-- What `read_vtk` leaves when its second loop ends. -/
def outB (r : Res Unit × BSt K d) : Res (Body K d) := match r with | (.error e, _) => .error e | (.ok _, st) => .ok st.body

/-- One SCALARS section, with anything behind it. -/
theorem field_section (scan : List Char → Option K × List Char) (n : Nat) (name : String) (data : List K) (fs : List (String × List K))
    (rest table : List Char) (toks : List (List Char)) (x y : List Char)
    (hname : name ≠ "") (hnb : ∀ c ∈ name.toList, ¬ Blank c) (hrest : LineEnd rest) (htab : '\n' ∉ table)
    (hlen : data.length = n) (hf : List.Forall₂ (Denotes scan) toks data) (hx : Layout toks x)
    (ih : ∀ st : BSt K d, st.s = ofText y → st.npoints = some n →
      ∃ k, ∀ fuel, outB (bodyLoop scan (fuel + k) st) = st.body.addFields fs) :
    ∀ st : BSt K d, st.s = ofText ("SCALARS".toList ++ ' ' :: name.toList ++ rest ++ ['\n'] ++ (table ++ ['\n']) ++ x ++ y) →
      st.npoints = some n → ∃ k, ∀ fuel, outB (bodyLoop scan (fuel + k) st) = st.body.addFields ((name, data) :: fs) := by
  intro st hs hn
  have hkw : "SCALARS".toList = kwScalars := by decide
  have htxt : "SCALARS".toList ++ ' ' :: name.toList ++ rest ++ ['\n'] ++ (table ++ ['\n']) ++ x ++ y
      = (kwScalars ++ ' ' :: name.toList ++ rest) ++ '\n' :: (table ++ '\n' :: (x ++ y)) := by simp [hkw]
  rw [htxt] at hs
  have hnn : '\n' ∉ kwScalars ++ ' ' :: name.toList ++ rest := by
    simp only [List.mem_append, List.mem_cons, not_or]
    refine ⟨⟨by decide, by decide, fun h => hnb _ h (by simp [Blank])⟩, hrest.1⟩
  have hline := getline_line _ (table ++ '\n' :: (x ++ y)) st.line hnn
  have hline2 := fun cur => getline_line table (x ++ y) cur htab
  have hne : name.toList ≠ [] := fun h => hname (String.toList_eq_nil_iff.mp h)
  have hnm := hdrName_section kwScalars name.toList rest st.name (by decide) (by decide) hne hnb hrest
  have hpre : kwScalars.isPrefixOf (kwScalars ++ ' ' :: name.toList ++ rest) = true := by
    rw [List.append_assoc]; exact isPrefixOf_append _ _
  have hpre1 : kwData.isPrefixOf (kwScalars ++ ' ' :: name.toList ++ rest) = false := by
    simp [kwData, kwScalars, List.isPrefixOf]
  obtain ⟨z, hz, hread⟩ := readNums_layout scan 0 (List.replicate n 0) data toks [] x (by simp [hlen]) hf (by simpa using hx)
  have hofl : String.ofList name.toList = name := String.ofList_toList
  have hstep : bodyStep scan st =
      match st.body.addField name data with
      | .error e => (.error e, { st with s := ofText (z ++ y), line := table, name := name.toList })
      | .ok b => (.ok (), { st with s := ofText (z ++ y), line := table, name := name.toList, body := b }) := by
    simp only [bodyStep, hs, hline, hpre, hpre1, Bool.false_eq_true, if_false, if_true, scalarsSection, hline2, hn,
      hread y, hnm, hofl]
    cases st.body.addField name data <;> rfl
  have heof : st.s.eof = false := by rw [hs]; rfl
  cases hadd : st.body.addField name data with
  | error e =>
    refine ⟨1, fun fuel => ?_⟩
    rw [hadd] at hstep
    simp [bodyLoop, heof, hstep, outB, Body.addFields, hadd, bind, Except.bind]
  | ok b =>
    rw [hadd] at hstep
    have h1 := BReach.step heof hstep
    obtain ⟨line, h2⟩ := body_skip_blank scan z y hz
      { st with s := ofText (z ++ y), line := table, name := name.toList, body := b } rfl
    obtain ⟨k, hk⟩ := h1.trans h2
    obtain ⟨k2, hk2⟩ := ih { st with s := ofText y, line := line, name := name.toList, body := b } rfl hn
    refine ⟨k2 + k, fun fuel => ?_⟩
    rw [← Nat.add_assoc, hk, hk2]
    simp [Body.addFields, hadd, bind, Except.bind]

theorem fields_loop (scan : List Char → Option K × List Char) (n : Nat) (flds : List (String × List K)) (x : List Char)
    (hx : FieldsText scan n flds x) : ∀ st : BSt K d, st.s = ofText x → st.npoints = some n →
      ∃ k, ∀ fuel, outB (bodyLoop scan (fuel + k) st) = st.body.addFields flds := by
  induction hx with
  | nil ls hls =>
    intro st hs hn
    have h1 : ("POINT_DATA".toList) = kwData := by decide
    have h2 : ("SCALARS".toList) = kwScalars := by decide
    rw [h1, h2] at hls
    obtain ⟨line, k, hk⟩ := body_skip scan [] ls hls st (by simpa using hs)
    refine ⟨2 + k, fun fuel => ?_⟩
    rw [← Nat.add_assoc, hk (fuel + 2)]
    have e1 : kwData.isPrefixOf ([] : List Char) = false := by decide
    have e2 : kwScalars.isPrefixOf ([] : List Char) = false := by decide
    simp [bodyLoop, bodyStep, getline_end, outB, Body.addFields, e1, e2]
    simp [ofText]
  | cons name data fs rest table toks x y hname hnb hrest htab hlen hf hx hy ih =>
    exact field_section scan n name data fs rest table toks x y hname hnb hrest htab hlen hf hx ih

end Verif.Vtk
