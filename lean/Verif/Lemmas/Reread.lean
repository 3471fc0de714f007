import Verif.Lemmas.Field

/-! Helper lemmas: reading a second file into a body (C90). -/

namespace Verif
open Spec Bin
namespace Mesh
variable {K : Type} {d n : Nat} [Field K] [LinearOrder K] [FloorRing K] [IsStrictOrderedRing K]
variable {E : ElemOps K d} {unit : Fin n → Fin d → K} {R : (a h c : Fin d → K) → Prop}
variable {pts : List (Fin d → K)} {cells : List (List Nat)} {lo hi : Fin d → K} {qs : List (Interp K d)} {m : Mesh K d}

omit [Field K] [LinearOrder K] [FloorRing K] [IsStrictOrderedRing K] in
theorem firstInRange_append {c : Fin d → K} {l l' : List (Interp K d)} {q : Interp K d} (h : firstInRange E c l = some q) :
    firstInRange E c (l ++ l') = some q := by
  induction l with
  | nil => simp [firstInRange] at h
  | cons x xs ih =>
    simp only [firstInRange, List.cons_append] at h ⊢
    split_ifs at h ⊢ with hx
    · exact h
    · exact ih h

omit [FloorRing K] [IsStrictOrderedRing K] in
theorem makeCells_prefix (L : ElemLaw E unit R) {pts more : List (Fin d → K)} (cells : List (List Nat)) (el0 : Nat)
    (hc : ∀ cell ∈ cells, ∃ a h, CellAt unit pts cell a h) : makeCells E (pts ++ more) el0 cells = makeCells E pts el0 cells := by
  induction cells generalizing el0 with
  | nil => rfl
  | cons c cs ih =>
    obtain ⟨a, h, hah⟩ := hc c (by simp)
    have hah' : CellAt unit (pts ++ more) c a h := by
      refine ⟨hah.1, hah.2.1, fun j => ?_⟩
      obtain ⟨p, h1, h2⟩ := hah.2.2 j
      exact ⟨p, h1, by rw [List.getElem?_append_left (List.getElem?_eq_some_iff.mp h2).1]; exact h2⟩
    simp only [makeCells, makeCell_of_shape L.shape el0 hah, makeCell_of_shape L.shape el0 hah', ih (el0 + 1) fun x hx => hc x (by simp [hx])]

/-- Reading the same file once more into a mesh. -/
theorem reread_of (L : ElemLaw E unit R) (hm : RectMesh unit pts cells) (hbd : build E pts cells = .ok m)
    (hb : Built E unit pts cells lo hi qs m) (m1 : Mesh K d) (h1 : m1.node = m.node) (h2 : m1.interp = m.interp) :
    ∃ m2, m1.readInto E pts cells = .ok m2 ∧ m2.interp = qs ++ qs ∧ m2.node = pts ++ pts ∧
      Bin.Inv m2.bin (List.ofFn (gMin pts lo hi)) (List.ofFn (gIncr pts lo hi)) (List.ofFn (gN pts)) ∧
      ∀ k, InBox (List.ofFn (gN pts)) k → cell m2.bin.item (List.ofFn (gN pts)) k = inBin pts lo hi qs k ++ inBin pts lo hi qs k := by
  obtain ⟨c0, hc0⟩ := List.exists_mem_of_ne_nil cells hm.nonempty
  obtain ⟨a0, h0, hah0⟩ := hm.rect c0 hc0
  have hne : pts ≠ [] := List.ne_nil_of_mem (cellAt_mem L hah0).1
  have hmk := makeCells_of L cells 0 hm.rect
  have hqs : makeCells E pts 0 cells = .ok qs := by
    obtain ⟨lo0, hi0, hg0, hr0⟩ := readPoints_eq (K := K) (Mesh.empty) hne
    unfold build at hbd
    rw [hr0] at hbd
    obtain ⟨m', e1, e2⟩ := bind_eq_ok.mp hbd
    obtain ⟨bin, e3, e4⟩ := bind_eq_ok.mp e1
    cases e4
    simp only [readCells, Mesh.empty, List.nil_append] at e2
    obtain ⟨new, e5, e6⟩ := bind_eq_ok.mp e2
    obtain ⟨bin', e7, e8⟩ := bind_eq_ok.mp e6
    cases e8
    rw [e5, ← hb.interp_eq]
  obtain ⟨lo', hi', hg, hr⟩ := readPoints_eq (K := K) m1 hne
  have hlo : lo' = lo := by funext i; exact isLow_unique (hg.low i) (hb.grid.low i)
  have hhi : hi' = hi := by funext i; exact isHigh_unique (hg.high i) (hb.grid.high i)
  subst hlo hhi
  have hbk := mk'_eq (Interp K d) hb.good.1 hb.good.2.1 hb.good.2.2.2
  obtain ⟨hinv, hcell⟩ := mk'_inv hb.good hbk
  rw [hbk] at hr
  simp only [ok_bind] at hr
  have hgrid : ∀ c : Fin d → K, (∀ i, lo' i ≤ c i ∧ c i ≤ hi' i) →
      InGrid (List.ofFn (gMin pts lo' hi')) (List.ofFn (gIncr pts lo' hi')) (List.ofFn (gN pts)) (List.ofFn c) := by
    intro c hc
    rw [inGrid_ofFn]
    intro i
    rw [grid_top i (hb.npos i)]
    have := hb.incr_pos i
    have h1 := (hc i).1
    have h2 := (hc i).2
    have e : gMin pts lo' hi' i = lo' i - gIncr pts lo' hi' i := rfl
    rw [e]
    constructor <;> linarith
  have hq : ∀ q ∈ qs, InGrid (List.ofFn (gMin pts lo' hi')) (List.ofFn (gIncr pts lo' hi')) (List.ofFn (gN pts)) (List.ofFn q.min) ∧
      InGrid (List.ofFn (gMin pts lo' hi')) (List.ofFn (gIncr pts lo' hi')) (List.ofFn (gN pts)) (List.ofFn q.max) ∧
      ∀ i, q.min i ≤ q.max i := by
    intro q hq
    obtain ⟨e, cell, a, h, he, hce, j, hj⟩ := hb.ints.mem q hq
    have hmin : q.min = a := by rw [hj]; exact L.min_eq _ _ _ _ _
    have hmax : q.max = fun i => a i + h i := by rw [hj]; exact L.max_eq _ _ _ _ _
    obtain ⟨m1, m2⟩ := cellAt_mem L hce
    have hp := hce.2.1
    rw [hmin, hmax]
    refine ⟨hgrid _ fun i => ⟨(hg.low i).2 _ m1, (hg.high i).2 _ m1⟩, hgrid _ fun i => ⟨(hg.low i).2 _ m2, (hg.high i).2 _ m2⟩, ?_⟩
    intro i; linarith [hp i]
  obtain ⟨b', f1, f2, f3⟩ := fileAll_of hb.good (qs ++ qs) (by
    intro q hq'; rcases List.mem_append.mp hq' with h | h <;> exact hq q h) hinv
  refine ⟨⟨fun j => some (lo' j), fun j => some (hi' j), pts ++ pts, qs ++ qs, b'⟩, ?_, rfl, rfl, f2, ?_⟩
  · unfold readInto
    rw [hr, ok_bind, h1, h2, hb.node_eq, hb.interp_eq]
    simp only [readCells]
    rw [makeCells_prefix L cells 0 hm.rect, hqs, ok_bind, f1]
    rfl
  · intro k hk
    rw [f3 k hk, hcell k, List.nil_append, List.filter_append]
    rfl

end Mesh

namespace PField
open Mesh
variable {K : Type} {d n : Nat} [Field K] [LinearOrder K] [FloorRing K] [IsStrictOrderedRing K]
variable {E : ElemOps K d} {unit : Fin n → Fin d → K} {R : (a h c : Fin d → K) → Prop}
variable {pts : List (Fin d → K)} {cells : List (List Nat)} {lo hi : Fin d → K} {qs : List (Interp K d)} {m m2 : Mesh K d}

/-- A field made over the mesh read twice. -/
theorem make_twice (hb : Built E unit pts cells lo hi qs m)
    (hi' : Bin.Inv m2.bin (List.ofFn (gMin pts lo hi)) (List.ofFn (gIncr pts lo hi)) (List.ofFn (gN pts)))
    (hcont : ∀ k, InBox (List.ofFn (gN pts)) k →
      cell m2.bin.item (List.ofFn (gN pts)) k = inBin pts lo hi qs k ++ inBin pts lo hi qs k)
    (hne : pts ≠ []) (name : String) (data : List K) (z : K) :
    ∃ f, make m2 name data z = .ok f ∧ f.name = name ∧ f.data = data ∧ f.zero = z ∧ (∀ x ∈ f.buf.ni, x < pts.length) ∧
      ∀ k, InBox (List.ofFn (gN pts)) k → (inBin pts lo hi qs k ++ inBin pts lo hi qs k).length ≤ f.buf.bf.length ∧
        (inBin pts lo hi qs k ++ inBin pts lo hi qs k).length ≤ f.buf.ni.length := by
  have hp := prod_pos hb.good.2.2.2.2.1
  have hlen := hi'.item_ok.len_eq
  obtain ⟨M, h1, h2, h3, _⟩ := maxSizeLoop_spec (item := m2.bin.item) m2.bin.item.volume.toNat 0 0
    (by rw [hi'.item_ok.vol_eq]; omega)
  have hall : ∀ k, InBox (List.ofFn (gN pts)) k → (inBin pts lo hi qs k ++ inBin pts lo hi qs k).length ≤ M.toNat := by
    intro k hk
    have hc := hcont k hk
    have d0 := dot_nonneg hb.good.2.2.2.2.1 hk
    have d1 := dot_lt hb.good.2.2.2.2.1 hk
    have hlt : (dot (List.ofFn (gN pts)) k).toNat < m2.bin.item.val.length := by omega
    have := h3 _ (Nat.zero_le _) _ (List.getElem?_eq_getElem hlt)
    have e : inBin pts lo hi qs k ++ inBin pts lo hi qs k = m2.bin.item.val[(dot (List.ofFn (gN pts)) k).toNat] := by
      rw [← hc]; simp [cell, List.getElem?_eq_getElem hlt]
    rw [e]; omega
  have hmax : m2.bin.maxSize = .ok M := h1
  refine ⟨_, by rw [make, hmax]; rfl, rfl, rfl, rfl, ?_, fun k hk => ⟨by simpa using hall k hk, by simpa using hall k hk⟩⟩
  intro x hx
  rw [(List.mem_replicate.mp hx).2]
  exact List.length_pos_iff.mpr hne

/-- Its value is twice what it should be. -/
theorem value_twice (L : ElemLaw E unit R) (T : ElemTotal E) (hb : Built E unit pts cells lo hi qs m) {f0 f : PField K}
    (hf0 : FOk pts lo hi qs f0) (hz : f0.zero = 0) (hdat : f.data = f0.data) (hz' : f.zero = 0)
    (hi' : Bin.Inv m2.bin (List.ofFn (gMin pts lo hi)) (List.ofFn (gIncr pts lo hi)) (List.ofFn (gN pts)))
    (hcont : ∀ k, InBox (List.ofFn (gN pts)) k →
      cell m2.bin.item (List.ofFn (gN pts)) k = inBin pts lo hi qs k ++ inBin pts lo hi qs k)
    (hidx : ∀ x ∈ f.buf.ni, x < pts.length)
    (hbuf : ∀ k, InBox (List.ofFn (gN pts)) k → (inBin pts lo hi qs k ++ inBin pts lo hi qs k).length ≤ f.buf.bf.length ∧
        (inBin pts lo hi qs k ++ inBin pts lo hi qs k).length ≤ f.buf.ni.length)
    {c : Fin d → K} (hc : Covered unit pts cells c) :
    ∃ v, (f0.value E m c).1 = .ok v ∧ (f.value E m2 c).1 = .ok (2 * v) := by
  obtain ⟨g, hg⟩ := T.value c
  have hin := hb.inBins_of_covered L hc
  have hk := hb.inBox hin
  obtain ⟨q, e, cl, a, h, g1, _⟩ := hb.found L hc
  have hnode := hb.node_lt L
  obtain ⟨m', e1, _, _⟩ := fill_in hb hf0.buf g hin
  have hlen := hf0.data_len
  have hs := sum_after (E := E) g g1 f0.data 0 (hf0.buf.bf _ hk) (hf0.buf.ni _ hk) (by rw [hlen]; exact hf0.buf.idx)
    (by rw [hlen]; intro p hp; exact hnode p (List.mem_of_mem_filter hp))
  refine ⟨0 + ((inBin pts lo hi qs (binAt pts lo hi c)).filter (fun p => p.element = q.element) |>.map
    fun p => g p * f0.data.getD p.node 0).sum, ?_, ?_⟩
  · unfold value basisFunctions
    rw [hg, e1]
    simp only [hz, hs]
  · obtain ⟨b', c1, c2, c3⟩ := contents_in hb.good hi' (hb.inGrid hin)
    have hcc : cell m2.bin.item (List.ofFn (gN pts)) (binOf (List.ofFn (gMin pts lo hi)) (List.ofFn (gIncr pts lo hi))
      (List.ofFn c)) = inBin pts lo hi qs (binAt pts lo hi c) ++ inBin pts lo hi qs (binAt pts lo hi c) := hcont _ hk
    rw [hcc] at c1
    have g1' := firstInRange_append (l' := inBin pts lo hi qs (binAt pts lo hi c)) g1
    have hfill : fill E (fun q => .ok (g q)) m2 c f.buf =
        (.ok (inBin pts lo hi qs (binAt pts lo hi c) ++ inBin pts lo hi qs (binAt pts lo hi c)).length, { m2 with bin := b' },
          after E g c (inBin pts lo hi qs (binAt pts lo hi c) ++ inBin pts lo hi qs (binAt pts lo hi c)) f.buf) := by
      unfold fill after
      rw [c1]
      simp only [g1']
      rw [fillLoop_of g q.element _ 0 f.buf (by have := (hbuf _ hk).1; omega) (by have := (hbuf _ hk).2; omega)]
      simp
    have hs2 := sum_after (E := E) g g1' f.data 0 (hbuf _ hk).1 (hbuf _ hk).2 (by rw [hdat, hlen]; exact hidx)
      (by
        rw [hdat, hlen]; intro p hp
        rcases List.mem_append.mp hp with hp | hp <;> exact hnode p (List.mem_of_mem_filter hp))
    unfold value basisFunctions
    rw [hg, hfill]
    simp only [hz', hs2]
    rw [hdat, List.filter_append, List.map_append, List.sum_append]
    congr 1
    ring

end PField

namespace Body
open Mesh PField
variable {K : Type} {d n : Nat} [Field K] [LinearOrder K] [FloorRing K]

omit [LinearOrder K] [FloorRing K] in
/-- Adding fields changes neither the mesh nor the fields already there. -/
theorem addFields_spec {flds : List (String × List K)} : ∀ {b b' : Body K d}, addFields b flds = .ok b' →
    b'.mesh = b.mesh ∧ ∃ new, b'.fields = b.fields ++ new ∧ new.map (fun f => (f.name, f.data)) = flds := by
  induction flds with
  | nil => intro b b' h; cases h; exact ⟨rfl, [], by simp, rfl⟩
  | cons fl fls ih =>
    intro b b' h
    obtain ⟨b1, h1, h2⟩ := bind_eq_ok.mp h
    obtain ⟨f, h3, h4⟩ := bind_eq_ok.mp h1
    cases h4
    obtain ⟨e1, new, e2, e3⟩ := ih h2
    obtain ⟨M, h5, h6⟩ := bind_eq_ok.mp h3
    cases h6
    exact ⟨e1, _, by rw [e2, List.append_assoc], by simp [e3]⟩

variable [IsStrictOrderedRing K]
variable {E : ElemOps K d} {unit : Fin n → Fin d → K} {R : (a h c : Fin d → K) → Prop}
variable {pts : List (Fin d → K)} {cells : List (List Nat)} {lo hi : Fin d → K} {qs : List (Interp K d)} {m m2 : Mesh K d}

/-- Every field added to a mesh read twice. -/
theorem addFields_twice (hb : Built E unit pts cells lo hi qs m)
    (hi' : Bin.Inv m2.bin (List.ofFn (gMin pts lo hi)) (List.ofFn (gIncr pts lo hi)) (List.ofFn (gN pts)))
    (hcont : ∀ k, InBox (List.ofFn (gN pts)) k →
      cell m2.bin.item (List.ofFn (gN pts)) k = inBin pts lo hi qs k ++ inBin pts lo hi qs k)
    (hne : pts ≠ []) (flds : List (String × List K)) : ∀ fs : List (PField K), ∃ new, addFields ⟨m2, fs⟩ flds = .ok ⟨m2, fs ++ new⟩ ∧
      List.Forall₂ (fun f fl => f.name = fl.1 ∧ f.data = fl.2 ∧ f.zero = 0 ∧ (∀ x ∈ f.buf.ni, x < pts.length) ∧
        ∀ k, InBox (List.ofFn (gN pts)) k → (inBin pts lo hi qs k ++ inBin pts lo hi qs k).length ≤ f.buf.bf.length ∧
        (inBin pts lo hi qs k ++ inBin pts lo hi qs k).length ≤ f.buf.ni.length) new flds := by
  induction flds with
  | nil => intro fs; exact ⟨[], by simp [addFields], .nil⟩
  | cons fl fls ih =>
    intro fs
    obtain ⟨f, h1, h2, h3, h4, h5, h6⟩ := make_twice hb hi' hcont hne fl.1 fl.2 0
    obtain ⟨new, g1, g2⟩ := ih (fs ++ [f])
    refine ⟨f :: new, ?_, .cons ⟨h2, h3, h4, h5, h6⟩ g2⟩
    simp only [addFields, addField, h1, ok_bind, g1]
    simp

/-- Reading the same file again into a body: the fields added are twice what they should be. -/
theorem loadInto_twice (L : ElemLaw E unit R) (T : ElemTotal E) {flds : List (String × List K)} (hm : RectMesh unit pts cells)
    (hl : ∀ fl ∈ flds, fl.2.length = pts.length) {b : Body K d} (hb : load E pts cells flds = .ok b) :
    ∃ b2, b.loadInto E pts cells flds = .ok b2 ∧ b2.mesh.node = pts ++ pts ∧
      b2.fields.map (fun f => (f.name, f.data)) = flds ++ flds ∧
      ∀ i, i < flds.length → ∀ c, Covered unit pts cells c →
        ∃ v, b.value E i c = .ok v ∧ b2.value E (flds.length + i) c = .ok (2 * v) := by
  obtain ⟨b0, lo, hi, qs, h1, h2⟩ := load_ok L hm hl
  rw [hb] at h1; cases h1
  obtain ⟨c0, hc0⟩ := List.exists_mem_of_ne_nil cells hm.nonempty
  obtain ⟨a0, h0, hah0⟩ := hm.rect c0 hc0
  have hne : pts ≠ [] := List.ne_nil_of_mem (cellAt_mem L hah0).1
  obtain ⟨m, g1, g2⟩ := bind_eq_ok.mp hb
  have hmesh : b.mesh = m := (addFields_spec g2).1
  obtain ⟨m2, e1, _, e3, e4, e5⟩ := reread_of L hm g1 (hmesh ▸ h2.mesh) b.mesh (by rw [hmesh]) (by rw [hmesh])
  obtain ⟨new, f1, f2⟩ := addFields_twice h2.mesh e4 e5 hne flds b.fields
  have hlen : b.fields.length = flds.length := h2.fields.length_eq
  refine ⟨⟨m2, b.fields ++ new⟩, by simp only [loadInto, e1, ok_bind, f1], e3, ?_, ?_⟩
  · have p1 : ∀ {P : PField K → String × List K → Prop} {l : List (PField K)} {fl : List (String × List K)},
        List.Forall₂ P l fl → (∀ f x, P f x → f.name = x.1 ∧ f.data = x.2) → l.map (fun f => (f.name, f.data)) = fl := by
      intro P l fl h hP
      induction h with
      | nil => rfl
      | cons hd _ ih => simp [ih, hP _ _ hd]
    rw [List.map_append, p1 h2.fields fun f x h => ⟨h.1, h.2.1⟩, p1 f2 fun f x h => ⟨h.1, h.2.1⟩]
  · intro i hi' c hc
    have hl1 : i < b.fields.length := by omega
    have hl2 : i < new.length := by rw [f2.length_eq]; exact hi'
    have q1 := (List.forall₂_iff_get.mp h2.fields).2 i hl1 hi'
    have q2 := (List.forall₂_iff_get.mp f2).2 i hl2 hi'
    obtain ⟨r1, r2, r3, r4⟩ := q1
    obtain ⟨s1, s2, s3, s4, s5⟩ := q2
    obtain ⟨v, k1, k2⟩ := value_twice L T h2.mesh r4 r3 (s2.trans r2.symm) s3 e4 e5 s4 s5 hc
    refine ⟨v, ?_, ?_⟩
    · simp only [value, List.getElem?_eq_getElem hl1]; exact k1
    · have : (b.fields ++ new)[flds.length + i]? = some new[i] := by
        rw [← hlen, List.getElem?_append_right (by omega)]
        simp [hl2]
      simp only [value, this]; exact k2

end Body
end Verif
