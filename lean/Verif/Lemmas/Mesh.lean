import Verif.Model.Field
import Verif.Spec.Mesh
import Verif.Lemmas.BinStep
import Verif.Lemmas.Interp
import Mathlib.Algebra.BigOperators.Fin
import Mathlib.Data.List.OfFn

/-! Helper lemmas for the mesh and field properties. -/

namespace Verif
open Spec Bin

section listfn
variable {K : Type} [Field K] [LinearOrder K] [FloorRing K]

omit [FloorRing K] in
theorem inGrid_ofFn {d : Nat} (f g c : Fin d → K) (N : Fin d → Int) :
    InGrid (List.ofFn f) (List.ofFn g) (List.ofFn N) (List.ofFn c) ↔ ∀ i, f i ≤ c i ∧ c i < f i + g i * (N i : K) := by
  induction d with
  | zero => simp [InGrid]
  | succ d ih =>
    simp only [List.ofFn_succ, InGrid, ih, Fin.forall_fin_succ]

omit [Field K] [FloorRing K] in
theorem leAll_ofFn {d : Nat} (f g : Fin d → K) : LeAll (List.ofFn f) (List.ofFn g) ↔ ∀ i, f i ≤ g i := by
  induction d with
  | zero => simp [LeAll]
  | succ d ih => simp only [List.ofFn_succ, LeAll, ih, Fin.forall_fin_succ]

theorem between_ofFn {d : Nat} (f g k : Fin d → Int) :
    Between (List.ofFn f) (List.ofFn g) (List.ofFn k) ↔ ∀ i, f i ≤ k i ∧ k i ≤ g i := by
  induction d with
  | zero => simp [Between]
  | succ d ih => simp only [List.ofFn_succ, Between, ih, Fin.forall_fin_succ]

theorem binOf_ofFn {d : Nat} (f g c : Fin d → K) :
    binOf (List.ofFn f) (List.ofFn g) (List.ofFn c) = List.ofFn fun i => ⌊(c i - f i) / g i⌋ := by
  induction d with
  | zero => simp [binOf]
  | succ d ih => simp only [List.ofFn_succ, binOf, ih]

omit [FloorRing K] in
theorem outOfGrid_ofFn {d : Nat} (f g c : Fin d → K) (N : Fin d → Int) {i : Fin d}
    (h : c i < f i ∨ f i + g i * (N i : K) < c i) :
    OutOfGrid (List.ofFn f) (List.ofFn g) (List.ofFn N) (List.ofFn c) := by
  refine ⟨by simp, i, f i, g i, N i, c i, ?_, ?_, ?_, ?_, h⟩ <;> simp

end listfn

section mapRes
variable {α β : Type}

theorem mapRes_ok {f : α → Res β} {g : α → β} {l : List α} (h : ∀ a ∈ l, f a = .ok (g a)) :
    mapRes f l = .ok (l.map g) := by
  induction l with
  | nil => rfl
  | cons a as ih =>
    rw [mapRes, h a (by simp), ih fun b hb => h b (by simp [hb])]; rfl

end mapRes

namespace Mesh
variable {K : Type} {d n : Nat} [Field K] [LinearOrder K] [FloorRing K] [IsStrictOrderedRing K]

omit [FloorRing K] [Field K] [IsStrictOrderedRing K] in
theorem distinct_aux (pts : List (Fin d → K)) (j : Fin d) (l : List K) (hn : l.Nodup) :
    (pts.foldl (fun l p => addOnceVal l (p j)) l).Nodup ∧
    ∀ x, x ∈ pts.foldl (fun l p => addOnceVal l (p j)) l ↔ x ∈ l ∨ ∃ p ∈ pts, p j = x := by
  induction pts generalizing l with
  | nil => simp [hn]
  | cons p ps ih =>
    simp only [List.foldl_cons]
    have hmem : ∀ x, x ∈ addOnceVal l (p j) ↔ x ∈ l ∨ p j = x := by
      intro x
      unfold addOnceVal
      split
      · next h =>
        simp only [List.any_eq_true, decide_eq_true_eq] at h
        obtain ⟨y, hy, e⟩ := h
        constructor
        · exact Or.inl
        · rintro (h | h)
          · exact h
          · rw [← h, ← e]; exact hy
      · simp [eq_comm]
    have hnd : (addOnceVal l (p j)).Nodup := by
      unfold addOnceVal
      split
      · exact hn
      · next h =>
        simp only [List.any_eq_true, decide_eq_true_eq, not_exists, not_and] at h
        refine List.Nodup.append hn (by simp) ?_
        intro x hx hx2
        simp only [List.mem_singleton] at hx2
        exact h x hx hx2
    obtain ⟨h1, h2⟩ := ih _ hnd
    refine ⟨h1, fun x => ?_⟩
    rw [h2, hmem]
    simp only [List.mem_cons, exists_eq_or_imp]
    tauto

omit [FloorRing K] [Field K] [IsStrictOrderedRing K] in
theorem mem_distinct (pts : List (Fin d → K)) (j : Fin d) (x : K) : x ∈ distinct pts j ↔ ∃ p ∈ pts, p j = x := by
  have := (distinct_aux pts j [] List.nodup_nil).2 x
  simpa [distinct] using this

omit [FloorRing K] [Field K] [IsStrictOrderedRing K] in
theorem length_distinct (pts : List (Fin d → K)) (j : Fin d) : (distinct pts j).length = nDistinct pts j := by
  have hn : (distinct pts j).Nodup := (distinct_aux pts j [] List.nodup_nil).1
  unfold nDistinct
  rw [← List.toFinset_card_of_nodup hn]
  congr 1
  ext x
  simp [mem_distinct]

omit [FloorRing K] [IsStrictOrderedRing K] in
theorem axis_spec {value : List K} (hv : value ≠ []) :
    ∃ lo hi, axis value = .ok ⟨lo, hi, (hi - lo) / (value.length : K), lo - (hi - lo) / (value.length : K),
        (value.length : Int) + 2⟩ ∧
      lo ∈ value ∧ hi ∈ value ∧ ∀ x ∈ value, lo ≤ x ∧ x ≤ hi := by
  have hp := List.perm_insertionSort (· ≤ ·) value
  have hs : (value.insertionSort (· ≤ ·)).Pairwise (· ≤ ·) := List.pairwise_insertionSort (· ≤ ·) value
  have hlen := hp.length_eq
  have hpos : 0 < value.length := List.length_pos_iff.mpr hv
  set s := value.insertionSort (· ≤ ·) with hsdef
  have h0 : vget s 0 = .ok s[0] := vget_nat s 0 (by omega)
  have h1 : vget s ((s.length : Int) - 1) = .ok (s[s.length - 1]'(by omega)) := by
    have := vget_nat s (s.length - 1) (by omega)
    rw [← this]; congr 1; omega
  refine ⟨s[0], s[s.length - 1], ?_, ?_, ?_, ?_⟩
  · simp only [axis, ← hsdef, h0, h1, ok_bind]
    have e1 : ((s.length : Nat) : K) = (value.length : K) := by rw [hlen]
    have e2 : ((s.length : Nat) : Int) = (value.length : Int) := by rw [hlen]
    rw [e1, e2]
  · exact hp.mem_iff.mp (List.getElem_mem _)
  · exact hp.mem_iff.mp (List.getElem_mem _)
  · intro x hx
    obtain ⟨i, hi, rfl⟩ := List.mem_iff_getElem.mp (hp.mem_iff.mpr hx)
    rw [List.pairwise_iff_getElem] at hs
    constructor
    · rcases Nat.eq_zero_or_pos i with e | e
      · subst e; exact le_refl _
      · exact hs 0 i _ _ e
    · rcases Nat.lt_or_ge i (s.length - 1) with e | e
      · exact hs i _ _ _ e
      · have : i = s.length - 1 := by omega
        subst this; exact le_refl _

/-- Grid parameters of a mesh with bounding box `[lo, hi]`. -/
structure GridOf (pts : List (Fin d → K)) (lo hi : Fin d → K) : Prop where
  low : ∀ i, IsLow pts i (lo i)
  high : ∀ i, IsHigh pts i (hi i)

/-- Bin width. -/
def gIncr (pts : List (Fin d → K)) (lo hi : Fin d → K) : Fin d → K := fun i => margin pts i (lo i) (hi i)
/-- Lower corner of the bins. -/
def gMin (pts : List (Fin d → K)) (lo hi : Fin d → K) : Fin d → K := fun i => lo i - margin pts i (lo i) (hi i)
/-- Number of bins. -/
def gN (pts : List (Fin d → K)) : Fin d → Int := fun i => (nDistinct pts i : Int) + 2

omit [FloorRing K] [IsStrictOrderedRing K] in
theorem readPoints_eq (m : Mesh K d) {pts : List (Fin d → K)} (hne : pts ≠ []) :
    ∃ lo hi, GridOf pts lo hi ∧ readPoints m pts = (do
      let bin ← Bin.mk' (List.ofFn (gMin pts lo hi)) (List.ofFn (gIncr pts lo hi)) (List.ofFn (gN pts))
      .ok { min := fun j => some (lo j), max := fun j => some (hi j), node := m.node ++ pts, interp := m.interp,
            bin := bin }) := by
  have hd : ∀ j, distinct pts j ≠ [] := by
    intro j he
    obtain ⟨p, hp⟩ := List.exists_mem_of_ne_nil pts hne
    have := (mem_distinct pts j (p j)).mpr ⟨p, hp, rfl⟩
    rw [he] at this; simp at this
  choose lo hi hax hlo hhi hall using fun j => axis_spec (hd j)
  refine ⟨lo, hi, ⟨fun j => ⟨(mem_distinct _ _ _).mp (hlo j), fun p hp => (hall j _ ((mem_distinct _ _ _).mpr ⟨p, hp, rfl⟩)).1⟩,
    fun j => ⟨(mem_distinct _ _ _).mp (hhi j), fun p hp => (hall j _ ((mem_distinct _ _ _).mpr ⟨p, hp, rfl⟩)).2⟩⟩, ?_⟩
  have hm : mapRes (fun j => axis (distinct pts j)) (List.finRange d) = .ok (List.ofFn fun j =>
      (⟨lo j, hi j, gIncr pts lo hi j, gMin pts lo hi j, gN pts j⟩ : Axis K)) := by
    rw [List.ofFn_eq_map]
    apply mapRes_ok
    intro j _
    rw [hax j]
    simp [gIncr, gMin, gN, margin, length_distinct]
  simp only [readPoints, hm, ok_bind, List.map_ofFn, Function.comp_def]
  simp

/-- What the lemmas need of an element class: corner offsets, and a region `R` containing all points its range tests accept. -/
structure ElemLaw (E : ElemOps K d) (unit : Fin n → Fin d → K) (R : (a h c : Fin d → K) → Prop) : Prop where
  dpos : 0 < d
  npos : 0 < n
  corners : E.corners = n
  far : E.far < n
  unit_far : ∀ h : E.far < n, unit ⟨E.far, h⟩ = fun _ => 1
  unit_zero : ∀ h : 0 < n, unit ⟨0, h⟩ = fun _ => 0
  node : ∀ nd el p h j, (E.make nd el p h j).node = nd
  element : ∀ nd el p h j, (E.make nd el p h j).element = el
  min_eq : ∀ nd el a h (j : Fin n), (E.make nd el (cornerPos a h (unit j)) h j).min = a
  max_eq : ∀ nd el a h (j : Fin n), (E.make nd el (cornerPos a h (unit j)) h j).max = fun i => a i + h i
  range_sub : ∀ nd el a h (j : Fin n) c, (∀ i, 0 < h i) →
    E.inRange (E.make nd el (cornerPos a h (unit j)) h j) c = true → R a h c
  range_all : ∀ a h c, (∀ i, 0 < h i) → R a h c →
    ∃ j : Fin n, ∀ nd el, E.inRange (E.make nd el (cornerPos a h (unit j)) h j) c = true
  range_cov : ∀ a h c, (∀ i, 0 < h i) → InCell a h c →
    ∃ j : Fin n, ∀ nd el, E.inRange (E.make nd el (cornerPos a h (unit j)) h j) c = true

/-- The part of `ElemLaw` that building the interpolators needs. -/
structure ElemShape (E : ElemOps K d) (unit : Fin n → Fin d → K) : Prop where
  npos : 0 < n
  corners : E.corners = n
  far : E.far < n
  unit_far : ∀ h : E.far < n, unit ⟨E.far, h⟩ = fun _ => 1
  unit_zero : ∀ h : 0 < n, unit ⟨0, h⟩ = fun _ => 0
  element : ∀ nd el p h j, (E.make nd el p h j).element = el

variable {E : ElemOps K d} {unit : Fin n → Fin d → K} {R : (a h c : Fin d → K) → Prop}

omit [FloorRing K] [IsStrictOrderedRing K] in
theorem ElemLaw.shape (L : ElemLaw E unit R) : ElemShape E unit :=
  ⟨L.npos, L.corners, L.far, L.unit_far, L.unit_zero, L.element⟩

/-- The interpolators of a rectangular cell. -/
def cellInterps (E : ElemOps K d) (unit : Fin n → Fin d → K) (el : Nat) (cell : List Nat) (a h : Fin d → K) :
    List (Interp K d) :=
  List.ofFn fun j : Fin n => E.make (cell.getD j 0) el (cornerPos a h (unit j)) h j

omit [FloorRing K] [IsStrictOrderedRing K] in
theorem makeCell_of_shape (L : ElemShape E unit) {pts : List (Fin d → K)} {cell : List Nat} {a h : Fin d → K} (el : Nat)
    (hc : CellAt unit pts cell a h) : makeCell E pts el cell = .ok (cellInterps E unit el cell a h) := by
  obtain ⟨hl, hh, hj⟩ := hc
  have hget : ∀ j : Fin n, vget cell ((j : Nat) : Int) = .ok (cell.getD j 0) ∧
      vget pts ((cell.getD j 0 : Nat) : Int) = .ok (cornerPos a h (unit j)) := by
    intro j
    obtain ⟨p, h1, h2⟩ := hj j
    have e : cell.getD j 0 = p := by simp [h1]
    rw [e]
    exact ⟨by simp [vget, h1], by simp [vget, h2]⟩
  have h1 := hget ⟨E.far, L.far⟩
  have h2 := hget ⟨0, L.npos⟩
  simp only [Nat.cast_zero] at h2
  unfold makeCell
  rw [h1.1, ok_bind, h2.1, ok_bind, h1.2, ok_bind, h2.2, ok_bind]
  have hdim : (fun i => cornerPos a h (unit ⟨E.far, L.far⟩) i - cornerPos a h (unit ⟨0, L.npos⟩) i) = h := by
    funext i
    simp [cornerPos, L.unit_far, L.unit_zero]
  simp only [hdim, L.corners]
  rw [cellInterps, List.ofFn_eq_map, ← List.map_coe_finRange_eq_range]
  have : mapRes (fun j => (do
      let nj ← vget cell ((j : Nat) : Int)
      let pj ← vget pts ((nj : Nat) : Int)
      .ok (E.make nj el pj h j) : Res (Interp K d))) (List.map (fun x : Fin n => (x : Nat)) (List.finRange n)) = 
      mapRes (fun j : Fin n => (do
      let nj ← vget cell ((j : Nat) : Int)
      let pj ← vget pts ((nj : Nat) : Int)
      .ok (E.make nj el pj h j) : Res (Interp K d))) (List.finRange n) := by
    generalize List.finRange n = l
    induction l with
    | nil => rfl
    | cons x xs ih => simp only [List.map_cons, mapRes, ih]
  refine Eq.trans this ?_
  apply mapRes_ok
  intro j _
  rw [(hget j).1, ok_bind, (hget j).2, ok_bind]

/-- Lemma-side description of a list of interpolators built from a list of cells numbered from `el0`. -/
structure Interps (E : ElemOps K d) (unit : Fin n → Fin d → K) (pts : List (Fin d → K)) (cells : List (List Nat)) (el0 : Nat)
    (qs : List (Interp K d)) : Prop where
  mem : ∀ q ∈ qs, ∃ e cell a h, cells[e]? = some cell ∧ CellAt unit pts cell a h ∧ ∃ j : Fin n,
    q = E.make (cell.getD j 0) (el0 + e) (cornerPos a h (unit j)) h j
  filt : ∀ e cell, cells[e]? = some cell → ∃ a h, CellAt unit pts cell a h ∧
    qs.filter (fun q => q.element = el0 + e) = cellInterps E unit (el0 + e) cell a h
  sorted : qs.Pairwise fun q q' => q.element ≤ q'.element

omit [FloorRing K] [IsStrictOrderedRing K] in
theorem makeCells_of_shape (L : ElemShape E unit) {pts : List (Fin d → K)} (cells : List (List Nat)) (el0 : Nat)
    (hc : ∀ cell ∈ cells, ∃ a h, CellAt unit pts cell a h) :
    ∃ qs, makeCells E pts el0 cells = .ok qs ∧ Interps E unit pts cells el0 qs := by
  induction cells generalizing el0 with
  | nil => exact ⟨[], rfl, by simp, by simp, by simp⟩
  | cons c cs ih =>
    obtain ⟨a, h, hah⟩ := hc c (by simp)
    obtain ⟨qs, h1, h2⟩ := ih (el0 + 1) fun x hx => hc x (by simp [hx])
    refine ⟨cellInterps E unit el0 c a h ++ qs, ?_, ?_, ?_, ?_⟩
    · simp only [makeCells, makeCell_of_shape L el0 hah, ok_bind, h1]
    · intro q hq
      rcases List.mem_append.mp hq with hq | hq
      · simp only [cellInterps, List.mem_ofFn] at hq
        obtain ⟨j, hj⟩ := hq
        exact ⟨0, c, a, h, rfl, hah, j, by rw [← hj]; simp⟩
      · obtain ⟨e, cell, a', h', he, hce, j, hj⟩ := h2.mem q hq
        exact ⟨e + 1, cell, a', h', by simpa using he, hce, j, by rw [hj]; congr 1; omega⟩
    · have hfirst : ∀ k, (cellInterps E unit el0 c a h).filter (fun q => q.element = k) =
          if el0 = k then cellInterps E unit el0 c a h else [] := by
        intro k
        split
        · next e =>
          rw [List.filter_eq_self]
          intro q hq
          simp only [cellInterps, List.mem_ofFn] at hq
          obtain ⟨j, hj⟩ := hq
          rw [← hj]; simp [L.element, e]
        · next e =>
          rw [List.filter_eq_nil_iff]
          intro q hq
          simp only [cellInterps, List.mem_ofFn] at hq
          obtain ⟨j, hj⟩ := hq
          rw [← hj]; simp [L.element, e]
      intro e cell he
      cases e with
      | zero =>
        simp only [List.getElem?_cons_zero, Option.some.injEq] at he
        subst he
        refine ⟨a, h, hah, ?_⟩
        rw [List.filter_append, hfirst]
        have : qs.filter (fun q => decide (q.element = el0 + 0)) = [] := by
          rw [List.filter_eq_nil_iff]
          intro q hq
          obtain ⟨e, cell, a', h', he, hce, j, hj⟩ := h2.mem q hq
          rw [hj]; simp [L.element]; omega
        rw [this]; simp
      | succ e =>
        obtain ⟨a', h', hce, hf⟩ := h2.filt e cell (by simpa using he)
        refine ⟨a', h', hce, ?_⟩
        have e1 : el0 + (e + 1) = el0 + 1 + e := by omega
        rw [e1, List.filter_append, hfirst, hf, if_neg (by omega), List.nil_append]
    · have hel : ∀ q ∈ cellInterps E unit el0 c a h, q.element = el0 := by
        intro q hq
        simp only [cellInterps, List.mem_ofFn] at hq
        obtain ⟨j, hj⟩ := hq
        rw [← hj]; simp [L.element]
      rw [List.pairwise_append]
      refine ⟨?_, h2.sorted, ?_⟩
      · refine List.Pairwise.imp_of_mem (R := fun _ _ => True) ?_ (List.pairwise_of_forall fun _ _ => trivial)
        intro q q' hq hq' _
        rw [hel q hq, hel q' hq']
      · intro q hq q' hq'
        obtain ⟨e, cell, a', h', he, hce, j, hj⟩ := h2.mem q' hq'
        rw [hel q hq, hj, L.element]; omega

omit [FloorRing K] [IsStrictOrderedRing K] in
theorem makeCells_of (L : ElemLaw E unit R) {pts : List (Fin d → K)} (cells : List (List Nat)) (el0 : Nat)
    (hc : ∀ cell ∈ cells, ∃ a h, CellAt unit pts cell a h) :
    ∃ qs, makeCells E pts el0 cells = .ok qs ∧ Interps E unit pts cells el0 qs := makeCells_of_shape L.shape cells el0 hc

end Mesh
end Verif
