import Verif.Lemmas.RoundedGrid
import Verif.Lemmas.RoundedQuad
import Verif.Lemmas.Field
import Verif.Props.Field2D
import Verif.Spec.RoundedMesh

/-! Helper lemmas: a mesh read in floating-point arithmetic. -/

namespace Verif
open Spec Bin
namespace Fl
variable {K : Type} {d n : Nat} [Field K] [LinearOrder K] [FloorRing K] {rnd : K → K} {u : K}

/-- What the lemmas need of an element class in the arithmetic `rnd`: corner offsets, corner signs, and the directions its range test looks at. -/
structure FlElem (rnd : K → K) (E : ElemOps K d) (unit sgn : Fin n → Fin d → K) (tested : Fin d → Prop) : Prop where
  law : ∃ (E0 : ElemOps K d) (R0 : (a h c : Fin d → K) → Prop), Mesh.ElemLaw E0 unit R0
  corners : E.corners = n
  far : E.far < n
  unit_far : ∀ h : E.far < n, unit ⟨E.far, h⟩ = fun _ => 1
  element : ∀ nd el p h j, (E.make nd el p h j).element = el
  make : ∀ nd el p h (j : Fin n), E.make nd el p h j = ⟨nd, el, p, h, sgn j⟩
  sign : ∀ j i, (unit j i = 0 ∧ sgn j i = 1) ∨ (unit j i = 1 ∧ sgn j i = -1)
  every : ∀ f : Fin d → Bool, ∃ j, ∀ i, unit j i = if f i then 1 else 0
  inRange : ∀ q c, E.inRange q c = true ↔ ∀ i, tested i → passOk rnd q c i = true

/-- The element class taking exact extents (lemma-side). -/
def flOps (rnd : K → K) (E : ElemOps K d) : ElemOps K d := { E with make := fun nd el p h j => E.make nd el p (fun i => rnd (h i)) j }

theorem makeCell_eq (E : ElemOps K d) (node : List (Fin d → K)) (el : Nat) (cell : List Nat) :
    makeCell rnd E node el cell = Mesh.makeCell (flOps rnd E) node el cell := rfl

theorem makeCells_eq (E : ElemOps K d) (node : List (Fin d → K)) (el : Nat) (cells : List (List Nat)) :
    makeCells rnd E node el cells = Mesh.makeCells (flOps rnd E) node el cells := by
  induction cells generalizing el with
  | nil => rfl
  | cons c cs ih => simp only [makeCells, Mesh.makeCells, makeCell_eq, ih]

section
variable [IsStrictOrderedRing K] {E : ElemOps K d} {unit sgn : Fin n → Fin d → K} {tested : Fin d → Prop}

theorem FlElem.dpos (F : FlElem rnd E unit sgn tested) : 0 < d := by obtain ⟨_, _, L⟩ := F.law; exact L.dpos

theorem FlElem.shape (F : FlElem rnd E unit sgn tested) : Mesh.ElemShape (flOps rnd E) unit := by
  obtain ⟨_, _, L⟩ := F.law
  exact ⟨L.npos, F.corners, F.far, F.unit_far, L.unit_zero, fun _ _ _ _ _ => F.element _ _ _ _ _⟩

theorem FlElem.cell_mem (F : FlElem rnd E unit sgn tested) {pts : List (Fin d → K)} {cell : List Nat} {a h : Fin d → K}
    (hc : CellAt unit pts cell a h) : a ∈ pts ∧ (fun i => a i + h i) ∈ pts := by
  obtain ⟨_, _, L⟩ := F.law
  exact Mesh.cellAt_mem L hc

theorem FlElem.cell_unique (F : FlElem rnd E unit sgn tested) {pts : List (Fin d → K)} {cell : List Nat} {a h a' h' : Fin d → K}
    (hc : CellAt unit pts cell a h) (hc' : CellAt unit pts cell a' h') : a = a' ∧ h = h' := by
  obtain ⟨_, _, L⟩ := F.law
  exact Mesh.cellAt_unique L hc hc'

/-- The interpolator of corner `j` (lemma-side). -/
def corner (rnd : K → K) (E : ElemOps K d) (unit : Fin n → Fin d → K) (nd el : Nat) (a h : Fin d → K) (j : Fin n) : Interp K d :=
  (flOps rnd E).make nd el (cornerPos a h (unit j)) h j

theorem FlElem.corner_eq (F : FlElem rnd E unit sgn tested) (nd el : Nat) (a h : Fin d → K) (j : Fin n) :
    corner rnd E unit nd el a h j = ⟨nd, el, cornerPos a h (unit j), fun i => rnd (h i), sgn j⟩ := F.make _ _ _ _ _

theorem readPoints_of {pts : List (Fin d → K)} {F : Fin d → Mesh.Axis K}
    (hm : mapRes (fun j => axis rnd (Mesh.distinct pts j)) (List.finRange d) = .ok (List.ofFn F)) :
    readPoints rnd Mesh.empty pts = (do
      let bin ← mkBin rnd (List.ofFn fun j => (F j).min) (List.ofFn fun j => (F j).incr) (List.ofFn fun j => (F j).N)
      .ok { min := fun j => some (F j).lo, max := fun j => some (F j).hi, node := pts, interp := [], bin := bin }) := by
  have hget : ∀ j : Fin d, (List.ofFn F)[(j : Nat)]? = some (F j) := by
    intro j
    rw [List.getElem?_ofFn, dif_pos j.isLt]
  have e1 : (List.ofFn F).map Mesh.Axis.min = List.ofFn fun j => (F j).min := List.map_ofFn
  have e2 : (List.ofFn F).map Mesh.Axis.incr = List.ofFn fun j => (F j).incr := List.map_ofFn
  have e3 : (List.ofFn F).map Mesh.Axis.N = List.ofFn fun j => (F j).N := List.map_ofFn
  have e4 : (fun j : Fin d => (List.ofFn F)[(j : Nat)]?.map Mesh.Axis.lo) = fun j => some (F j).lo := by
    funext j; rw [hget j]; rfl
  have e5 : (fun j : Fin d => (List.ofFn F)[(j : Nat)]?.map Mesh.Axis.hi) = fun j => some (F j).hi := by
    funext j; rw [hget j]; rfl
  unfold readPoints
  rw [hm, ok_bind, e1, e2, e3, e4, e5]
  rfl

/-- Computed bin width. -/
def gIncr (rnd : K → K) (pts : List (Fin d → K)) (lo hi : Fin d → K) : Fin d → K :=
  fun i => rnd (rnd (hi i - lo i) / (nDistinct pts i : K))
/-- Computed lower corner of the bins. -/
def gMin (rnd : K → K) (pts : List (Fin d → K)) (lo hi : Fin d → K) : Fin d → K := fun i => rnd (lo i - gIncr rnd pts lo hi i)

theorem axis_spec {value : List K} (hv : value ≠ []) :
    ∃ lo hi, axis rnd value = .ok ⟨lo, hi, rnd (rnd (hi - lo) / (value.length : K)),
        rnd (lo - rnd (rnd (hi - lo) / (value.length : K))), (value.length : Int) + 2⟩ ∧
      lo ∈ value ∧ hi ∈ value ∧ ∀ x ∈ value, lo ≤ x ∧ x ≤ hi := by
  obtain ⟨lo, hi, he, h1, h2, h3⟩ := Mesh.axis_spec hv
  refine ⟨lo, hi, ?_, h1, h2, h3⟩
  have hlen := (List.perm_insertionSort (· ≤ ·) value).length_eq
  simp only [Mesh.axis] at he
  simp only [axis]
  generalize hs : value.insertionSort (· ≤ ·) = s at *
  cases h0 : vget s 0 with
  | error e => rw [h0] at he; cases he
  | ok l0 =>
    rw [h0, ok_bind] at he
    cases h4 : vget s ((s.length : Int) - 1) with
    | error e => rw [h4] at he; cases he
    | ok l1 =>
      rw [h4, ok_bind] at he
      simp only [ok_bind]
      injection he with he
      injection he with e1 e2
      subst e1; subst e2
      rw [hlen]

theorem readPoints_eq {pts : List (Fin d → K)} (hne : pts ≠ []) :
    ∃ lo hi, Mesh.GridOf pts lo hi ∧ readPoints rnd Mesh.empty pts = (do
      let bin ← mkBin rnd (List.ofFn (gMin rnd pts lo hi)) (List.ofFn (gIncr rnd pts lo hi)) (List.ofFn (Mesh.gN pts))
      .ok { min := fun j => some (lo j), max := fun j => some (hi j), node := pts, interp := [], bin := bin }) := by
  have hd : ∀ j, Mesh.distinct pts j ≠ [] := by
    intro j he
    obtain ⟨p, hp⟩ := List.exists_mem_of_ne_nil pts hne
    have := (Mesh.mem_distinct pts j (p j)).mpr ⟨p, hp, rfl⟩
    rw [he] at this; simp at this
  choose lo hi hax hlo hhi hall using fun j => axis_spec (rnd := rnd) (hd j)
  refine ⟨lo, hi, ⟨fun j => ⟨(Mesh.mem_distinct _ _ _).mp (hlo j), fun p hp => (hall j _ ((Mesh.mem_distinct _ _ _).mpr ⟨p, hp, rfl⟩)).1⟩,
    fun j => ⟨(Mesh.mem_distinct _ _ _).mp (hhi j), fun p hp => (hall j _ ((Mesh.mem_distinct _ _ _).mpr ⟨p, hp, rfl⟩)).2⟩⟩, ?_⟩
  have hm : mapRes (fun j => axis rnd (Mesh.distinct pts j)) (List.finRange d) = .ok (List.ofFn fun j =>
      (⟨lo j, hi j, gIncr rnd pts lo hi j, gMin rnd pts lo hi j, Mesh.gN pts j⟩ : Mesh.Axis K)) := by
    rw [List.ofFn_eq_map]
    apply mapRes_ok
    intro j _
    rw [hax j, Mesh.length_distinct]
    simp only [gIncr, gMin, Mesh.gN]
  have e := readPoints_of hm
  dsimp only at e
  exact e

/-- The bins of the computed `[min, max]` of `q` include `k`. -/
def touches (rnd : K → K) (mn ic : List K) (k : List Int) (q : Interp K d) : Bool :=
  decide (Between (flBinOf rnd mn ic (List.ofFn (minOf rnd q))) (flBinOf rnd mn ic (List.ofFn (maxOf rnd q))) k)

theorem flInGrid_ofFn {d : Nat} (f g c : Fin d → K) (N : Fin d → Int) :
    FlInGrid rnd (List.ofFn f) (List.ofFn g) (List.ofFn N) (List.ofFn c) ↔ ∀ i, FlIn rnd (f i) (g i) (N i) (c i) := by
  induction d with
  | zero => simp [FlInGrid]
  | succ d ih => simp only [List.ofFn_succ, FlInGrid, ih, Fin.forall_fin_succ]

theorem flOut_ofFn {d : Nat} (f g c : Fin d → K) (N : Fin d → Int) (i : Fin d) (hi : FlOut rnd (f i) (g i) (N i) (c i))
    (hb : ∀ j < i, FlIn rnd (f j) (g j) (N j) (c j)) :
    FlOutOfGrid rnd (List.ofFn f) (List.ofFn g) (List.ofFn N) (List.ofFn c) := by
  induction d with
  | zero => exact i.elim0
  | succ d ih =>
    simp only [List.ofFn_succ, FlOutOfGrid]
    cases i using Fin.cases with
    | zero => exact Or.inl ⟨hi, by simp⟩
    | succ i => exact Or.inr ⟨hb 0 (Fin.succ_pos i), ih _ _ _ _ i hi fun j hj => hb j.succ (Fin.succ_lt_succ_iff.mpr hj)⟩

theorem flBinOf_ofFn {d : Nat} (f g c : Fin d → K) :
    flBinOf rnd (List.ofFn f) (List.ofFn g) (List.ofFn c) = List.ofFn fun i => flBin rnd (f i) (g i) (c i) := by
  induction d with
  | zero => simp [flBinOf]
  | succ d ih => simp only [List.ofFn_succ, flBinOf, ih]

theorem fileAll_of (R : Rounding rnd u) {mn ic : List K} {N : List Int} (hg : GoodGrid mn ic N) (qs : List (Interp K d))
    (hq : ∀ q ∈ qs, FlInGrid rnd mn ic N (List.ofFn (minOf rnd q)) ∧ FlInGrid rnd mn ic N (List.ofFn (maxOf rnd q)) ∧
      ∀ i, minOf rnd q i ≤ maxOf rnd q i)
    {b : Bin (Interp K d) K} (hi : Inv rnd b mn ic N) :
    ∃ b', fileAll rnd qs b = .ok b' ∧ Inv rnd b' mn ic N ∧ ∀ k, InBox N k →
      cell b'.item N k = cell b.item N k ++ qs.filter (touches rnd mn ic k) := by
  induction qs generalizing b with
  | nil => exact ⟨b, rfl, hi, fun k _ => by simp⟩
  | cons q qs ih =>
    obtain ⟨h1, h2, h3⟩ := hq q (by simp)
    obtain ⟨b1, e1, i1, c1⟩ := addRange_in R hg hi q h1 h2 ((leAll_ofFn _ _).mpr h3)
    obtain ⟨b2, e2, i2, c2⟩ := ih (fun x hx => hq x (by simp [hx])) i1
    refine ⟨b2, by simp only [fileAll, e1, e2], i2, fun k hk => ?_⟩
    rw [c2 k hk, c1 k hk, List.filter_cons]
    by_cases h : Between (flBinOf rnd mn ic (List.ofFn (minOf rnd q))) (flBinOf rnd mn ic (List.ofFn (maxOf rnd q))) k
    · have ht : touches rnd mn ic k q = true := decide_eq_true h
      rw [if_pos h, if_pos ht, List.append_assoc]; rfl
    · have ht : ¬ (touches rnd mn ic k q = true) := fun e => h (of_decide_eq_true e)
      rw [if_neg h, if_neg ht]

theorem minOf_corner (F : FlElem rnd E unit sgn tested) {nd el : Nat} {a h : Fin d → K} (j : Fin n) (i : Fin d) :
    minOf rnd (corner rnd E unit nd el a h j) i = if unit j i = 0 then a i else rnd (a i + h i - rnd (h i)) := by
  rw [F.corner_eq]
  rcases F.sign j i with ⟨e1, e2⟩ | ⟨e1, e2⟩
  · have : ¬ ((1 : K) = -1) := by intro h; linarith
    simp [minOf, cornerPos, e1, e2, this]
  · simp [minOf, cornerPos, e1, e2]

theorem maxOf_corner (F : FlElem rnd E unit sgn tested) {nd el : Nat} {a h : Fin d → K} (j : Fin n) (i : Fin d) :
    maxOf rnd (corner rnd E unit nd el a h j) i = if unit j i = 0 then rnd (a i + rnd (h i)) else a i + h i := by
  rw [F.corner_eq]
  rcases F.sign j i with ⟨e1, e2⟩ | ⟨e1, e2⟩
  · simp [maxOf, cornerPos, e1, e2]
  · have : ¬ ((-1 : K) = 1) := by intro h; linarith
    simp [maxOf, cornerPos, e1, e2, this]

/-- The computed limits of an interpolator stay close to the cell. -/
theorem edge_bounds (R : Rounding rnd u) (hu : u ≤ 1 / 64) {a h B : K} (hh : 0 < h) (hB1 : |a| ≤ B) (hB2 : |a + h| ≤ B) (hB3 : h ≤ B) :
    (a ≤ rnd (a + rnd h) ∨ True) ∧ rnd (a + rnd h) ≤ a + h + 3 * u * B ∧ a - 3 * u * B ≤ rnd (a + h - rnd h) := by
  have u0 := R.u_nonneg
  have B0 : 0 ≤ B := (abs_nonneg a).trans hB1
  have e := R.err h
  rw [abs_of_pos hh, abs_le] at e
  have uh : u * h ≤ u * B := mul_le_mul_of_nonneg_left hB3 u0
  have uB : 0 ≤ u * B := mul_nonneg u0 B0
  have uuB : u * (u * B) ≤ u * B := by nlinarith
  rw [abs_le] at hB1 hB2
  refine ⟨Or.inr trivial, ?_, ?_⟩
  · have e1 := R.err (a + rnd h)
    have ab : |a + rnd h| ≤ B + u * B := by
      rw [abs_le]; constructor <;> linarith [hB1.1, hB2.2]
    have := mul_le_mul_of_nonneg_left ab u0
    rw [abs_le] at e1
    nlinarith [e1.2]
  · have e1 := R.err (a + h - rnd h)
    have ab : |a + h - rnd h| ≤ B + u * B := by
      rw [abs_le]; constructor <;> linarith [hB1.1, hB1.2]
    have := mul_le_mul_of_nonneg_left ab u0
    rw [abs_le] at e1
    nlinarith [e1.1]

/-- Everything the properties need about a mesh read in the arithmetic `rnd`. -/
structure Built (rnd : K → K) (E : ElemOps K d) (unit : Fin n → Fin d → K) (pts : List (Fin d → K)) (cells : List (List Nat))
    (lo hi : Fin d → K) (qs : List (Interp K d)) (m : Mesh K d) : Prop where
  grid : Mesh.GridOf pts lo hi
  good : GoodGrid (List.ofFn (gMin rnd pts lo hi)) (List.ofFn (gIncr rnd pts lo hi)) (List.ofFn (Mesh.gN pts))
  incr_pos : ∀ i, 0 < gIncr rnd pts lo hi i
  inside : ∀ c : Fin d → K, (∀ i, IsFloat rnd (c i)) → (∀ i, lo i ≤ c i ∧ c i ≤ hi i) →
    FlInGrid rnd (List.ofFn (gMin rnd pts lo hi)) (List.ofFn (gIncr rnd pts lo hi)) (List.ofFn (Mesh.gN pts)) (List.ofFn c)
  far : ∀ c : Fin d → K, FloatFar rnd pts c →
    FlOutOfGrid rnd (List.ofFn (gMin rnd pts lo hi)) (List.ofFn (gIncr rnd pts lo hi)) (List.ofFn (Mesh.gN pts)) (List.ofFn c)
  ints : Mesh.Interps (flOps rnd E) unit pts cells 0 qs
  inv : Inv rnd m.bin (List.ofFn (gMin rnd pts lo hi)) (List.ofFn (gIncr rnd pts lo hi)) (List.ofFn (Mesh.gN pts))
  cont : ∀ k, InBox (List.ofFn (Mesh.gN pts)) k → cell m.bin.item (List.ofFn (Mesh.gN pts)) k =
    qs.filter (touches rnd (List.ofFn (gMin rnd pts lo hi)) (List.ofFn (gIncr rnd pts lo hi)) k)

theorem build_of (F : FlElem rnd E unit sgn tested) (R : Rounding rnd u) (hu : u ≤ 1 / 64) {pts : List (Fin d → K)} {cells : List (List Nat)}
    (hm : FloatMesh unit rnd u pts cells) : ∃ m lo hi qs, build rnd E pts cells = .ok m ∧ Built rnd E unit pts cells lo hi qs m := by
  have u0 := R.u_nonneg
  obtain ⟨c0, hc0⟩ := List.exists_mem_of_ne_nil cells hm.rect.nonempty
  obtain ⟨a0, h0, hah0⟩ := hm.rect.rect c0 hc0
  have hne : pts ≠ [] := List.ne_nil_of_mem (F.cell_mem hah0).1
  obtain ⟨lo, hi, hg, hr⟩ := readPoints_eq (rnd := rnd) hne
  have hn := Mesh.nDistinct_pos hne
  have hlt : ∀ i, lo i < hi i := by
    intro i
    have h1 := (hg.low i).2 _ (F.cell_mem hah0).1
    have h2 := (hg.high i).2 _ (F.cell_mem hah0).2
    have h3 := hah0.2.1 i
    linarith
  have hres : ∀ i, 16 * u * (|lo i| + (hi i - lo i)) ≤ (hi i - lo i) / (nDistinct pts i : K) := fun i =>
    hm.resolved i _ _ (hg.low i) (hg.high i)
  have hax := fun (i : Fin d) (x : K) => axis_in R hu (hlt i) (hn i) rfl (hres i) (x := x)
  have hι : ∀ i, 0 < (hi i - lo i) / (nDistinct pts i : K) := fun i =>
    (axis_bounds R hu (hlt i) (hn i) rfl (hres i)).1
  have hincr : ∀ i, 0 < gIncr rnd pts lo hi i := by
    intro i
    obtain ⟨p, hp, e⟩ := (hg.low i).1
    exact (hax i (lo i) (e ▸ hm.float p hp i) (by linarith [hι i]) (by linarith [hlt i, hι i])).1
  have hgd : GoodDims (List.ofFn (Mesh.gN pts)) := by
    refine ⟨by simpa using F.dpos.ne', ?_, hm.rect.small⟩
    intro x hx
    obtain ⟨i, rfl⟩ := List.mem_ofFn.mp hx
    simp [Mesh.gN]; omega
  have hgood : GoodGrid (List.ofFn (gMin rnd pts lo hi)) (List.ofFn (gIncr rnd pts lo hi)) (List.ofFn (Mesh.gN pts)) := by
    refine ⟨by simp, by simp, ?_, hgd⟩
    intro x hx
    obtain ⟨i, rfl⟩ := List.mem_ofFn.mp hx
    exact hincr i
  have hmk := mkBin_eq (rnd := rnd) (Interp K d) hgood.1 hgood.2.1 hgd
  obtain ⟨hinv, hcell⟩ := mkBin_inv hgood hmk
  rw [hmk] at hr
  simp only [ok_bind] at hr
  obtain ⟨qs, hq1, hq2⟩ := Mesh.makeCells_of_shape F.shape cells 0 hm.rect.rect
  have hin : ∀ c : Fin d → K, (∀ i, IsFloat rnd (c i)) →
      (∀ i, lo i - 3 / 16 * ((hi i - lo i) / (nDistinct pts i : K)) ≤ c i ∧ c i ≤ hi i + 3 / 16 * ((hi i - lo i) / (nDistinct pts i : K))) →
      FlInGrid rnd (List.ofFn (gMin rnd pts lo hi)) (List.ofFn (gIncr rnd pts lo hi)) (List.ofFn (Mesh.gN pts)) (List.ofFn c) := by
    intro c hf hc
    rw [flInGrid_ofFn]
    intro i
    exact (hax i (c i) (hf i) (hc i).1 (hc i).2).2
  have hqs : ∀ q ∈ qs, FlInGrid rnd (List.ofFn (gMin rnd pts lo hi)) (List.ofFn (gIncr rnd pts lo hi)) (List.ofFn (Mesh.gN pts))
        (List.ofFn (minOf rnd q)) ∧
      FlInGrid rnd (List.ofFn (gMin rnd pts lo hi)) (List.ofFn (gIncr rnd pts lo hi)) (List.ofFn (Mesh.gN pts)) (List.ofFn (maxOf rnd q)) ∧
      ∀ i, minOf rnd q i ≤ maxOf rnd q i := by
    intro q hq
    obtain ⟨e, cell, a, h, he, hce, j, hj⟩ := hq2.mem q hq
    have hj' : q = corner rnd E unit (cell.getD j 0) (0 + e) a h j := hj
    subst hj'
    obtain ⟨m1, m2⟩ := F.cell_mem hce
    have fa := hm.float _ m1
    have fb := hm.float _ m2
    have hp := hce.2.1
    have eb : ∀ i, rnd (a i + rnd (h i)) ≤ hi i + 3 / 16 * ((hi i - lo i) / (nDistinct pts i : K)) ∧
        lo i - 3 / 16 * ((hi i - lo i) / (nDistinct pts i : K)) ≤ rnd (a i + h i - rnd (h i)) ∧
        a i ≤ rnd (a i + rnd (h i)) ∧ rnd (a i + h i - rnd (h i)) ≤ a i + h i ∧ lo i ≤ a i ∧ a i + h i ≤ hi i := by
      intro i
      have l1 := (hg.low i).2 _ m1
      have l2 : a i + h i ≤ hi i := (hg.high i).2 _ m2
      have l3 := hp i
      have l4 := le_abs_self (lo i)
      have l5 := neg_abs_le (lo i)
      have w := hlt i
      obtain ⟨_, b1, b2⟩ := edge_bounds R hu (a := a i) (B := |lo i| + (hi i - lo i)) l3 (by rw [abs_le]; constructor <;> linarith)
        (by rw [abs_le]; constructor <;> linarith) (by linarith [abs_nonneg (lo i)])
      have hr := hres i
      have hH := R.nonneg l3.le
      have fb' : IsFloat rnd (a i + h i) := fb i
      have hB : 3 * u * (|lo i| + (hi i - lo i)) = 3 / 16 * (16 * u * (|lo i| + (hi i - lo i))) := by ring
      rw [hB] at b1 b2
      have l1' : lo i ≤ a i := l1
      exact ⟨by linarith, by linarith, R.ge_of (fa i) (by linarith), R.le_of fb' (by linarith), l1', l2⟩
    refine ⟨hin _ ?_ ?_, hin _ ?_ ?_, ?_⟩ <;> intro i <;> simp only [minOf_corner F, maxOf_corner F]
    · split
      · exact fa i
      · exact R.isFloat _
    · obtain ⟨b1, b2, b3, b4, b5, b6⟩ := eb i
      have := hι i
      have := hp i
      split <;> constructor <;> linarith
    · split
      · exact R.isFloat _
      · exact fb i
    · obtain ⟨b1, b2, b3, b4, b5, b6⟩ := eb i
      have := hι i
      have := hp i
      split <;> constructor <;> linarith
    · obtain ⟨b1, b2, b3, b4, b5, b6⟩ := eb i
      split <;> assumption
  obtain ⟨b', f1, f2, f3⟩ := fileAll_of R hgood qs hqs hinv
  refine ⟨⟨fun j => some (lo j), fun j => some (hi j), pts, qs, b'⟩, lo, hi, qs, ?_, hg, hgood, hincr, ?_, ?_, hq2, f2, ?_⟩
  · unfold build
    rw [hr, ok_bind]
    simp only [readCells, makeCells_eq, hq1, ok_bind, List.nil_append, f1]
  · intro c hf hc
    refine hin c hf fun i => ?_
    have := hι i
    constructor <;> linarith [(hc i).1, (hc i).2]
  · intro c hc
    have hout : ∀ i, FarIn pts c i → FlOut rnd (gMin rnd pts lo hi i) (gIncr rnd pts lo hi i) (Mesh.gN pts i) (c i) := by
      rintro i ⟨lo', hi', h1, h2, h3⟩
      rw [Mesh.isLow_unique h1 (hg.low i), Mesh.isHigh_unique h2 (hg.high i)] at h3
      obtain ⟨f1, f2⟩ := axis_far R hu (hlt i) (hn i) rfl (hres i)
      rcases h3 with h3 | h3
      · exact Or.inl (lt_of_lt_of_le h3 f1)
      · exact Or.inr (lt_of_le_of_lt f2 h3)
    obtain ⟨i, hfar, hbefore⟩ := hc
    refine flOut_ofFn _ _ _ _ i (hout i hfar) fun j hj => ?_
    obtain ⟨h1, h2⟩ := hbefore j hj
    have hιj := hι j
    obtain ⟨b1, b2⟩ := h2 _ _ (hg.low j) (hg.high j)
    exact (hax j (c j) h1 (by linarith) (by linarith)).2
  · intro k hk
    rw [f3 k hk, hcell k, List.nil_append]

end

end Fl
end Verif
