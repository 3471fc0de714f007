import Verif.Lemmas.Binary64
import Verif.Lemmas.RoundedMesh
import Verif.Lemmas.VtkTerm

/-! # Binary64: building a mesh stays in the range of normal doubles -/

namespace Verif
open Spec
namespace B64
variable {T K : Type} {d : Nat} [Field K] [LinearOrder K] [IsStrictOrderedRing K] [FloorRing K] {f : K → K} {g m : Nat}

/-- What the theorems need of an interpolator. -/
structure QGood (g m : Nat) (q : Interp K d) : Prop where
  n_grid : ∀ i, OnGrid g (q.n i)
  n_le : ∀ i, |q.n i| ≤ 2 ^ m
  h_grid : ∀ i, OnGrid g (q.h i)
  h_le : ∀ i, |q.h i| ≤ 2 ^ (m + 1)
  s : ∀ i, q.s i = 0 ∨ q.s i = 1 ∨ q.s i = -1

/-- What the theorems need of the limits of a bin. -/
structure GGood (g m : Nat) (min incr : List K) : Prop where
  min_grid : ∀ x ∈ min, OnGrid (g + 83) x
  min_le : ∀ x ∈ min, |x| ≤ 2 ^ (m + 2)
  incr : ∀ x ∈ incr, Sized (g + 31) (m + 1) x

theorem abs_sub_le_pow {k : Nat} {x y : K} (hx : |x| ≤ 2 ^ k) (hy : |y| ≤ 2 ^ k) : |x - y| ≤ 2 ^ (k + 1) := by
  have := abs_sub x y
  rw [pow_succ]; linarith

theorem abs_add_le_pow {k : Nat} {x y : K} (hx : |x| ≤ 2 ^ k) (hy : |y| ≤ 2 ^ k) : |x + y| ≤ 2 ^ (k + 1) := by
  have := abs_add_le x y
  rw [pow_succ]; linarith

theorem agree (hB : IsBinary64 f) {a b : Nat} {x : K} (h : Sized a b x) (ha : a ≤ 1022) (hb : b ≤ 1023) : f x = r x :=
  hB x (sized_mono ha hb h)

/-! ## Bins -/

theorem idxAt_congr (hB : IsBinary64 f) (hgm : g + m ≤ 800) {min incr : List K} (hG : GGood g m min incr) (max coord : List K)
    (hc : ∀ x ∈ coord, OnGrid g x ∧ |x| ≤ 2 ^ (m + 2)) (i : Nat) : Fl.idxAt f min max incr coord i = Fl.idxAt r min max incr coord i := by
  unfold Fl.idxAt
  cases h1 : vget coord (i : Nat) with
  | error e => rfl
  | ok c =>
    cases h2 : vget min (i : Nat) with
    | error e => rfl
    | ok lo =>
      simp only [ok_bind]
      cases h3 : vget incr (i : Nat) with
      | error e => rfl
      | ok w =>
        have m1 := hc c (List.mem_of_getElem? (vget_ok.mp h1).2)
        have m2 : lo ∈ min := List.mem_of_getElem? (vget_ok.mp h2).2
        have m3 : w ∈ incr := List.mem_of_getElem? (vget_ok.mp h3).2
        have s1 : Sized (g + 83) (m + 3) (c - lo) := grid_sized (grid_sub (grid_up (by omega) m1.1) (hG.min_grid _ m2)) (abs_sub_le_pow m1.2 (hG.min_le _ m2))
        have s2 := sized_div (sized_round s1) (hG.incr w m3)
        simp only [ok_bind, agree hB s1 (by omega) (by omega), agree hB s2 (by omega) (by omega)]

theorem idxLoop_congr (hB : IsBinary64 f) (hgm : g + m ≤ 800) {min incr : List K} (hG : GGood g m min incr) (max coord : List K)
    (hc : ∀ x ∈ coord, OnGrid g x ∧ |x| ≤ 2 ^ (m + 2)) (n : Nat) : ∀ (i : Nat) (term : List Int),
    Fl.idxLoop f min max incr coord n i term = Fl.idxLoop r min max incr coord n i term := by
  induction n with
  | zero => intro i term; rfl
  | succ n ih =>
    intro i term
    simp only [Fl.idxLoop, idxAt_congr hB hgm hG max coord hc, ih]

theorem indicesOf_congr (hB : IsBinary64 f) (hgm : g + m ≤ 800) {b : Bin T K} (hG : GGood g m b.min b.incr) (coord : List K)
    (hc : ∀ x ∈ coord, OnGrid g x ∧ |x| ≤ 2 ^ (m + 2)) (term : List Int) : Fl.indicesOf f b coord term = Fl.indicesOf r b coord term :=
  idxLoop_congr hB hgm hG _ _ hc _ _ _

theorem addRange_congr (hB : IsBinary64 f) (hgm : g + m ≤ 800) {b : Bin T K} (hG : GGood g m b.min b.incr) (x : T) (lo hi : List K)
    (h1 : ∀ x ∈ lo, OnGrid g x ∧ |x| ≤ 2 ^ (m + 2)) (h2 : ∀ x ∈ hi, OnGrid g x ∧ |x| ≤ 2 ^ (m + 2)) :
    Fl.addRange f b x lo hi = Fl.addRange r b x lo hi := by
  simp only [Fl.addRange, indicesOf_congr hB hgm hG _ h1, indicesOf_congr hB hgm hG _ h2]

theorem contents_congr (hB : IsBinary64 f) (hgm : g + m ≤ 800) {b : Bin T K} (hG : GGood g m b.min b.incr) (coord : List K)
    (hc : ∀ x ∈ coord, OnGrid g x ∧ |x| ≤ 2 ^ (m + 2)) : Fl.contents f b coord = Fl.contents r b coord := by
  simp only [Fl.contents, indicesOf_congr hB hgm hG _ hc]

theorem addRange_grid (b : Bin T K) (x : T) (lo hi : List K) {b' : Bin T K} {e : Res Unit} (h : Fl.addRange r b x lo hi = (e, b')) :
    b'.min = b.min ∧ b'.incr = b.incr := by
  unfold Fl.addRange at h
  simp only at h
  split at h
  · cases h; exact ⟨rfl, rfl⟩
  · split at h
    · cases h; exact ⟨rfl, rfl⟩
    · cases h; exact ⟨rfl, rfl⟩

theorem QGood.min (hB : IsBinary64 f) (hgm : g + m ≤ 800) {q : Interp K d} (hq : QGood g m q) :
    Fl.minOf f q = Fl.minOf r q ∧ ∀ x ∈ List.ofFn (Fl.minOf r q), OnGrid g x ∧ |x| ≤ 2 ^ (m + 2) := by
  have key : ∀ i, Sized g (m + 2) (q.n i - q.h i) := fun i => grid_sized (grid_sub (hq.n_grid i) (hq.h_grid i))
    (abs_sub_le_pow ((hq.n_le i).trans (p_mono (by omega))) (hq.h_le i))
  constructor
  · funext i
    unfold Fl.minOf
    rw [agree hB (key i) (by omega) (by omega)]
  · intro x hx
    obtain ⟨i, rfl⟩ := (List.mem_ofFn' _ _).mp hx
    unfold Fl.minOf
    split
    · exact ⟨grid_round (grid_sub (hq.n_grid i) (hq.h_grid i)), sized_le (sized_round (key i))⟩
    · exact ⟨hq.n_grid i, (hq.n_le i).trans (p_mono (by omega))⟩

theorem QGood.max (hB : IsBinary64 f) (hgm : g + m ≤ 800) {q : Interp K d} (hq : QGood g m q) :
    Fl.maxOf f q = Fl.maxOf r q ∧ ∀ x ∈ List.ofFn (Fl.maxOf r q), OnGrid g x ∧ |x| ≤ 2 ^ (m + 2) := by
  have key : ∀ i, Sized g (m + 2) (q.n i + q.h i) := fun i => grid_sized (grid_add (hq.n_grid i) (hq.h_grid i))
    (abs_add_le_pow ((hq.n_le i).trans (p_mono (by omega))) (hq.h_le i))
  constructor
  · funext i
    unfold Fl.maxOf
    rw [agree hB (key i) (by omega) (by omega)]
  · intro x hx
    obtain ⟨i, rfl⟩ := (List.mem_ofFn' _ _).mp hx
    unfold Fl.maxOf
    split
    · exact ⟨grid_round (grid_add (hq.n_grid i) (hq.h_grid i)), sized_le (sized_round (key i))⟩
    · exact ⟨hq.n_grid i, (hq.n_le i).trans (p_mono (by omega))⟩

theorem fileAll_congr (hB : IsBinary64 f) (hgm : g + m ≤ 800) (qs : List (Interp K d)) (hq : ∀ q ∈ qs, QGood g m q) :
    ∀ (b : Bin (Interp K d) K), GGood g m b.min b.incr → Fl.fileAll f qs b = Fl.fileAll r qs b := by
  induction qs with
  | nil => intro b _; rfl
  | cons q qs ih =>
    intro b hG
    have h1 := (hq q (by simp)).min hB hgm
    have h2 := (hq q (by simp)).max hB hgm
    simp only [Fl.fileAll, h1.1, h2.1, addRange_congr hB hgm hG q _ _ h1.2 h2.2]
    cases he : Fl.addRange r b q (List.ofFn (Fl.minOf r q)) (List.ofFn (Fl.maxOf r q)) with
    | mk e b' =>
      cases e with
      | error e => rfl
      | ok _ =>
        obtain ⟨e1, e2⟩ := addRange_grid b q _ _ he
        exact ih (fun q' h' => hq q' (by simp [h'])) b' (by rw [e1, e2]; exact hG)

/-! ## The points -/

theorem incr_congr (hB : IsBinary64 f) (hgm : g + m ≤ 800) {pts : List (Fin d → K)} (hp : ∀ p ∈ pts, ∀ i, OnGrid g (p i) ∧ |p i| ≤ 2 ^ m)
    (hN : ∀ i, nDistinct pts i + 2 ≤ 2 ^ 31) {lo hi : Fin d → K} (hg : Mesh.GridOf pts lo hi) (i : Fin d) :
    Fl.gIncr f pts lo hi i = Fl.gIncr r pts lo hi i ∧ Sized (g + 31) (m + 1) (Fl.gIncr r pts lo hi i) := by
  obtain ⟨p, p1, p2⟩ := (hg.low i).1
  obtain ⟨q, q1, q2⟩ := (hg.high i).1
  have h1 := hp p p1 i
  have h2 := hp q q1 i
  rw [p2] at h1
  rw [q2] at h2
  have s1 : Sized g (m + 1) (hi i - lo i) := grid_sized (grid_sub h2.1 h1.1) (abs_sub_le_pow h2.2 h1.2)
  have s2 : Sized (g + 31) (m + 1) (r (hi i - lo i) / (nDistinct pts i : K)) := by
    have := sized_div (sized_round s1) (sized_nat (K := K) (k := 31) (n := nDistinct pts i) (by have := hN i; omega))
    simpa using this
  unfold Fl.gIncr
  rw [agree hB s1 (by omega) (by omega), agree hB s2 (by omega) (by omega)]
  exact ⟨rfl, sized_round s2⟩

theorem min_congr (hB : IsBinary64 f) (hgm : g + m ≤ 800) {pts : List (Fin d → K)} (hp : ∀ p ∈ pts, ∀ i, OnGrid g (p i) ∧ |p i| ≤ 2 ^ m)
    (hN : ∀ i, nDistinct pts i + 2 ≤ 2 ^ 31) {lo hi : Fin d → K} (hg : Mesh.GridOf pts lo hi) (i : Fin d) :
    Fl.gMin f pts lo hi i = Fl.gMin r pts lo hi i ∧ OnGrid (g + 83) (Fl.gMin r pts lo hi i) ∧ |Fl.gMin r pts lo hi i| ≤ 2 ^ (m + 2) := by
  obtain ⟨e, s⟩ := incr_congr hB hgm hp hN hg i
  obtain ⟨p, p1, p2⟩ := (hg.low i).1
  have h1 := hp p p1 i
  rw [p2] at h1
  have fl : IsFloat (r : K → K) (Fl.gIncr r pts lo hi i) := R.idem _
  have g1 : OnGrid (g + 83) (lo i - Fl.gIncr r pts lo hi i) := grid_sub (grid_up (by omega) h1.1) (by simpa using float_grid fl s)
  have s1 : Sized (g + 83) (m + 2) (lo i - Fl.gIncr r pts lo hi i) :=
    grid_sized g1 (abs_sub_le_pow (h1.2.trans (p_mono (by omega))) (sized_le s))
  unfold Fl.gMin
  rw [e, agree hB s1 (by omega) (by omega)]
  exact ⟨rfl, grid_round g1, sized_le (sized_round s1)⟩

theorem maxLoop_congr (hB : IsBinary64 f) (hgm : g + m ≤ 800) {incr : List K} (hi : ∀ x ∈ incr, Sized (g + 31) (m + 1) x ∧ IsFloat (r : K → K) x)
    {N : List Int} (hN : ∀ n ∈ N, 0 ≤ n ∧ n ≤ 2 ^ 31) (ms : List K) (hm : ∀ x ∈ ms, OnGrid (g + 83) x ∧ |x| ≤ 2 ^ (m + 2)) :
    ∀ i, Fl.maxLoop f incr N ms i = Fl.maxLoop r incr N ms i := by
  induction ms with
  | nil => intro i; rfl
  | cons x ms ih =>
    intro i
    simp only [Fl.maxLoop, ih fun y hy => hm y (by simp [hy])]
    cases h1 : vget incr (i : Nat) with
    | error e => rfl
    | ok w =>
      cases h2 : vget N (i : Nat) with
      | error e => rfl
      | ok n =>
        simp only [ok_bind]
        have m1 := hi w (List.mem_of_getElem? (vget_ok.mp h1).2)
        have m2 := hN n (List.mem_of_getElem? (vget_ok.mp h2).2)
        obtain ⟨k, rfl⟩ := Int.eq_ofNat_of_zero_le m2.1
        have s1 : Sized (g + 31) (m + 32) (w * ((k : Int) : K)) := by
          have := sized_mul m1.1 (sized_nat (K := K) (k := 31) (n := k) (by have := m2.2; exact_mod_cast this))
          rw [Int.cast_natCast]
          exact this
        have g1 : OnGrid (g + 83) (r (w * ((k : Int) : K))) := by simpa using float_grid (R.idem _) (sized_round s1)
        have m3 := hm x (by simp)
        have s2 : Sized (g + 83) (m + 33) (x + r (w * ((k : Int) : K))) :=
          grid_sized (grid_add m3.1 g1) (abs_add_le_pow (m3.2.trans (p_mono (by omega))) (sized_le (sized_round s1)))
        rw [agree hB s1 (by omega) (by omega), agree hB s2 (by omega) (by omega)]

theorem gN_range {pts : List (Fin d → K)} (hN : ∀ i, nDistinct pts i + 2 ≤ 2 ^ 31) : ∀ n ∈ List.ofFn (Mesh.gN pts), 0 ≤ n ∧ n ≤ 2 ^ 31 := by
  intro n hn
  obtain ⟨i, rfl⟩ := (List.mem_ofFn' _ _).mp hn
  have := hN i
  unfold Mesh.gN
  constructor
  · omega
  · exact_mod_cast this

/-- The bins of the points. -/
theorem grid_good (hB : IsBinary64 f) (hgm : g + m ≤ 800) {pts : List (Fin d → K)} (hp : ∀ p ∈ pts, ∀ i, OnGrid g (p i) ∧ |p i| ≤ 2 ^ m)
    (hN : ∀ i, nDistinct pts i + 2 ≤ 2 ^ 31) {lo hi : Fin d → K} (hg : Mesh.GridOf pts lo hi) :
    GGood g m (List.ofFn (Fl.gMin r pts lo hi)) (List.ofFn (Fl.gIncr r pts lo hi)) := by
  refine ⟨?_, ?_, ?_⟩ <;> intro x hx <;> obtain ⟨i, rfl⟩ := (List.mem_ofFn' _ _).mp hx
  · exact (min_congr hB hgm hp hN hg i).2.1
  · exact (min_congr hB hgm hp hN hg i).2.2
  · exact (incr_congr hB hgm hp hN hg i).2

theorem readPoints_congr (hB : IsBinary64 f) (hgm : g + m ≤ 800) {pts : List (Fin d → K)} (hp : ∀ p ∈ pts, ∀ i, OnGrid g (p i) ∧ |p i| ≤ 2 ^ m)
    (hN : ∀ i, nDistinct pts i + 2 ≤ 2 ^ 31) (hne : pts ≠ []) :
    Fl.readPoints f Mesh.empty pts = Fl.readPoints r Mesh.empty pts := by
  obtain ⟨lo, hi, hg, e⟩ := Fl.readPoints_eq (rnd := (r : K → K)) hne
  obtain ⟨lo', hi', hg', e'⟩ := Fl.readPoints_eq (rnd := f) hne
  have el : lo' = lo := funext fun i => Mesh.isLow_unique (hg'.low i) (hg.low i)
  have eh : hi' = hi := funext fun i => Mesh.isHigh_unique (hg'.high i) (hg.high i)
  subst el; subst eh
  have e1 : Fl.gIncr f pts lo' hi' = Fl.gIncr r pts lo' hi' := funext fun i => (incr_congr hB hgm hp hN hg i).1
  have e2 : Fl.gMin f pts lo' hi' = Fl.gMin r pts lo' hi' := funext fun i => (min_congr hB hgm hp hN hg i).1
  have hG := grid_good hB hgm hp hN hg
  rw [e, e', e1, e2]
  unfold Fl.mkBin
  rw [maxLoop_congr hB hgm (fun x hx => ⟨hG.incr x hx, ?_⟩) (gN_range hN) _ fun x hx => ⟨hG.min_grid x hx, hG.min_le x hx⟩]
  obtain ⟨i, rfl⟩ := (List.mem_ofFn' _ _).mp hx
  exact R.idem _

/-- What the bins of a mesh look like after reading the points. -/
theorem readPoints_grid (hB : IsBinary64 f) (hgm : g + m ≤ 800) {pts : List (Fin d → K)} (hp : ∀ p ∈ pts, ∀ i, OnGrid g (p i) ∧ |p i| ≤ 2 ^ m)
    (hN : ∀ i, nDistinct pts i + 2 ≤ 2 ^ 31) (hne : pts ≠ []) {M : Mesh K d} (h : Fl.readPoints r Mesh.empty pts = .ok M) :
    GGood g m M.bin.min M.bin.incr ∧ M.node = pts ∧ M.interp = [] := by
  obtain ⟨lo, hi, hg, e⟩ := Fl.readPoints_eq (rnd := (r : K → K)) hne
  rw [e] at h
  obtain ⟨b, h1, h2⟩ := bind_eq_ok.mp h
  cases h2
  refine ⟨?_, rfl, rfl⟩
  unfold Fl.mkBin at h1
  obtain ⟨mx, -, h1⟩ := bind_eq_ok.mp h1
  obtain ⟨it, -, h1⟩ := bind_eq_ok.mp h1
  cases h1
  exact grid_good hB hgm hp hN hg

/-! ## The cells -/

/-- Two element classes that do the same with interpolators and points of these ranges; `A`, `B` bound the weights. -/
structure Pair (g m A B : Nat) (E' E : ElemOps K d) : Prop where
  corners : E'.corners = E.corners
  far : E'.far = E.far
  make : E'.make = E.make
  make_good : ∀ nd el p h j, (E.make nd el p h j).n = p ∧ (E.make nd el p h j).h = h ∧
    ∀ i, (E.make nd el p h j).s i = 0 ∨ (E.make nd el p h j).s i = 1 ∨ (E.make nd el p h j).s i = -1
  inRange : ∀ q c, QGood g m q → (∀ i, OnGrid g (c i) ∧ |c i| ≤ 2 ^ m) → E'.inRange q c = E.inRange q c
  value : ∀ q c, QGood g m q → (∀ i, OnGrid g (c i) ∧ |c i| ≤ 2 ^ m) → E'.value q c = E.value q c ∧ ∀ v, E.value q c = .ok v → Sized A B v
  grad : ∀ q c di, QGood g m q → (∀ i, OnGrid g (c i) ∧ |c i| ≤ 2 ^ m) → E'.grad q c di = E.grad q c di ∧ ∀ v, E.grad q c di = .ok v → Sized A B v
  hess : ∀ q c di dj, QGood g m q → (∀ i, OnGrid g (c i) ∧ |c i| ≤ 2 ^ m) → E'.hess q c di dj = E.hess q c di dj ∧
    ∀ v, E.hess q c di dj = .ok v → Sized A B v

variable {A B : Nat} {E' E : ElemOps K d}

theorem diff_good {node : List (Fin d → K)} (hp : ∀ p ∈ node, ∀ i, OnGrid g (p i) ∧ |p i| ≤ 2 ^ m)
    {p q : Fin d → K} (h1 : p ∈ node) (h2 : q ∈ node) (i : Fin d) : OnGrid g (p i - q i) ∧ Sized g (m + 1) (p i - q i) := by
  have a1 := hp p h1 i
  have a2 := hp q h2 i
  exact ⟨grid_sub a1.1 a2.1, grid_sized (grid_sub a1.1 a2.1) (abs_sub_le_pow a1.2 a2.2)⟩

theorem makeCell_congr (hB : IsBinary64 f) (hgm : g + m ≤ 800) (P : Pair g m A B E' E) {node : List (Fin d → K)}
    (hp : ∀ p ∈ node, ∀ i, OnGrid g (p i) ∧ |p i| ≤ 2 ^ m) (el : Nat) (cell : List Nat) :
    Fl.makeCell f E' node el cell = Fl.makeCell r E node el cell ∧
      ∀ qs, Fl.makeCell r E node el cell = .ok qs → ∀ q ∈ qs, QGood g m q := by
  unfold Fl.makeCell
  rw [P.far, P.corners, P.make]
  cases h1 : vget cell (E.far : Nat) with
  | error e => exact ⟨rfl, fun qs h => by cases h⟩
  | ok nf =>
  cases h2 : vget cell 0 with
  | error e => exact ⟨rfl, fun qs h => by cases h⟩
  | ok n0 =>
  simp only [ok_bind]
  cases h3 : vget node (nf : Nat) with
  | error e => exact ⟨rfl, fun qs h => by cases h⟩
  | ok pf =>
  cases h4 : vget node (n0 : Nat) with
  | error e => exact ⟨rfl, fun qs h => by cases h⟩
  | ok p0 =>
  simp only [ok_bind]
  have hd := diff_good hp (List.mem_of_getElem? (vget_ok.mp h3).2) (List.mem_of_getElem? (vget_ok.mp h4).2)
  have e : (fun i => f (pf i - p0 i)) = fun i => r (pf i - p0 i) := funext fun i => agree hB (hd i).2 (by omega) (by omega)
  rw [e]
  refine ⟨rfl, fun qs h q hq => ?_⟩
  obtain ⟨j, -, hj⟩ := Vtk.mapRes_mem _ _ h q hq
  obtain ⟨nj, -, hj⟩ := bind_eq_ok.mp hj
  obtain ⟨pj, hpj, hj⟩ := bind_eq_ok.mp hj
  cases hj
  obtain ⟨e1, e2, e3⟩ := P.make_good nj el pj (fun i => r (pf i - p0 i)) j
  have hj := hp pj (List.mem_of_getElem? (vget_ok.mp hpj).2)
  refine ⟨fun i => ?_, fun i => ?_, fun i => ?_, fun i => ?_, e3⟩
  · rw [e1]; exact (hj i).1
  · rw [e1]; exact (hj i).2
  · rw [e2]; exact grid_round (hd i).1
  · rw [e2]; exact sized_le (sized_round (hd i).2)

theorem makeCells_congr (hB : IsBinary64 f) (hgm : g + m ≤ 800) (P : Pair g m A B E' E) {node : List (Fin d → K)}
    (hp : ∀ p ∈ node, ∀ i, OnGrid g (p i) ∧ |p i| ≤ 2 ^ m) (cells : List (List Nat)) : ∀ el,
    Fl.makeCells f E' node el cells = Fl.makeCells r E node el cells ∧
      ∀ qs, Fl.makeCells r E node el cells = .ok qs → ∀ q ∈ qs, QGood g m q := by
  induction cells with
  | nil => intro el; exact ⟨rfl, fun qs h q hq => by cases h; cases hq⟩
  | cons c cs ih =>
    intro el
    obtain ⟨e1, g1⟩ := makeCell_congr hB hgm P hp el c
    obtain ⟨e2, g2⟩ := ih (el + 1)
    simp only [Fl.makeCells, e1, e2]
    refine ⟨trivial, fun qs h q hq => ?_⟩
    obtain ⟨a, ha, h⟩ := bind_eq_ok.mp h
    obtain ⟨b, hb, h⟩ := bind_eq_ok.mp h
    cases h
    rcases List.mem_append.mp hq with hq | hq
    · exact g1 _ ha q hq
    · exact g2 _ hb q hq

theorem build_congr (hB : IsBinary64 f) (hgm : g + m ≤ 800) (P : Pair g m A B E' E) {pts : List (Fin d → K)}
    (hp : ∀ p ∈ pts, ∀ i, OnGrid g (p i) ∧ |p i| ≤ 2 ^ m) (hN : ∀ i, nDistinct pts i + 2 ≤ 2 ^ 31) (hne : pts ≠ []) (cells : List (List Nat)) :
    Fl.build f E' pts cells = Fl.build r E pts cells := by
  unfold Fl.build
  rw [readPoints_congr hB hgm hp hN hne]
  cases h : Fl.readPoints r Mesh.empty pts with
  | error e => rfl
  | ok M =>
    obtain ⟨hG, hn, hi⟩ := readPoints_grid hB hgm hp hN hne h
    simp only [ok_bind]
    unfold Fl.readCells
    rw [hn, hi]
    obtain ⟨e1, g1⟩ := makeCells_congr hB hgm P hp cells 0
    rw [e1]
    cases h' : Fl.makeCells r E pts 0 cells with
    | error e => rfl
    | ok qs =>
      simp only [ok_bind, List.nil_append]
      rw [fileAll_congr hB hgm qs (g1 qs h') M.bin hG]

theorem load_congr (hB : IsBinary64 f) (hgm : g + m ≤ 800) (P : Pair g m A B E' E) {pts : List (Fin d → K)}
    (hp : ∀ p ∈ pts, ∀ i, OnGrid g (p i) ∧ |p i| ≤ 2 ^ m) (hN : ∀ i, nDistinct pts i + 2 ≤ 2 ^ 31) (hne : pts ≠ []) (cells : List (List Nat))
    (flds : List (String × List K)) : Fl.load f E' pts cells flds = Fl.load r E pts cells flds := by
  unfold Fl.load
  rw [build_congr hB hgm P hp hN hne]

end B64
end Verif
