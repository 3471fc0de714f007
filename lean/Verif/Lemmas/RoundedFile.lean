import Verif.Spec.RoundedFile
import Verif.Spec.Vtk
import Verif.Model.NumText
import Verif.Lemmas.RoundedMesh
import Mathlib.Tactic.Linarith
import Mathlib.Tactic.FieldSimp
import Mathlib.Tactic.Positivity
import Mathlib.Tactic.Ring
import Mathlib.Tactic.ByContra
import Mathlib.Data.Finset.Image

/-! Files whose numbers are rounded when they are read. -/

namespace Verif
open Spec
variable {K : Type} [Field K] [LinearOrder K] [FloorRing K] {d n : Nat}

namespace NumText

/-- Reading a number and rounding it: the text left does not depend on the rounding. -/
theorem scan_round (rnd : K → K) (t : List Char) : scan rnd t = ((scan (id : K → K) t).1.map rnd, (scan (id : K → K) t).2) := by
  unfold scan
  rcases scanSign t with ⟨neg, t1⟩
  dsimp only
  split_ifs <;> rfl

theorem denotes_round (rnd : K → K) {t : List Char} {x : K} (h : Denotes (scan id) t x) : Denotes (scan rnd) t (rnd x) :=
  ⟨h.start, fun w hw => by rw [scan_round, h.conv w hw]; rfl⟩

theorem forall_round (rnd : K → K) {ts : List (List Char)} {xs : List K} (h : List.Forall₂ (Denotes (scan id)) ts xs) :
    List.Forall₂ (Denotes (scan rnd)) ts (xs.map rnd) := by
  induction h with
  | nil => exact .nil
  | cons h _ ih => exact .cons (denotes_round rnd h) ih

theorem pointRow_round (rnd : K → K) {p : Fin d → K} {row : List (List Char)} (h : PointRow (scan id) p row) :
    PointRow (scan rnd) (fun i => rnd (p i)) row := by
  obtain ⟨extra, h1, h2⟩ := h
  refine ⟨extra.map rnd, by simpa using h1, ?_⟩
  have := forall_round rnd h2
  rw [List.map_append, List.map_ofFn] at this
  exact this

theorem fieldsText_round (rnd : K → K) {m : Nat} {flds : List (String × List K)} {x : List Char} (h : FieldsText (scan id) m flds x) :
    FieldsText (scan rnd) m (roundFlds rnd flds) x := by
  induction h with
  | nil ls hls => exact .nil ls hls
  | cons name data fs rest table toks x y h1 h2 h3 h4 h5 h6 h7 _ ih =>
    exact .cons name (data.map rnd) _ rest table toks x y h1 h2 h3 h4 (by simpa using h5) (forall_round rnd h6) h7 ih

/-- A file of decimal numbers, read with rounding, lists the rounded numbers. -/
theorem isVtk_round (rnd : K → K) {pts : List (Fin d → K)} {cells : List (List Nat)} {flds : List (String × List K)} {text : List Char}
    (h : IsVtk (scan id) pts cells flds text) : IsVtk (scan rnd) (roundPts rnd pts) cells (roundFlds rnd flds) text := by
  obtain ⟨head, mid, r1, r2, r3, r4, rows, types, xp, xc, xt, xf, hhead, hmid, h1, h2, h3, h4, hrow, hxp, hxc, htl, ht, hxt, hf, rfl⟩ := h
  have hlen : (roundPts rnd pts).length = pts.length := by simp [roundPts]
  refine ⟨head, mid, r1, r2, r3, r4, rows, types, xp, xc, xt, xf, hhead, hmid, h1, h2, h3, h4, ?_, hxp, hxc, htl, ht, hxt, ?_, ?_⟩
  · rw [roundPts, List.forall₂_map_left_iff]
    exact hrow.imp fun _ _ h => pointRow_round rnd h
  · rw [hlen]; exact fieldsText_round rnd hf
  · rw [hlen]

end NumText

/-! ### The rounded mesh -/

variable {rnd : K → K} {u : K}

omit [FloorRing K] in
theorem roundPts_get {pts : List (Fin d → K)} {p : Nat} {x : Fin d → K} (h : pts[p]? = some x) :
    (roundPts rnd pts)[p]? = some fun i => rnd (x i) := by simp [roundPts, h]

omit [FloorRing K] in
theorem mem_roundPts {pts : List (Fin d → K)} {p : Fin d → K} (h : p ∈ pts) : (fun i => rnd (p i)) ∈ roundPts rnd pts :=
  List.mem_map.mpr ⟨p, h, rfl⟩

variable [IsStrictOrderedRing K]

omit [FloorRing K] in
/-- Rounding keeps the order of the coordinates. -/
theorem apart_lt (R : Rounding rnd u) {pts : List (Fin d → K)} (hA : Apart rnd pts) {p q : Fin d → K} (hp : p ∈ pts) (hq : q ∈ pts) {i : Fin d}
    (h : p i < q i) : rnd (p i) < rnd (q i) :=
  lt_of_le_of_ne (R.mono _ _ h.le) fun e => h.ne (hA p hp q hq i e)

omit [FloorRing K] in
theorem apart_le (R : Rounding rnd u) {pts : List (Fin d → K)} (hA : Apart rnd pts) {p q : Fin d → K} (hp : p ∈ pts) (hq : q ∈ pts) {i : Fin d}
    (h : rnd (p i) ≤ rnd (q i)) : p i ≤ q i := by
  by_contra hn
  exact absurd (apart_lt R hA hq hp (not_le.mp hn)) (not_lt.mpr h)

namespace Fl
variable {E : ElemOps K d} {unit sgn : Fin n → Fin d → K} {tested : Fin d → Prop}

/-- Extents of the rounded cell. -/
def rext (rnd : K → K) (a h : Fin d → K) : Fin d → K := fun i => rnd (a i + h i) - rnd (a i)

theorem cellAt_round (F : FlElem rnd E unit sgn tested) (R : Rounding rnd u) {pts : List (Fin d → K)} (hA : Apart rnd pts) {cell : List Nat}
    {a h : Fin d → K} (hc : CellAt unit pts cell a h) : CellAt unit (roundPts rnd pts) cell (fun i => rnd (a i)) (rext rnd a h) := by
  obtain ⟨m1, m2⟩ := F.cell_mem hc
  refine ⟨hc.1, fun i => ?_, fun j => ?_⟩
  · have := apart_lt R hA m1 m2 (i := i) (by linarith [hc.2.1 i])
    simp only [rext]; linarith
  · obtain ⟨p, e1, e2⟩ := hc.2.2 j
    refine ⟨p, e1, ?_⟩
    rw [roundPts_get e2]
    congr 1
    funext i
    simp only [cornerPos, rext]
    rcases F.sign j i with ⟨e, _⟩ | ⟨e, _⟩ <;> rw [e]
    · simp
    · simp

theorem nDistinct_round {pts : List (Fin d → K)} (hA : Apart rnd pts) (i : Fin d) :
    nDistinct (roundPts rnd pts) i = nDistinct pts i := by
  unfold nDistinct
  have : (roundPts rnd pts).map (· i) = (pts.map (· i)).map rnd := by simp [roundPts, Function.comp_def]
  have e : ((pts.map (· i)).map rnd).toFinset = (pts.map (· i)).toFinset.image rnd := by ext; simp
  rw [this, e]
  apply Finset.card_image_of_injOn
  intro x hx y hy e
  simp only [List.coe_toFinset, List.mem_map, Set.mem_ofPred_eq] at hx hy
  obtain ⟨p, hp, rfl⟩ := hx
  obtain ⟨q, hq, rfl⟩ := hy
  exact hA p hp q hq i e

theorem rectMesh_round (F : FlElem rnd E unit sgn tested) (R : Rounding rnd u) {pts : List (Fin d → K)} {cells : List (List Nat)}
    (hm : RectMesh unit pts cells) (hA : Apart rnd pts) : RectMesh unit (roundPts rnd pts) cells := by
  refine ⟨hm.nonempty, fun cell hc => ?_, ?_⟩
  · obtain ⟨a, h, hah⟩ := hm.rect cell hc
    exact ⟨_, _, cellAt_round F R hA hah⟩
  · simp only [nDistinct_round hA]
    exact hm.small

theorem isLow_round (R : Rounding rnd u) {pts : List (Fin d → K)} {i : Fin d} {lo : K} (h : IsLow (roundPts rnd pts) i lo) :
    ∀ lo', IsLow pts i lo' → lo = rnd lo' := by
  intro lo' h'
  obtain ⟨⟨p, hp, rfl⟩, h2⟩ := h
  obtain ⟨⟨q, hq, rfl⟩, h4⟩ := h'
  obtain ⟨p', hp', rfl⟩ := List.mem_map.mp hp
  exact le_antisymm (h2 _ (mem_roundPts hq)) (R.mono _ _ (h4 _ hp'))

theorem isHigh_round (R : Rounding rnd u) {pts : List (Fin d → K)} {i : Fin d} {hi : K} (h : IsHigh (roundPts rnd pts) i hi) :
    ∀ hi', IsHigh pts i hi' → hi = rnd hi' := by
  intro lo' h'
  obtain ⟨⟨p, hp, rfl⟩, h2⟩ := h
  obtain ⟨⟨q, hq, rfl⟩, h4⟩ := h'
  obtain ⟨p', hp', rfl⟩ := List.mem_map.mp hp
  exact le_antisymm (R.mono _ _ (h4 _ hp')) (h2 _ (mem_roundPts hq))

theorem conforming_round (F : FlElem rnd E unit sgn tested) (R : Rounding rnd u) {pts : List (Fin d → K)} {cells : List (List Nat)}
    (hm : RectMesh unit pts cells) (hA : Apart rnd pts) (hcf : Conforming unit pts cells) : Conforming unit (roundPts rnd pts) cells := by
  intro cell hc cell' hc' ra rh ra' rh' hr hr' hx v hv
  obtain ⟨a, h, hah⟩ := hm.rect cell hc
  obtain ⟨a', h', hah'⟩ := hm.rect cell' hc'
  obtain ⟨rfl, rfl⟩ := F.cell_unique hr (cellAt_round F R hA hah)
  obtain ⟨rfl, rfl⟩ := F.cell_unique hr' (cellAt_round F R hA hah')
  obtain ⟨m1, m2⟩ := F.cell_mem hah
  obtain ⟨m1', m2'⟩ := F.cell_mem hah'
  obtain ⟨c, i1, i2⟩ := hx
  have hb : ∀ i, rnd (a i) + rext rnd a h i = rnd (a i + h i) := fun i => by simp [rext]
  have hb' : ∀ i, rnd (a' i) + rext rnd a' h' i = rnd (a' i + h' i) := fun i => by simp [rext]
  have l1 : ∀ i, a i ≤ a' i + h' i := fun i =>
    apart_le R hA m1 m2' (i := i) (by have := (i1 i).1; have := (i2 i).2; have := hb' i; simp only at *; linarith)
  have l2 : ∀ i, a' i ≤ a i + h i := fun i =>
    apart_le R hA m1' m2 (i := i) (by have := (i2 i).1; have := (i1 i).2; have := hb i; simp only at *; linarith)
  have p1 := hah.2.1
  have p2 := hah'.2.1
  classical
  let w : Fin d → K := fun i => if v i = max (rnd (a i)) (rnd (a' i)) then max (a i) (a' i) else min (a i + h i) (a' i + h' i)
  have hw : ∀ i, rnd (w i) = v i := by
    intro i
    have mx : rnd (max (a i) (a' i)) = max (rnd (a i)) (rnd (a' i)) := Monotone.map_max (fun _ _ h => R.mono _ _ h)
    have mn : rnd (min (a i + h i) (a' i + h' i)) = min (rnd (a i + h i)) (rnd (a' i + h' i)) := Monotone.map_min (fun _ _ h => R.mono _ _ h)
    by_cases e : v i = max (rnd (a i)) (rnd (a' i))
    · simp only [w, if_pos e, mx, e]
    · have := (hv i).resolve_left e
      rw [hb, hb'] at this
      simp only [w, if_neg e, mn, this]
  obtain ⟨p, e1, e2, e3⟩ := hcf cell hc cell' hc' a h a' h' hah hah'
    ⟨fun i => max (a i) (a' i), fun i => ⟨le_max_left _ _, max_le (by linarith [p1 i]) (l2 i)⟩,
      fun i => ⟨le_max_right _ _, max_le (l1 i) (by linarith [p2 i])⟩⟩ w (fun i => by
        by_cases e : v i = max (rnd (a i)) (rnd (a' i))
        · exact Or.inl (by simp only [w, if_pos e])
        · exact Or.inr (by simp only [w, if_neg e]))
  refine ⟨p, e1, e2, ?_⟩
  rw [roundPts_get e3]
  congr 1
  funext i
  exact hw i

theorem resolved_round (R : Rounding rnd u) (hu : u ≤ 1 / 64) {pts : List (Fin d → K)} (hA : Apart rnd pts) (hr : Resolved (2 * u) pts) :
    Resolved u (roundPts rnd pts) := by
  intro i lo' hi' hlo' hhi'
  have hne : pts ≠ [] := by
    rintro rfl
    obtain ⟨⟨p, hp, _⟩, _⟩ := hlo'
    simp [roundPts] at hp
  obtain ⟨lo, hi, hg, _⟩ := readPoints_eq (rnd := rnd) hne
  have hlo := hg.low i
  have hhi := hg.high i
  rw [isLow_round R hlo' _ hlo, isHigh_round R hhi' _ hhi]
  have h := hr i _ _ hlo hhi
  unfold margin at h ⊢
  rw [nDistinct_round hA]
  have hn : 1 ≤ (nDistinct pts i : K) := by exact_mod_cast Mesh.nDistinct_pos hne i
  generalize (nDistinct pts i : K) = N at *
  have hN : 0 < N := by linarith
  have e1 := R.err (lo i)
  have e2 := R.err (hi i)
  have u0 : 0 ≤ u := by
    have := R.err 1
    simp only [R.one, sub_self, abs_zero, abs_one, mul_one] at this
    exact this
  have hD : 0 ≤ hi i - lo i := by
    obtain ⟨p, hp, e⟩ := hlo.1
    have := hhi.2 p hp
    rw [e] at this
    linarith
  have hH : |hi i| ≤ |lo i| + (hi i - lo i) := by
    have := abs_add_le (lo i) (hi i - lo i)
    rw [abs_of_nonneg hD] at this
    simpa using this
  have hL' : |rnd (lo i)| ≤ |lo i| + u * |lo i| := by
    have := abs_add_le (rnd (lo i) - lo i) (lo i)
    rw [sub_add_cancel] at this
    linarith
  have L0 := abs_nonneg (lo i)
  generalize |lo i| = L at *
  have b1 := abs_le.mp e1
  have b2 := abs_le.mp e2
  have hS : 0 ≤ u * (L + (hi i - lo i)) := mul_nonneg u0 (by linarith)
  have k1 : u * |hi i| ≤ u * (L + (hi i - lo i)) := mul_le_mul_of_nonneg_left hH u0
  have k2 : u * L ≤ u * (L + (hi i - lo i)) := mul_le_mul_of_nonneg_left (by linarith) u0
  have k3 : u * (u * (L + (hi i - lo i))) ≤ 1 / 64 * (u * (L + (hi i - lo i))) := mul_le_mul_of_nonneg_right hu hS
  rw [le_div_iff₀ hN] at h ⊢
  have k4 : u * (L + (hi i - lo i)) * 1 ≤ u * (L + (hi i - lo i)) * N := mul_le_mul_of_nonneg_left hn hS
  have k5 : u * (|rnd (lo i)| + (rnd (hi i) - rnd (lo i))) ≤ 67 / 64 * (u * (L + (hi i - lo i))) := by
    have : |rnd (lo i)| + (rnd (hi i) - rnd (lo i)) ≤ (L + (hi i - lo i)) + 3 * (u * (L + (hi i - lo i))) := by linarith [b1.1, b2.2]
    have := mul_le_mul_of_nonneg_left this u0
    linarith
  have k6 : u * (|rnd (lo i)| + (rnd (hi i) - rnd (lo i))) * N ≤ 67 / 64 * (u * (L + (hi i - lo i))) * N :=
    mul_le_mul_of_nonneg_right k5 hN.le
  linarith [b1.2, b2.1]

/-! ### How much the interpolant of a cell changes when the numbers are rounded -/

omit [FloorRing K] in
theorem mix_le {t p q A : K} (h0 : 0 ≤ t) (h1 : t ≤ 1) (hp : |p| ≤ A) (hq : |q| ≤ A) : |(1 - t) * p + t * q| ≤ A := by
  have e1 := mul_le_mul_of_nonneg_left hp (sub_nonneg.mpr h1)
  have e2 := mul_le_mul_of_nonneg_left hq h0
  have e3 := abs_add_le ((1 - t) * p) (t * q)
  rw [abs_mul, abs_mul, abs_of_nonneg (sub_nonneg.mpr h1), abs_of_nonneg h0] at e3
  linarith

omit [FloorRing K] in
theorem mix_close {t t' p q p' q' M ε δ : K} (h0 : 0 ≤ t') (h1 : t' ≤ 1) (hp : |p| ≤ M) (hq : |q| ≤ M) (ht : |t - t'| ≤ ε)
    (dp : |p - p'| ≤ δ) (dq : |q - q'| ≤ δ) : |((1 - t) * p + t * q) - ((1 - t') * p' + t' * q')| ≤ 2 * M * ε + δ := by
  have e : ((1 - t) * p + t * q) - ((1 - t') * p' + t' * q') = (t - t') * (q - p) + ((1 - t') * (p - p') + t' * (q - q')) := by ring
  have e1 := mix_le h0 h1 dp dq
  have e2 : |q - p| ≤ 2 * M := by
    have := abs_sub q p
    linarith
  have e3 : |(t - t') * (q - p)| ≤ ε * (2 * M) := by
    rw [abs_mul]
    exact mul_le_mul ht e2 (abs_nonneg _) (le_trans (abs_nonneg _) ht)
  rw [e]
  have := abs_add_le ((t - t') * (q - p)) ((1 - t') * (p - p') + t' * (q - q'))
  linarith

theorem local_close (R : Rounding rnd u) {κ a h c : K} (hκ : 4 * u * κ ≤ 1) (hh : 0 < h) (ha : |a| ≤ κ * h) (hb : |a + h| ≤ κ * h)
    (h0 : a ≤ c) (h1 : c ≤ a + h) (hp : 0 < rnd (a + h) - rnd a) : |(c - a) / h - (c - rnd a) / (rnd (a + h) - rnd a)| ≤ 2 * u * κ := by
  have u0 : 0 ≤ u := by
    have := R.err 1
    simp only [R.one, sub_self, abs_zero, abs_one, mul_one] at this
    exact this
  have e1 : |rnd a - a| ≤ u * (κ * h) := (R.err a).trans (mul_le_mul_of_nonneg_left ha u0)
  have e2 : |rnd (a + h) - (a + h)| ≤ u * (κ * h) := (R.err _).trans (mul_le_mul_of_nonneg_left hb u0)
  have hx : c = a + (c - a) / h * h := by field_simp; ring
  have t0 : 0 ≤ (c - a) / h := div_nonneg (by linarith) hh.le
  have t1 : (c - a) / h ≤ 1 := by rw [div_le_one hh]; linarith
  generalize (c - a) / h = t at *
  have key : t - (c - rnd a) / (rnd (a + h) - rnd a) = ((1 - t) * (rnd a - a) + t * (rnd (a + h) - (a + h))) / (rnd (a + h) - rnd a) := by
    rw [hx]; field_simp; ring
  rw [key, abs_div, abs_of_pos hp, div_le_iff₀ hp]
  have e3 := mix_le t0 t1 e1 e2
  have b1 := abs_le.mp e1
  have b2 := abs_le.mp e2
  have k0 : 0 ≤ κ := by
    by_contra hn
    have : κ * h < 0 := mul_neg_of_neg_of_pos (not_le.mp hn) hh
    linarith [abs_nonneg a]
  have e4 : 4 * u * κ * h ≤ 1 * h := mul_le_mul_of_nonneg_right hκ hh.le
  have e5 : h ≤ 2 * (rnd (a + h) - rnd a) := by linarith [b1.2, b2.1]
  have e6 : u * κ * h ≤ u * κ * (2 * (rnd (a + h) - rnd a)) := mul_le_mul_of_nonneg_left e5 (mul_nonneg u0 k0)
  linarith

/-- A point of the cell with floating-point coordinates is in the rounded cell. -/
theorem inCell_round (R : Rounding rnd u) {a h c : Fin d → K} (hc : InCell a h c) (hf : ∀ i, IsFloat rnd (c i)) :
    InCell (fun i => rnd (a i)) (rext rnd a h) c := by
  intro i
  have h1 := R.mono _ _ (hc i).1
  have h2 := R.mono _ _ (hc i).2
  rw [hf i] at h1 h2
  exact ⟨h1, by simpa [rext] using h2⟩

omit [FloorRing K] in
theorem unit_frac {a h c : Fin d → K} (hh : ∀ i, 0 < h i) (hc : InCell a h c) (i : Fin d) : 0 ≤ (c i - a i) / h i ∧ (c i - a i) / h i ≤ 1 :=
  ⟨div_nonneg (by linarith [(hc i).1]) (hh i).le, by rw [div_le_one (hh i)]; linarith [(hc i).2]⟩

theorem val_close (R : Rounding rnd u) {x M : K} (h : |x| ≤ M) : |x - rnd x| ≤ u * M := by
  have u0 : 0 ≤ u := by
    have := R.err 1
    simp only [R.one, sub_self, abs_zero, abs_one, mul_one] at this
    exact this
  rw [abs_sub_comm]
  exact (R.err x).trans (mul_le_mul_of_nonneg_left h u0)

theorem bilinear_round (R : Rounding rnd u) {κ M : K} (hκ : 4 * u * κ ≤ 1) {a h c : Fin 2 → K} (hh : ∀ i, 0 < h i) (hw : Within κ a h)
    (hc : InCell a h c) (hf : ∀ i, IsFloat rnd (c i)) (hp : ∀ i, 0 < rext rnd a h i) {v : Fin 4 → K} (hv : ∀ j, |v j| ≤ M) :
    |bilinear a h v c - bilinear (fun i => rnd (a i)) (rext rnd a h) (fun j => rnd (v j)) c| ≤ (8 * κ + 1) * u * M := by
  have l := fun i => local_close R hκ (hh i) (hw i).1 (hw i).2 (hc i).1 (hc i).2 (hp i)
  have f := unit_frac hh hc
  have f' := unit_frac hp (inCell_round R hc hf)
  have g : ∀ i, |(c i - a i) / h i - (c i - rnd (a i)) / rext rnd a h i| ≤ 2 * u * κ := l
  simp only [bilinear]
  have d := fun j => val_close R (hv j)
  have s1 := mix_close (f' 0).1 (f' 0).2 (hv 0) (hv 1) (g 0) (d 0) (d 1)
  have s2 := mix_close (f' 0).1 (f' 0).2 (hv 3) (hv 2) (g 0) (d 3) (d 2)
  have m1 := mix_le (f 0).1 (f 0).2 (hv 0) (hv 1)
  have m2 := mix_le (f 0).1 (f 0).2 (hv 3) (hv 2)
  have s3 := mix_close (f' 1).1 (f' 1).2 m1 m2 (g 1) s1 s2
  refine le_trans (le_of_eq ?_) (le_trans s3 (le_of_eq ?_))
  · congr 1; ring
  · ring

theorem trilinear_round (R : Rounding rnd u) {κ M : K} (hκ : 4 * u * κ ≤ 1) {a h c : Fin 3 → K} (hh : ∀ i, 0 < h i) (hw : Within κ a h)
    (hc : InCell a h c) (hf : ∀ i, IsFloat rnd (c i)) (hp : ∀ i, 0 < rext rnd a h i) {v : Fin 8 → K} (hv : ∀ j, |v j| ≤ M) :
    |trilinear a h v c - trilinear (fun i => rnd (a i)) (rext rnd a h) (fun j => rnd (v j)) c| ≤ (12 * κ + 1) * u * M := by
  have l := fun i => local_close R hκ (hh i) (hw i).1 (hw i).2 (hc i).1 (hc i).2 (hp i)
  have f := unit_frac hh hc
  have f' := unit_frac hp (inCell_round R hc hf)
  have g : ∀ i, |(c i - a i) / h i - (c i - rnd (a i)) / rext rnd a h i| ≤ 2 * u * κ := l
  simp only [trilinear]
  have d := fun j => val_close R (hv j)
  have face : ∀ i j k l : Fin 8, _ := fun i j k l =>
    mix_close (f' 1).1 (f' 1).2 (mix_le (f 0).1 (f 0).2 (hv i) (hv j)) (mix_le (f 0).1 (f 0).2 (hv l) (hv k)) (g 1)
      (mix_close (f' 0).1 (f' 0).2 (hv i) (hv j) (g 0) (d i) (d j)) (mix_close (f' 0).1 (f' 0).2 (hv l) (hv k) (g 0) (d l) (d k))
  have mf : ∀ i j k l : Fin 8, _ := fun i j k l =>
    mix_le (f 1).1 (f 1).2 (mix_le (f 0).1 (f 0).2 (hv i) (hv j)) (mix_le (f 0).1 (f 0).2 (hv l) (hv k))
  have s3 := mix_close (f' 2).1 (f' 2).2 (mf 0 1 2 3) (mf 4 5 6 7) (g 2) (face 0 1 2 3) (face 4 5 6 7)
  refine le_trans (le_of_eq ?_) (le_trans s3 (le_of_eq ?_))
  · congr 1; ring
  · ring

end Fl
end Verif
