import Verif.Lemmas.Move
import Mathlib.Tactic.FinCases
import Mathlib.Data.Fintype.Basic

/-! # A mesh in other units: construction and evaluation are carried along -/

namespace Verif
open Spec

theorem mapRes_map {α α' β β' : Type} (f : α → Res β) (f' : α' → Res β') (p : α → α') (g : β → β') (h : ∀ a, f' (p a) = (f a).map g) (l : List α) :
    mapRes f' (l.map p) = (mapRes f l).map (List.map g) := by
  induction l with
  | nil => rfl
  | cons a l ih =>
    simp only [List.map_cons, mapRes]
    rw [h, ih, map_bind', bind_map']
    congr 1; funext b
    rw [map_bind', bind_map']
    rfl

theorem mapRes_mapIdx {α β : Type} (f f' : α → Res β) (G : Nat → β → β) (l : List α) : ∀ (k0 : Nat)
    (_ : ∀ k a, l[k]? = some a → f' a = (f a).map (G (k0 + k))),
    mapRes f' l = (mapRes f l).map (List.mapIdx fun k => G (k0 + k)) := by
  induction l with
  | nil => intro k0 h; rfl
  | cons a l ih =>
    intro k0 h
    simp only [mapRes]
    rw [h 0 a rfl, ih (k0 + 1) (fun k a ha => by rw [h (k + 1) a ha, show k0 + 1 + k = k0 + (k + 1) by omega]), map_bind', bind_map']
    congr 1; funext b
    rw [map_bind', bind_map']
    congr 1; funext bs
    simp only [Except.map, List.mapIdx_cons, Nat.add_zero]
    congr 2
    congr 1; funext k
    rw [show k0 + 1 + k = k0 + (k + 1) by omega]

variable {K : Type} {d : Nat} [Field K] [LinearOrder K] [FloorRing K] [IsStrictOrderedRing K]

/-- A factor or offset of each axis, as a function of the axis number. -/
def ext (s : Fin d → K) (x : K) (k : Nat) : K := if h : k < d then s ⟨k, h⟩ else x

omit [FloorRing K] in
theorem ext_pos {s : Fin d → K} (hs : ∀ i, 0 < s i) (k : Nat) : 0 < ext s 1 k := by
  unfold ext
  split
  · exact hs _
  · exact one_pos

omit [LinearOrder K] [FloorRing K] [IsStrictOrderedRing K] in
theorem ofFn_rescale (s t c : Fin d → K) : List.ofFn (rescale s t c) = Bin.mvL (ext s 1) (ext t 0) (List.ofFn c) := by
  apply List.ext_getElem
  · simp [Bin.mvL]
  · intro k h1 h2
    have hk : k < d := by simpa using h1
    simp [Bin.mvL, rescale, ext, hk]

/-- An interpolator in the new units. -/
def Interp.mv (s t : Fin d → K) (q : Interp K d) : Interp K d := ⟨q.node, q.element, rescale s t q.n, fun i => s i * q.h i, q.s⟩

omit [FloorRing K] [IsStrictOrderedRing K] in
theorem Interp.mv_min (s t : Fin d → K) (q : Interp K d) : (q.mv s t).min = rescale s t q.min := by
  funext i
  simp only [Interp.min, Interp.mv, rescale]
  split_ifs <;> simp only [*, if_true, if_false] <;> ring

omit [FloorRing K] [IsStrictOrderedRing K] in
theorem Interp.mv_max (s t : Fin d → K) (q : Interp K d) : (q.mv s t).max = rescale s t q.max := by
  funext i
  simp only [Interp.max, Interp.mv, rescale]
  split_ifs <;> simp only [*, if_true, if_false] <;> ring

/-- How the members of an interpolator change with the units. -/
structure Moves (E : ElemOps K d) (s t : Fin d → K) : Prop where
  make : ∀ nd el p h j, E.make nd el (rescale s t p) (fun i => s i * h i) j = (E.make nd el p h j).mv s t
  inRange : ∀ q c, E.inRange (q.mv s t) (rescale s t c) = E.inRange q c
  value : ∀ q c, E.value (q.mv s t) (rescale s t c) = E.value q c
  grad : ∀ q c (di : Fin d), E.grad (q.mv s t) (rescale s t c) di = (E.grad q c di).map ((s di)⁻¹ * ·)
  hess : ∀ q c (di dj : Fin d), E.hess (q.mv s t) (rescale s t c) di dj = (E.hess q c di dj).map ((s di * s dj)⁻¹ * ·)

omit [LinearOrder K] [FloorRing K] [IsStrictOrderedRing K] in
theorem frac_mv {a o x y h e : K} (ha : a ≠ 0) : e * (a * x + o - (a * y + o)) / (a * h) = e * (x - y) / h := by
  rw [show e * (a * x + o - (a * y + o)) = a * (e * (x - y)) by ring, mul_div_mul_left _ _ ha]

omit [FloorRing K] in
theorem passOk_mv {s : Fin d → K} (hs : ∀ i, 0 < s i) (t : Fin d → K) (q : Interp K d) (c : Fin d → K) (i : Fin d) :
    (q.mv s t).passOk (rescale s t c) i = q.passOk c i := by
  simp only [Interp.passOk, Interp.mv, rescale, frac_mv (hs i).ne']

omit [FloorRing K] in
theorem quadMoves {s : Fin 2 → K} (hs : ∀ i, 0 < s i) (t : Fin 2 → K) : Moves (quadOps K) s t where
  make nd el p h j := rfl
  inRange q c := by simp only [quadOps, Interp.quadInRange, passOk_mv hs]
  value q c := by simp only [quadOps, quadF, Interp.mv, rescale, frac_mv (hs _).ne']
  grad q c di := by
    fin_cases di <;> simp only [quadOps, quadGrad, Interp.mv, rescale, frac_mv (hs _).ne', Except.map] <;> congr 1 <;> simp <;> ring
  hess q c di dj := by
    fin_cases di <;> fin_cases dj <;> simp [quadOps, quadHess, Interp.mv, Except.map] <;> ring

omit [FloorRing K] in
theorem hexMoves {s : Fin 3 → K} (hs : ∀ i, 0 < s i) (t : Fin 3 → K) : Moves (hexOps K) s t where
  make nd el p h j := rfl
  inRange q c := by simp only [hexOps, Interp.hexInRange, passOk_mv hs]
  value q c := by simp only [hexOps, hexF, Interp.mv, rescale, frac_mv (hs _).ne']
  grad q c di := by
    fin_cases di <;> simp only [hexOps, hexGrad, Interp.mv, rescale, frac_mv (hs _).ne', Except.map] <;> congr 1 <;> simp <;> ring
  hess q c di dj := by
    fin_cases di <;> fin_cases dj <;> simp [hexOps, hexHess, Interp.mv, Except.map] <;> ring

namespace Mesh

omit [Field K] [LinearOrder K] [FloorRing K] [IsStrictOrderedRing K] in
theorem distinct_map [DecidableEq K] (T : (Fin d → K) → Fin d → K) (j : Fin d) (g : K → K) (hg : Function.Injective g) (hT : ∀ p, T p j = g (p j))
    (pts : List (Fin d → K)) : distinct (pts.map T) j = (distinct pts j).map g := by
  have h : ∀ (pts : List (Fin d → K)) (l : List K), (pts.map T).foldl (fun l p => addOnceVal l (p j)) (l.map g) =
      (pts.foldl (fun l p => addOnceVal l (p j)) l).map g := by
    intro pts
    induction pts with
    | nil => intro l; rfl
    | cons p ps ih =>
      intro l
      have e : addOnceVal (l.map g) (T p j) = (addOnceVal l (p j)).map g := by
        unfold addOnceVal
        rw [hT]
        have : (l.map g).any (fun x => decide (x = g (p j))) = l.any (fun x => decide (x = p j)) := by
          rw [List.any_map]
          congr 1; funext x
          simp [hg.eq_iff]
        rw [this]
        split <;> simp
      simp only [List.map_cons, List.foldl_cons, e]
      exact ih _
  exact h pts []

/-- The limits of an axis in the new units. -/
def Axis.mv (a o : K) (x : Axis K) : Axis K := ⟨a * x.lo + o, a * x.hi + o, a * x.incr, a * x.min + o, x.N⟩

omit [FloorRing K] in
theorem axis_mv {a : K} (ha : 0 < a) (o : K) (value : List K) : axis (value.map fun x => a * x + o) = (axis value).map (Axis.mv a o) := by
  unfold axis
  have hs : (value.map fun x => a * x + o).insertionSort (· ≤ ·) = (value.insertionSort (· ≤ ·)).map fun x => a * x + o := by
    rw [List.map_insertionSort (r := (· ≤ ·)) (s := (· ≤ ·))]
    intro x _ y _
    show x ≤ y ↔ _
    rw [add_le_add_iff_right, mul_le_mul_iff_right₀ ha]
  simp only [hs, List.length_map, vget_map, map_bind', bind_map']
  congr 1; funext lo
  congr 1; funext hi
  simp only [Except.map, Axis.mv]
  congr 2
  · rw [← mul_div_assoc]; congr 1; ring
  · rw [show a * hi + o - (a * lo + o) = a * (hi - lo) by ring]; ring

/-- The mesh in the new units. -/
def mv (s t : Fin d → K) (m : Mesh K d) : Mesh K d :=
  ⟨fun i => (m.min i).map fun x => s i * x + t i, fun i => (m.max i).map fun x => s i * x + t i, m.node.map (rescale s t),
    m.interp.map (Interp.mv s t), m.bin.mv (ext s 1) (ext t 0) (Interp.mv s t)⟩

omit [FloorRing K] in
theorem readPoints_mv {s : Fin d → K} (hs : ∀ i, 0 < s i) (t : Fin d → K) (m : Mesh K d) (pts : List (Fin d → K)) :
    readPoints (m.mv s t) (pts.map (rescale s t)) = (readPoints m pts).map (mv s t) := by
  unfold readPoints
  have hd : ∀ j, axis (distinct (pts.map (rescale s t)) j) = (axis (distinct pts j)).map (Axis.mv (s j) (t j)) := by
    intro j
    rw [distinct_map _ j (fun x => s j * x + t j) ?_ (fun p => rfl), axis_mv (hs j)]
    intro x y h
    exact mul_left_cancel₀ (hs j).ne' (add_right_cancel h)
  have hax : mapRes (fun j => axis (distinct (pts.map (rescale s t)) j)) (List.finRange d) =
      (mapRes (fun j => axis (distinct pts j)) (List.finRange d)).map (List.mapIdx fun k => Axis.mv (ext s 1 k) (ext t 0 k)) := by
    have := mapRes_mapIdx (fun j => axis (distinct pts j)) (fun j => axis (distinct (pts.map (rescale s t)) j))
      (fun k => Axis.mv (ext s 1 k) (ext t 0 k)) (List.finRange d) 0 (by
        intro k a ha
        obtain ⟨hk, e⟩ := List.getElem?_eq_some_iff.mp ha
        have hkd : k < d := by simpa using hk
        have : a = ⟨k, hkd⟩ := by rw [← e]; simp
        rw [hd, this]
        simp [ext, hkd])
    simpa using this
  rw [hax, map_bind', bind_map']
  congr 1; funext axes
  have e1 : (List.mapIdx (fun k => Axis.mv (ext s 1 k) (ext t 0 k)) axes).map Axis.min = Bin.mvL (ext s 1) (ext t 0) (axes.map Axis.min) := by
    apply List.ext_getElem?
    intro k
    simp only [Bin.mvL, List.getElem?_map, List.getElem?_mapIdx]
    cases axes[k]? <;> rfl
  have e2 : (List.mapIdx (fun k => Axis.mv (ext s 1 k) (ext t 0 k)) axes).map Axis.incr = Bin.scL (ext s 1) (axes.map Axis.incr) := by
    apply List.ext_getElem?
    intro k
    simp only [Bin.scL, List.getElem?_map, List.getElem?_mapIdx]
    cases axes[k]? <;> rfl
  have e3 : (List.mapIdx (fun k => Axis.mv (ext s 1 k) (ext t 0 k)) axes).map Axis.N = axes.map Axis.N := by
    apply List.ext_getElem?
    intro k
    simp only [List.getElem?_map, List.getElem?_mapIdx]
    cases axes[k]? <;> rfl
  rw [e1, e2, e3, Bin.mk_mv _ _ (Interp.mv s t), map_bind', bind_map']
  congr 1; funext bin
  simp only [Except.map, mv]
  congr 2
  · funext j
    simp only [List.getElem?_mapIdx]
    cases axes[(j : Nat)]? <;> simp [Axis.mv, ext]
  · funext j
    simp only [List.getElem?_mapIdx]
    cases axes[(j : Nat)]? <;> simp [Axis.mv, ext]
  · simp

omit [LinearOrder K] [FloorRing K] [IsStrictOrderedRing K] in
theorem bind_congr' {α β : Type} (x : Res α) (f g : α → Res β) (h : ∀ a, f a = g a) : (x >>= f) = (x >>= g) := by
  rw [funext h]

omit [FloorRing K] [IsStrictOrderedRing K] in
theorem makeCells_mv {E : ElemOps K d} {s t : Fin d → K} (M : Moves E s t) (node : List (Fin d → K)) (cells : List (List Nat)) : ∀ el : Nat,
    makeCells E (node.map (rescale s t)) el cells = (makeCells E node el cells).map (List.map (Interp.mv s t)) := by
  induction cells with
  | nil => intro el; rfl
  | cons c cs ih =>
    intro el
    have hc : makeCell E (node.map (rescale s t)) el c = (makeCell E node el c).map (List.map (Interp.mv s t)) := by
      unfold makeCell
      simp only [bind_map', vget_map, map_bind']
      refine bind_congr' _ _ _ fun nf => bind_congr' _ _ _ fun n0 => bind_congr' _ _ _ fun pf => bind_congr' _ _ _ fun p0 => ?_
      have := mapRes_map (fun j => (vget c (j : Nat) >>= fun nj => vget node (nj : Nat) >>= fun pj => (.ok (E.make nj el pj (fun i => pf i - p0 i) j) : Res _)))
        (fun j => (vget c (j : Nat) >>= fun nj => vget node (nj : Nat) >>= fun pj =>
          (.ok (E.make nj el (rescale s t pj) (fun i => rescale s t pf i - rescale s t p0 i) j) : Res _))) (id : Nat → Nat) (Interp.mv s t) (by
          intro j
          simp only [bind_map', id]
          refine bind_congr' _ _ _ fun nj => bind_congr' _ _ _ fun pj => ?_
          rw [show (fun i => rescale s t pf i - rescale s t p0 i) = fun i => s i * (pf i - p0 i) from by
            funext i; simp only [rescale]; ring, M.make]
          rfl) (List.range E.corners)
      rwa [List.map_id] at this
    simp only [makeCells, hc, ih, bind_map', map_bind']
    refine bind_congr' _ _ _ fun a => bind_congr' _ _ _ fun b => ?_
    simp [Except.map]

theorem fileAll_mv {s : Fin d → K} (hs : ∀ i, 0 < s i) (t : Fin d → K) (qs : List (Interp K d)) : ∀ b : Bin (Interp K d) K,
    fileAll (qs.map (Interp.mv s t)) (b.mv (ext s 1) (ext t 0) (Interp.mv s t)) =
      (fileAll qs b).map (Bin.mv (ext s 1) (ext t 0) (Interp.mv s t)) := by
  induction qs with
  | nil => intro b; rfl
  | cons q qs ih =>
    intro b
    simp only [List.map_cons, fileAll, Interp.mv_min, Interp.mv_max, ofFn_rescale]
    rw [Bin.addRange_mv (ext_pos hs)]
    rcases b.addRange q (List.ofFn q.min) (List.ofFn q.max) with ⟨_ | _, b'⟩
    · rfl
    · exact ih b'

theorem readInto_mv {E : ElemOps K d} {s t : Fin d → K} (hs : ∀ i, 0 < s i) (M : Moves E s t) (m : Mesh K d) (pts : List (Fin d → K))
    (cells : List (List Nat)) : readInto E (m.mv s t) (pts.map (rescale s t)) cells = (readInto E m pts cells).map (mv s t) := by
  unfold readInto
  rw [readPoints_mv hs, map_bind', bind_map']
  refine bind_congr' _ _ _ fun m' => ?_
  unfold readCells
  rw [show (m'.mv s t).node = m'.node.map (rescale s t) from rfl, makeCells_mv M, map_bind', bind_map']
  refine bind_congr' _ _ _ fun new => ?_
  rw [show (m'.mv s t).interp ++ List.map (Interp.mv s t) new = List.map (Interp.mv s t) (m'.interp ++ new) from by simp [mv],
    show (m'.mv s t).bin = m'.bin.mv (ext s 1) (ext t 0) (Interp.mv s t) from rfl]
  dsimp only
  rw [fileAll_mv hs, map_bind', bind_map']
  refine bind_congr' _ _ _ fun bin => ?_
  rfl

omit [LinearOrder K] [FloorRing K] [IsStrictOrderedRing K] in
theorem empty_mv (s t : Fin d → K) : (Mesh.empty : Mesh K d).mv s t = Mesh.empty := rfl

/-! ### Evaluation -/

/-- Weights in the new units. -/
def Buf.scale (κ : K) (b : Buf K) : Buf K := ⟨b.bf.map (κ * ·), b.ni⟩

omit [LinearOrder K] [FloorRing K] [IsStrictOrderedRing K] in
theorem fillLoop_mv (κ : K) (s t : Fin d → K) (w w' : Interp K d → Res K) (hw : ∀ q, w' (q.mv s t) = (w q).map (κ * ·)) (el : Nat) (l : List (Interp K d)) :
    ∀ (i : Nat) (b : Buf K), fillLoop w' el (l.map (Interp.mv s t)) i (b.scale κ) = ((fillLoop w el l i b).1, (fillLoop w el l i b).2.scale κ) := by
  induction l with
  | nil => intro i b; rfl
  | cons q qs ih =>
    intro i b
    simp only [List.map_cons, fillLoop, show (q.mv s t).element = q.element from rfl, show (q.mv s t).node = q.node from rfl]
    have hv : (if q.element = el then w' (q.mv s t) else .ok 0) = (if q.element = el then w q else .ok 0).map (κ * ·) := by
      split
      · exact hw q
      · simp [Except.map]
    rw [hv]
    cases (if q.element = el then w q else .ok 0) with
    | error e => rfl
    | ok v =>
      simp only [Except.map, Buf.scale]
      rw [show vset (b.bf.map (κ * ·)) (i : Nat) (κ * v) = (vset b.bf (i : Nat) v).map (List.map (κ * ·)) from vset_map _ _ _ _]
      cases vset b.bf (i : Nat) v with
      | error e => rfl
      | ok bf' =>
        simp only [Except.map]
        cases vset b.ni (i : Nat) q.node with
        | error e => rfl
        | ok ni' => exact ih _ ⟨bf', ni'⟩

omit [LinearOrder K] [FloorRing K] [IsStrictOrderedRing K] in
theorem firstInRange_mv {E : ElemOps K d} {s t : Fin d → K} (M : Moves E s t) (c : Fin d → K) (l : List (Interp K d)) :
    firstInRange E (rescale s t c) (l.map (Interp.mv s t)) = (firstInRange E c l).map (Interp.mv s t) := by
  induction l with
  | nil => rfl
  | cons q qs ih =>
    simp only [List.map_cons, firstInRange, M.inRange, ih]
    split <;> rfl

theorem fill_mv {E : ElemOps K d} {s t : Fin d → K} (hs : ∀ i, 0 < s i) (M : Moves E s t) (κ : K) (w w' : Interp K d → Res K)
    (hw : ∀ q, w' (q.mv s t) = (w q).map (κ * ·)) (m : Mesh K d) (c : Fin d → K) (b : Buf K) :
    fill E w' (m.mv s t) (rescale s t c) (b.scale κ) = ((fill E w m c b).1, (fill E w m c b).2.1.mv s t, (fill E w m c b).2.2.scale κ) := by
  unfold fill
  rw [ofFn_rescale, show (m.mv s t).bin = m.bin.mv (ext s 1) (ext t 0) (Interp.mv s t) from rfl, Bin.contents_mv (ext_pos hs)]
  rcases m.bin.contents (List.ofFn c) with ⟨_ | content, bin⟩
  · rfl
  · simp only [Except.map, firstInRange_mv M]
    cases firstInRange E c content with
    | none => simp [mv]
    | some q =>
      simp only [Option.map, show (q.mv s t).element = q.element from rfl, fillLoop_mv κ s t w w' hw]
      rcases fillLoop w q.element content 0 b with ⟨_ | _, b'⟩
      · rfl
      · simp [mv]

end Mesh

namespace PField
open Mesh

omit [LinearOrder K] [FloorRing K] [IsStrictOrderedRing K] in
theorem sumLoop_mv (κ : K) (data : List K) (b : Buf K) (n : Nat) : ∀ (i : Nat) (acc : K),
    sumLoop data (b.scale κ) n i (κ * acc) = (sumLoop data b n i acc).map (κ * ·) := by
  induction n with
  | zero => intro i acc; rfl
  | succ n ih =>
    intro i acc
    unfold sumLoop
    rw [show vget (b.scale κ).bf (i : Nat) = (vget b.bf (i : Nat)).map (κ * ·) from vget_map _ _ _, map_bind', bind_map']
    refine bind_congr' _ _ _ fun w => ?_
    rw [show (b.scale κ).ni = b.ni from rfl, bind_map']
    refine bind_congr' _ _ _ fun k => ?_
    rw [bind_map']
    refine bind_congr' _ _ _ fun v => ?_
    rw [← ih, show κ * acc + κ * w * v = κ * (acc + w * v) by ring]

omit [LinearOrder K] [FloorRing K] [IsStrictOrderedRing K] in
theorem scale_one (b : Buf K) : b.scale 1 = b := by simp [Buf.scale]

theorem value_mv {E : ElemOps K d} {s t : Fin d → K} (hs : ∀ i, 0 < s i) (M : Moves E s t) (m : Mesh K d) (f : PField K) (c : Fin d → K) :
    f.value E (m.mv s t) (rescale s t c) = ((f.value E m c).1, (f.value E m c).2.1.mv s t, (f.value E m c).2.2) := by
  unfold value basisFunctions
  have h := fill_mv hs M 1 (fun q => E.value q c) (fun q => E.value q (rescale s t c)) (fun q => by
    rw [M.value]; cases E.value q c <;> simp [Except.map]) m c f.buf
  rw [scale_one] at h
  rw [h]
  rcases fill E (fun q => E.value q c) m c f.buf with ⟨_ | n, m', b⟩
  · simp [scale_one]
  · simp only [scale_one]
    cases sumLoop f.data b n 0 f.zero <;> rfl

omit [LinearOrder K] [FloorRing K] [IsStrictOrderedRing K] in
theorem vset_any {α : Type} (v : List α) (i : Int) (a b : α) : (vset v i a).map (fun _ => ()) = (vset v i b).map fun _ => () := by
  unfold vset
  split <;> rfl

theorem grad_mv {E : ElemOps K d} {s t : Fin d → K} (hs : ∀ i, 0 < s i) (M : Moves E s t) (m : Mesh K d) (f : PField K)
    (hz : f.zero = 0) (hb : ∀ x ∈ f.buf.bf, x = 0) (c : Fin d → K) (di : Fin d) :
    (f.gradAt E (m.mv s t) (rescale s t c) di).1 = (f.gradAt E m c di).1.map ((s di)⁻¹ * ·) := by
  have hsc : f.buf.scale (s di)⁻¹ = f.buf := by
    unfold Buf.scale
    congr 1
    conv_rhs => rw [← List.map_id f.buf.bf]
    exact List.map_congr_left fun x hx => by simp [hb x hx]
  unfold gradAt gradBasisFunctions
  have h := fill_mv hs M (s di)⁻¹ (fun q => E.grad q c di) (fun q => E.grad q (rescale s t c) di) (fun q => M.grad q c di) m c f.buf
  rw [hsc] at h
  rw [h]
  rcases fill E (fun q => E.grad q c di) m c f.buf with ⟨_ | n, m', b⟩
  · rfl
  · simp only
    have hsum := sumLoop_mv (s di)⁻¹ f.data b n 0 f.zero
    rw [hz, mul_zero] at hsum
    rw [hz, hsum]
    cases sumLoop f.data b n 0 0 with
    | error e => rfl
    | ok v =>
      simp only [Except.map]
      have := vset_any f.grad ((di : Nat) : Int) ((s di)⁻¹ * v) v
      cases h1 : vset f.grad ((di : Nat) : Int) ((s di)⁻¹ * v) <;> cases h2 : vset f.grad ((di : Nat) : Int) v <;>
        simp_all [Except.map]

theorem hess_mv {E : ElemOps K d} {s t : Fin d → K} (hs : ∀ i, 0 < s i) (M : Moves E s t) (m : Mesh K d) (f : PField K)
    (hz : f.zero = 0) (hb : ∀ x ∈ f.buf.bf, x = 0) (c : Fin d → K) (di dj : Fin d) :
    (f.hessAt E (m.mv s t) (rescale s t c) di dj).1 = (f.hessAt E m c di dj).1.map ((s di * s dj)⁻¹ * ·) := by
  have hsc : f.buf.scale (s di * s dj)⁻¹ = f.buf := by
    unfold Buf.scale
    congr 1
    conv_rhs => rw [← List.map_id f.buf.bf]
    exact List.map_congr_left fun x hx => by simp [hb x hx]
  unfold hessAt hessBasisFunctions
  have h := fill_mv hs M (s di * s dj)⁻¹ (fun q => E.hess q c di dj) (fun q => E.hess q (rescale s t c) di dj) (fun q => M.hess q c di dj) m c f.buf
  rw [hsc] at h
  rw [h]
  rcases fill E (fun q => E.hess q c di dj) m c f.buf with ⟨_ | n, m', b⟩
  · rfl
  · simp only
    have hsum := sumLoop_mv (s di * s dj)⁻¹ f.data b n 0 f.zero
    rw [hz, mul_zero] at hsum
    rw [hz, hsum]
    cases sumLoop f.data b n 0 0 with
    | error e => rfl
    | ok v =>
      simp only [Except.map]
      cases vget f.hess ((di : Nat) : Int) with
      | error e => rfl
      | ok row =>
        simp only [ok_bind]
        have := vset_any row ((dj : Nat) : Int) ((s di * s dj)⁻¹ * v) v
        cases h1 : vset row ((dj : Nat) : Int) ((s di * s dj)⁻¹ * v) <;> cases h2 : vset row ((dj : Nat) : Int) v <;>
          simp_all only [Except.map, reduceCtorEq, err_bind, ok_bind, Except.error.injEq]
        rename_i r1 r2
        have := vset_any f.hess ((di : Nat) : Int) r1 r2
        cases h3 : vset f.hess ((di : Nat) : Int) r1 <;> cases h4 : vset f.hess ((di : Nat) : Int) r2 <;>
          simp_all [Except.map]

end PField

namespace Body
open Mesh

/-- The body in the new units. -/
def mv (s t : Fin d → K) (b : Body K d) : Body K d := ⟨b.mesh.mv s t, b.fields⟩

omit [LinearOrder K] [FloorRing K] [IsStrictOrderedRing K] in
theorem addFields_mv (s t : Fin d → K) (flds : List (String × List K)) : ∀ b : Body K d,
    addFields (b.mv s t) flds = (addFields b flds).map (mv s t) := by
  induction flds with
  | nil => intro b; rfl
  | cons fl fls ih =>
    intro b
    simp only [addFields]
    have h : (b.mv s t).addField fl.1 fl.2 = (b.addField fl.1 fl.2).map (mv s t) := by
      unfold addField PField.make
      rw [show (b.mv s t).mesh.bin.maxSize = b.mesh.bin.maxSize from Bin.maxSize_mv _ _ _ _]
      cases b.mesh.bin.maxSize <;> rfl
    rw [h, map_bind', bind_map']
    refine bind_congr' _ _ _ fun b' => ih b'

theorem loadInto_mv {E : ElemOps K d} {s t : Fin d → K} (hs : ∀ i, 0 < s i) (M : Moves E s t) (b : Body K d) (pts : List (Fin d → K))
    (cells : List (List Nat)) (flds : List (String × List K)) :
    loadInto E (b.mv s t) (pts.map (rescale s t)) cells flds = (loadInto E b pts cells flds).map (mv s t) := by
  unfold loadInto
  rw [show (b.mv s t).mesh = b.mesh.mv s t from rfl, readInto_mv hs M, map_bind', bind_map']
  exact bind_congr' _ _ _ fun m => addFields_mv s t flds { b with mesh := m }

theorem load_mv {E : ElemOps K d} {s t : Fin d → K} (hs : ∀ i, 0 < s i) (M : Moves E s t) (pts : List (Fin d → K))
    (cells : List (List Nat)) (flds : List (String × List K)) :
    load E (pts.map (rescale s t)) cells flds = (load E pts cells flds).map (mv s t) := loadInto_mv hs M Body.empty pts cells flds

omit [LinearOrder K] [FloorRing K] [IsStrictOrderedRing K] in
/-- The fields of a new body have not been evaluated. -/
theorem fresh_fields (flds : List (String × List K)) : ∀ b b' : Body K d, (∀ f ∈ b.fields, f.zero = 0 ∧ ∀ x ∈ f.buf.bf, x = 0) →
    addFields b flds = .ok b' → ∀ f ∈ b'.fields, f.zero = 0 ∧ ∀ x ∈ f.buf.bf, x = 0 := by
  induction flds with
  | nil => intro b b' h e; cases e; exact h
  | cons fl fls ih =>
    intro b b' h e
    simp only [addFields] at e
    obtain ⟨b1, h1, h2⟩ := bind_eq_ok.mp e
    refine ih b1 b' ?_ h2
    unfold addField at h1
    obtain ⟨f, g1, g2⟩ := bind_eq_ok.mp h1
    cases g2
    unfold PField.make at g1
    obtain ⟨mx, k1, k2⟩ := bind_eq_ok.mp g1
    cases k2
    intro f hf
    simp only [List.mem_append, List.mem_singleton] at hf
    rcases hf with hf | rfl
    · exact h f hf
    · exact ⟨rfl, fun x hx => (List.mem_replicate.mp hx).2⟩

end Body
end Verif
