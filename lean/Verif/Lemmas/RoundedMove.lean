import Verif.Lemmas.ScaleData
import Verif.Lemmas.Rename

/-! # Coordinates multiplied by factors that rounding does not notice: reading and evaluation are carried along -/

namespace Verif
open Spec

/-- An interpolator in the new units. -/
def Interp.sc {K : Type} {d : Nat} [Mul K] (s : Fin d → K) (q : Interp K d) : Interp K d :=
  ⟨q.node, q.element, fun i => s i * q.n i, fun i => s i * q.h i, q.s⟩

namespace Fl
variable {T T' K : Type} {d : Nat} [Field K] [LinearOrder K] [FloorRing K] [IsStrictOrderedRing K] {rnd : K → K}

omit [LinearOrder K] [FloorRing K] [IsStrictOrderedRing K] in
theorem respects_inv {s : K} (h0 : s ≠ 0) (h : Respects rnd s) : Respects rnd s⁻¹ := by
  intro x
  have := h (s⁻¹ * x)
  rw [mul_inv_cancel_left₀ h0] at this
  rw [this, inv_mul_cancel_left₀ h0]

omit [LinearOrder K] [FloorRing K] [IsStrictOrderedRing K] in
theorem respects_mul {s s' : K} (h : Respects rnd s) (h' : Respects rnd s') : Respects rnd (s * s') := by
  intro x
  rw [mul_assoc, h, h', mul_assoc]

omit [LinearOrder K] [FloorRing K] [IsStrictOrderedRing K] in
theorem respects_one : Respects rnd 1 := fun x => by simp

open Bin (scL vget_scL)

theorem idxAt_sc {S : Nat → K} (hS : ∀ k, 0 < S k) (hR : ∀ k, Respects rnd (S k)) (min max incr coord : List K) (k : Nat) :
    idxAt rnd (scL S min) (scL S max) (scL S incr) (scL S coord) k = idxAt rnd min max incr coord k := by
  have lt : ∀ x y : K, S k * x < S k * y ↔ x < y := fun x y => mul_lt_mul_iff_right₀ (hS k)
  unfold idxAt
  simp only [vget_scL, map_bind', lt, mul_eq_zero, (hS k).ne', false_or]
  congr 1; funext c
  congr 1; funext lo
  split
  · rfl
  · congr 1; funext hi
    split
    · rfl
    · congr 1; funext d
      rw [← mul_sub, hR k, mul_div_mul_left _ _ (hS k).ne']

theorem idxLoop_sc {S : Nat → K} (hS : ∀ k, 0 < S k) (hR : ∀ k, Respects rnd (S k)) (min max incr coord : List K) (n : Nat) :
    ∀ (k : Nat) (term : List Int),
    idxLoop rnd (scL S min) (scL S max) (scL S incr) (scL S coord) n k term = idxLoop rnd min max incr coord n k term := by
  induction n with
  | zero => intro k term; rfl
  | succ n ih =>
    intro k term
    unfold idxLoop
    rw [idxAt_sc hS hR]
    cases idxAt rnd min max incr coord k with
    | error e => rfl
    | ok v =>
      simp only
      cases vset term (k : Nat) v with
      | error e => rfl
      | ok t => exact ih _ _

/-- The bins in the new units, with `f` applied to what they hold. -/
def scBin (S : Nat → K) (f : T → T') (b : Bin T K) : Bin T' K :=
  ⟨b.item.mapV (List.map f), scL S b.min, scL S b.incr, b.N, scL S b.max, b.indices⟩

theorem contents_sc {S : Nat → K} (hS : ∀ k, 0 < S k) (hR : ∀ k, Respects rnd (S k)) (f : T → T') (b : Bin T K) (c : List K) :
    contents rnd (scBin S f b) (scL S c) = ((contents rnd b c).1.map (List.map f), scBin S f (contents rnd b c).2) := by
  unfold contents indicesOf
  have h1 : (scBin S f b).item.order = b.item.order := rfl
  have h2 : (scBin S f b).indices = b.indices := rfl
  simp only [h1, h2]
  rw [show (scBin S f b).min = scL S b.min from rfl, show (scBin S f b).max = scL S b.max from rfl,
    show (scBin S f b).incr = scL S b.incr from rfl, idxLoop_sc hS hR]
  rcases idxLoop rnd b.min b.max b.incr c b.item.order.toNat 0 b.indices with ⟨_ | _, idx⟩
  · rfl
  · simp only
    refine Prod.ext ?_ rfl
    show (b.item.linearIndex idx >>= fun l => vget (b.item.val.map (List.map f)) l) = Except.map _ (b.item.linearIndex idx >>= fun l => vget b.item.val l)
    rw [bind_map']
    congr 1; funext l
    exact vget_map _ _ _

theorem addRange_sc {S : Nat → K} (hS : ∀ k, 0 < S k) (hR : ∀ k, Respects rnd (S k)) (f : T → T') (b : Bin T K) (x : T) (lo hi : List K) :
    addRange rnd (scBin S f b) (f x) (scL S lo) (scL S hi) = ((addRange rnd b x lo hi).1, scBin S f (addRange rnd b x lo hi).2) := by
  unfold addRange indicesOf
  have h1 : (scBin S f b).item.order = b.item.order := rfl
  have h2 : (scBin S f b).item.volume = b.item.volume := rfl
  simp only [h1, h2]
  rw [show (scBin S f b).min = scL S b.min from rfl, show (scBin S f b).max = scL S b.max from rfl,
    show (scBin S f b).incr = scL S b.incr from rfl, idxLoop_sc hS hR, idxLoop_sc hS hR]
  rcases idxLoop rnd b.min b.max b.incr lo b.item.order.toNat 0 (List.replicate b.item.order.toNat 0) with ⟨_ | _, imin⟩
  · rfl
  · simp only
    rcases idxLoop rnd b.min b.max b.incr hi b.item.order.toNat 0 (List.replicate b.item.order.toNat 0) with ⟨_ | _, imax⟩
    · rfl
    · simp only
      rw [show (scBin S f b).item = b.item.mapV (List.map f) from rfl, Bin.rangeLoop_map]
      rfl

omit [LinearOrder K] [FloorRing K] [IsStrictOrderedRing K] in
theorem maxSize_sc (S : Nat → K) (f : T → T') (b : Bin T K) : (scBin S f b).maxSize = b.maxSize := Bin.maxSize_mv S (fun _ => 0) f b

omit [LinearOrder K] [FloorRing K] [IsStrictOrderedRing K] in
theorem maxLoop_sc {S : Nat → K} (hR : ∀ k, Respects rnd (S k)) (incr : List K) (N : List Int) (l : List K) : ∀ k : Nat,
    maxLoop rnd (scL S incr) N (l.mapIdx fun j x => S (k + j) * x) k =
      (maxLoop rnd incr N l k).map fun r => r.mapIdx fun j x => S (k + j) * x := by
  induction l with
  | nil => intro k; rfl
  | cons m ms ih =>
    intro k
    have e : (List.mapIdx (fun j x => S (k + (j + 1)) * x) ms) = List.mapIdx (fun j x => S (k + 1 + j) * x) ms := by
      congr 1; funext j x; rw [show k + (j + 1) = k + 1 + j by omega]
    simp only [List.mapIdx_cons, maxLoop, Nat.add_zero]
    rw [e, ih (k + 1), vget_scL, map_bind', bind_map']
    congr 1; funext d
    rw [bind_map']
    congr 1; funext n
    rw [map_bind', bind_map']
    congr 1; funext r
    simp only [Except.map, List.mapIdx_cons, Nat.add_zero]
    congr 2
    · rw [mul_assoc, hR k, ← mul_add, hR k]
    · congr 1; funext j x; rw [show k + 1 + j = k + (j + 1) by omega]

omit [LinearOrder K] [FloorRing K] [IsStrictOrderedRing K] in
theorem mkBin_sc {S : Nat → K} (hR : ∀ k, Respects rnd (S k)) (f : T → T) (min incr : List K) (N : List Int) :
    (mkBin rnd (scL S min) (scL S incr) N : Res (Bin T K)) = (mkBin rnd min incr N : Res (Bin T K)).map (scBin S f) := by
  have h := maxLoop_sc hR incr N min 0
  simp only [Nat.zero_add] at h
  cases hb : (mkBin rnd min incr N : Res (Bin T K)) with
  | error e =>
    unfold mkBin at hb ⊢
    rw [show scL S min = List.mapIdx (fun j x => S j * x) min from rfl, h]
    cases hm : maxLoop rnd incr N min 0 with
    | error e' => rw [hm] at hb; simpa [Except.map] using hb
    | ok mx =>
      rw [hm] at hb
      simp only [Except.map, ok_bind] at hb ⊢
      cases hd : (NDArray.ofDim ([] : List T) N) with
      | error e' => rw [hd] at hb; simpa using hb
      | ok item => rw [hd] at hb; simp at hb
  | ok b =>
    have hid := mkBin_map rnd f min incr N b hb
    have hval : b.item.mapV (List.map f) = b.item := congrArg Bin.item hid
    unfold mkBin at hb ⊢
    rw [show scL S min = List.mapIdx (fun j x => S j * x) min from rfl, h]
    obtain ⟨mx, hm, hb⟩ := bind_eq_ok.mp hb
    obtain ⟨item, hd, hb⟩ := bind_eq_ok.mp hb
    cases hb
    rw [hm, hd]
    simp only [Except.map, ok_bind, scBin]
    rw [hval]
    rfl

/-! ### Interpolators -/

/-- How the members of an interpolator change with the units. -/
structure ScMoves (E : ElemOps K d) (s : Fin d → K) : Prop where
  make : ∀ nd el p h j, E.make nd el (inUnits s p) (fun i => s i * h i) j = (E.make nd el p h j).sc s
  inRange : ∀ q c, E.inRange (q.sc s) (inUnits s c) = E.inRange q c
  value : ∀ q c, E.value (q.sc s) (inUnits s c) = E.value q c
  grad : ∀ q c (di : Fin d), E.grad (q.sc s) (inUnits s c) di = (E.grad q c di).map ((s di)⁻¹ * ·)
  hess : ∀ q c (di dj : Fin d), E.hess (q.sc s) (inUnits s c) di dj = (E.hess q c di dj).map ((s di * s dj)⁻¹ * ·)

section
variable {s : Fin d → K} (hs : ∀ i, s i ≠ 0) (hR : ∀ i, Respects rnd (s i))
include hs hR

omit [FloorRing K] [LinearOrder K] [IsStrictOrderedRing K] in
theorem local1_sc (i : Fin d) (r n h e : K) : local1 rnd (s i * r) (s i * n) (s i * h) e = local1 rnd r n h e := by
  unfold local1
  rw [← mul_sub, hR i, mul_left_comm, hR i, mul_div_mul_left _ _ (hs i)]

omit [FloorRing K] [LinearOrder K] [IsStrictOrderedRing K] in
theorem div_sc (i : Fin d) (x h : K) : rnd (x / (s i * h)) = (s i)⁻¹ * rnd (x / h) := by
  rw [← respects_inv (hs i) (hR i)]
  congr 1
  have := hs i
  rw [div_mul_eq_div_div_swap, div_div, mul_comm h, div_eq_mul_inv, mul_inv]
  ring

omit [FloorRing K] [LinearOrder K] [IsStrictOrderedRing K] in
theorem twist_sc (i j : Fin d) (x h h' : K) : rnd (rnd (x / (s i * h)) / (s j * h')) = (s i * s j)⁻¹ * rnd (rnd (x / h) / h') := by
  rw [div_sc hs hR, div_sc hs hR, mul_div_assoc, respects_inv (hs i) (hR i), mul_inv]
  ring

omit [FloorRing K] [IsStrictOrderedRing K] in
theorem passOk_sc (q : Interp K d) (c : Fin d → K) (i : Fin d) : passOk rnd (q.sc s) (inUnits s c) i = passOk rnd q c i := by
  simp only [passOk, Interp.sc, inUnits, local1_sc hs hR]
end

omit [FloorRing K] [IsStrictOrderedRing K] in
theorem quadSc {s : Fin 2 → K} (hs : ∀ i, s i ≠ 0) (hR : ∀ i, Respects rnd (s i)) : ScMoves (quadOps rnd) s where
  make nd el p h j := rfl
  inRange q c := by simp only [quadOps, quadInRange, passOk_sc hs hR]
  value q c := by simp only [quadOps, quadF, Interp.sc, inUnits, local1_sc hs hR]
  grad q c di := by
    fin_cases di <;> simp only [quadOps, quadGrad, Interp.sc, inUnits, local1_sc hs hR, div_sc hs hR, Except.map] <;> rfl
  hess q c di dj := by
    fin_cases di <;> fin_cases dj <;> simp [quadOps, quadHess, Interp.sc, Except.map, twist_sc hs hR, mul_comm]

omit [FloorRing K] [IsStrictOrderedRing K] in
theorem hexSc {s : Fin 3 → K} (hs : ∀ i, s i ≠ 0) (hR : ∀ i, Respects rnd (s i)) : ScMoves (hexOps rnd) s where
  make nd el p h j := rfl
  inRange q c := by simp only [hexOps, hexInRange, passOk_sc hs hR]
  value q c := by simp only [hexOps, hexF, Interp.sc, inUnits, local1_sc hs hR]
  grad q c di := by
    fin_cases di <;> simp only [hexOps, hexGrad, hexSlope, Interp.sc, inUnits, local1_sc hs hR, div_sc hs hR, Except.map] <;> rfl
  hess q c di dj := by
    fin_cases di <;> fin_cases dj <;> simp [hexOps, hexHess, hexTwist, Interp.sc, Except.map, twist_sc hs hR]

/-! ### Reading -/

omit [LinearOrder K] [FloorRing K] [IsStrictOrderedRing K] in
theorem ofFn_inUnits (s c : Fin d → K) : List.ofFn (inUnits s c) = scL (ext s 1) (List.ofFn c) := by
  apply List.ext_getElem
  · simp [scL]
  · intro k h1 h2
    have hk : k < d := by simpa using h1
    simp [scL, inUnits, ext, hk]

omit [LinearOrder K] [FloorRing K] [IsStrictOrderedRing K] in
theorem ext_respects {s : Fin d → K} (hR : ∀ i, Respects rnd (s i)) (k : Nat) : Respects rnd (ext s 1 k) := by
  unfold ext
  split
  · exact hR _
  · exact respects_one

/-- The limits of an axis in the new units. -/
def scAxis (a : K) (x : Mesh.Axis K) : Mesh.Axis K := ⟨a * x.lo, a * x.hi, a * x.incr, a * x.min, x.N⟩

omit [FloorRing K] in
theorem axis_sc {a : K} (ha : 0 < a) (hR : Respects rnd a) (value : List K) : axis rnd (value.map (a * ·)) = (axis rnd value).map (scAxis a) := by
  unfold axis
  have hs : (value.map (a * ·)).insertionSort (· ≤ ·) = (value.insertionSort (· ≤ ·)).map (a * ·) := by
    rw [List.map_insertionSort (r := (· ≤ ·)) (s := (· ≤ ·))]
    intro x _ y _
    show x ≤ y ↔ _
    rw [mul_le_mul_iff_right₀ ha]
  simp only [hs, List.length_map, vget_map, map_bind', bind_map']
  congr 1; funext lo
  congr 1; funext hi
  have e : rnd (rnd (a * hi - a * lo) / ((List.insertionSort (fun x1 x2 => x1 ≤ x2) value).length : K)) =
      a * rnd (rnd (hi - lo) / ((List.insertionSort (fun x1 x2 => x1 ≤ x2) value).length : K)) := by
    rw [← mul_sub, hR, mul_div_assoc, hR]
  simp only [Except.map, scAxis, e]
  rw [← mul_sub, hR]

/-- The mesh in the new units. -/
def scM (s : Fin d → K) (m : Mesh K d) : Mesh K d :=
  ⟨fun i => (m.min i).map (s i * ·), fun i => (m.max i).map (s i * ·), m.node.map (inUnits s), m.interp.map (Interp.sc s),
    scBin (ext s 1) (Interp.sc s) m.bin⟩

omit [FloorRing K] in
theorem readPoints_sc {s : Fin d → K} (hs : ∀ i, 0 < s i) (hR : ∀ i, Respects rnd (s i)) (m : Mesh K d) (pts : List (Fin d → K)) :
    readPoints rnd (scM s m) (pts.map (inUnits s)) = (readPoints rnd m pts).map (scM s) := by
  unfold readPoints
  have hd : ∀ j, axis rnd (Mesh.distinct (pts.map (inUnits s)) j) = (axis rnd (Mesh.distinct pts j)).map (scAxis (s j)) := by
    intro j
    rw [Mesh.distinct_map _ j (fun x => s j * x) ?_ (fun p => rfl)]
    · exact axis_sc (hs j) (hR j) _
    · intro x y h
      exact mul_left_cancel₀ (hs j).ne' h
  have hax : mapRes (fun j => axis rnd (Mesh.distinct (pts.map (inUnits s)) j)) (List.finRange d) =
      (mapRes (fun j => axis rnd (Mesh.distinct pts j)) (List.finRange d)).map (List.mapIdx fun k => scAxis (ext s 1 k)) := by
    have := mapRes_mapIdx (fun j => axis rnd (Mesh.distinct pts j)) (fun j => axis rnd (Mesh.distinct (pts.map (inUnits s)) j))
      (fun k => scAxis (ext s 1 k)) (List.finRange d) 0 (by
        intro k a ha
        obtain ⟨hk, e⟩ := List.getElem?_eq_some_iff.mp ha
        have hkd : k < d := by simpa using hk
        have : a = ⟨k, hkd⟩ := by rw [← e]; simp
        rw [hd, this]
        simp [ext, hkd])
    simpa using this
  rw [hax, map_bind', bind_map']
  congr 1; funext axes
  have e1 : (List.mapIdx (fun k => scAxis (ext s 1 k)) axes).map Mesh.Axis.min = scL (ext s 1) (axes.map Mesh.Axis.min) := by
    apply List.ext_getElem?
    intro k
    simp only [scL, List.getElem?_map, List.getElem?_mapIdx]
    cases axes[k]? <;> rfl
  have e2 : (List.mapIdx (fun k => scAxis (ext s 1 k)) axes).map Mesh.Axis.incr = scL (ext s 1) (axes.map Mesh.Axis.incr) := by
    apply List.ext_getElem?
    intro k
    simp only [scL, List.getElem?_map, List.getElem?_mapIdx]
    cases axes[k]? <;> rfl
  have e3 : (List.mapIdx (fun k => scAxis (ext s 1 k)) axes).map Mesh.Axis.N = axes.map Mesh.Axis.N := by
    apply List.ext_getElem?
    intro k
    simp only [List.getElem?_map, List.getElem?_mapIdx]
    cases axes[k]? <;> rfl
  rw [e1, e2, e3, mkBin_sc (ext_respects hR) (Interp.sc s), map_bind', bind_map']
  congr 1; funext bin
  simp only [Except.map, scM]
  congr 2
  · funext j
    simp only [List.getElem?_mapIdx]
    cases axes[(j : Nat)]? <;> simp [scAxis, ext]
  · funext j
    simp only [List.getElem?_mapIdx]
    cases axes[(j : Nat)]? <;> simp [scAxis, ext]
  · simp

omit [LinearOrder K] [FloorRing K] [IsStrictOrderedRing K] in
theorem makeCells_sc {E : ElemOps K d} {s : Fin d → K} (M : ScMoves E s) (hR : ∀ i, Respects rnd (s i)) (node : List (Fin d → K))
    (cells : List (List Nat)) : ∀ el : Nat,
    makeCells rnd E (node.map (inUnits s)) el cells = (makeCells rnd E node el cells).map (List.map (Interp.sc s)) := by
  induction cells with
  | nil => intro el; rfl
  | cons c cs ih =>
    intro el
    have hc : makeCell rnd E (node.map (inUnits s)) el c = (makeCell rnd E node el c).map (List.map (Interp.sc s)) := by
      unfold makeCell
      simp only [bind_map', vget_map, map_bind']
      congr 1; funext nf
      congr 1; funext n0
      congr 1; funext pf
      congr 1; funext p0
      rw [← mapRes_map']
      congr 1; funext j
      rw [bind_map']
      congr 1; funext nj
      rw [bind_map']
      congr 1; funext pj
      rw [show (fun i => rnd (inUnits s pf i - inUnits s p0 i)) = fun i => s i * rnd (pf i - p0 i) from by
        funext i; simp only [inUnits]; rw [← mul_sub, hR i], M.make]
      rfl
    simp only [makeCells, hc, ih, bind_map', map_bind']
    congr 1; funext a
    congr 1; funext b
    simp [Except.map]

omit [FloorRing K] [IsStrictOrderedRing K] in
theorem minOf_sc {s : Fin d → K} (hR : ∀ i, Respects rnd (s i)) (q : Interp K d) : minOf rnd (q.sc s) = inUnits s (minOf rnd q) := by
  funext i
  show (if q.s i = -1 then rnd (s i * q.n i - s i * q.h i) else s i * q.n i) = s i * (if q.s i = -1 then rnd (q.n i - q.h i) else q.n i)
  by_cases h : q.s i = -1
  · rw [if_pos h, if_pos h, ← mul_sub, hR]
  · rw [if_neg h, if_neg h]

omit [FloorRing K] [IsStrictOrderedRing K] in
theorem maxOf_sc {s : Fin d → K} (hR : ∀ i, Respects rnd (s i)) (q : Interp K d) : maxOf rnd (q.sc s) = inUnits s (maxOf rnd q) := by
  funext i
  show (if q.s i = 1 then rnd (s i * q.n i + s i * q.h i) else s i * q.n i) = s i * (if q.s i = 1 then rnd (q.n i + q.h i) else q.n i)
  by_cases h : q.s i = 1
  · rw [if_pos h, if_pos h, ← mul_add, hR]
  · rw [if_neg h, if_neg h]

theorem fileAll_sc {s : Fin d → K} (hs : ∀ i, 0 < s i) (hR : ∀ i, Respects rnd (s i)) (qs : List (Interp K d)) : ∀ b : Bin (Interp K d) K,
    fileAll rnd (qs.map (Interp.sc s)) (scBin (ext s 1) (Interp.sc s) b) = (fileAll rnd qs b).map (scBin (ext s 1) (Interp.sc s)) := by
  induction qs with
  | nil => intro b; rfl
  | cons q qs ih =>
    intro b
    simp only [List.map_cons, fileAll, minOf_sc hR, maxOf_sc hR, ofFn_inUnits]
    rw [addRange_sc (ext_pos hs) (ext_respects hR)]
    rcases addRange rnd b q (List.ofFn (minOf rnd q)) (List.ofFn (maxOf rnd q)) with ⟨_ | _, b'⟩
    · rfl
    · exact ih b'

theorem build_sc {E : ElemOps K d} {s : Fin d → K} (hs : ∀ i, 0 < s i) (hR : ∀ i, Respects rnd (s i)) (M : ScMoves E s) (pts : List (Fin d → K))
    (cells : List (List Nat)) : build rnd E (pts.map (inUnits s)) cells = (build rnd E pts cells).map (scM s) := by
  unfold build
  rw [show (Mesh.empty : Mesh K d) = scM s Mesh.empty from rfl, readPoints_sc hs hR, map_bind', bind_map']
  rw [show scM s (Mesh.empty : Mesh K d) = Mesh.empty from rfl]
  congr 1; funext m'
  unfold readCells
  rw [show (scM s m').node = m'.node.map (inUnits s) from rfl, makeCells_sc M hR, map_bind', bind_map']
  congr 1; funext new
  rw [show (scM s m').interp ++ List.map (Interp.sc s) new = List.map (Interp.sc s) (m'.interp ++ new) from by simp [scM],
    show (scM s m').bin = scBin (ext s 1) (Interp.sc s) m'.bin from rfl]
  dsimp only
  rw [fileAll_sc hs hR, map_bind', bind_map']
  rfl

/-! ### Evaluation -/

omit [LinearOrder K] [FloorRing K] [IsStrictOrderedRing K] in
theorem fillLoop_scM (κ : K) (s : Fin d → K) (w w' : Interp K d → Res K) (hw : ∀ q, w' (q.sc s) = (w q).map (κ * ·)) (el : Nat)
    (l : List (Interp K d)) : ∀ (i : Nat) (b : Mesh.Buf K),
    Mesh.fillLoop w' el (l.map (Interp.sc s)) i (b.scale κ) = ((Mesh.fillLoop w el l i b).1, (Mesh.fillLoop w el l i b).2.scale κ) := by
  induction l with
  | nil => intro i b; rfl
  | cons q qs ih =>
    intro i b
    simp only [List.map_cons, Mesh.fillLoop, show (q.sc s).element = q.element from rfl, show (q.sc s).node = q.node from rfl]
    have hv : (if q.element = el then w' (q.sc s) else .ok 0) = (if q.element = el then w q else .ok 0).map (κ * ·) := by
      split
      · exact hw q
      · simp [Except.map]
    rw [hv]
    cases (if q.element = el then w q else .ok 0) with
    | error e => rfl
    | ok v =>
      simp only [Except.map, Mesh.Buf.scale]
      rw [show vset (b.bf.map (κ * ·)) (i : Nat) (κ * v) = (vset b.bf (i : Nat) v).map (List.map (κ * ·)) from vset_map _ _ _ _]
      cases vset b.bf (i : Nat) v with
      | error e => rfl
      | ok bf' =>
        simp only [Except.map]
        cases vset b.ni (i : Nat) q.node with
        | error e => rfl
        | ok ni' => exact ih _ ⟨bf', ni'⟩

omit [LinearOrder K] [FloorRing K] [IsStrictOrderedRing K] in
theorem firstInRange_scM {E : ElemOps K d} {s : Fin d → K} (M : ScMoves E s) (c : Fin d → K) (l : List (Interp K d)) :
    Mesh.firstInRange E (inUnits s c) (l.map (Interp.sc s)) = (Mesh.firstInRange E c l).map (Interp.sc s) := by
  induction l with
  | nil => rfl
  | cons q qs ih =>
    simp only [List.map_cons, Mesh.firstInRange, M.inRange, ih]
    split <;> rfl

theorem fill_scM {E : ElemOps K d} {s : Fin d → K} (hs : ∀ i, 0 < s i) (hR : ∀ i, Respects rnd (s i)) (M : ScMoves E s) (κ : K)
    (w w' : Interp K d → Res K) (hw : ∀ q, w' (q.sc s) = (w q).map (κ * ·)) (m : Mesh K d) (c : Fin d → K) (b : Mesh.Buf K) :
    fill rnd E w' (scM s m) (inUnits s c) (b.scale κ) =
      ((fill rnd E w m c b).1, scM s (fill rnd E w m c b).2.1, (fill rnd E w m c b).2.2.scale κ) := by
  unfold fill
  rw [ofFn_inUnits, show (scM s m).bin = scBin (ext s 1) (Interp.sc s) m.bin from rfl, contents_sc (ext_pos hs) (ext_respects hR)]
  rcases contents rnd m.bin (List.ofFn c) with ⟨_ | content, bin⟩
  · rfl
  · simp only [Except.map, firstInRange_scM M]
    cases Mesh.firstInRange E c content with
    | none => simp [scM]
    | some q =>
      simp only [Option.map, show (q.sc s).element = q.element from rfl, fillLoop_scM κ s w w' hw]
      rcases Mesh.fillLoop w q.element content 0 b with ⟨_ | _, b'⟩
      · rfl
      · simp [scM]

omit [LinearOrder K] [FloorRing K] [IsStrictOrderedRing K] in
theorem sumLoop_scM {κ : K} (hκ : Respects rnd κ) (data : List K) (b : Mesh.Buf K) (n : Nat) : ∀ (i : Nat) (acc : K),
    sumLoop rnd data (b.scale κ) n i (κ * acc) = (sumLoop rnd data b n i acc).map (κ * ·) := by
  induction n with
  | zero => intro i acc; rfl
  | succ n ih =>
    intro i acc
    unfold sumLoop
    rw [show vget (b.scale κ).bf (i : Nat) = (vget b.bf (i : Nat)).map (κ * ·) from vget_map _ _ _, map_bind', bind_map']
    congr 1; funext w
    rw [show (b.scale κ).ni = b.ni from rfl, bind_map']
    congr 1; funext k
    rw [bind_map']
    congr 1; funext v
    rw [← ih, mul_assoc, hκ, ← mul_add, hκ]

section
variable {E : ElemOps K d} {s : Fin d → K} (hs : ∀ i, 0 < s i) (hR : ∀ i, Respects rnd (s i)) (M : ScMoves E s) (m : Mesh K d) (f : PField K)
include hs hR M

theorem value_scM (c : Fin d → K) :
    value rnd E (scM s m) f (inUnits s c) = ((value rnd E m f c).1, scM s (value rnd E m f c).2.1, (value rnd E m f c).2.2) := by
  unfold value basisFunctions
  have h := fill_scM hs hR M 1 (fun q => E.value q c) (fun q => E.value q (inUnits s c)) (fun q => by
    rw [M.value]; cases E.value q c <;> simp [Except.map]) m c f.buf
  rw [PField.scale_one] at h
  rw [h]
  rcases fill rnd E (fun q => E.value q c) m c f.buf with ⟨_ | n, m', b⟩
  · simp [PField.scale_one]
  · simp only [PField.scale_one]
    cases sumLoop rnd f.data b n 0 f.zero <;> rfl

omit hs hR M in
omit [LinearOrder K] [FloorRing K] [IsStrictOrderedRing K] in
theorem scale_zero {b : Mesh.Buf K} (hb : ∀ x ∈ b.bf, x = 0) (κ : K) : b.scale κ = b := by
  unfold Mesh.Buf.scale
  congr 1
  conv_rhs => rw [← List.map_id b.bf]
  exact List.map_congr_left fun x hx => by simp [hb x hx]

theorem gradAt_scM (hz : f.zero = 0) (hb : ∀ x ∈ f.buf.bf, x = 0) (c : Fin d → K) (di : Fin d) :
    (gradAt rnd E (scM s m) f (inUnits s c) di).1 = (gradAt rnd E m f c di).1.map ((s di)⁻¹ * ·) := by
  unfold gradAt gradBasisFunctions
  have h := fill_scM hs hR M (s di)⁻¹ (fun q => E.grad q c di) (fun q => E.grad q (inUnits s c) di) (fun q => M.grad q c di) m c f.buf
  rw [scale_zero hb] at h
  rw [h]
  rcases fill rnd E (fun q => E.grad q c di) m c f.buf with ⟨_ | n, m', b⟩
  · rfl
  · simp only
    have hsum := sumLoop_scM (respects_inv (hs di).ne' (hR di)) f.data b n 0 f.zero
    rw [hz, mul_zero] at hsum
    rw [hz, hsum]
    cases sumLoop rnd f.data b n 0 0 with
    | error e => rfl
    | ok v =>
      simp only [Except.map]
      have := PField.vset_any f.grad ((di : Nat) : Int) ((s di)⁻¹ * v) v
      cases h1 : vset f.grad ((di : Nat) : Int) ((s di)⁻¹ * v) <;> cases h2 : vset f.grad ((di : Nat) : Int) v <;>
        simp_all [Except.map]

theorem hessAt_scM (hz : f.zero = 0) (hb : ∀ x ∈ f.buf.bf, x = 0) (c : Fin d → K) (di dj : Fin d) :
    (hessAt rnd E (scM s m) f (inUnits s c) di dj).1 = (hessAt rnd E m f c di dj).1.map ((s di * s dj)⁻¹ * ·) := by
  unfold hessAt hessBasisFunctions
  have h := fill_scM hs hR M (s di * s dj)⁻¹ (fun q => E.hess q c di dj) (fun q => E.hess q (inUnits s c) di dj) (fun q => M.hess q c di dj) m c f.buf
  rw [scale_zero hb] at h
  rw [h]
  rcases fill rnd E (fun q => E.hess q c di dj) m c f.buf with ⟨_ | n, m', b⟩
  · rfl
  · simp only
    have hsum := sumLoop_scM (respects_inv (mul_pos (hs di) (hs dj)).ne' (respects_mul (hR di) (hR dj))) f.data b n 0 f.zero
    rw [hz, mul_zero] at hsum
    rw [hz, hsum]
    cases sumLoop rnd f.data b n 0 0 with
    | error e => rfl
    | ok v =>
      simp only [Except.map]
      cases vget f.hess ((di : Nat) : Int) with
      | error e => rfl
      | ok row =>
        simp only [ok_bind]
        have := PField.vset_any row ((dj : Nat) : Int) ((s di * s dj)⁻¹ * v) v
        cases h1 : vset row ((dj : Nat) : Int) ((s di * s dj)⁻¹ * v) <;> cases h2 : vset row ((dj : Nat) : Int) v <;>
          simp_all only [Except.map, reduceCtorEq, err_bind, ok_bind, Except.error.injEq]
        rename_i r1 r2
        have := PField.vset_any f.hess ((di : Nat) : Int) r1 r2
        cases h3 : vset f.hess ((di : Nat) : Int) r1 <;> cases h4 : vset f.hess ((di : Nat) : Int) r2 <;>
          simp_all [Except.map]
end

/-- The body in the new units. -/
def scU (s : Fin d → K) (b : Body K d) : Body K d := ⟨scM s b.mesh, b.fields⟩

omit [LinearOrder K] [FloorRing K] [IsStrictOrderedRing K] in
theorem addFields_scU (s : Fin d → K) (flds : List (String × List K)) : ∀ b : Body K d,
    Body.addFields (scU s b) flds = (Body.addFields b flds).map (scU s) := by
  induction flds with
  | nil => intro b; rfl
  | cons fl fls ih =>
    intro b
    simp only [Body.addFields]
    have h : Body.addField (scU s b) fl.1 fl.2 = (Body.addField b fl.1 fl.2).map (scU s) := by
      unfold Body.addField PField.make
      rw [show (scU s b).mesh.bin.maxSize = b.mesh.bin.maxSize from maxSize_sc _ _ _]
      cases b.mesh.bin.maxSize <;> rfl
    rw [h, map_bind', bind_map']
    congr 1; funext b'
    exact ih b'

section
variable {E : ElemOps K d} {s : Fin d → K} (hs : ∀ i, 0 < s i) (hR : ∀ i, Respects rnd (s i)) (M : ScMoves E s)
include hs hR M

theorem load_scU (pts : List (Fin d → K)) (cells : List (List Nat)) (flds : List (String × List K)) :
    load rnd E (pts.map (inUnits s)) cells flds = (load rnd E pts cells flds).map (scU s) := by
  unfold load
  rw [build_sc hs hR M, map_bind', bind_map']
  congr 1; funext m
  exact addFields_scU s flds ⟨m, []⟩

theorem value_scU (b : Body K d) (i : Nat) (c : Fin d → K) : eval rnd E (scU s b) i (.value (inUnits s c)) = eval rnd E b i (.value c) := by
  unfold eval
  rw [show (scU s b).fields = b.fields from rfl]
  cases b.fields[i]? with
  | none => rfl
  | some f => simp only [queryField, show (scU s b).mesh = scM s b.mesh from rfl, value_scM hs hR M]

theorem evals_scU (ops : List (Nat × (Fin d → K))) : ∀ b : Body K d,
    evals rnd E (scU s b) (ops.map fun o => (o.1, .value (inUnits s o.2))) = scU s (evals rnd E b (ops.map fun o => (o.1, .value o.2))) := by
  induction ops with
  | nil => intro b; rfl
  | cons o ops ih =>
    intro b
    simp only [List.map_cons, evals]
    rw [← ih]
    congr 1
    unfold call
    rw [show (scU s b).fields = b.fields from rfl]
    cases b.fields[o.1]? with
    | none => rfl
    | some f => simp only [callField, show (scU s b).mesh = scM s b.mesh from rfl, value_scM hs hR M]; rfl

theorem grad_scU {b : Body K d} (hb : ∀ f ∈ b.fields, f.zero = 0 ∧ ∀ x ∈ f.buf.bf, x = 0) (i : Nat) (c : Fin d → K) (di : Fin d) :
    eval rnd E (scU s b) i (.grad (inUnits s c) di) = (eval rnd E b i (.grad c di)).map ((s di)⁻¹ * ·) := by
  unfold eval
  rw [show (scU s b).fields = b.fields from rfl]
  cases h : b.fields[i]? with
  | none => rfl
  | some f =>
    obtain ⟨h1, h2⟩ := hb f (List.mem_of_getElem? h)
    exact gradAt_scM hs hR M b.mesh f h1 h2 c di

theorem hess_scU {b : Body K d} (hb : ∀ f ∈ b.fields, f.zero = 0 ∧ ∀ x ∈ f.buf.bf, x = 0) (i : Nat) (c : Fin d → K) (di dj : Fin d) :
    eval rnd E (scU s b) i (.hess (inUnits s c) di dj) = (eval rnd E b i (.hess c di dj)).map ((s di * s dj)⁻¹ * ·) := by
  unfold eval
  rw [show (scU s b).fields = b.fields from rfl]
  cases h : b.fields[i]? with
  | none => rfl
  | some f =>
    obtain ⟨h1, h2⟩ := hb f (List.mem_of_getElem? h)
    exact hessAt_scM hs hR M b.mesh f h1 h2 c di dj
end

omit [IsStrictOrderedRing K] in
theorem load_new {E : ElemOps K d} {pts : List (Fin d → K)} {cells : List (List Nat)} {flds : List (String × List K)} {b : Body K d}
    (hb : load rnd E pts cells flds = .ok b) : ∀ f ∈ b.fields, f.zero = 0 ∧ ∀ x ∈ f.buf.bf, x = 0 := by
  unfold load at hb
  obtain ⟨m, _, h2⟩ := bind_eq_ok.mp hb
  exact Body.fresh_fields flds ⟨m, []⟩ b (by simp) h2

end Fl
end Verif
