import Verif.Spec.Rename
import Verif.Lemmas.Move
import Verif.Lemmas.Mesh
import Verif.Lemmas.RoundedId
import Mathlib.Logic.Equiv.Basic

/-! # A mesh with other numbers for its nodes: the whole computation is carried along -/

namespace Verif
open Spec

/-- The interpolator with its node renamed. -/
def Interp.ren {K : Type} {d : Nat} (σ : Nat → Nat) (q : Interp K d) : Interp K d := { q with node := σ q.node }

/-- The element class does not look at node numbers. -/
structure RenOk {K : Type} {d : Nat} (E : ElemOps K d) : Prop where
  make : ∀ (σ : Nat → Nat) n el p h j, E.make (σ n) el p h j = (E.make n el p h j).ren σ
  inRange : ∀ σ q c, E.inRange (q.ren σ) c = E.inRange q c
  value : ∀ σ q c, E.value (q.ren σ) c = E.value q c
  grad : ∀ σ q c di, E.grad (q.ren σ) c di = E.grad q c di
  hess : ∀ σ q c di dj, E.hess (q.ren σ) c di dj = E.hess q c di dj

namespace Fl
variable {T T' K : Type} {d : Nat} [Field K] [LinearOrder K] [FloorRing K] (rnd : K → K)

theorem quadRen : RenOk (quadOps rnd) := ⟨fun _ _ _ _ _ _ => rfl, fun _ _ _ => rfl, fun _ _ _ => rfl, fun _ _ _ _ => rfl, fun _ _ _ _ _ => rfl⟩
theorem hexRen : RenOk (hexOps rnd) := ⟨fun _ _ _ _ _ _ => rfl, fun _ _ _ => rfl, fun _ _ _ => rfl, fun _ _ _ _ => rfl, fun _ _ _ _ _ => rfl⟩

/-- The bins with `f` applied to what they hold. -/
def mapB (f : T → T') (b : Bin T K) : Bin T' K := ⟨b.item.mapV (List.map f), b.min, b.incr, b.N, b.max, b.indices⟩

theorem contents_map (f : T → T') (b : Bin T K) (c : List K) :
    contents rnd (mapB f b) c = ((contents rnd b c).1.map (List.map f), mapB f (contents rnd b c).2) := by
  unfold contents indicesOf
  have h1 : (mapB f b).item.order = b.item.order := rfl
  have h2 : (mapB f b).indices = b.indices := rfl
  simp only [h1, h2]
  rw [show (mapB f b).min = b.min from rfl, show (mapB f b).max = b.max from rfl, show (mapB f b).incr = b.incr from rfl]
  rcases idxLoop rnd b.min b.max b.incr c b.item.order.toNat 0 b.indices with ⟨_ | _, idx⟩
  · rfl
  · simp only
    refine Prod.ext ?_ rfl
    show (b.item.linearIndex idx >>= fun l => vget (b.item.val.map (List.map f)) l) = Except.map _ (b.item.linearIndex idx >>= fun l => vget b.item.val l)
    rw [bind_map']
    congr 1; funext l
    exact vget_map _ _ _

theorem addRange_map (f : T → T') (b : Bin T K) (x : T) (lo hi : List K) :
    addRange rnd (mapB f b) (f x) lo hi = ((addRange rnd b x lo hi).1, mapB f (addRange rnd b x lo hi).2) := by
  unfold addRange indicesOf
  have h1 : (mapB f b).item.order = b.item.order := rfl
  have h2 : (mapB f b).item.volume = b.item.volume := rfl
  simp only [h1, h2]
  rw [show (mapB f b).min = b.min from rfl, show (mapB f b).max = b.max from rfl, show (mapB f b).incr = b.incr from rfl]
  rcases idxLoop rnd b.min b.max b.incr lo b.item.order.toNat 0 (List.replicate b.item.order.toNat 0) with ⟨_ | _, imin⟩
  · rfl
  · simp only
    rcases idxLoop rnd b.min b.max b.incr hi b.item.order.toNat 0 (List.replicate b.item.order.toNat 0) with ⟨_ | _, imax⟩
    · rfl
    · simp only
      rw [show (mapB f b).item = b.item.mapV (List.map f) from rfl, Bin.rangeLoop_map]
      rfl

omit [Field K] [LinearOrder K] [FloorRing K] in
theorem maxSize_map (f : T → T') (b : Bin T K) : (mapB f b).maxSize = b.maxSize := by
  have h : ∀ n i m, Bin.maxSizeLoop (b.item.mapV (List.map f)) n i m = Bin.maxSizeLoop b.item n i m := by
    intro n
    induction n with
    | zero => intro i m; rfl
    | succ n ih =>
      intro i m
      unfold Bin.maxSizeLoop
      rw [show (b.item.mapV (List.map f)).getLin (i : Nat) = (b.item.getLin (i : Nat)).map (List.map f) from vget_map _ _ _, map_bind']
      congr 1; funext v
      rw [List.length_map, ih]
  exact h _ _ _

omit [LinearOrder K] [FloorRing K] in
/-- New bins are empty. -/
theorem mkBin_map (f : T → T) (min incr : List K) (N : List Int) (b : Bin T K) (hb : mkBin rnd min incr N = .ok b) : mapB f b = b := by
  unfold mkBin at hb
  obtain ⟨mx, _, hb⟩ := bind_eq_ok.mp hb
  obtain ⟨item, hi, hb⟩ := bind_eq_ok.mp hb
  cases hb
  have : item.val.map (List.map f) = item.val := by
    unfold NDArray.ofDim NDArray.resize at hi
    cases hv : NDArray.calcVolume N with
    | error e => simp [hv] at hi
    | ok v =>
      simp only [hv] at hi
      split at hi
      · rename_i h; split at h
        · simp at h
        · simp only [NDArray.empty] at h
          cases hg : NDArray.genUnroll N [] with
          | error e => simp [hg] at h
          | ok u =>
            simp only [hg, Prod.mk.injEq] at h
            cases hi
            rw [← h.2]
            simp [vresize]
      · cases hi
  show (⟨item.mapV (List.map f), _, _, _, _, _⟩ : Bin T K) = _
  unfold NDArray.mapV
  rw [this]

/-! ### Reading -/

omit [Field K] [FloorRing K] in
theorem axis_perm {l l' : List K} (h : l'.Perm l) : l'.insertionSort (· ≤ ·) = l.insertionSort (· ≤ ·) := by
  refine List.Perm.eq_of_pairwise (le := (· ≤ ·)) ?_ (List.pairwise_insertionSort _ _) (List.pairwise_insertionSort _ _)
    ((List.perm_insertionSort _ _).trans (h.trans (List.perm_insertionSort _ _).symm))
  intro a b _ _ h1 h2
  exact le_antisymm h1 h2

theorem renumbered_mem {α : Type} {σ : Equiv.Perm Nat} {l l' : List α} (h : Renumbered σ l l') (x : α) : x ∈ l' ↔ x ∈ l := by
  rw [List.mem_iff_getElem?, List.mem_iff_getElem?]
  constructor
  · rintro ⟨p, hp⟩
    refine ⟨σ.symm p, ?_⟩
    rw [← h, Equiv.apply_symm_apply]; exact hp
  · rintro ⟨p, hp⟩
    exact ⟨σ p, by rw [h]; exact hp⟩

theorem renumbered_vget {α : Type} {σ : Nat → Nat} {l l' : List α} (h : Renumbered σ l l') (p : Nat) : vget l' (σ p : Nat) = vget l (p : Nat) := by
  unfold vget
  simp only [Int.toNat_natCast, h p]
  simp

omit [Field K] [FloorRing K] in
theorem distinct_perm {σ : Equiv.Perm Nat} {pts pts' : List (Fin d → K)} (h : Renumbered σ pts pts') (j : Fin d) :
    (Mesh.distinct pts' j).Perm (Mesh.distinct pts j) := by
  refine (List.perm_ext_iff_of_nodup (Mesh.distinct_aux pts' j [] List.nodup_nil).1 (Mesh.distinct_aux pts j [] List.nodup_nil).1).mpr fun x => ?_
  have e1 := Mesh.mem_distinct pts' j x
  have e2 := Mesh.mem_distinct pts j x
  unfold Mesh.distinct at e1 e2
  rw [e1, e2]
  exact exists_congr fun p => and_congr_left fun _ => renumbered_mem h p

/-- The mesh with other numbers for its nodes. -/
def renM (σ : Nat → Nat) (node' : List (Fin d → K)) (m : Mesh K d) : Mesh K d :=
  { m with node := node', interp := m.interp.map (Interp.ren σ), bin := mapB (Interp.ren σ) m.bin }

omit [FloorRing K] in
theorem readPoints_ren {σ : Equiv.Perm Nat} {pts pts' : List (Fin d → K)} (h : Renumbered σ pts pts') :
    readPoints rnd Mesh.empty pts' = (readPoints rnd Mesh.empty pts).map (renM σ pts') := by
  have e : ∀ j, axis rnd (Mesh.distinct pts' j) = axis rnd (Mesh.distinct pts j) := fun j => by
    unfold axis
    rw [axis_perm (distinct_perm h j)]
  unfold readPoints
  simp only [e]
  rw [bind_map']
  congr 1; funext axes
  rw [bind_map']
  cases hb : (mkBin rnd (axes.map Mesh.Axis.min) (axes.map Mesh.Axis.incr) (axes.map Mesh.Axis.N) : Res (Bin (Interp K d) K)) with
  | error e => rfl
  | ok b =>
    simp only [ok_bind, Except.map, renM, Mesh.empty, List.nil_append, List.map_nil]
    rw [mkBin_map rnd _ _ _ _ b hb]

theorem mapRes_map' {α β γ : Type} (f : α → Res β) (g : β → γ) (l : List α) : mapRes (fun a => (f a).map g) l = (mapRes f l).map (List.map g) := by
  induction l with
  | nil => rfl
  | cons a l ih =>
    simp only [mapRes]
    rw [ih, map_bind', bind_map']
    congr 1; funext b
    rw [map_bind', bind_map']
    rfl

omit [LinearOrder K] [FloorRing K] in
theorem makeCell_ren {E : ElemOps K d} (hE : RenOk E) {σ : Nat → Nat} {pts pts' : List (Fin d → K)} (h : Renumbered σ pts pts') (el : Nat)
    (cell : List Nat) : makeCell rnd E pts' el (cell.map σ) = (makeCell rnd E pts el cell).map (List.map (Interp.ren σ)) := by
  unfold makeCell
  simp only [vget_map, map_bind', bind_map', renumbered_vget h]
  congr 1; funext nf
  congr 1; funext n0
  congr 1; funext pf
  congr 1; funext p0
  rw [← mapRes_map']
  congr 1; funext j
  rw [bind_map']
  congr 1; funext nj
  rw [bind_map']
  congr 1; funext pj
  rw [hE.make]
  rfl

omit [LinearOrder K] [FloorRing K] in
theorem makeCells_ren {E : ElemOps K d} (hE : RenOk E) {σ : Nat → Nat} {pts pts' : List (Fin d → K)} (h : Renumbered σ pts pts')
    (cells : List (List Nat)) : ∀ el, makeCells rnd E pts' el (cells.map (List.map σ)) = (makeCells rnd E pts el cells).map (List.map (Interp.ren σ)) := by
  induction cells with
  | nil => intro el; rfl
  | cons c cs ih =>
    intro el
    simp only [List.map_cons, makeCells]
    rw [makeCell_ren rnd hE h, ih, map_bind', bind_map']
    congr 1; funext a
    rw [map_bind', bind_map']
    congr 1; funext b
    simp [Except.map]

theorem fileAll_ren (σ : Nat → Nat) (qs : List (Interp K d)) : ∀ b : Bin (Interp K d) K,
    fileAll rnd (qs.map (Interp.ren σ)) (mapB (Interp.ren σ) b) = (fileAll rnd qs b).map (mapB (Interp.ren σ)) := by
  induction qs with
  | nil => intro b; rfl
  | cons q qs ih =>
    intro b
    simp only [List.map_cons, fileAll]
    rw [show minOf rnd (q.ren σ) = minOf rnd q from rfl, show maxOf rnd (q.ren σ) = maxOf rnd q from rfl, addRange_map]
    rcases addRange rnd b q (List.ofFn (minOf rnd q)) (List.ofFn (maxOf rnd q)) with ⟨_ | _, b'⟩
    · rfl
    · exact ih b'

theorem build_ren {E : ElemOps K d} (hE : RenOk E) {σ : Equiv.Perm Nat} {pts pts' : List (Fin d → K)} (h : Renumbered σ pts pts')
    (cells : List (List Nat)) : build rnd E pts' (cells.map (List.map σ)) = (build rnd E pts cells).map (renM σ pts') := by
  unfold build
  rw [readPoints_ren rnd h, map_bind', bind_map']
  cases hm : readPoints rnd Mesh.empty pts with
  | error e => rfl
  | ok m =>
    simp only [ok_bind]
    have hn : m.node = pts := by
      unfold readPoints at hm
      obtain ⟨_, _, hm⟩ := bind_eq_ok.mp hm
      obtain ⟨_, _, hm⟩ := bind_eq_ok.mp hm
      cases hm; rfl
    unfold readCells
    rw [show (renM σ pts' m).node = pts' from rfl, makeCells_ren rnd hE h, hn, map_bind', bind_map']
    congr 1; funext new
    rw [show (renM σ pts' m).interp = m.interp.map (Interp.ren σ) from rfl, ← List.map_append,
      show (renM σ pts' m).bin = mapB (Interp.ren σ) m.bin from rfl]
    simp only
    rw [fileAll_ren, map_bind', bind_map']
    rfl

/-! ### Fields -/

/-- Corresponding buffers: the same weights; the nodes renamed, except at places that were never written (weight 0, node 0). -/
structure BufRen (σ : Nat → Nat) (b b' : Mesh.Buf K) : Prop where
  bf : b'.bf = b.bf
  len : b.ni.length = b.bf.length
  len' : b'.ni.length = b.bf.length
  ni : ∀ i : Nat, b'.ni[i]? = (b.ni[i]?).map σ ∨ (b.bf[i]? = some 0 ∧ b.ni[i]? = some 0 ∧ b'.ni[i]? = some 0)

/-- Corresponding fields. -/
structure FieldRen (σ : Nat → Nat) (f f' : PField K) : Prop where
  name : f'.name = f.name
  data : Renumbered σ f.data f'.data
  zero : f'.zero = f.zero
  val : f'.val = f.val
  grad : f'.grad = f.grad
  hess : f'.hess = f.hess
  buf : BufRen σ f.buf f'.buf

/-- Corresponding bodies. -/
structure BodyRen (σ : Nat → Nat) (b b' : Body K d) : Prop where
  mesh : ∃ node', b'.mesh = renM σ node' b.mesh
  fields : List.Forall₂ (FieldRen σ) b.fields b'.fields

omit [LinearOrder K] [FloorRing K] in
theorem addFields_ren {σ : Nat → Nat} {flds flds' : List (String × List K)}
    (h : List.Forall₂ (fun fl fl' => fl'.1 = fl.1 ∧ Renumbered σ fl.2 fl'.2) flds flds') : ∀ {b b' : Body K d}, BodyRen σ b b' →
    (∃ c c', Body.addFields b flds = .ok c ∧ Body.addFields b' flds' = .ok c' ∧ BodyRen σ c c') ∨
      ∃ e, Body.addFields b flds = .error e ∧ Body.addFields b' flds' = .error e := by
  induction h with
  | nil => intro b b' hb; exact Or.inl ⟨b, b', rfl, rfl, hb⟩
  | @cons fl fl' flds flds' h1 h2 ih =>
    intro b b' hb
    obtain ⟨node', hm⟩ := hb.mesh
    have hs : b'.mesh.bin.maxSize = b.mesh.bin.maxSize := by rw [hm]; exact maxSize_map _ _
    simp only [Body.addFields, Body.addField, PField.make, hs]
    cases b.mesh.bin.maxSize with
    | error e => exact Or.inr ⟨e, rfl, rfl⟩
    | ok mx =>
      simp only [ok_bind]
      refine ih ⟨⟨node', hm⟩, ?_⟩
      refine List.rel_append hb.fields (List.Forall₂.cons ⟨h1.1, h1.2, rfl, rfl, rfl, rfl, ⟨rfl, by simp, by simp, fun i => ?_⟩⟩ List.Forall₂.nil)
      by_cases hi : i < mx.toNat
      · exact Or.inr ⟨by simp [hi], by simp [hi], by simp [hi]⟩
      · exact Or.inl (by simp [hi])

theorem load_ren {E : ElemOps K d} (hE : RenOk E) {σ : Equiv.Perm Nat} {pts pts' : List (Fin d → K)} (h : Renumbered σ pts pts')
    (cells : List (List Nat)) {flds flds' : List (String × List K)}
    (hf : List.Forall₂ (fun fl fl' => fl'.1 = fl.1 ∧ Renumbered σ fl.2 fl'.2) flds flds') :
    (∃ c c', load rnd E pts cells flds = .ok c ∧ load rnd E pts' (cells.map (List.map σ)) flds' = .ok c' ∧ BodyRen σ c c') ∨
      ∃ e, load rnd E pts cells flds = .error e ∧ load rnd E pts' (cells.map (List.map σ)) flds' = .error e := by
  unfold load
  rw [build_ren rnd hE h]
  cases build rnd E pts cells with
  | error e => exact Or.inr ⟨e, rfl, rfl⟩
  | ok m => exact addFields_ren hf ⟨⟨pts', rfl⟩, List.Forall₂.nil⟩

omit [Field K] [LinearOrder K] [FloorRing K] in
theorem firstInRange_ren {E : ElemOps K d} (hE : RenOk E) (σ : Nat → Nat) (c : Fin d → K) (l : List (Interp K d)) :
    Mesh.firstInRange E c (l.map (Interp.ren σ)) = (Mesh.firstInRange E c l).map (Interp.ren σ) := by
  induction l with
  | nil => rfl
  | cons q l ih =>
    simp only [List.map_cons, Mesh.firstInRange, hE.inRange]
    split
    · rfl
    · exact ih

omit [LinearOrder K] [FloorRing K] in
theorem fillLoop_ren {σ : Nat → Nat} {w : Interp K d → Res K} (hw : ∀ q, w (q.ren σ) = w q) (el : Nat) (l : List (Interp K d)) :
    ∀ (i : Nat) {b b' : Mesh.Buf K}, BufRen σ b b' →
      (Mesh.fillLoop w el (l.map (Interp.ren σ)) i b').1 = (Mesh.fillLoop w el l i b).1 ∧
        BufRen σ (Mesh.fillLoop w el l i b).2 (Mesh.fillLoop w el (l.map (Interp.ren σ)) i b').2 := by
  induction l with
  | nil => intro i b b' hb; exact ⟨rfl, hb⟩
  | cons q l ih =>
    intro i b b' hb
    simp only [List.map_cons, Mesh.fillLoop, hw]
    rw [show (q.ren σ).element = q.element from rfl, hb.bf]
    cases (if q.element = el then w q else .ok 0 : Res K) with
    | error e => exact ⟨rfl, hb⟩
    | ok v =>
      simp only
      by_cases hi : i < b.bf.length
      · have e1 : vset b.bf (i : Nat) v = .ok (b.bf.set i v) := vset_nat _ _ _ hi
        have e2 : vset b.ni (i : Nat) q.node = .ok (b.ni.set i q.node) := vset_nat _ _ _ (by rw [hb.len]; exact hi)
        have e3 : vset b'.ni (i : Nat) (q.ren σ).node = .ok (b'.ni.set i (σ q.node)) := vset_nat _ _ _ (by rw [hb.len']; exact hi)
        rw [e1, e2, e3]
        simp only
        refine ih (i + 1) ⟨rfl, by simp [hb.len], by simp [hb.len'], fun k => ?_⟩
        by_cases hk : k = i
        · subst hk
          refine Or.inl ?_
          simp [hb.len, hb.len', hi]
        · have := hb.ni k
          simpa [List.getElem?_set, Ne.symm hk, hk] using this
      · have e1 : vset b.bf (i : Nat) v = .error (.ub .oob) := by
          unfold vset; rw [if_neg (by simp; omega)]
        rw [e1]
        exact ⟨rfl, hb⟩

theorem fill_ren {E : ElemOps K d} (hE : RenOk E) {σ : Nat → Nat} {w : Interp K d → Res K} (hw : ∀ q, w (q.ren σ) = w q) (m : Mesh K d)
    (node' : List (Fin d → K)) (c : Fin d → K) {b b' : Mesh.Buf K} (hb : BufRen σ b b') :
    (fill rnd E w (renM σ node' m) c b').1 = (fill rnd E w m c b).1 ∧
      (fill rnd E w (renM σ node' m) c b').2.1 = renM σ node' (fill rnd E w m c b).2.1 ∧
      BufRen σ (fill rnd E w m c b).2.2 (fill rnd E w (renM σ node' m) c b').2.2 := by
  unfold fill
  rw [show (renM σ node' m).bin = mapB (Interp.ren σ) m.bin from rfl, contents_map]
  rcases contents rnd m.bin (List.ofFn c) with ⟨_ | content, bin⟩
  · exact ⟨rfl, rfl, hb⟩
  · simp only [Except.map, firstInRange_ren hE]
    cases Mesh.firstInRange E c content with
    | none => exact ⟨by simp, rfl, hb⟩
    | some q =>
      simp only [Option.map_some]
      obtain ⟨h1, h2⟩ := fillLoop_ren hw q.element content 0 hb
      rw [show (q.ren σ).element = q.element from rfl]
      revert h1 h2
      rcases Mesh.fillLoop w q.element content 0 b with ⟨r, x⟩
      rcases Mesh.fillLoop w q.element (content.map (Interp.ren σ)) 0 b' with ⟨r', x'⟩
      intro h1 h2
      simp only at h1 h2
      subst h1
      cases r' with
      | error e => exact ⟨rfl, rfl, h2⟩
      | ok u => exact ⟨by simp, rfl, h2⟩

omit [LinearOrder K] [FloorRing K] in
theorem sumLoop_ren {σ : Equiv.Perm Nat} {data data' : List K} (hd : Renumbered σ data data') {b b' : Mesh.Buf K} (hb : BufRen σ b b') (n : Nat) :
    ∀ (i : Nat) (acc : K), sumLoop rnd data' b' n i acc = sumLoop rnd data b n i acc := by
  induction n with
  | zero => intro i acc; rfl
  | succ n ih =>
    intro i acc
    simp only [sumLoop, ih, hb.bf]
    cases hw : vget b.bf (i : Nat) with
    | error e => rfl
    | ok w =>
      simp only [ok_bind]
      rcases hb.ni i with h | ⟨h1, h2, h3⟩
      · have e : vget b'.ni (i : Nat) = (vget b.ni (i : Nat)).map σ := by
          unfold vget
          simp only [Int.toNat_natCast, h]
          cases b.ni[i]? <;> simp [Except.map]
        rw [e, map_bind']
        congr 1; funext k
        rw [renumbered_vget hd]
      · have vg : ∀ {α : Type} {l : List α} {x : α}, l[i]? = some x → vget l (i : Nat) = .ok x := by
          intro α l x h
          unfold vget
          simp [h]
        have w0 : w = 0 := by
          have := (vg h1).symm.trans hw
          exact (Except.ok.inj this).symm
        rw [vg h2, vg h3]
        simp only [ok_bind, w0, zero_mul]
        have e : ∀ l : List K, (∃ x, vget l ((0 : Nat) : Int) = .ok x) ∨ (l = [] ∧ vget l ((0 : Nat) : Int) = .error (.ub .oob)) := by
          intro l
          cases l with
          | nil => exact Or.inr ⟨rfl, rfl⟩
          | cons x l => exact Or.inl ⟨x, rfl⟩
        have nil : data = [] ↔ data' = [] := by
          rw [List.eq_nil_iff_forall_not_mem, List.eq_nil_iff_forall_not_mem]
          exact forall_congr' fun x => not_congr (renumbered_mem hd x).symm
        rcases e data with ⟨x, hx⟩ | ⟨hn, hx⟩ <;> rcases e data' with ⟨y, hy⟩ | ⟨hn', hy⟩
        · rw [hx, hy]; rfl
        · rw [nil.mpr hn'] at hx; cases hx
        · rw [nil.mp hn] at hy; cases hy
        · rw [hx, hy]

/-- The outcome of a member function on corresponding fields: the same result, corresponding states. -/
def SameOut {α : Type} (σ : Nat → Nat) (r r' : Res α × Mesh K d × PField K) : Prop :=
  r'.1 = r.1 ∧ (∃ node', r'.2.1 = renM σ node' r.2.1) ∧ FieldRen σ r.2.2 r'.2.2

section
variable {E : ElemOps K d} (hE : RenOk E) {σ : Equiv.Perm Nat} (m : Mesh K d) (node' : List (Fin d → K)) {f f' : PField K} (hf : FieldRen σ f f')
include hE hf

theorem value_ren (c : Fin d → K) : SameOut σ (value rnd E m f c) (value rnd E (renM σ node' m) f' c) := by
  unfold value basisFunctions
  obtain ⟨h1, h2, h3⟩ := fill_ren rnd hE (w := fun q => E.value q c) (fun q => hE.value σ q c) m node' c hf.buf
  revert h1 h2 h3
  rcases fill rnd E (fun q => E.value q c) m c f.buf with ⟨r, x, y⟩
  rcases fill rnd E (fun q => E.value q c) (renM σ node' m) c f'.buf with ⟨r', x', y'⟩
  intro h1 h2 h3
  simp only at h1 h2 h3
  subst h1 h2
  cases r' with
  | error e => exact ⟨rfl, ⟨node', rfl⟩, { hf with buf := h3 }⟩
  | ok s =>
    simp only [hf.zero, sumLoop_ren rnd hf.data h3]
    cases sumLoop rnd f.data y s 0 f.zero with
    | error e => exact ⟨rfl, ⟨node', rfl⟩, { hf with buf := h3, zero := rfl }⟩
    | ok v => exact ⟨rfl, ⟨node', rfl⟩, { hf with buf := h3, zero := rfl, val := rfl }⟩

theorem gradAt_ren (c : Fin d → K) (di : Nat) : SameOut σ (gradAt rnd E m f c di) (gradAt rnd E (renM σ node' m) f' c di) := by
  unfold gradAt gradBasisFunctions
  obtain ⟨h1, h2, h3⟩ := fill_ren rnd hE (w := fun q => E.grad q c di) (fun q => hE.grad σ q c di) m node' c hf.buf
  revert h1 h2 h3
  rcases fill rnd E (fun q => E.grad q c di) m c f.buf with ⟨r, x, y⟩
  rcases fill rnd E (fun q => E.grad q c di) (renM σ node' m) c f'.buf with ⟨r', x', y'⟩
  intro h1 h2 h3
  simp only at h1 h2 h3
  subst h1 h2
  cases r' with
  | error e => exact ⟨rfl, ⟨node', rfl⟩, { hf with buf := h3 }⟩
  | ok s =>
    simp only [hf.zero, sumLoop_ren rnd hf.data h3]
    cases sumLoop rnd f.data y s 0 f.zero with
    | error e => exact ⟨rfl, ⟨node', rfl⟩, { hf with buf := h3, zero := rfl }⟩
    | ok v =>
      simp only [hf.grad]
      cases vset f.grad (di : Nat) v with
      | error e => exact ⟨rfl, ⟨node', rfl⟩, { hf with buf := h3, zero := rfl, grad := rfl }⟩
      | ok g => exact ⟨rfl, ⟨node', rfl⟩, { hf with buf := h3, zero := rfl, grad := rfl }⟩

theorem hessAt_ren (c : Fin d → K) (di dj : Nat) : SameOut σ (hessAt rnd E m f c di dj) (hessAt rnd E (renM σ node' m) f' c di dj) := by
  unfold hessAt hessBasisFunctions
  obtain ⟨h1, h2, h3⟩ := fill_ren rnd hE (w := fun q => E.hess q c di dj) (fun q => hE.hess σ q c di dj) m node' c hf.buf
  revert h1 h2 h3
  rcases fill rnd E (fun q => E.hess q c di dj) m c f.buf with ⟨r, x, y⟩
  rcases fill rnd E (fun q => E.hess q c di dj) (renM σ node' m) c f'.buf with ⟨r', x', y'⟩
  intro h1 h2 h3
  simp only at h1 h2 h3
  subst h1 h2
  cases r' with
  | error e => exact ⟨rfl, ⟨node', rfl⟩, { hf with buf := h3 }⟩
  | ok s =>
    simp only [hf.zero, sumLoop_ren rnd hf.data h3]
    cases sumLoop rnd f.data y s 0 f.zero with
    | error e => exact ⟨rfl, ⟨node', rfl⟩, { hf with buf := h3, zero := rfl }⟩
    | ok v =>
      simp only [hf.hess]
      cases (do let row ← vget f.hess (di : Nat); let row' ← vset row (dj : Nat) v; vset f.hess (di : Nat) row' : Res (List (List K))) with
      | error e => exact ⟨rfl, ⟨node', rfl⟩, { hf with buf := h3, zero := rfl, hess := rfl }⟩
      | ok g => exact ⟨rfl, ⟨node', rfl⟩, { hf with buf := h3, zero := rfl, hess := rfl }⟩

omit hf in
theorem evalGradLoop_ren (c : Fin d → K) (l : List Nat) : ∀ (m : Mesh K d) (node' : List (Fin d → K)) {f f' : PField K}, FieldRen σ f f' →
    SameOut σ (evalGradLoop rnd E c l m f) (evalGradLoop rnd E c l (renM σ node' m) f') := by
  induction l with
  | nil => intro m node' f f' hf; exact ⟨rfl, ⟨node', rfl⟩, hf⟩
  | cons di ds ih =>
    intro m node' f f' hf
    simp only [evalGradLoop]
    obtain ⟨h1, h2, h3⟩ := gradAt_ren rnd hE m node' hf c di
    revert h1 h2 h3
    rcases gradAt rnd E m f c di with ⟨r, x, y⟩
    rcases gradAt rnd E (renM σ node' m) f' c di with ⟨r', x', y'⟩
    intro h1 ⟨n', h2⟩ h3
    simp only at h1 h2 h3
    subst h1 h2
    cases r' with
    | error e => exact ⟨rfl, ⟨n', rfl⟩, h3⟩
    | ok v => exact ih x n' h3

omit hf in
theorem evalHessLoop_ren (c : Fin d → K) (l : List (Nat × Nat)) : ∀ (m : Mesh K d) (node' : List (Fin d → K)) {f f' : PField K}, FieldRen σ f f' →
    SameOut σ (evalHessLoop rnd E c l m f) (evalHessLoop rnd E c l (renM σ node' m) f') := by
  induction l with
  | nil => intro m node' f f' hf; exact ⟨rfl, ⟨node', rfl⟩, hf⟩
  | cons p ps ih =>
    intro m node' f f' hf
    simp only [evalHessLoop]
    obtain ⟨h1, h2, h3⟩ := hessAt_ren rnd hE m node' hf c p.1 p.2
    revert h1 h2 h3
    rcases hessAt rnd E m f c p.1 p.2 with ⟨r, x, y⟩
    rcases hessAt rnd E (renM σ node' m) f' c p.1 p.2 with ⟨r', x', y'⟩
    intro h1 ⟨n', h2⟩ h3
    simp only at h1 h2 h3
    subst h1 h2
    cases r' with
    | error e => exact ⟨rfl, ⟨n', rfl⟩, h3⟩
    | ok v => exact ih x n' h3

theorem callField_ren (op : Body.Call K d) : SameOut σ (callField rnd E m f op) (callField rnd E (renM σ node' m) f' op) := by
  cases op with
  | value c =>
    obtain ⟨h1, h2, h3⟩ := value_ren rnd hE m node' hf c
    exact ⟨congrArg (Except.map fun _ => ()) h1, h2, h3⟩
  | grad c di =>
    obtain ⟨h1, h2, h3⟩ := gradAt_ren rnd hE m node' hf c di
    exact ⟨congrArg (Except.map fun _ => ()) h1, h2, h3⟩
  | hess c di dj =>
    obtain ⟨h1, h2, h3⟩ := hessAt_ren rnd hE m node' hf c di dj
    exact ⟨congrArg (Except.map fun _ => ()) h1, h2, h3⟩
  | evalGrad c => exact evalGradLoop_ren rnd hE c _ m node' hf
  | evalHess c => exact evalHessLoop_ren rnd hE c _ m node' hf
end

theorem forall2_getElem {α β : Type} {R : α → β → Prop} {l : List α} {l' : List β} (h : List.Forall₂ R l l') (i : Nat) :
    (l[i]? = none ∧ l'[i]? = none) ∨ ∃ x y, l[i]? = some x ∧ l'[i]? = some y ∧ R x y := by
  induction h generalizing i with
  | nil => exact Or.inl ⟨rfl, rfl⟩
  | cons h1 _ ih =>
    cases i with
    | zero => exact Or.inr ⟨_, _, rfl, rfl, h1⟩
    | succ i => simpa using ih i

theorem forall2_set {α β : Type} {R : α → β → Prop} {l : List α} {l' : List β} (h : List.Forall₂ R l l') (i : Nat) {x : α} {y : β} (hxy : R x y) :
    List.Forall₂ R (l.set i x) (l'.set i y) := by
  induction h generalizing i with
  | nil => exact List.Forall₂.nil
  | cons h1 h2 ih =>
    cases i with
    | zero => exact List.Forall₂.cons hxy h2
    | succ i => exact List.Forall₂.cons h1 (ih i)

theorem call_ren {E : ElemOps K d} (hE : RenOk E) {σ : Equiv.Perm Nat} {b b' : Body K d} (h : BodyRen σ b b') (i : Nat) (op : Body.Call K d) :
    BodyRen σ (call rnd E b i op) (call rnd E b' i op) := by
  unfold call
  rcases forall2_getElem h.fields i with ⟨e, e'⟩ | ⟨f, f', e, e', hf⟩
  · rw [e, e']; exact h
  · rw [e, e']
    obtain ⟨node', hm⟩ := h.mesh
    obtain ⟨_, ⟨n', h2⟩, h3⟩ := callField_ren rnd hE b.mesh node' hf op
    rw [hm]
    exact ⟨⟨n', h2⟩, forall2_set h.fields i h3⟩

theorem evals_ren {E : ElemOps K d} (hE : RenOk E) {σ : Equiv.Perm Nat} (ops : List (Nat × Body.Call K d)) : ∀ {b b' : Body K d}, BodyRen σ b b' →
    BodyRen σ (evals rnd E b ops) (evals rnd E b' ops) := by
  induction ops with
  | nil => intro b b' h; exact h
  | cons o ops ih => intro b b' h; exact ih (call_ren rnd hE h o.1 o.2)

theorem eval_ren {E : ElemOps K d} (hE : RenOk E) {σ : Equiv.Perm Nat} {b b' : Body K d} (h : BodyRen σ b b') (i : Nat) (op : Call K d) :
    eval rnd E b' i op = eval rnd E b i op := by
  unfold eval
  rcases forall2_getElem h.fields i with ⟨e, e'⟩ | ⟨f, f', e, e', hf⟩
  · rw [e, e']
  · rw [e, e']
    obtain ⟨node', hm⟩ := h.mesh
    rw [hm]
    cases op with
    | value c => exact (value_ren rnd hE b.mesh node' hf c).1
    | grad c di => exact (gradAt_ren rnd hE b.mesh node' hf c di).1
    | hess c di dj => exact (hessAt_ren rnd hE b.mesh node' hf c di dj).1

omit [LinearOrder K] [FloorRing K] in
theorem stored_ren {σ : Nat → Nat} {b b' : Body K d} (h : BodyRen σ b b') (i : Nat) :
    b'.getVal i = b.getVal i ∧ (∀ di, b'.getGrad i di = b.getGrad i di) ∧ ∀ di dj, b'.getHess i di dj = b.getHess i di dj := by
  unfold Body.getVal Body.getGrad Body.getHess
  rcases forall2_getElem h.fields i with ⟨e, e'⟩ | ⟨f, f', e, e', hf⟩
  · rw [e, e']; exact ⟨rfl, fun _ => rfl, fun _ _ => rfl⟩
  · rw [e, e']
    simp only [PField.getVal, PField.getGrad, PField.getHess, hf.val, hf.grad, hf.hess]
    simp

end Fl
end Verif
