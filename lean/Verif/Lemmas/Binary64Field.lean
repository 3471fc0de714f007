import Verif.Lemmas.Binary64Mesh
import Verif.Lemmas.RoundedHist
import Mathlib.Tactic.FinCases

/-! # Binary64: evaluating fields stays in the range of normal doubles -/

namespace Verif
open Spec
namespace B64
variable {T K : Type} {d : Nat} [Field K] [LinearOrder K] [IsStrictOrderedRing K] [FloorRing K] {f : K → K} {g m A B V : Nat}

/-! ## Saturation: adding terms of at most `2^X` never leads beyond `2^(X+54)` -/

theorem sat (X : Nat) : r ((2 : K) ^ (X + 54) + 2 ^ X) = 2 ^ (X + 54) := by
  have hp : (0 : K) < 2 ^ X := p0 X
  have e54 : (2 : K) ^ (X + 54) = 2 ^ X * 2 ^ 54 := pow_add _ _ _
  have hx : (0 : K) < 2 ^ (X + 54) + 2 ^ X := by have := p0 (K := K) (X + 54); linarith
  have lo : (2 : K) ^ (X + 54) ≤ r (2 ^ (X + 54) + 2 ^ X) := R.ge_of (float_pow _) (by linarith)
  have err := R.err ((2 : K) ^ (X + 54) + 2 ^ X)
  rw [abs_of_pos hx] at err
  have up : r ((2 : K) ^ (X + 54) + 2 ^ X) - (2 ^ (X + 54) + 2 ^ X) ≤ (2 : K) ^ (-53 : Int) * (2 ^ (X + 54) + 2 ^ X) := le_trans (le_abs_self _) err
  have e53 : (2 : K) ^ (-53 : Int) = (2 ^ 53)⁻¹ := by rw [zpow_neg]; norm_cast
  rw [e53] at up
  obtain ⟨z, hz⟩ := round_ulp hx
  have hl : Int.log 2 ((2 : K) ^ (X + 54) + 2 ^ X) = (X + 54 : Int) := by
    have b := log_bounds hx
    have l1 : (2 : K) ^ ((X + 54 : Nat) : Int) < 2 ^ (Int.log 2 ((2 : K) ^ (X + 54) + 2 ^ X) + 1) := by
      rw [zpow_natCast]; linarith [b.2]
    have l2 : (2 : K) ^ (Int.log 2 ((2 : K) ^ (X + 54) + 2 ^ X)) < 2 ^ ((X + 55 : Nat) : Int) := by
      rw [zpow_natCast]
      have : (2 : K) ^ (X + 55) = 2 ^ X * 2 ^ 55 := pow_add _ _ _
      refine lt_of_le_of_lt b.1 ?_
      rw [this, e54]; nlinarith
    have a1 := (zpow_lt_zpow_iff_right₀ (by norm_num : (1 : K) < 2)).mp l1
    have a2 := (zpow_lt_zpow_iff_right₀ (by norm_num : (1 : K) < 2)).mp l2
    push_cast at a1 a2
    omega
  rw [hl] at hz
  have e2 : (2 : K) ^ ((X : Int) + 54 + 1 - 53) = 2 ^ X * 4 := by
    rw [show (X : Int) + 54 + 1 - 53 = ((X + 2 : Nat) : Int) by push_cast; omega, zpow_natCast, pow_add]; norm_num
  rw [e2] at hz
  rw [hz] at lo up ⊢
  rw [e54] at lo up ⊢
  have z1 : ((2 ^ 52 : Int) : K) ≤ (z : K) := by push_cast; nlinarith
  have z2 : (z : K) < ((2 ^ 52 + 1 : Int) : K) := by
    push_cast
    have : (2 ^ 53 : K)⁻¹ * (2 ^ X * 2 ^ 54 + 2 ^ X) = 2 ^ X * 2 + 2 ^ X * (2 ^ 53)⁻¹ := by field_simp
    rw [this] at up
    have h53 : ((2 : K) ^ 53)⁻¹ < 1 / 2 := by norm_num
    nlinarith
  have z1' : (2 ^ 52 : Int) ≤ z := Int.cast_le.mp z1
  have z2' : z < (2 ^ 52 + 1 : Int) := Int.cast_lt.mp z2
  have : z = 2 ^ 52 := by omega
  subst this
  push_cast; ring

theorem sat_add {X : Nat} {acc t : K} (h1 : |acc| ≤ 2 ^ (X + 54)) (h2 : |t| ≤ 2 ^ X) : |r (acc + t)| ≤ 2 ^ (X + 54) := by
  have h := abs_add_le acc t
  have h' := abs_le.mp (h.trans (by linarith : _ ≤ (2 : K) ^ (X + 54) + 2 ^ X))
  rw [abs_le]
  constructor
  · have := R.mono _ _ h'.1
    rw [R.neg, sat] at this; exact this
  · have := R.mono _ _ h'.2
    rwa [sat] at this

/-! ## The sum -/

/-- Bounds of everything the theorems need. -/
structure Room (g m A B V : Nat) : Prop where
  gm : g + m ≤ 800
  lo : A + V + 52 ≤ 1022
  hi : B + V + 55 ≤ 1023

theorem sumLoop_congr (hB : IsBinary64 f) (hR : Room g m A B V) {data : List K} (hd : ∀ x ∈ data, Sized V V x) {b : Mesh.Buf K}
    (hb : ∀ x ∈ b.bf, Sized A B x) (n : Nat) : ∀ (i : Nat) (acc : K), OnGrid (A + V + 52) acc → |acc| ≤ 2 ^ (B + V + 54) →
    Fl.sumLoop f data b n i acc = Fl.sumLoop r data b n i acc := by
  have := hR.lo
  have := hR.hi
  induction n with
  | zero => intros; rfl
  | succ n ih =>
    intro i acc ha hl
    simp only [Fl.sumLoop]
    cases h1 : vget b.bf (i : Nat) with
    | error e => rfl
    | ok w =>
    cases h2 : vget b.ni (i : Nat) with
    | error e => rfl
    | ok k =>
    simp only [ok_bind]
    cases h3 : vget data (k : Nat) with
    | error e => rfl
    | ok v =>
    simp only [ok_bind]
    have s1 := sized_mul (hb w (List.mem_of_getElem? (vget_ok.mp h1).2)) (hd v (List.mem_of_getElem? (vget_ok.mp h3).2))
    rw [agree hB s1 (by omega) (by omega)]
    have g1 : OnGrid (A + V + 52) (r (w * v)) := float_grid (R.idem _) (sized_round s1)
    have l1 := sized_le (sized_round s1)
    have s2 : Sized (A + V + 52) (B + V + 55) (acc + r (w * v)) :=
      grid_sized (grid_add ha g1) (abs_add_le_pow hl (l1.trans (p_mono (by omega))))
    rw [agree hB s2 (by omega) (by omega)]
    exact ih _ _ (grid_round (grid_add ha g1)) (sat_add hl l1)

/-! ## What is in the bins -/

def ItemsGood (g m : Nat) (item : NDArray (List (Interp K d))) : Prop := ∀ l ∈ item.val, ∀ q ∈ l, QGood g m q

structure MGood (g m : Nat) (M : Mesh K d) : Prop where
  grid : GGood g m M.bin.min M.bin.incr
  items : ItemsGood g m M.bin.item

structure FGood (A B V : Nat) (F : PField K) : Prop where
  data : ∀ x ∈ F.data, Sized V V x
  zero : F.zero = 0
  buf : ∀ x ∈ F.buf.bf, Sized A B x

theorem push_good {item it : NDArray (List (Interp K d))} {idx : List Int} {q : Interp K d} (hi : ItemsGood g m item) (hq : QGood g m q)
    (h : Bin.push item idx q = .ok it) : ItemsGood g m it := by
  unfold Bin.push at h
  obtain ⟨l, -, h⟩ := bind_eq_ok.mp h
  obtain ⟨v, hv, h⟩ := bind_eq_ok.mp h
  unfold NDArray.setLin at h
  obtain ⟨w, hw, h⟩ := bind_eq_ok.mp h
  cases h
  have hv' : v ∈ item.val := List.mem_of_getElem? (vget_ok.mp hv).2
  have hw' := (vset_ok.mp hw).2.2
  intro l' hl' q' hq'
  simp only at hl'
  rw [hw'] at hl'
  rcases List.mem_or_eq_of_mem_set hl' with h | h
  · exact hi l' h q' hq'
  · subst h
    rcases List.mem_append.mp hq' with h | h
    · exact hi v hv' q' h
    · rw [List.mem_singleton] at h; subst h; exact hq

theorem rangeLoop_good {imin imax : List Int} {q : Interp K d} (hq : QGood g m q) (n : Nat) : ∀ (item : NDArray (List (Interp K d))) (idx : List Int),
    ItemsGood g m item → ItemsGood g m (Bin.rangeLoop imin imax q n item idx).2.1 := by
  induction n with
  | zero => intro item idx h; exact h
  | succ n ih =>
    intro item idx h
    simp only [Bin.rangeLoop]
    cases h1 : Bin.push item idx q with
    | error e => exact h
    | ok it =>
      have h2 := push_good h hq h1
      simp only
      cases h3 : Bin.advance it.order imin imax idx with
      | error e => exact h2
      | ok o =>
        cases o with
        | none => exact h2
        | some idx' => exact ih _ _ h2

theorem addRange_good {b b' : Bin (Interp K d) K} {q : Interp K d} (hq : QGood g m q) (hi : ItemsGood g m b.item) {lo hi' : List K} {e : Res Unit}
    (h : Fl.addRange r b q lo hi' = (e, b')) : ItemsGood g m b'.item := by
  unfold Fl.addRange at h
  simp only at h
  split at h
  · cases h; exact hi
  · split at h
    · cases h; exact hi
    · cases h; exact rangeLoop_good hq _ _ _ hi

theorem fileAll_good (qs : List (Interp K d)) (hq : ∀ q ∈ qs, QGood g m q) : ∀ (b b' : Bin (Interp K d) K), ItemsGood g m b.item →
    Fl.fileAll r qs b = .ok b' → ItemsGood g m b'.item ∧ b'.min = b.min ∧ b'.incr = b.incr := by
  induction qs with
  | nil => intro b b' hi h; cases h; exact ⟨hi, rfl, rfl⟩
  | cons q qs ih =>
    intro b b' hi h
    simp only [Fl.fileAll] at h
    cases he : Fl.addRange r b q (List.ofFn (Fl.minOf r q)) (List.ofFn (Fl.maxOf r q)) with
    | mk e b1 =>
      rw [he] at h
      cases e with
      | error e => cases h
      | ok _ =>
        obtain ⟨e1, e2⟩ := addRange_grid b q _ _ he
        obtain ⟨h1, h2, h3⟩ := ih (fun q' h' => hq q' (by simp [h'])) b1 b' (addRange_good (hq q (by simp)) hi he) h
        exact ⟨h1, h2.trans e1, h3.trans e2⟩

theorem ofDim_empty {N : List Int} {it : NDArray (List (Interp K d))} (h : NDArray.ofDim [] N = .ok it) : ItemsGood g m it := by
  have key : it.val = List.replicate it.val.length [] := by
    unfold NDArray.ofDim NDArray.resize at h
    cases hv : NDArray.calcVolume N with
    | error e => rw [hv] at h; cases h
    | ok v =>
      rw [hv] at h
      simp only at h
      split at h
      · next h' => 
        split at h'
        · cases h'
        · split at h'
          · cases h'
          · cases h'; cases h
            simp [NDArray.empty, vresize]
      · cases h
  intro l hl q hq
  rw [key] at hl
  rw [(List.mem_replicate.mp hl).2] at hq
  cases hq

variable {E' E : ElemOps K d}

theorem build_good (hB : IsBinary64 f) (hgm : g + m ≤ 800) (P : Pair g m A B E' E) {pts : List (Fin d → K)}
    (hp : ∀ p ∈ pts, ∀ i, OnGrid g (p i) ∧ |p i| ≤ 2 ^ m) (hN : ∀ i, nDistinct pts i + 2 ≤ 2 ^ 31) (hne : pts ≠ []) {cells : List (List Nat)}
    {M : Mesh K d} (h : Fl.build r E pts cells = .ok M) : MGood g m M := by
  unfold Fl.build at h
  obtain ⟨M0, h0, h⟩ := bind_eq_ok.mp h
  obtain ⟨hG, hn, hi⟩ := readPoints_grid hB hgm hp hN hne h0
  have hI : ItemsGood g m M0.bin.item := by
    obtain ⟨lo, hi, hg, e⟩ := Fl.readPoints_eq (rnd := (r : K → K)) hne
    rw [e] at h0
    obtain ⟨b, h1, h2⟩ := bind_eq_ok.mp h0
    cases h2
    unfold Fl.mkBin at h1
    obtain ⟨mx, -, h1⟩ := bind_eq_ok.mp h1
    obtain ⟨it, h2, h1⟩ := bind_eq_ok.mp h1
    cases h1
    exact ofDim_empty h2
  unfold Fl.readCells at h
  rw [hn, hi] at h
  obtain ⟨qs, hq, h⟩ := bind_eq_ok.mp h
  obtain ⟨b, hb, h⟩ := bind_eq_ok.mp h
  cases h
  obtain ⟨h1, h2, h3⟩ := fileAll_good _ ((makeCells_congr hB hgm P hp cells 0).2 qs hq) _ _ hI (by simpa using hb)
  exact ⟨by simpa [h2, h3] using hG, h1⟩

theorem make_good {M : Mesh K d} {name : String} {data : List K} (hd : ∀ x ∈ data, Sized V V x) {F : PField K}
    (h : PField.make M name data 0 = .ok F) : FGood A B V F := by
  unfold PField.make at h
  obtain ⟨mx, -, h⟩ := bind_eq_ok.mp h
  cases h
  refine ⟨hd, rfl, fun x hx => ?_⟩
  rw [(List.mem_replicate.mp hx).2]
  exact sized_zero _ _

structure BGood (g m A B V : Nat) (b : Body K d) : Prop where
  mesh : MGood g m b.mesh
  fields : ∀ F ∈ b.fields, FGood A B V F

theorem addFields_good (flds : List (String × List K)) (hd : ∀ fl ∈ flds, ∀ x ∈ fl.2, Sized V V x) : ∀ (b b' : Body K d), BGood g m A B V b →
    Body.addFields b flds = .ok b' → BGood g m A B V b' := by
  induction flds with
  | nil => intro b b' hb h; cases h; exact hb
  | cons fl fls ih =>
    intro b b' hb h
    simp only [Body.addFields] at h
    obtain ⟨b1, h1, h⟩ := bind_eq_ok.mp h
    refine ih (fun x hx => hd x (by simp [hx])) b1 b' ?_ h
    unfold Body.addField at h1
    obtain ⟨F, hF, h1⟩ := bind_eq_ok.mp h1
    cases h1
    refine ⟨hb.mesh, fun G hG => ?_⟩
    rcases List.mem_append.mp hG with hG | hG
    · exact hb.fields G hG
    · rw [List.mem_singleton] at hG
      subst hG
      exact make_good (hd fl (by simp)) hF

theorem load_good (hB : IsBinary64 f) (hgm : g + m ≤ 800) (P : Pair g m A B E' E) {pts : List (Fin d → K)}
    (hp : ∀ p ∈ pts, ∀ i, OnGrid g (p i) ∧ |p i| ≤ 2 ^ m) (hN : ∀ i, nDistinct pts i + 2 ≤ 2 ^ 31) (hne : pts ≠ []) {cells : List (List Nat)}
    {flds : List (String × List K)} (hd : ∀ fl ∈ flds, ∀ x ∈ fl.2, Sized V V x) {b : Body K d} (h : Fl.load r E pts cells flds = .ok b) :
    BGood g m A B V b := by
  unfold Fl.load at h
  obtain ⟨M, hM, h⟩ := bind_eq_ok.mp h
  exact addFields_good flds hd _ _ ⟨build_good hB hgm P hp hN hne hM, fun F hF => by cases hF⟩ h

/-! ## Evaluation -/

/-- A coordinate in range. -/
def CGood (g m : Nat) (c : Fin d → K) : Prop := ∀ i, OnGrid g (c i) ∧ |c i| ≤ 2 ^ m

theorem firstInRange_congr (P : Pair g m A B E' E) {c : Fin d → K} (hc : CGood g m c) (l : List (Interp K d)) (hl : ∀ q ∈ l, QGood g m q) :
    Mesh.firstInRange E' c l = Mesh.firstInRange E c l := by
  induction l with
  | nil => rfl
  | cons q l ih =>
    simp only [Mesh.firstInRange, P.inRange q c (hl q (by simp)) hc, ih fun q' h => hl q' (by simp [h])]

theorem fillLoop_congr {w' w : Interp K d → Res K} (hw : ∀ q, QGood g m q → w' q = w q ∧ ∀ v, w q = .ok v → Sized A B v) (el : Nat)
    (l : List (Interp K d)) (hl : ∀ q ∈ l, QGood g m q) : ∀ (i : Nat) (b : Mesh.Buf K), (∀ x ∈ b.bf, Sized A B x) →
    Mesh.fillLoop w' el l i b = Mesh.fillLoop w el l i b ∧ ∀ x ∈ (Mesh.fillLoop w el l i b).2.bf, Sized A B x := by
  induction l with
  | nil => intro i b hb; exact ⟨rfl, hb⟩
  | cons q l ih =>
    intro i b hb
    obtain ⟨e1, s1⟩ := hw q (hl q (by simp))
    simp only [Mesh.fillLoop, e1]
    cases h1 : (if q.element = el then w q else .ok 0) with
    | error e => exact ⟨rfl, hb⟩
    | ok v =>
      have sv : Sized A B v := by
        split at h1
        · exact s1 v h1
        · cases h1; exact sized_zero _ _
      simp only
      cases h2 : vset b.bf (i : Nat) v with
      | error e => exact ⟨rfl, hb⟩
      | ok bf' =>
        have hbf : ∀ x ∈ bf', Sized A B x := by
          intro x hx
          rw [(vset_ok.mp h2).2.2] at hx
          rcases List.mem_or_eq_of_mem_set hx with h | h
          · exact hb x h
          · subst h; exact sv
        simp only
        cases h3 : vset b.ni (i : Nat) q.node with
        | error e => exact ⟨rfl, hbf⟩
        | ok ni' => exact ih (fun q' h => hl q' (by simp [h])) (i + 1) ⟨bf', ni'⟩ hbf

theorem fill_congr (hB : IsBinary64 f) (hgm : g + m ≤ 800) (P : Pair g m A B E' E) {w' w : Interp K d → Res K}
    (hw : ∀ q, QGood g m q → w' q = w q ∧ ∀ v, w q = .ok v → Sized A B v) {M : Mesh K d} (hM : MGood g m M) {c : Fin d → K} (hc : CGood g m c)
    {b : Mesh.Buf K} (hb : ∀ x ∈ b.bf, Sized A B x) : Fl.fill f E' w' M c b = Fl.fill r E w M c b ∧ MGood g m (Fl.fill r E w M c b).2.1 ∧
      ∀ x ∈ (Fl.fill r E w M c b).2.2.bf, Sized A B x := by
  have hc' : ∀ x ∈ List.ofFn c, OnGrid g x ∧ |x| ≤ 2 ^ (m + 2) := by
    intro x hx
    obtain ⟨i, rfl⟩ := (List.mem_ofFn' _ _).mp hx
    exact ⟨(hc i).1, (hc i).2.trans (p_mono (by omega))⟩
  unfold Fl.fill
  rw [contents_congr hB hgm hM.grid _ hc']
  have hbin : (Fl.contents r M.bin (List.ofFn c)).2.min = M.bin.min ∧ (Fl.contents r M.bin (List.ofFn c)).2.incr = M.bin.incr ∧
      (Fl.contents r M.bin (List.ofFn c)).2.item = M.bin.item := by
    unfold Fl.contents
    simp only
    split <;> exact ⟨rfl, rfl, rfl⟩
  have hcont : ∀ l, (Fl.contents r M.bin (List.ofFn c)).1 = .ok l → ∀ q ∈ l, QGood g m q := by
    intro l hl
    unfold Fl.contents at hl
    simp only at hl
    split at hl
    · cases hl
    · simp only [NDArray.get] at hl
      obtain ⟨k, -, hl⟩ := bind_eq_ok.mp hl
      exact hM.items l (List.mem_of_getElem? (vget_ok.mp hl).2)
  generalize Fl.contents r M.bin (List.ofFn c) = C at *
  obtain ⟨e, b'⟩ := C
  have hM' : MGood g m { M with bin := b' } := by
    obtain ⟨h1, h2, h3⟩ := hbin
    exact ⟨by change GGood g m b'.min b'.incr; rw [h1, h2]; exact hM.grid, by change ItemsGood g m b'.item; rw [h3]; exact hM.items⟩
  cases e with
  | error e => exact ⟨rfl, hM', hb⟩
  | ok l =>
    have hl := hcont l rfl
    simp only
    rw [firstInRange_congr P hc l hl]
    cases Mesh.firstInRange E c l with
    | none => exact ⟨rfl, hM', hb⟩
    | some q =>
      obtain ⟨e1, e2⟩ := fillLoop_congr hw q.element l hl 0 b hb
      simp only [e1]
      generalize Mesh.fillLoop w q.element l 0 b = L at *
      obtain ⟨e, b''⟩ := L
      cases e with
      | error e => exact ⟨trivial, hM', e2⟩
      | ok _ => exact ⟨trivial, hM', e2⟩

section
variable (hB : IsBinary64 f) (hR : Room g m A B V) (P : Pair g m A B E' E) {M : Mesh K d} (hM : MGood g m M) {F : PField K} (hF : FGood A B V F)
include hB hR P hM hF

theorem value_congr {c : Fin d → K} (hc : CGood g m c) : Fl.value f E' M F c = Fl.value r E M F c ∧
    MGood g m (Fl.value r E M F c).2.1 ∧ FGood A B V (Fl.value r E M F c).2.2 := by
  obtain ⟨e1, e2, e3⟩ := fill_congr hB hR.gm P (w' := fun q => E'.value q c) (w := fun q => E.value q c) (fun q hq => P.value q c hq hc) hM hc hF.buf
  unfold Fl.value Fl.basisFunctions
  rw [e1]
  generalize Fl.fill r E (fun q => E.value q c) M c F.buf = L at *
  obtain ⟨e, M', b⟩ := L
  cases e with
  | error e => exact ⟨rfl, e2, hF.data, hF.zero, e3⟩
  | ok s =>
    simp only
    rw [sumLoop_congr hB hR hF.data e3 s 0 F.zero (by rw [hF.zero]; exact grid_zero _) (by rw [hF.zero, abs_zero]; exact (p0 _).le)]
    cases Fl.sumLoop r F.data b s 0 F.zero with
    | error e => exact ⟨rfl, e2, hF.data, hF.zero, e3⟩
    | ok v => exact ⟨rfl, e2, hF.data, hF.zero, e3⟩

theorem gradAt_congr {c : Fin d → K} (hc : CGood g m c) (di : Nat) : Fl.gradAt f E' M F c di = Fl.gradAt r E M F c di ∧
    MGood g m (Fl.gradAt r E M F c di).2.1 ∧ FGood A B V (Fl.gradAt r E M F c di).2.2 := by
  obtain ⟨e1, e2, e3⟩ := fill_congr hB hR.gm P (w' := fun q => E'.grad q c di) (w := fun q => E.grad q c di)
    (fun q hq => P.grad q c di hq hc) hM hc hF.buf
  unfold Fl.gradAt Fl.gradBasisFunctions
  rw [e1]
  generalize Fl.fill r E (fun q => E.grad q c di) M c F.buf = L at *
  obtain ⟨e, M', b⟩ := L
  cases e with
  | error e => exact ⟨rfl, e2, hF.data, hF.zero, e3⟩
  | ok s =>
    simp only
    rw [sumLoop_congr hB hR hF.data e3 s 0 F.zero (by rw [hF.zero]; exact grid_zero _) (by rw [hF.zero, abs_zero]; exact (p0 _).le)]
    cases Fl.sumLoop r F.data b s 0 F.zero with
    | error e => exact ⟨rfl, e2, hF.data, hF.zero, e3⟩
    | ok v =>
      simp only
      cases vset F.grad (di : Nat) v with
      | error e => exact ⟨trivial, e2, hF.data, hF.zero, e3⟩
      | ok v => exact ⟨trivial, e2, hF.data, hF.zero, e3⟩

theorem hessAt_congr {c : Fin d → K} (hc : CGood g m c) (di dj : Nat) : Fl.hessAt f E' M F c di dj = Fl.hessAt r E M F c di dj ∧
    MGood g m (Fl.hessAt r E M F c di dj).2.1 ∧ FGood A B V (Fl.hessAt r E M F c di dj).2.2 := by
  obtain ⟨e1, e2, e3⟩ := fill_congr hB hR.gm P (w' := fun q => E'.hess q c di dj) (w := fun q => E.hess q c di dj)
    (fun q hq => P.hess q c di dj hq hc) hM hc hF.buf
  unfold Fl.hessAt Fl.hessBasisFunctions
  rw [e1]
  generalize Fl.fill r E (fun q => E.hess q c di dj) M c F.buf = L at *
  obtain ⟨e, M', b⟩ := L
  cases e with
  | error e => exact ⟨rfl, e2, hF.data, hF.zero, e3⟩
  | ok s =>
    simp only
    rw [sumLoop_congr hB hR hF.data e3 s 0 F.zero (by rw [hF.zero]; exact grid_zero _) (by rw [hF.zero, abs_zero]; exact (p0 _).le)]
    cases Fl.sumLoop r F.data b s 0 F.zero with
    | error e => exact ⟨rfl, e2, hF.data, hF.zero, e3⟩
    | ok v =>
      simp only
      split
      · exact ⟨trivial, e2, hF.data, hF.zero, e3⟩
      · exact ⟨trivial, e2, hF.data, hF.zero, e3⟩

omit hM hF in
theorem evalGradLoop_congr {c : Fin d → K} (hc : CGood g m c) (ds : List Nat) : ∀ (M : Mesh K d) (F : PField K), MGood g m M → FGood A B V F →
    Fl.evalGradLoop f E' c ds M F = Fl.evalGradLoop r E c ds M F ∧ MGood g m (Fl.evalGradLoop r E c ds M F).2.1 ∧
      FGood A B V (Fl.evalGradLoop r E c ds M F).2.2 := by
  induction ds with
  | nil => intro M F hM hF; exact ⟨rfl, hM, hF⟩
  | cons di ds ih =>
    intro M F hM hF
    obtain ⟨e1, e2, e3⟩ := gradAt_congr hB hR P hM hF hc di
    simp only [Fl.evalGradLoop, e1]
    generalize Fl.gradAt r E M F c di = L at *
    obtain ⟨e, M', F'⟩ := L
    cases e with
    | error e => exact ⟨rfl, e2, e3⟩
    | ok _ => exact ih M' F' e2 e3

omit hM hF in
theorem evalHessLoop_congr {c : Fin d → K} (hc : CGood g m c) (ds : List (Nat × Nat)) : ∀ (M : Mesh K d) (F : PField K), MGood g m M → FGood A B V F →
    Fl.evalHessLoop f E' c ds M F = Fl.evalHessLoop r E c ds M F ∧ MGood g m (Fl.evalHessLoop r E c ds M F).2.1 ∧
      FGood A B V (Fl.evalHessLoop r E c ds M F).2.2 := by
  induction ds with
  | nil => intro M F hM hF; exact ⟨rfl, hM, hF⟩
  | cons p ds ih =>
    intro M F hM hF
    obtain ⟨e1, e2, e3⟩ := hessAt_congr hB hR P hM hF hc p.1 p.2
    simp only [Fl.evalHessLoop, e1]
    generalize Fl.hessAt r E M F c p.1 p.2 = L at *
    obtain ⟨e, M', F'⟩ := L
    cases e with
    | error e => exact ⟨rfl, e2, e3⟩
    | ok _ => exact ih M' F' e2 e3

theorem callField_congr {op : Body.Call K d} (hc : CGood g m op.coord) : Fl.callField f E' M F op = Fl.callField r E M F op ∧
    MGood g m (Fl.callField r E M F op).2.1 ∧ FGood A B V (Fl.callField r E M F op).2.2 := by
  cases op with
  | value c =>
    obtain ⟨e1, e2, e3⟩ := value_congr hB hR P hM hF (c := c) hc
    simp only [Fl.callField, e1]
    exact ⟨trivial, e2, e3⟩
  | grad c di =>
    obtain ⟨e1, e2, e3⟩ := gradAt_congr hB hR P hM hF (c := c) hc di
    simp only [Fl.callField, e1]
    exact ⟨trivial, e2, e3⟩
  | hess c di dj =>
    obtain ⟨e1, e2, e3⟩ := hessAt_congr hB hR P hM hF (c := c) hc di dj
    simp only [Fl.callField, e1]
    exact ⟨trivial, e2, e3⟩
  | evalGrad c => exact evalGradLoop_congr hB hR P (c := c) hc _ _ _ hM hF
  | evalHess c => exact evalHessLoop_congr hB hR P (c := c) hc _ _ _ hM hF

theorem queryField_congr {op : Fl.Call K d} (hc : CGood g m op.coord) : Fl.queryField f E' M F op = Fl.queryField r E M F op := by
  cases op with
  | value c => exact (value_congr hB hR P hM hF (c := c) hc).1
  | grad c di => exact (gradAt_congr hB hR P hM hF (c := c) hc di).1
  | hess c di dj => exact (hessAt_congr hB hR P hM hF (c := c) hc di dj).1
end

theorem call_congr (hB : IsBinary64 f) (hR : Room g m A B V) (P : Pair g m A B E' E) {b : Body K d} (hb : BGood g m A B V b) (i : Nat)
    {op : Body.Call K d} (hc : CGood g m op.coord) : Fl.call f E' b i op = Fl.call r E b i op ∧ BGood g m A B V (Fl.call r E b i op) := by
  unfold Fl.call
  cases h : b.fields[i]? with
  | none => exact ⟨rfl, hb⟩
  | some F =>
    obtain ⟨e1, e2, e3⟩ := callField_congr hB hR P hb.mesh (hb.fields F (List.mem_of_getElem? h)) hc
    simp only [e1]
    generalize Fl.callField r E b.mesh F op = L at *
    obtain ⟨e, M', F'⟩ := L
    refine ⟨trivial, e2, fun G hG => ?_⟩
    rcases List.mem_or_eq_of_mem_set hG with h | h
    · exact hb.fields G h
    · subst h; exact e3

theorem evals_congr (hB : IsBinary64 f) (hR : Room g m A B V) (P : Pair g m A B E' E) (ops : List (Nat × Body.Call K d))
    (hc : ∀ op ∈ ops, CGood g m op.2.coord) : ∀ b : Body K d, BGood g m A B V b →
    Fl.evals f E' b ops = Fl.evals r E b ops ∧ BGood g m A B V (Fl.evals r E b ops) := by
  induction ops with
  | nil => intro b hb; exact ⟨rfl, hb⟩
  | cons op ops ih =>
    intro b hb
    obtain ⟨i, op⟩ := op
    obtain ⟨e1, e2⟩ := call_congr hB hR P hb i (hc (i, op) (by simp))
    simp only [Fl.evals, e1]
    exact ih (fun o ho => hc o (by simp [ho])) _ e2

theorem eval_congr (hB : IsBinary64 f) (hR : Room g m A B V) (P : Pair g m A B E' E) {b : Body K d} (hb : BGood g m A B V b) (i : Nat)
    {op : Fl.Call K d} (hc : CGood g m op.coord) : Fl.eval f E' b i op = Fl.eval r E b i op := by
  unfold Fl.eval
  cases h : b.fields[i]? with
  | none => rfl
  | some F => simp only [queryField_congr hB hR P hb.mesh (hb.fields F (List.mem_of_getElem? h)) hc]

/-! ## The two element classes -/

theorem sized_sign {s : K} (hs : s = 0 ∨ s = 1 ∨ s = -1) : Sized 0 0 s := by
  rcases hs with rfl | rfl | rfl
  · exact sized_zero _ _
  · exact Or.inr (by simp)
  · exact Or.inr (by simp)

theorem local1_congr (hB : IsBinary64 f) (hgm : g + m ≤ 800) {q : Interp K d} (hq : QGood g m q) {c : Fin d → K} (hc : CGood g m c) (i : Fin d) :
    Fl.local1 f (c i) (q.n i) (q.h i) (q.s i) = Fl.local1 r (c i) (q.n i) (q.h i) (q.s i) ∧
      Sized 53 (g + m + 2) (1 - Fl.local1 r (c i) (q.n i) (q.h i) (q.s i)) := by
  have s1 : Sized g (m + 1) (c i - q.n i) := grid_sized (grid_sub (hc i).1 (hq.n_grid i)) (abs_sub_le_pow (hc i).2 (hq.n_le i))
  have s2 := sized_mul (sized_sign (hq.s i)) (sized_round s1)
  have s3 := sized_div (sized_round s2) (grid_sized (hq.h_grid i) (hq.h_le i))
  unfold Fl.local1
  rw [agree hB s1 (by omega) (by omega), agree hB s2 (by omega) (by omega), agree hB s3 (by omega) (by omega)]
  exact ⟨rfl, sized_mono le_rfl (by omega) (one_sub (R.idem _) (sized_round s3))⟩

theorem passOk_congr (hB : IsBinary64 f) (hgm : g + m ≤ 800) {q : Interp K d} (hq : QGood g m q) {c : Fin d → K} (hc : CGood g m c) (i : Fin d) :
    Fl.passOk f q c i = Fl.passOk r q c i := by
  unfold Fl.passOk
  rw [(local1_congr hB hgm hq hc i).1]

theorem quad_pair (hB : IsBinary64 f) (hg : 3 * (g + m) ≤ 964) (hm : 2 * m ≤ 809) :
    Pair g m (161 + 2 * m) (3 * (g + m + 2)) (Fl.quadOps f : ElemOps K 2) (Fl.quadOps r) where
  corners := rfl
  far := rfl
  make := rfl
  make_good nd el p h j := ⟨rfl, rfl, fun i => by
    change quadSign j i = 0 ∨ quadSign j i = 1 ∨ quadSign j i = -1
    unfold quadSign
    fin_cases i <;> split <;> simp⟩
  inRange q c hq hc := by
    change (Fl.passOk f q c 0 && Fl.passOk f q c 1) = (Fl.passOk r q c 0 && Fl.passOk r q c 1)
    rw [passOk_congr hB (by omega) hq hc, passOk_congr hB (by omega) hq hc]
  value q c hq hc := by
    obtain ⟨a1, a2⟩ := local1_congr hB (by omega) hq hc 0
    obtain ⟨b1, b2⟩ := local1_congr hB (by omega) hq hc 1
    have s := sized_mul (sized_round a2) (sized_round b2)
    change Except.ok (Fl.quadF f c q.n q.h q.s) = Except.ok (Fl.quadF r c q.n q.h q.s) ∧ _
    unfold Fl.quadF
    rw [a1, b1, agree hB a2 (by omega) (by omega), agree hB b2 (by omega) (by omega), agree hB s (by omega) (by omega)]
    refine ⟨rfl, fun v hv => ?_⟩
    cases hv
    exact sized_mono (by omega) (by omega) (sized_round s)
  grad q c di hq hc := by
    change Fl.quadGrad f c q.n q.h q.s di = Fl.quadGrad r c q.n q.h q.s di ∧ ∀ v, Fl.quadGrad r c q.n q.h q.s di = .ok v → _
    obtain ⟨a1, a2⟩ := local1_congr hB (by omega) hq hc 0
    obtain ⟨b1, b2⟩ := local1_congr hB (by omega) hq hc 1
    have s0 := sized_mul (sized_neg (sized_sign (hq.s 0))) (sized_round b2)
    have s1 := sized_mul (sized_neg (sized_sign (hq.s 1))) (sized_round a2)
    have t0 := sized_div (sized_round s0) (grid_sized (hq.h_grid 0) (hq.h_le 0))
    have t1 := sized_div (sized_round s1) (grid_sized (hq.h_grid 1) (hq.h_le 1))
    unfold Fl.quadGrad
    rw [a1, b1, agree hB a2 (by omega) (by omega), agree hB b2 (by omega) (by omega), agree hB s0 (by omega) (by omega),
      agree hB s1 (by omega) (by omega), agree hB t0 (by omega) (by omega), agree hB t1 (by omega) (by omega)]
    refine ⟨rfl, fun v hv => ?_⟩
    match di, hv with
    | 0, hv => cases hv; exact sized_mono (by omega) (by omega) (sized_round t0)
    | 1, hv => cases hv; exact sized_mono (by omega) (by omega) (sized_round t1)
    | n + 2, hv => cases hv
  hess q c di dj hq hc := by
    change Fl.quadHess f q.h q.s di dj = Fl.quadHess r q.h q.s di dj ∧ ∀ v, Fl.quadHess r q.h q.s di dj = .ok v → _
    have s0 := sized_mul (sized_sign (hq.s 0)) (sized_sign (hq.s 1))
    have s1 := sized_div (sized_round s0) (grid_sized (hq.h_grid 0) (hq.h_le 0))
    have s2 := sized_div (sized_round s1) (grid_sized (hq.h_grid 1) (hq.h_le 1))
    unfold Fl.quadHess
    rw [agree hB s0 (by omega) (by omega), agree hB s1 (by omega) (by omega), agree hB s2 (by omega) (by omega)]
    refine ⟨rfl, fun v hv => ?_⟩
    have z : Sized (161 + 2 * m) (3 * (g + m + 2)) (0 : K) := sized_zero _ _
    have n := sized_mono (show _ ≤ 161 + 2 * m by omega) (show _ ≤ 3 * (g + m + 2) by omega) (sized_round s2)
    split at hv <;> cases hv
    · exact z
    · exact n
    · exact n
    · exact z

theorem hexSlope_congr (hB : IsBinary64 f) (hg : 3 * (g + m) ≤ 964) (hm : 2 * m ≤ 809) {s w w' h : K} (hs : s = 0 ∨ s = 1 ∨ s = -1)
    (h1 : Sized 53 (g + m + 2) (1 - w)) (h2 : Sized 53 (g + m + 2) (1 - w')) (hh : Sized g (m + 1) h) :
    Fl.hexSlope f s w w' h = Fl.hexSlope r s w w' h ∧ Sized (161 + 2 * m) (3 * (g + m + 2)) (Fl.hexSlope r s w w' h) := by
  have s0 := sized_mul (sized_neg (sized_sign hs)) (sized_round h1)
  have s1 := sized_mul (sized_round s0) (sized_round h2)
  have s2 := sized_div (sized_round s1) hh
  unfold Fl.hexSlope
  rw [agree hB h1 (by omega) (by omega), agree hB h2 (by omega) (by omega), agree hB s0 (by omega) (by omega),
    agree hB s1 (by omega) (by omega), agree hB s2 (by omega) (by omega)]
  exact ⟨rfl, sized_mono (by omega) (by omega) (sized_round s2)⟩

theorem hexTwist_congr (hB : IsBinary64 f) (hg : 3 * (g + m) ≤ 964) (hm : 2 * m ≤ 809) {s s' h h' : K} (hs : s = 0 ∨ s = 1 ∨ s = -1)
    (hs' : s' = 0 ∨ s' = 1 ∨ s' = -1) (hh : Sized g (m + 1) h) (hh' : Sized g (m + 1) h') :
    Fl.hexTwist f s s' h h' = Fl.hexTwist r s s' h h' ∧ Sized (161 + 2 * m) (3 * (g + m + 2)) (Fl.hexTwist r s s' h h') := by
  have s0 := sized_mul (sized_sign hs) (sized_sign hs')
  have s1 := sized_div (sized_round s0) hh
  have s2 := sized_div (sized_round s1) hh'
  unfold Fl.hexTwist
  rw [agree hB s0 (by omega) (by omega), agree hB s1 (by omega) (by omega), agree hB s2 (by omega) (by omega)]
  exact ⟨rfl, sized_mono (by omega) (by omega) (sized_round s2)⟩

theorem hex_pair (hB : IsBinary64 f) (hg : 3 * (g + m) ≤ 964) (hm : 2 * m ≤ 809) :
    Pair g m (161 + 2 * m) (3 * (g + m + 2)) (Fl.hexOps f : ElemOps K 3) (Fl.hexOps r) where
  corners := rfl
  far := rfl
  make := rfl
  make_good nd el p h j := ⟨rfl, rfl, fun i => by
    change hexSign j i = 0 ∨ hexSign j i = 1 ∨ hexSign j i = -1
    unfold hexSign
    fin_cases i <;> split <;> simp⟩
  inRange q c hq hc := by
    change (Fl.passOk f q c 0 && Fl.passOk f q c 1) = (Fl.passOk r q c 0 && Fl.passOk r q c 1)
    rw [passOk_congr hB (by omega) hq hc, passOk_congr hB (by omega) hq hc]
  value q c hq hc := by
    obtain ⟨a1, a2⟩ := local1_congr hB (by omega) hq hc 0
    obtain ⟨b1, b2⟩ := local1_congr hB (by omega) hq hc 1
    obtain ⟨c1, c2⟩ := local1_congr hB (by omega) hq hc 2
    have s := sized_mul (sized_round a2) (sized_round b2)
    have t := sized_mul (sized_round s) (sized_round c2)
    change Except.ok (Fl.hexF f c q.n q.h q.s) = Except.ok (Fl.hexF r c q.n q.h q.s) ∧ _
    unfold Fl.hexF
    rw [a1, b1, c1, agree hB a2 (by omega) (by omega), agree hB b2 (by omega) (by omega), agree hB c2 (by omega) (by omega),
      agree hB s (by omega) (by omega), agree hB t (by omega) (by omega)]
    refine ⟨rfl, fun v hv => ?_⟩
    cases hv
    exact sized_mono (by omega) (by omega) (sized_round t)
  grad q c di hq hc := by
    change Fl.hexGrad f c q.n q.h q.s di = Fl.hexGrad r c q.n q.h q.s di ∧ ∀ v, Fl.hexGrad r c q.n q.h q.s di = .ok v → _
    obtain ⟨a1, a2⟩ := local1_congr hB (by omega) hq hc 0
    obtain ⟨b1, b2⟩ := local1_congr hB (by omega) hq hc 1
    obtain ⟨c1, c2⟩ := local1_congr hB (by omega) hq hc 2
    have hh := fun i => grid_sized (hq.h_grid i) (hq.h_le i)
    obtain ⟨e0, s0⟩ := hexSlope_congr hB hg hm (hq.s 0) b2 c2 (hh 0)
    obtain ⟨e1, s1⟩ := hexSlope_congr hB hg hm (hq.s 1) a2 c2 (hh 1)
    obtain ⟨e2, s2⟩ := hexSlope_congr hB hg hm (hq.s 2) a2 b2 (hh 2)
    unfold Fl.hexGrad
    rw [a1, b1, c1, e0, e1, e2]
    refine ⟨rfl, fun v hv => ?_⟩
    split at hv <;> cases hv <;> assumption
  hess q c di dj hq hc := by
    change Fl.hexHess f q.h q.s di dj = Fl.hexHess r q.h q.s di dj ∧ ∀ v, Fl.hexHess r q.h q.s di dj = .ok v → _
    have hh := fun i => grid_sized (hq.h_grid i) (hq.h_le i)
    have k := fun i j => hexTwist_congr hB hg hm (hq.s i) (hq.s j) (hh i) (hh j)
    have z : Sized (161 + 2 * m) (3 * (g + m + 2)) (0 : K) := sized_zero _ _
    unfold Fl.hexHess
    simp only [(k _ _).1]
    refine ⟨trivial, fun v hv => ?_⟩
    split at hv <;> cases hv
    · exact z
    · exact (k 0 1).2
    · exact (k 0 2).2
    · exact (k 1 0).2
    · exact z
    · exact (k 1 2).2
    · exact (k 2 0).2
    · exact (k 2 1).2
    · exact z

theorem room (h1 : 3 * (g + m) + V ≤ 962) (h2 : 2 * m + V ≤ 809) : Room g m (161 + 2 * m) (3 * (g + m + 2)) V :=
  ⟨by omega, by omega, by omega⟩

end B64
end Verif
