import Verif.Model.NDArray
import Verif.Spec.Tensor
import Verif.Lemmas.Core
import Mathlib.Tactic.Ring
import Mathlib.Tactic.Linarith

/-! Helper lemmas for the array properties. -/

namespace Verif
open Spec

/-- Strides of a row-major layout (lemma-side helper). -/
def strides : List Int → List Int
  | [] => []
  | _ :: ds => prod ds :: strides ds

/-- Digits of a linear index (lemma-side helper). -/
def digits : List Int → Int → List Int
  | [], _ => []
  | _ :: ds, l => l / prod ds :: digits ds (l % prod ds)

/-- Position as a dot product with the strides (lemma-side helper). -/
def dot : List Int → List Int → Int
  | _ :: ds, t :: ts => t * prod ds + dot ds ts
  | _, _ => 0

@[simp] theorem strides_length (ds : List Int) : (strides ds).length = ds.length := by
  induction ds with
  | nil => rfl
  | cons d ds ih => simp [strides, ih]

@[simp] theorem digits_length (ds : List Int) (l : Int) : (digits ds l).length = ds.length := by
  induction ds generalizing l with
  | nil => rfl
  | cons d ds ih => simp [digits, ih]

theorem prod_pos {ds : List Int} (h : ∀ d ∈ ds, 0 < d) : 0 < prod ds := by
  induction ds with
  | nil => simp [prod]
  | cons d ds ih =>
    simp only [prod]
    exact Int.mul_pos (h d (by simp)) (ih fun x hx => h x (by simp [hx]))

theorem prod_append (a b : List Int) : prod (a ++ b) = prod a * prod b := by
  induction a with
  | nil => simp [prod]
  | cons d ds ih => simp [prod, ih, Int.mul_assoc]

theorem prod_nonneg {ds : List Int} (h : ∀ d ∈ ds, 0 ≤ d) : 0 ≤ prod ds := by
  induction ds with
  | nil => simp [prod]
  | cons d ds ih =>
    simp only [prod]
    exact Int.mul_nonneg (h d (by simp)) (ih fun x hx => h x (by simp [hx]))

theorem le_mul_of_pos_left {a d : Int} (ha : 0 ≤ a) (hd : 0 < d) : a ≤ d * a := by
  nlinarith

theorem prod_le_cons {d : Int} {ds : List Int} (hd : 0 < d) (h : ∀ x ∈ ds, 0 < x) :
    prod ds ≤ prod (d :: ds) :=
  le_mul_of_pos_left (Int.le_of_lt (prod_pos h)) hd

theorem inBox_length {ds ts : List Int} (h : InBox ds ts) : ts.length = ds.length := by
  induction ds generalizing ts with
  | nil => cases ts with
    | nil => rfl
    | cons t ts => exact absurd h (by simp [InBox])
  | cons d ds ih => cases ts with
    | nil => exact absurd h (by simp [InBox])
    | cons t ts => simp only [InBox] at h; simp [ih h.2]

theorem dot_nonneg {ds ts : List Int} (hp : ∀ d ∈ ds, 0 < d) (h : InBox ds ts) : 0 ≤ dot ds ts := by
  induction ds generalizing ts with
  | nil => cases ts <;> simp [dot]
  | cons d ds ih => cases ts with
    | nil => simp [dot]
    | cons t ts =>
      simp only [InBox] at h
      have h1 := ih (fun x hx => hp x (by simp [hx])) h.2
      have h2 := prod_pos (ds := ds) fun x hx => hp x (by simp [hx])
      have h3 := h.1.1
      simp only [dot]; positivity

theorem dot_lt {ds ts : List Int} (hp : ∀ d ∈ ds, 0 < d) (h : InBox ds ts) : dot ds ts < prod ds := by
  induction ds generalizing ts with
  | nil => cases ts <;> simp [dot, prod]
  | cons d ds ih => cases ts with
    | nil => exact absurd h (by simp [InBox])
    | cons t ts =>
      simp only [InBox] at h
      have h1 := ih (fun x hx => hp x (by simp [hx])) h.2
      have h2 := prod_pos (ds := ds) fun x hx => hp x (by simp [hx])
      have h3 : t + 1 ≤ d := h.1.2
      have h4 : (t + 1) * prod ds ≤ d * prod ds := Int.mul_le_mul_of_nonneg_right h3 (Int.le_of_lt h2)
      simp only [dot, prod]; linarith

theorem rowMajorAcc_eq (acc : Int) {ds ts : List Int} (h : InBox ds ts) :
    rowMajorAcc acc ds ts = acc * prod ds + dot ds ts := by
  induction ds generalizing ts acc with
  | nil => cases ts <;> simp [rowMajorAcc, prod, dot]
  | cons d ds ih => cases ts with
    | nil => exact absurd h (by simp [InBox])
    | cons t ts =>
      simp only [InBox] at h
      simp only [rowMajorAcc, prod, dot, ih _ h.2]; ring

theorem rowMajor_eq_dot {ds ts : List Int} (h : InBox ds ts) : rowMajor ds ts = dot ds ts := by
  simp [rowMajor, rowMajorAcc_eq 0 h]

theorem digits_inBox {ds : List Int} (hp : ∀ d ∈ ds, 0 < d) {l : Int} (h0 : 0 ≤ l) (h1 : l < prod ds) :
    InBox ds (digits ds l) := by
  induction ds generalizing l with
  | nil => simp [digits, InBox]
  | cons d ds ih =>
    have h2 := prod_pos (ds := ds) fun x hx => hp x (by simp [hx])
    simp only [digits, InBox]
    refine ⟨⟨Int.ediv_nonneg h0 (Int.le_of_lt h2), ?_⟩, ?_⟩
    · exact Int.ediv_lt_of_lt_mul h2 h1
    · exact ih (fun x hx => hp x (by simp [hx])) (Int.emod_nonneg _ (by omega)) (Int.emod_lt_of_pos _ h2)

theorem dot_digits {ds : List Int} {l : Int} (hp : ∀ d ∈ ds, 0 < d) (h0 : 0 ≤ l) (h1 : l < prod ds) :
    dot ds (digits ds l) = l := by
  induction ds generalizing l with
  | nil => simp [prod] at h1; simp [dot]; omega
  | cons d ds ih =>
    have h2 := prod_pos (ds := ds) fun x hx => hp x (by simp [hx])
    simp only [digits, dot]
    rw [ih (fun x hx => hp x (by simp [hx])) (Int.emod_nonneg _ (by omega)) (Int.emod_lt_of_pos _ h2)]
    rw [Int.mul_comm]; exact Int.mul_ediv_add_emod l (prod ds)

theorem digits_dot {ds ts : List Int} (hp : ∀ d ∈ ds, 0 < d) (h : InBox ds ts) :
    digits ds (dot ds ts) = ts := by
  induction ds generalizing ts with
  | nil => cases ts with
    | nil => rfl
    | cons t ts => exact absurd h (by simp [InBox])
  | cons d ds ih => cases ts with
    | nil => exact absurd h (by simp [InBox])
    | cons t ts =>
      simp only [InBox] at h
      have hp' : ∀ x ∈ ds, 0 < x := fun x hx => hp x (by simp [hx])
      have h1 := dot_nonneg hp' h.2
      have h2 := dot_lt hp' h.2
      have h3 := prod_pos hp'
      have e1 : (t * prod ds + dot ds ts) / prod ds = t := by
        rw [Int.mul_comm, Int.add_comm, Int.add_mul_ediv_left _ _ (by omega), Int.ediv_eq_zero_of_lt h1 h2]; simp
      have e2 : (t * prod ds + dot ds ts) % prod ds = dot ds ts := by
        rw [Int.mul_comm, Int.add_comm, Int.add_mul_emod_self_left, Int.emod_eq_of_lt h1 h2]
      simp only [digits, dot, e1, e2, ih hp' h.2]

theorem dot_inj {ds ts us : List Int} (hp : ∀ d ∈ ds, 0 < d) (ht : InBox ds ts) (hu : InBox ds us)
    (h : dot ds ts = dot ds us) : ts = us := by
  rw [← digits_dot hp ht, h, digits_dot hp hu]

theorem lex_iff_dot {ds ts us : List Int} (hp : ∀ d ∈ ds, 0 < d) (ht : InBox ds ts) (hu : InBox ds us) :
    LexLt ts us ↔ dot ds ts < dot ds us := by
  induction ds generalizing ts us with
  | nil => cases ts <;> cases us <;> simp_all [InBox, LexLt, dot]
  | cons d ds ih => cases ts with
    | nil => exact absurd ht (by simp [InBox])
    | cons t ts => cases us with
      | nil => exact absurd hu (by simp [InBox])
      | cons u us =>
        simp only [InBox] at ht hu
        have hp' : ∀ x ∈ ds, 0 < x := fun x hx => hp x (by simp [hx])
        have a1 := dot_nonneg hp' ht.2
        have a2 := dot_lt hp' ht.2
        have b1 := dot_nonneg hp' hu.2
        have b2 := dot_lt hp' hu.2
        have h3 := prod_pos hp'
        simp only [LexLt, dot, ih hp' ht.2 hu.2]
        rcases Int.lt_trichotomy t u with h | h | h
        · have : (t + 1) * prod ds ≤ u * prod ds := Int.mul_le_mul_of_nonneg_right h (Int.le_of_lt h3)
          constructor
          · intro _; linarith
          · intro _; exact Or.inl h
        · subst h; constructor
          · rintro (h | ⟨_, h⟩) <;> omega
          · intro h; right; exact ⟨rfl, by omega⟩
        · have : (u + 1) * prod ds ≤ t * prod ds := Int.mul_le_mul_of_nonneg_right h (Int.le_of_lt h3)
          constructor
          · rintro (h' | ⟨h', _⟩) <;> omega
          · intro _; exfalso; linarith

namespace NDArray
variable {α : Type}

theorem volLoop_ok {ds : List Int} {acc v : Int} (h : volLoop acc ds = .ok v) : v = acc * prod ds := by
  induction ds generalizing acc with
  | nil => simp [volLoop] at h; simp [prod, h]
  | cons d ds ih =>
    simp only [volLoop, bind_eq_ok, imul, ckInt_ok] at h
    obtain ⟨a, ⟨_, rfl⟩, h⟩ := h
    rw [ih h, prod]; ring

theorem volLoop_le {ds : List Int} {acc v : Int} (h : volLoop acc ds = .ok v) (ha : acc ≤ intMax) : v ≤ intMax := by
  induction ds generalizing acc with
  | nil => simp [volLoop] at h; omega
  | cons d ds ih =>
    simp only [volLoop, bind_eq_ok, imul, ckInt_ok] at h
    obtain ⟨a, ⟨⟨_, h1⟩, rfl⟩, h⟩ := h
    exact ih h h1

theorem unrollLoop_not_length {dim : List Int} {k : Nat} {u : List Int} :
    unrollLoop dim k u ≠ .error .lengthError := by
  induction k generalizing u with
  | zero => simp [unrollLoop]
  | succ i ih =>
    unfold unrollLoop
    cases h1 : vget u ((i+1:Nat):Int) with
    | error e => intro h; simp at h; subst h; cases vget_error h1
    | ok a =>
      cases h2 : vget dim ((i+1:Nat):Int) with
      | error e => intro h; simp at h; subst h; cases vget_error h2
      | ok b =>
        simp only [ok_bind]
        cases h3 : imul a b with
        | error e => intro h; simp at h; subst h; cases ckInt_error h3
        | ok p =>
          simp only [ok_bind]
          cases h4 : vset u (i:Nat) p with
          | error e => intro h; simp at h; subst h; cases vset_error h4
          | ok u' => simp only [ok_bind]; exact ih

theorem genUnroll_not_length {dim old : List Int} : genUnroll dim old ≠ .error .lengthError := by
  unfold genUnroll
  intro h
  simp only at h
  cases h4 : vset (vresize old dim.length 0) ((dim.length : Int) - 1) 1 with
  | error e => rw [h4] at h; simp at h; subst h; cases vset_error h4
  | ok u' => rw [h4] at h; simp only [ok_bind] at h; exact unrollLoop_not_length h

theorem volLoop_of {ds : List Int} (hp : ∀ d ∈ ds, 0 < d) {acc : Int} (h0 : 0 < acc)
    (h : acc * prod ds ≤ intMax) : volLoop acc ds = .ok (acc * prod ds) := by
  induction ds generalizing acc with
  | nil => simp [volLoop, prod]
  | cons d ds ih =>
    have hp' : ∀ x ∈ ds, 0 < x := fun x hx => hp x (by simp [hx])
    have h3 := prod_pos hp'
    have hd := hp d (by simp)
    have h4 : 0 < acc * d := Int.mul_pos h0 hd
    have h5 : acc * d * prod ds ≤ intMax := by rw [Int.mul_assoc]; exact h
    have h6 : acc * d ≤ intMax := by nlinarith
    simp only [volLoop, imul, ckInt_nonneg _ (Int.le_of_lt h4) h6, ok_bind, ih hp' h4 h5, prod, Int.mul_assoc]

theorem calcVolume_ok {ds : List Int} {v : Int} (h : calcVolume ds = .ok v) :
    v = if ds = [] then 0 else prod ds := by
  cases ds with
  | nil => simp [calcVolume] at h; simp [h]
  | cons d ds =>
    simp [calcVolume] at h
    rw [volLoop_ok h]; simp

theorem calcVolume_good {ds : List Int} (h : GoodDims ds) : calcVolume ds = .ok (prod ds) := by
  have h1 : ds.length ≠ 0 := by simpa using h.1
  have := volLoop_of h.2.1 (acc := 1) (by omega) (by rw [Int.one_mul]; exact h.2.2)
  simp [calcVolume, h1, this]

theorem strides_getElem? (ds : List Int) (i : Nat) (h : i < ds.length) :
    (strides ds)[i]? = some (prod (ds.drop (i + 1))) := by
  induction ds generalizing i with
  | nil => simp at h
  | cons d ds ih => cases i with
    | zero => simp [strides]
    | succ i => simp [strides]; exact ih i (by simpa using h)

theorem strides_step (ds : List Int) (i : Nat) (h : i + 1 < ds.length) :
    (strides ds)[i]? = some (prod (ds.drop (i + 2)) * ds[i + 1]) := by
  rw [strides_getElem? ds i (by omega), List.drop_eq_getElem_cons h]
  simp [prod, Int.mul_comm]

theorem drop_set_succ (u : List Int) (i : Nat) (p : Int) (h : i < u.length) :
    (u.set i p).drop i = p :: u.drop (i + 1) := by
  rw [List.drop_eq_getElem_cons (by simpa using h)]
  simp only [List.getElem_set_self, List.cons.injEq, true_and]
  rw [List.drop_set_of_lt (by omega)]

/-- Partial correctness of the stride loop. -/
theorem unrollLoop_ok {dim : List Int} (k : Nat) (u u' : List Int) (hl : u.length = dim.length)
    (hk : k < dim.length) (hd : u.drop k = (strides dim).drop k) (h : unrollLoop dim k u = .ok u') :
    u' = strides dim := by
  induction k generalizing u with
  | zero => simp [unrollLoop] at h; simp at hd; rw [← h, hd]
  | succ i ih =>
    simp only [unrollLoop, bind_eq_ok] at h
    obtain ⟨a, ha, d, hdd, p, hp, u2, hu2, h⟩ := h
    rw [vset_ok] at hu2
    rw [vget_ok] at ha hdd
    simp only [imul, ckInt_ok] at hp
    have ha' : (strides dim)[i+1]? = some a := by
      have : (u.drop (i+1))[0]? = some a := by simpa using ha.2
      rw [hd] at this; simpa using this
    have hdd' : dim[i+1]? = some d := by simpa using hdd.2
    refine ih u2 (by rw [hu2.2.2]; simpa using hl) (by omega) ?_ h
    rw [hu2.2.2, Int.toNat_natCast, drop_set_succ _ _ _ (by omega), hd]
    rw [List.drop_eq_getElem_cons (l := strides dim) (i := i) (by simp; omega)]
    congr 1
    have e := strides_step dim i hk
    have e2 : (strides dim)[i+1]? = some (prod (dim.drop (i + 2))) := strides_getElem? dim (i+1) hk
    rw [List.getElem?_eq_getElem (by simp; omega)] at e
    rw [ha'] at e2
    rw [List.getElem?_eq_getElem (by omega)] at hdd'
    simp at e e2 hdd'
    rw [hp.2, e, e2, hdd']

theorem unrollLoop_of {dim : List Int} (hp : ∀ d ∈ dim, 0 < d) (hv : prod dim ≤ intMax) (k : Nat) (u : List Int)
    (hl : u.length = dim.length)
    (hk : k < dim.length) (hd : u.drop k = (strides dim).drop k) : ∃ u', unrollLoop dim k u = .ok u' := by
  induction k generalizing u with
  | zero => exact ⟨u, rfl⟩
  | succ i ih =>
    have ha : vget u ((i+1 : Nat) : Int) = .ok (prod (dim.drop (i+2))) := by
      rw [vget_ok]; refine ⟨by omega, ?_⟩
      have : (u.drop (i+1))[0]? = some (prod (dim.drop (i+2))) := by
        rw [hd]; simpa using strides_getElem? dim (i+1) hk
      simpa using this
    have hdd : vget dim ((i+1 : Nat) : Int) = .ok dim[i+1] := vget_nat _ _ hk
    have hsub : prod (dim.drop (i+1)) = prod (dim.drop (i+2)) * dim[i+1] := by
      rw [List.drop_eq_getElem_cons hk, prod]; ring
    have hpos : 0 < prod (dim.drop (i+1)) := prod_pos fun x hx => hp x (List.mem_of_mem_drop hx)
    have hle : prod (dim.drop (i+1)) ≤ intMax := by
      have e : prod dim = prod (dim.take (i+1)) * prod (dim.drop (i+1)) := by
        rw [← prod_append, List.take_append_drop]
      have : 0 < prod (dim.take (i+1)) := prod_pos fun x hx => hp x (List.mem_of_mem_take hx)
      nlinarith
    rw [hsub] at hpos hle
    simp only [unrollLoop, ha, hdd, ok_bind, imul, ckInt_nonneg _ (Int.le_of_lt hpos) hle]
    rw [vset_nat _ _ _ (by omega)]
    simp only [ok_bind]
    refine ih _ (by simpa using hl) (by omega) ?_
    rw [drop_set_succ _ _ _ (by omega), hd]
    rw [List.drop_eq_getElem_cons (l := strides dim) (i := i) (by simp; omega)]
    congr 1
    have e := strides_step dim i hk
    rw [List.getElem?_eq_getElem (by simp; omega)] at e
    simpa using e.symm

theorem genUnroll_start (dim old : List Int) (h : dim ≠ []) :
    vset (vresize old dim.length 0) ((dim.length : Int) - 1) 1
      = .ok ((vresize old dim.length 0).set (dim.length - 1) 1) ∧
    (((vresize old dim.length 0).set (dim.length - 1) 1).drop (dim.length - 1)
      = (strides dim).drop (dim.length - 1)) := by
  have hpos : 0 < dim.length := List.length_pos_iff.mpr h
  constructor
  · have : ((dim.length : Int) - 1) = ((dim.length - 1 : Nat) : Int) := by omega
    rw [this, vset_nat _ _ _ (by simp; omega)]
  · rw [drop_set_succ _ _ _ (by simp; omega)]
    rw [List.drop_eq_nil_of_le (by simp; omega)]
    rw [List.drop_eq_getElem_cons (l := strides dim) (i := dim.length - 1) (by simp; omega)]
    rw [List.drop_eq_nil_of_le (by simp; omega)]
    congr 1
    have e := strides_getElem? dim (dim.length - 1) (by omega)
    rw [List.getElem?_eq_getElem (by simp; omega), List.drop_eq_nil_of_le (by omega)] at e
    simpa [prod] using e.symm

theorem genUnroll_ok {dim old u : List Int} (h : genUnroll dim old = .ok u) : dim ≠ [] ∧ u = strides dim := by
  unfold genUnroll at h
  simp only [bind_eq_ok] at h
  obtain ⟨u1, h1, h2⟩ := h
  have hne : dim ≠ [] := by
    intro e; subst e; rw [vset_ok] at h1; simp at h1
  refine ⟨hne, ?_⟩
  have hs := genUnroll_start dim old hne
  rw [hs.1] at h1
  cases h1
  have : 0 < dim.length := List.length_pos_iff.mpr hne
  exact unrollLoop_ok _ _ _ (by simp) (by omega) hs.2 h2

theorem genUnroll_good {dim : List Int} (old : List Int) (h : GoodDims dim) :
    genUnroll dim old = .ok (strides dim) := by
  have hs := genUnroll_start dim old h.1
  have hlen : 0 < dim.length := List.length_pos_iff.mpr h.1
  obtain ⟨u', hu⟩ := unrollLoop_of h.2.1 h.2.2 (dim.length - 1) _ (by simp) (by omega) hs.2
  have hu' : genUnroll dim old = .ok u' := by
    unfold genUnroll; simp only [hs.1, ok_bind, hu]
  rw [hu', (genUnroll_ok hu').2]

theorem linLoop_of (pre : List Int) {ds ts : List Int} (hp : ∀ d ∈ ds, 0 < d) (h : InBox ds ts) {acc : Int}
    (h0 : 0 ≤ acc) (h1 : acc + dot ds ts ≤ intMax) :
    linLoop (pre ++ ts) (strides ds) pre.length acc = .ok (acc + dot ds ts) := by
  induction ds generalizing ts pre acc with
  | nil => cases ts with
    | nil => simp [strides, linLoop, dot]
    | cons t ts => exact absurd h (by simp [InBox])
  | cons d ds ih => cases ts with
    | nil => exact absurd h (by simp [InBox])
    | cons t ts =>
      simp only [InBox] at h
      have hp' : ∀ x ∈ ds, 0 < x := fun x hx => hp x (by simp [hx])
      have h3 := prod_pos hp'
      have h4 := dot_nonneg hp' h.2
      have h5 : 0 ≤ t * prod ds := Int.mul_nonneg h.1.1 (Int.le_of_lt h3)
      simp only [dot] at h1 ⊢
      have hg : vget (pre ++ t :: ts) (pre.length : Nat) = .ok t := by
        rw [vget_ok]; simp
      simp only [strides, linLoop, hg, ok_bind, imul, iadd]
      rw [ckInt_nonneg _ h5 (by omega)]
      simp only [ok_bind]
      rw [ckInt_nonneg _ (by omega) (by omega)]
      simp only [ok_bind]
      have := ih (pre ++ [t]) hp' h.2 (acc := acc + t * prod ds) (by omega) (by omega)
      simp only [List.append_assoc, List.singleton_append, List.length_append, List.length_singleton] at this
      rw [this]; simp [Int.add_assoc]

theorem tenLoop_of (pre rest : List Int) {ds : List Int} (hp : ∀ d ∈ ds, 0 < d) {l : Int} (h0 : 0 ≤ l)
    (h1 : l < prod ds) (hl : l ≤ intMax) (hr : rest.length = ds.length) :
    tenLoop (strides ds) pre.length l (pre ++ rest) = .ok (pre ++ digits ds l) := by
  induction ds generalizing pre rest l with
  | nil =>
    have : rest = [] := by simpa using hr
    simp [strides, tenLoop, digits, this]
  | cons d ds ih => cases rest with
    | nil => simp at hr
    | cons r rs =>
      have hp' : ∀ x ∈ ds, 0 < x := fun x hx => hp x (by simp [hx])
      have h3 := prod_pos hp'
      have hq0 : 0 ≤ l / prod ds := Int.ediv_nonneg h0 (Int.le_of_lt h3)
      have hqle : l / prod ds ≤ l := Int.ediv_le_self _ h0
      have hm0 := Int.emod_nonneg l (show prod ds ≠ 0 by omega)
      have hm1 := Int.emod_lt_of_pos l h3
      have hde : prod ds * (l / prod ds) + l % prod ds = l := Int.mul_ediv_add_emod l (prod ds)
      have hde' : l / prod ds * prod ds = l - l % prod ds := by rw [Int.mul_comm]; omega
      have hmle : l % prod ds ≤ l := by
        have : 0 ≤ prod ds * (l / prod ds) := Int.mul_nonneg (Int.le_of_lt h3) hq0
        omega
      have htd : l.tdiv (prod ds) = l / prod ds := Int.tdiv_eq_ediv_of_nonneg h0
      simp only [strides, tenLoop, idiv, if_neg (show prod ds ≠ 0 by omega), htd]
      rw [ckInt_nonneg _ hq0 (by omega)]
      simp only [ok_bind]
      rw [vset_nat _ _ _ (by simp)]
      simp only [ok_bind, imul, isub, hde']
      rw [ckInt_nonneg _ (by omega) (by omega)]
      simp only [ok_bind]
      rw [ckInt_nonneg _ (by omega) (by omega)]
      simp only [ok_bind]
      have e : (pre ++ r :: rs).set pre.length (l / prod ds) = (pre ++ [l / prod ds]) ++ rs := by simp
      have e2 : l - (l - l % prod ds) = l % prod ds := by omega
      rw [e, e2]
      have := ih (pre ++ [l / prod ds]) rs hp' hm0 hm1 (by omega) (by simpa using hr)
      simp only [List.length_append, List.length_singleton] at this
      rw [this]; simp [digits]

/-- The array invariant (lemma-side): a well-shaped array with good extents. -/
structure Shaped (a : NDArray α) (dim : List Int) : Prop where
  dim_eq : a.dim = dim
  unroll_eq : a.unroll = strides dim
  order_eq : a.order = dim.length
  vol_eq : a.volume = prod dim
  len_eq : (a.val.length : Int) = prod dim

theorem resize_good (d : α) (a : NDArray α) {dim : List Int} (h : GoodDims dim) :
    resize d a dim = (.ok (), ⟨dim, strides dim, vresize a.val (prod dim).toNat d, dim.length, prod dim⟩) := by
  have hpos := prod_pos h.2.1
  simp [resize, calcVolume_good h, genUnroll_good _ h, show ¬ prod dim < 0 by omega]

theorem resize_shaped (d : α) (a : NDArray α) {dim : List Int} (h : GoodDims dim) :
    Shaped (resize d a dim).2 dim := by
  have hpos := prod_pos h.2.1
  rw [resize_good d a h]
  constructor <;> simp; omega

theorem linearIndex_of {a : NDArray α} {dim t : List Int} (hs : Shaped a dim) (h : GoodDims dim) (ht : InBox dim t) :
    a.linearIndex t = .ok (dot dim t) := by
  have h1 := dot_lt h.2.1 ht
  have := linLoop_of [] h.2.1 ht (acc := 0) (by omega) (by have := h.2.2; unfold intMax; omega)
  simpa [linearIndex, hs.unroll_eq] using this

theorem tensorIndices_of {a : NDArray α} {dim term : List Int} (hs : Shaped a dim) (h : GoodDims dim)
    (hlen : term.length = dim.length) {l : Int} (h0 : 0 ≤ l) (h1 : l < prod dim) :
    a.tensorIndices l term = .ok (digits dim l) := by
  have := tenLoop_of [] term h.2.1 h0 h1 (by have := h.2.2; unfold intMax; omega) hlen
  simpa [tensorIndices, hs.unroll_eq] using this

end NDArray
end Verif
