import Verif.Model.Bin
import Verif.Spec.Bin
import Verif.Lemmas.NDArray
import Mathlib.Algebra.Order.Floor.Ring
import Mathlib.Algebra.Order.Field.Basic
import Mathlib.Tactic.Linarith
import Mathlib.Tactic.Ring
import Mathlib.Tactic.FieldSimp

/-! Helper lemmas for the bin properties. -/

namespace Verif
open Spec NDArray
namespace Bin
variable {T K : Type} [Field K] [LinearOrder K] [FloorRing K]

/-- Upper corner of a grid (lemma-side helper). -/
def gridMax : List K → List K → List Int → List K
  | m :: ms, d :: ds, n :: ns => (m + d * (n : K)) :: gridMax ms ds ns
  | _, _, _ => []

theorem le_prod {ds : List Int} (hp : ∀ d ∈ ds, 0 < d) {d : Int} (hd : d ∈ ds) : d ≤ prod ds := by
  induction ds with
  | nil => simp at hd
  | cons x xs ih =>
    have hp' : ∀ y ∈ xs, 0 < y := fun y hy => hp y (by simp [hy])
    have hx := hp x (by simp)
    have h3 := prod_pos hp'
    simp only [prod]
    rcases List.mem_cons.mp hd with h | h
    · subst h; nlinarith
    · have := ih hp' h; nlinarith

theorem goodDims_le {N : List Int} (h : GoodDims N) : ∀ n ∈ N, n ≤ intMax := fun _ hn =>
  le_trans (le_prod h.2.1 hn) h.2.2

omit [LinearOrder K] [FloorRing K] in
theorem gridMax_length {ms ds : List K} {ns : List Int} (h1 : ms.length = ns.length) (h2 : ds.length = ns.length) :
    (gridMax ms ds ns).length = ns.length := by
  induction ns generalizing ms ds with
  | nil => cases ms <;> simp_all [gridMax]
  | cons n ns ih => cases ms with
    | nil => simp at h1
    | cons m ms => cases ds with
      | nil => simp at h2
      | cons d ds => simp [gridMax, ih (by simpa using h1) (by simpa using h2)]

omit [LinearOrder K] [FloorRing K] in
theorem maxLoop_of (pd : List K) (pn : List Int) {ms ds : List K} {ns : List Int} (hl : pd.length = pn.length)
    (h1 : ms.length = ns.length) (h2 : ds.length = ns.length) :
    maxLoop (pd ++ ds) (pn ++ ns) ms pn.length = .ok (gridMax ms ds ns) := by
  induction ns generalizing ms ds pd pn with
  | nil =>
    have : ms = [] := by simpa using h1
    subst this; cases ds <;> simp [maxLoop, gridMax]
  | cons n ns ih => cases ms with
    | nil => simp at h1
    | cons m ms => cases ds with
      | nil => simp at h2
      | cons d ds =>
        have e1 : vget (pd ++ d :: ds) ((pn.length : Nat) : Int) = .ok d := by rw [vget_ok]; simp [← hl]
        have e2 : vget (pn ++ n :: ns) ((pn.length : Nat) : Int) = .ok n := by rw [vget_ok]; simp
        have := ih (pd ++ [d]) (pn ++ [n]) (by simp [hl]) (ms := ms) (ds := ds) (by simpa using h1) (by simpa using h2)
        simp only [List.append_assoc, List.singleton_append, List.length_append, List.length_singleton] at this
        simp only [maxLoop, e1, e2, ok_bind, this, gridMax]

section
variable [IsStrictOrderedRing K]

theorem floor_idx_nonneg {m d c : K} (hd : 0 < d) (h : m ≤ c) : 0 ≤ ⌊(c - m) / d⌋ :=
  Int.floor_nonneg.mpr (div_nonneg (sub_nonneg.mpr h) hd.le)

theorem floor_idx_lt {m d c : K} {n : Int} (hd : 0 < d) (h : c < m + d * (n : K)) : ⌊(c - m) / d⌋ < n := by
  rw [Int.floor_lt, div_lt_iff₀ hd]; linarith [mul_comm d (n : K)]

theorem floor_idx_le {m d c : K} {n : Int} (hd : 0 < d) (h : c ≤ m + d * (n : K)) : ⌊(c - m) / d⌋ ≤ n := by
  have : (c - m) / d ≤ n := by rw [div_le_iff₀ hd]; linarith [mul_comm d (n : K)]
  have h2 := (Int.floor_le ((c - m) / d)).trans this
  exact_mod_cast h2

theorem floor_idx_mono {m d a b : K} (hd : 0 < d) (h : a ≤ b) : ⌊(a - m) / d⌋ ≤ ⌊(b - m) / d⌋ := by
  apply Int.floor_le_floor
  apply div_le_div_of_nonneg_right _ hd.le
  linarith

theorem inGrid_inBox {ms ds cs : List K} {ns : List Int} (hd : ∀ d ∈ ds, 0 < d) (h : InGrid ms ds ns cs) :
    InBox ns (binOf ms ds cs) := by
  induction ns generalizing ms ds cs with
  | nil => cases ms <;> cases ds <;> cases cs <;> simp_all [InGrid, InBox, binOf]
  | cons n ns ih =>
    cases ms with
    | nil => simp [InGrid] at h
    | cons m ms => cases ds with
      | nil => simp [InGrid] at h
      | cons d ds => cases cs with
        | nil => simp [InGrid] at h
        | cons c cs =>
          simp only [InGrid] at h
          have hd0 := hd d (by simp)
          simp only [binOf, InBox]
          exact ⟨⟨floor_idx_nonneg hd0 h.1.1, floor_idx_lt hd0 h.1.2⟩, ih (fun x hx => hd x (by simp [hx])) h.2⟩

omit [FloorRing K] [IsStrictOrderedRing K] in
theorem inGrid_lengths {ms ds cs : List K} {ns : List Int} (h : InGrid ms ds ns cs) :
    ms.length = ns.length ∧ ds.length = ns.length ∧ cs.length = ns.length := by
  induction ns generalizing ms ds cs with
  | nil => cases ms <;> cases ds <;> cases cs <;> simp_all [InGrid]
  | cons n ns ih =>
    cases ms with
    | nil => simp [InGrid] at h
    | cons m ms => cases ds with
      | nil => simp [InGrid] at h
      | cons d ds => cases cs with
        | nil => simp [InGrid] at h
        | cons c cs =>
          simp only [InGrid] at h
          have := ih h.2
          simp [this]

theorem idxLoop_in (pm pM pd pc : List K) (pt rest : List Int) {ms ds cs : List K} {ns : List Int}
    (hpM : pM.length = pm.length) (hpd : pd.length = pm.length) (hpc : pc.length = pm.length)
    (hpt : pt.length = pm.length) (hrest : rest.length = ns.length)
    (hd : ∀ d ∈ ds, 0 < d) (hn : ∀ n ∈ ns, n ≤ intMax) (h : InGrid ms ds ns cs) :
    idxLoop (pm ++ ms) (pM ++ gridMax ms ds ns) (pd ++ ds) (pc ++ cs) ns.length pm.length (pt ++ rest)
      = (.ok (), pt ++ binOf ms ds cs) := by
  induction ns generalizing ms ds cs pm pM pd pc pt rest with
  | nil =>
    have : rest = [] := by simpa using hrest
    cases ms <;> cases ds <;> cases cs <;> simp_all [InGrid, idxLoop, binOf]
  | cons n ns ih =>
    cases ms with
    | nil => simp [InGrid] at h
    | cons m ms => cases ds with
      | nil => simp [InGrid] at h
      | cons d ds => cases cs with
        | nil => simp [InGrid] at h
        | cons c cs => cases rest with
          | nil => simp at hrest
          | cons r rest =>
            simp only [InGrid] at h
            have hd0 := hd d (by simp)
            have h0 := floor_idx_nonneg hd0 h.1.1
            have h1 := floor_idx_lt hd0 h.1.2
            have hnn := hn n (by simp)
            have e1 : vget (pm ++ m :: ms) ((pm.length : Nat) : Int) = .ok m := by rw [vget_ok]; simp
            have e2 : vget (pM ++ gridMax (m :: ms) (d :: ds) (n :: ns)) ((pm.length : Nat) : Int)
                = .ok (m + d * (n : K)) := by rw [vget_ok]; simp [gridMax, ← hpM]
            have e3 : vget (pd ++ d :: ds) ((pm.length : Nat) : Int) = .ok d := by rw [vget_ok]; simp [← hpd]
            have e4 : vget (pc ++ c :: cs) ((pm.length : Nat) : Int) = .ok c := by rw [vget_ok]; simp [← hpc]
            have ei : idxAt (pm ++ m :: ms) (pM ++ gridMax (m :: ms) (d :: ds) (n :: ns)) (pd ++ d :: ds)
                (pc ++ c :: cs) pm.length = .ok ⌊(c - m) / d⌋ := by
              simp only [idxAt, e1, e2, e3, e4, ok_bind, if_neg (not_lt.mpr h.1.1), if_neg (not_lt.mpr h.1.2.le),
                if_neg hd0.ne']
              exact ckInt_nonneg _ h0 (by omega)
            have es : vset (pt ++ r :: rest) ((pm.length : Nat) : Int) ⌊(c - m) / d⌋
                = .ok ((pt ++ [⌊(c - m) / d⌋]) ++ rest) := by
              rw [vset_nat _ _ _ (by simp [hpt])]; simp [← hpt]
            simp only [List.length_cons, idxLoop, ei, es]
            have := ih (pm ++ [m]) (pM ++ [m + d * (n : K)]) (pd ++ [d]) (pc ++ [c]) (pt ++ [⌊(c - m) / d⌋]) rest
              (by simp [hpM]) (by simp [hpd]) (by simp [hpc]) (by simp [hpt]) (by simpa using hrest)
              (fun x hx => hd x (by simp [hx])) (fun x hx => hn x (by simp [hx])) h.2
            simp only [List.append_assoc, List.singleton_append, List.length_append, List.length_singleton] at this
            simp only [gridMax, List.append_assoc, List.singleton_append, binOf]
            exact this

/-- Recursive form of being out of the grid (lemma-side). -/
def OutRec : (min incr : List K) → (N : List Int) → (c : List K) → Prop
  | m :: ms, d :: ds, n :: ns, c :: cs => (c < m ∨ m + d * (n : K) < c) ∨ OutRec ms ds ns cs
  | _, _, _, _ => False

omit [FloorRing K] [IsStrictOrderedRing K] in
theorem outRec_of {ms ds cs : List K} {ns : List Int} (i : Nat) {m d x : K} {n : Int} (h1 : ms[i]? = some m)
    (h2 : ds[i]? = some d) (h3 : ns[i]? = some n) (h4 : cs[i]? = some x) (h : x < m ∨ m + d * (n : K) < x) :
    OutRec ms ds ns cs := by
  induction i generalizing ms ds ns cs with
  | zero =>
    cases ms <;> cases ds <;> cases ns <;> cases cs <;> simp_all [OutRec]
  | succ i ih =>
    cases ms <;> cases ds <;> cases ns <;> cases cs <;> simp_all [OutRec]

omit [FloorRing K] [IsStrictOrderedRing K] in
theorem inGrid_not_outRec {ms ds cs : List K} {ns : List Int} (h : InGrid ms ds ns cs) : ¬ OutRec ms ds ns cs := by
  induction ns generalizing ms ds cs with
  | nil => cases ms <;> cases ds <;> cases cs <;> simp_all [InGrid, OutRec]
  | cons n ns ih =>
    cases ms with
    | nil => simp [InGrid] at h
    | cons m ms => cases ds with
      | nil => simp [InGrid] at h
      | cons d ds => cases cs with
        | nil => simp [InGrid] at h
        | cons c cs =>
          simp only [InGrid] at h
          simp only [OutRec, not_or, not_lt]
          exact ⟨⟨h.1.1, h.1.2.le⟩, ih h.2⟩

theorem idxLoop_out (pm pM pd pc : List K) (pt rest : List Int) {ms ds cs : List K} {ns : List Int}
    (hpM : pM.length = pm.length) (hpd : pd.length = pm.length) (hpc : pc.length = pm.length)
    (hpt : pt.length = pm.length) (hrest : rest.length = ns.length)
    (hd : ∀ d ∈ ds, 0 < d) (hn : ∀ n ∈ ns, n ≤ intMax)
    (h : OutRec ms ds ns cs) :
    ∃ w, idxLoop (pm ++ ms) (pM ++ gridMax ms ds ns) (pd ++ ds) (pc ++ cs) ns.length pm.length (pt ++ rest)
      = (.error .domainError, w) ∧ w.length = pt.length + rest.length := by
  induction ns generalizing ms ds cs pm pM pd pc pt rest with
  | nil => cases ms <;> cases ds <;> cases cs <;> simp_all [OutRec]
  | cons n ns ih =>
    cases ms with
    | nil => simp [OutRec] at h
    | cons m ms => cases ds with
      | nil => simp [OutRec] at h
      | cons d ds => cases cs with
        | nil => simp [OutRec] at h
        | cons c cs => cases rest with
          | nil => simp at hrest
          | cons r rest =>
            simp only [OutRec] at h
            have hd0 := hd d (by simp)
            have hnn := hn n (by simp)
            have e1 : vget (pm ++ m :: ms) ((pm.length : Nat) : Int) = .ok m := by rw [vget_ok]; simp
            have e2 : vget (pM ++ gridMax (m :: ms) (d :: ds) (n :: ns)) ((pm.length : Nat) : Int)
                = .ok (m + d * (n : K)) := by rw [vget_ok]; simp [gridMax, ← hpM]
            have e3 : vget (pd ++ d :: ds) ((pm.length : Nat) : Int) = .ok d := by rw [vget_ok]; simp [← hpd]
            have e4 : vget (pc ++ c :: cs) ((pm.length : Nat) : Int) = .ok c := by rw [vget_ok]; simp [← hpc]
            by_cases hc : c < m ∨ m + d * (n : K) < c
            · have ei : idxAt (pm ++ m :: ms) (pM ++ gridMax (m :: ms) (d :: ds) (n :: ns)) (pd ++ d :: ds)
                  (pc ++ c :: cs) pm.length = .error .domainError := by
                simp only [idxAt, e1, e2, e3, e4, ok_bind]
                by_cases hcm : c < m
                · simp [hcm]
                · have : m + d * (n : K) < c := by tauto
                  simp [hcm, this]
              refine ⟨pt ++ r :: rest, ?_, by simp⟩
              simp only [List.length_cons, idxLoop, ei]
            · have hc' := hc
              rw [not_or, not_lt, not_lt] at hc'
              have h0 := floor_idx_nonneg hd0 hc'.1
              have h1 := floor_idx_le hd0 hc'.2
              have ei : idxAt (pm ++ m :: ms) (pM ++ gridMax (m :: ms) (d :: ds) (n :: ns)) (pd ++ d :: ds)
                  (pc ++ c :: cs) pm.length = .ok ⌊(c - m) / d⌋ := by
                simp only [idxAt, e1, e2, e3, e4, ok_bind, if_neg (not_lt.mpr hc'.1), if_neg (not_lt.mpr hc'.2),
                  if_neg hd0.ne']
                exact ckInt_nonneg _ h0 (by omega)
              have es : vset (pt ++ r :: rest) ((pm.length : Nat) : Int) ⌊(c - m) / d⌋
                  = .ok ((pt ++ [⌊(c - m) / d⌋]) ++ rest) := by
                rw [vset_nat _ _ _ (by simp [hpt])]; simp [← hpt]
              have h2 : OutRec ms ds ns cs := by tauto
              obtain ⟨w, hw, hl⟩ := ih (pm ++ [m]) (pM ++ [m + d * (n : K)]) (pd ++ [d]) (pc ++ [c])
                (pt ++ [⌊(c - m) / d⌋]) rest
                (by simp [hpM]) (by simp [hpd]) (by simp [hpc]) (by simp [hpt]) (by simpa using hrest)
                (fun x hx => hd x (by simp [hx])) (fun x hx => hn x (by simp [hx])) h2
              refine ⟨w, ?_, by rw [hl]; simp; omega⟩
              simp only [List.length_cons, idxLoop, ei, es]
              simp only [List.append_assoc, List.singleton_append, List.length_append, List.length_singleton] at hw
              simp only [gridMax, List.append_assoc, List.singleton_append]
              exact hw

end

/-! ### contents of a shaped item array -/

/-- Contents of bin `k` (lemma-side total function). -/
def cell (a : NDArray (List T)) (dim k : List Int) : List T := (a.val[(dot dim k).toNat]?).getD []

theorem get_cell {a : NDArray (List T)} {dim k : List Int} (hs : Shaped a dim) (hg : GoodDims dim) (hk : InBox dim k) :
    a.get k = .ok (cell a dim k) := by
  have h0 := dot_nonneg hg.2.1 hk
  have h1 := dot_lt hg.2.1 hk
  obtain ⟨x, hx, hx'⟩ := vget_of_lt a.val (dot dim k) h0 (by have := hs.len_eq; omega)
  simp [NDArray.get, linearIndex_of hs hg hk, NDArray.getLin, hx, cell, hx']

theorem push_of {a : NDArray (List T)} {dim k : List Int} (hs : Shaped a dim) (hg : GoodDims dim) (hk : InBox dim k)
    (x : T) :
    ∃ a', push a k x = .ok a' ∧ Shaped a' dim ∧
      ∀ j, InBox dim j → cell a' dim j = if j = k then cell a dim j ++ [x] else cell a dim j := by
  have h0 := dot_nonneg hg.2.1 hk
  have h1 := dot_lt hg.2.1 hk
  have hl : (dot dim k).toNat < a.val.length := by have := hs.len_eq; omega
  obtain ⟨v, hv, hv'⟩ := vget_of_lt a.val (dot dim k) h0 (by have := hs.len_eq; omega)
  refine ⟨{ a with val := a.val.set (dot dim k).toNat (v ++ [x]) }, ?_, ?_, ?_⟩
  · simp [push, linearIndex_of hs hg hk, NDArray.getLin, hv, NDArray.setLin, vset, h0, hl]
  · exact ⟨hs.dim_eq, hs.unroll_eq, hs.order_eq, hs.vol_eq, by simpa using hs.len_eq⟩
  · intro j hj
    have j0 := dot_nonneg hg.2.1 hj
    by_cases e : j = k
    · subst e; rw [List.getElem?_eq_getElem hl] at hv'; simp [cell, hl]; exact (Option.some.inj hv').symm
    · have : dot dim k ≠ dot dim j := fun h => e (dot_inj hg.2.1 hj hk h.symm)
      have h2 : (dot dim k).toNat ≠ (dot dim j).toNat := by omega
      simp [cell, e, h2]

/-! ### the odometer -/

/-- Position of the first component that is not at its maximum (lemma-side). -/
def fpos : List Int → List Int → Option Nat
  | a :: as, m :: ms => if a = m then (fpos as ms).map (· + 1) else some 0
  | _, _ => none

/-- Next tuple of the odometer (lemma-side). -/
def adv : List Int → List Int → List Int → Option (List Int)
  | l :: ls, h :: hs, t :: ts => if t = h then (adv ls hs ts).map (l :: ·) else some ((t + 1) :: ts)
  | _, _, _ => none

/-- Number of tuples before `t` in odometer order (lemma-side). -/
def rank : List Int → List Int → List Int → Int
  | l :: ls, h :: hs, t :: ts => (t - l) + (h - l + 1) * rank ls hs ts
  | _, _, _ => 0

/-- Number of tuples (lemma-side). -/
def total : List Int → List Int → Int
  | l :: ls, h :: hs => (h - l + 1) * total ls hs
  | _, _ => 1

theorem fpos_lt {is ms : List Int} {j : Nat} (h : fpos is ms = some j) : j < is.length ∧ j < ms.length := by
  induction is generalizing ms j with
  | nil => simp [fpos] at h
  | cons a as ih => cases ms with
    | nil => simp [fpos] at h
    | cons m ms =>
      simp only [fpos] at h
      split at h
      · cases hh : fpos as ms with
        | none => simp [hh] at h
        | some k => simp [hh] at h; have := ih hh; simp; omega
      · simp at h; subst h; simp

theorem findPos_of (pi pm : List Int) {is ms : List Int} (hp : pm.length = pi.length) (hl : ms.length = is.length)
    (hne : is ≠ []) {fuel : Nat} (hf : is.length ≤ fuel) {order : Int} (ho : order = pi.length + is.length) :
    findPos order (pi ++ is) (pm ++ ms) fuel pi.length = .ok ((fpos is ms).map (· + pi.length)) := by
  induction is generalizing pi pm ms fuel with
  | nil => exact absurd rfl hne
  | cons a as ih => cases ms with
    | nil => simp at hl
    | cons m ms => cases fuel with
      | zero => simp at hf
      | succ fuel =>
        have e1 : vget (pi ++ a :: as) ((pi.length : Nat) : Int) = .ok a := by rw [vget_ok]; simp
        have e2 : vget (pm ++ m :: ms) ((pi.length : Nat) : Int) = .ok m := by rw [vget_ok]; simp [← hp]
        simp only [findPos, e1, e2, ok_bind, fpos]
        by_cases ham : a = m
        · simp only [ham, if_true]
          cases as with
          | nil =>
            rw [if_pos (by rw [ho]; simp)]
            simp [fpos]
          | cons b bs =>
            rw [if_neg (by rw [ho]; simp; omega)]
            have := ih (pi ++ [a]) (pm ++ [m]) (ms := ms) (by simp [hp]) (by simpa using hl) (by simp)
              (fuel := fuel) (by simpa using hf) (by rw [ho]; simp; omega)
            simp only [List.append_assoc, List.singleton_append, List.length_append, List.length_singleton] at this
            rw [ham] at this
            rw [this]
            cases fpos (b :: bs) ms <;> simp; omega
        · simp [ham]

theorem resetLoop_of {imin : List Int} (i : Nat) (idx : List Int) (h1 : i ≤ imin.length) (h2 : i ≤ idx.length) :
    resetLoop imin i idx = .ok (imin.take i ++ idx.drop i) := by
  induction i generalizing idx with
  | zero => simp [resetLoop]
  | succ i ih =>
    simp only [resetLoop, vget_nat imin i (by omega), ok_bind, vset_nat idx i _ (by omega)]
    rw [ih _ (by omega) (by simp; omega), NDArray.drop_set_succ _ _ _ (by omega)]
    have e : imin.take (i + 1) = imin.take i ++ [imin[i]] := by simp
    rw [e, List.append_assoc, List.singleton_append]

theorem adv_eq {ls hs ts : List Int} (h1 : hs.length = ts.length) (h2 : ls.length = ts.length) :
    adv ls hs ts = (fpos ts hs).map fun j => ls.take j ++ ((ts[j]?.getD 0) + 1) :: ts.drop (j + 1) := by
  induction ts generalizing ls hs with
  | nil => cases ls <;> cases hs <;> simp_all [adv, fpos]
  | cons t ts ih => cases ls with
    | nil => simp at h2
    | cons l ls => cases hs with
      | nil => simp at h1
      | cons h hs =>
        simp only [adv, fpos]
        by_cases e : t = h
        · simp only [e, if_true, ih (by simpa using h1) (by simpa using h2)]
          cases fpos ts hs <;> simp
        · simp [e]

theorem advance_of {imin imax idx : List Int} (h1 : imax.length = idx.length) (h2 : imin.length = idx.length)
    (hne : idx ≠ []) (hm : ∀ (j : Nat) (a m : Int), idx[j]? = some a → imax[j]? = some m → a ≤ m ∧ m ≤ intMax ∧ 0 ≤ a)
    {order : Int} (ho : order = idx.length) :
    advance order imin imax idx = .ok (adv imin imax idx) := by
  have hf := findPos_of [] [] (is := idx) (ms := imax) rfl h1 hne (fuel := idx.length + 1) (by omega) (order := order)
    (by simp [ho])
  simp only [List.nil_append, List.length_nil] at hf
  simp only [advance, hf, ok_bind]
  rw [adv_eq h1 h2]
  cases hp : fpos idx imax with
  | none => simp
  | some j =>
    have hj := fpos_lt hp
    have hne' : idx[j] ≠ imax[j] := by
      clear hf
      have : ∀ (is ms : List Int) (j : Nat), fpos is ms = some j → is[j]? ≠ ms[j]? := by
        intro is
        induction is with
        | nil => intro ms j h; simp [fpos] at h
        | cons a as ih => intro ms j h; cases ms with
          | nil => simp [fpos] at h
          | cons m ms =>
            simp only [fpos] at h
            split at h
            · cases hh : fpos as ms with
              | none => simp [hh] at h
              | some k => simp [hh] at h; subst h; simpa using ih ms k hh
            · rename_i hne; simp at h; subst h; simpa using hne
      have := this idx imax j hp
      rw [List.getElem?_eq_getElem hj.1, List.getElem?_eq_getElem hj.2] at this
      simpa using this
    have hb := hm j idx[j] imax[j] (List.getElem?_eq_getElem hj.1) (List.getElem?_eq_getElem hj.2)
    simp only [Option.map_some, Nat.add_zero, vget_nat idx j hj.1, ok_bind, iadd]
    rw [ckInt_nonneg _ (by omega) (by omega)]
    simp only [ok_bind, vset_nat idx j _ hj.1]
    rw [resetLoop_of j _ (by omega) (by simp; omega), NDArray.drop_set_succ _ _ _ hj.1]
    simp [List.getElem?_eq_getElem hj.1]

theorem between_lengths {ls hs ts : List Int} (h : Between ls hs ts) :
    ls.length = ts.length ∧ hs.length = ts.length := by
  induction ts generalizing ls hs with
  | nil => cases ls <;> cases hs <;> simp_all [Between]
  | cons t ts ih => cases ls with
    | nil => cases hs <;> simp [Between] at h
    | cons l ls => cases hs with
      | nil => simp [Between] at h
      | cons g gs => simp only [Between] at h; have := ih h.2; simp [this]

theorem between_get {ls hs ts : List Int} (h : Between ls hs ts) (j : Nat) {a m : Int} (ha : ts[j]? = some a)
    (hm : hs[j]? = some m) : a ≤ m := by
  induction ts generalizing ls hs j with
  | nil => simp at ha
  | cons t ts ih => cases ls with
    | nil => cases hs <;> simp [Between] at h
    | cons l ls => cases hs with
      | nil => simp [Between] at h
      | cons g gs =>
        simp only [Between] at h
        cases j with
        | zero => simp at ha hm; omega
        | succ j => exact ih h.2 j (by simpa using ha) (by simpa using hm)

theorem total_pos {ls hs ts : List Int} (h : Between ls hs ts) : 0 < total ls hs := by
  induction ts generalizing ls hs with
  | nil => cases ls <;> cases hs <;> simp_all [Between, total]
  | cons t ts ih => cases ls with
    | nil => cases hs <;> simp [Between] at h
    | cons l ls => cases hs with
      | nil => simp [Between] at h
      | cons g gs =>
        simp only [Between] at h
        have := ih h.2
        simp only [total]
        exact Int.mul_pos (by omega) this

theorem rank_nonneg {ls hs ts : List Int} (h : Between ls hs ts) : 0 ≤ rank ls hs ts := by
  induction ts generalizing ls hs with
  | nil => cases ls <;> cases hs <;> simp_all [Between, rank]
  | cons t ts ih => cases ls with
    | nil => cases hs <;> simp [Between] at h
    | cons l ls => cases hs with
      | nil => simp [Between] at h
      | cons g gs =>
        simp only [Between] at h
        have h1 := ih h.2
        have h2 : 0 ≤ (g - l + 1) * rank ls gs ts := Int.mul_nonneg (by omega) h1
        simp only [rank]; omega

theorem rank_lt {ls hs ts : List Int} (h : Between ls hs ts) : rank ls hs ts < total ls hs := by
  induction ts generalizing ls hs with
  | nil => cases ls <;> cases hs <;> simp_all [Between, rank, total]
  | cons t ts ih => cases ls with
    | nil => cases hs <;> simp [Between] at h
    | cons l ls => cases hs with
      | nil => simp [Between] at h
      | cons g gs =>
        simp only [Between] at h
        have h1 : rank ls gs ts + 1 ≤ total ls gs := ih h.2
        have h2 : (g - l + 1) * (rank ls gs ts + 1) ≤ (g - l + 1) * total ls gs :=
          Int.mul_le_mul_of_nonneg_left h1 (by omega)
        simp only [rank, total]; linarith [h.1.1, h.1.2]

theorem rank_inj {ls hs ts us : List Int} (ht : Between ls hs ts) (hu : Between ls hs us)
    (h : rank ls hs ts = rank ls hs us) : ts = us := by
  induction ts generalizing ls hs us with
  | nil => cases ls <;> cases hs <;> cases us <;> simp_all [Between]
  | cons t ts ih => cases ls with
    | nil => cases hs <;> simp [Between] at ht
    | cons l ls => cases hs with
      | nil => simp [Between] at ht
      | cons g gs => cases us with
        | nil => simp [Between] at hu
        | cons u us =>
          simp only [Between] at ht hu
          simp only [rank] at h
          have hr : rank ls gs ts = rank ls gs us := by
            rcases Int.lt_trichotomy (rank ls gs ts) (rank ls gs us) with hlt | he | hgt
            · have : (g - l + 1) * (rank ls gs ts + 1) ≤ (g - l + 1) * rank ls gs us :=
                Int.mul_le_mul_of_nonneg_left hlt (by omega)
              exfalso; linarith [ht.1.1, ht.1.2, hu.1.1, hu.1.2]
            · exact he
            · have : (g - l + 1) * (rank ls gs us + 1) ≤ (g - l + 1) * rank ls gs ts :=
                Int.mul_le_mul_of_nonneg_left hgt (by omega)
              exfalso; linarith [ht.1.1, ht.1.2, hu.1.1, hu.1.2]
          rw [hr] at h
          rw [ih ht.2 hu.2 hr]
          have : t = u := by omega
          rw [this]

theorem adv_some {ls hs ts us : List Int} (ht : Between ls hs ts) (h : adv ls hs ts = some us) :
    Between ls hs us ∧ rank ls hs us = rank ls hs ts + 1 := by
  induction ts generalizing ls hs us with
  | nil => cases ls <;> cases hs <;> simp_all [adv]
  | cons t ts ih => cases ls with
    | nil => cases hs <;> simp [Between] at ht
    | cons l ls => cases hs with
      | nil => simp [Between] at ht
      | cons g gs =>
        simp only [Between] at ht
        simp only [adv] at h
        split at h
        · rename_i e
          cases ha : adv ls gs ts with
          | none => simp [ha] at h
          | some v =>
            simp [ha] at h; subst h
            have := ih ht.2 ha
            simp only [Between, rank, this]
            refine ⟨⟨by omega, trivial⟩, ?_⟩
            rw [e]; ring
        · rename_i e
          simp at h; subst h
          simp only [Between, rank]
          exact ⟨⟨by omega, ht.2⟩, by ring⟩

theorem adv_none {ls hs ts : List Int} (ht : Between ls hs ts) (h : adv ls hs ts = none) :
    rank ls hs ts = total ls hs - 1 := by
  induction ts generalizing ls hs with
  | nil => cases ls <;> cases hs <;> simp_all [Between, rank, total]
  | cons t ts ih => cases ls with
    | nil => cases hs <;> simp [Between] at ht
    | cons l ls => cases hs with
      | nil => simp [Between] at ht
      | cons g gs =>
        simp only [Between] at ht
        simp only [adv] at h
        split at h
        · rename_i e
          cases ha : adv ls gs ts with
          | none =>
            simp only [rank, total, ih ht.2 ha, e]; ring
          | some v => simp [ha] at h
        · simp at h

theorem between_inBox {ls hs ts dim : List Int} (hl : InBox dim ls) (hh : InBox dim hs) (h : Between ls hs ts) :
    InBox dim ts := by
  induction dim generalizing ls hs ts with
  | nil => cases ls <;> cases hs <;> cases ts <;> simp_all [Between, InBox]
  | cons d ds ih => cases ls with
    | nil => simp [InBox] at hl
    | cons l ls => cases hs with
      | nil => simp [InBox] at hh
      | cons g gs => cases ts with
        | nil => simp [Between] at h
        | cons t ts =>
          simp only [InBox, Between] at hl hh h ⊢
          exact ⟨by omega, ih hl.2 hh.2 h.2⟩

theorem inBox_nonneg {dim ts : List Int} (h : InBox dim ts) (j : Nat) {a : Int} (ha : ts[j]? = some a) :
    0 ≤ a ∧ ∃ d, dim[j]? = some d ∧ a < d := by
  induction dim generalizing ts j with
  | nil => cases ts with
    | nil => simp at ha
    | cons t ts => simp [InBox] at h
  | cons d ds ih => cases ts with
    | nil => simp at ha
    | cons t ts =>
      simp only [InBox] at h
      cases j with
      | zero => simp at ha; subst ha; exact ⟨h.1.1, d, by simp, h.1.2⟩
      | succ j => simpa using ih h.2 j (by simpa using ha)

theorem total_le_prod {ls hs dim : List Int} (hl : InBox dim ls) (hh : InBox dim hs) (hb : Between ls hs ls)
    (hp : ∀ d ∈ dim, 0 < d) : total ls hs ≤ prod dim := by
  induction dim generalizing ls hs with
  | nil => cases ls <;> cases hs <;> simp_all [InBox, total, prod]
  | cons d ds ih => cases ls with
    | nil => simp [InBox] at hl
    | cons l ls => cases hs with
      | nil => simp [InBox] at hh
      | cons g gs =>
        simp only [InBox, Between] at hl hh hb
        have h1 := ih hl.2 hh.2 hb.2 fun x hx => hp x (by simp [hx])
        have h2 := total_pos hb.2
        have h3 := prod_pos (ds := ds) fun x hx => hp x (by simp [hx])
        simp only [total, prod]
        have a : (g - l + 1) * total ls gs ≤ (g - l + 1) * prod ds := Int.mul_le_mul_of_nonneg_left h1 (by omega)
        have b : (g - l + 1) * prod ds ≤ d * prod ds := Int.mul_le_mul_of_nonneg_right (by omega) (by omega)
        omega

theorem rank_low {ls hs : List Int} (hb : Between ls hs ls) : rank ls hs ls = 0 := by
  induction ls generalizing hs with
  | nil => cases hs <;> simp [rank]
  | cons l ls ih => cases hs with
    | nil => simp [rank]
    | cons g gs =>
      simp only [Between] at hb
      simp [rank, ih hb.2]

theorem between_low {dim ls hs : List Int} (hl : InBox dim ls) (hh : InBox dim hs)
    (hle : ∀ (j : Nat) (a b : Int), ls[j]? = some a → hs[j]? = some b → a ≤ b) : Between ls hs ls := by
  induction dim generalizing ls hs with
  | nil => cases ls <;> cases hs <;> simp_all [InBox, Between]
  | cons d ds ih => cases ls with
    | nil => simp [InBox] at hl
    | cons l ls => cases hs with
      | nil => simp [InBox] at hh
      | cons g gs =>
        simp only [InBox, Between] at hl hh ⊢
        exact ⟨⟨by omega, hle 0 l g (by simp) (by simp)⟩,
          ih hl.2 hh.2 fun j a b ha hb => hle (j + 1) a b (by simpa using ha) (by simpa using hb)⟩

/-- The `while(true)` of `add_range` started at `idx` appends to exactly the bins of the box that are not before `idx` in
odometer order. -/
theorem rangeLoop_of {dim imin imax : List Int} (hg : GoodDims dim) (hl : InBox dim imin) (hh : InBox dim imax) (x : T)
    (fuel : Nat) (item : NDArray (List T)) (idx : List Int) (hs : Shaped item dim) (hb : Between imin imax idx)
    (hf : total imin imax - rank imin imax idx ≤ fuel) :
    ∃ item' idx', rangeLoop imin imax x fuel item idx = (.ok (), item', idx') ∧ Shaped item' dim ∧
      idx'.length = dim.length ∧
      ∀ k, InBox dim k → cell item' dim k =
        if Between imin imax k ∧ rank imin imax idx ≤ rank imin imax k then cell item dim k ++ [x]
        else cell item dim k := by
  induction fuel generalizing item idx with
  | zero =>
    exfalso
    have := rank_lt hb
    simp at hf; omega
  | succ fuel ih =>
    have hidx := between_inBox hl hh hb
    obtain ⟨item1, hp1, hs1, hc1⟩ := push_of hs hg hidx x
    have hlen := between_lengths hb
    have hdim := inBox_length hidx
    have hadv : advance item1.order imin imax idx = .ok (adv imin imax idx) := by
      refine advance_of hlen.2 hlen.1 ?_ ?_ (by rw [hs1.order_eq, hdim])
      · intro e; rw [e] at hdim; exact hg.1 (List.length_eq_zero_iff.mp hdim.symm)
      · intro j a m ha hm
        have h1 := inBox_nonneg hh j hm
        obtain ⟨h1a, d, hd, h1b⟩ := h1
        have h2 := goodDims_le hg d (List.mem_of_getElem? hd)
        exact ⟨between_get hb j ha hm, by omega, (inBox_nonneg hidx j ha).1⟩
    cases ha : adv imin imax idx with
    | none =>
      refine ⟨item1, idx, ?_, hs1, hdim, ?_⟩
      · simp only [rangeLoop, hp1, hadv, ha]
      · intro k hk
        rw [hc1 k hk]
        have hr := adv_none hb ha
        by_cases e : k = idx
        · subst e; simp [hb]
        · have : ¬ (Between imin imax k ∧ rank imin imax idx ≤ rank imin imax k) := by
            rintro ⟨hbk, hrk⟩
            have := rank_lt hbk
            exact e (rank_inj hbk hb (by omega))
          simp [e, this]
    | some idx2 =>
      have h2 := adv_some hb ha
      obtain ⟨item3, idx3, hr3, hs3, hl3, hc3⟩ := ih item1 idx2 hs1 h2.1 (by push_cast at hf; omega)
      refine ⟨item3, idx3, ?_, hs3, hl3, ?_⟩
      · simp only [rangeLoop, hp1, hadv, ha]; exact hr3
      · intro k hk
        rw [hc3 k hk, hc1 k hk]
        by_cases e : k = idx
        · subst e
          have : ¬ (rank imin imax idx2 ≤ rank imin imax k) := by omega
          simp [this, hb]
        · simp only [if_neg e]
          by_cases hbk : Between imin imax k
          · have : rank imin imax k ≠ rank imin imax idx := fun h => e (rank_inj hbk hb h)
            have h3 : (rank imin imax idx2 ≤ rank imin imax k) ↔ (rank imin imax idx ≤ rank imin imax k) := by omega
            simp [hbk, h3]
          · simp [hbk]

end Bin
end Verif
