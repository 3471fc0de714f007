import Verif.Lemmas.BinStep
import Verif.Lemmas.Rounding
import Verif.Model.Rounded
import Verif.Spec.RoundedBin

/-! The bin in floating-point arithmetic: one-step refinement to its specification. -/

namespace Verif
open Spec NDArray Bin
namespace Fl
variable {T K : Type} [Field K] [LinearOrder K] [FloorRing K] {rnd : K → K} {u : K}

/-- Computed upper corner of a grid (lemma-side helper). -/
def gridMax (rnd : K → K) : List K → List K → List Int → List K
  | m :: ms, d :: ds, n :: ns => flMax rnd m d n :: gridMax rnd ms ds ns
  | _, _, _ => []

theorem maxLoop_of (pd : List K) (pn : List Int) {ms ds : List K} {ns : List Int} (hl : pd.length = pn.length)
    (h1 : ms.length = ns.length) (h2 : ds.length = ns.length) :
    maxLoop rnd (pd ++ ds) (pn ++ ns) ms pn.length = .ok (gridMax rnd ms ds ns) := by
  induction ns generalizing ms ds pd pn with
  | nil =>
    have : ms = [] := by simpa using h1
    subst this; cases ds <;> simp [maxLoop, gridMax]
  | cons n ns ih => cases ms with
    | nil => simp at h1
    | cons m ms => cases ds with
      | nil => simp at h2
      | cons d ds =>
        have e1 : vget (pd ++ d :: ds) ((pn.length : Nat) : Int) = .ok d := by rw [vget_ok]; simp [← hl]
        have e2 : vget (pn ++ n :: ns) ((pn.length : Nat) : Int) = .ok n := by rw [vget_ok]; simp
        have := ih (pd ++ [d]) (pn ++ [n]) (by simp [hl]) (ms := ms) (ds := ds) (by simpa using h1) (by simpa using h2)
        simp only [List.append_assoc, List.singleton_append, List.length_append, List.length_singleton] at this
        simp only [maxLoop, e1, e2, ok_bind, this, gridMax, flMax]

section
variable [IsStrictOrderedRing K] (R : Rounding rnd u)
include R

theorem flBin_nonneg {m d c : K} (hd : 0 < d) (h : m ≤ c) : 0 ≤ flBin rnd m d c :=
  Int.floor_nonneg.mpr (R.nonneg (div_nonneg (R.nonneg (sub_nonneg.mpr h)) hd.le))

theorem flBin_mono {m d a b : K} (hd : 0 < d) (h : a ≤ b) : flBin rnd m d a ≤ flBin rnd m d b := by
  apply Int.floor_le_floor
  apply R.mono
  apply div_le_div_of_nonneg_right _ hd.le
  exact R.mono _ _ (by linarith)

theorem flInGrid_inBox {ms ds cs : List K} {ns : List Int} (hd : ∀ d ∈ ds, 0 < d) (h : FlInGrid rnd ms ds ns cs) :
    InBox ns (flBinOf rnd ms ds cs) := by
  induction ns generalizing ms ds cs with
  | nil => cases ms <;> cases ds <;> cases cs <;> simp_all [FlInGrid, InBox, flBinOf]
  | cons n ns ih =>
    cases ms with
    | nil => simp [FlInGrid] at h
    | cons m ms => cases ds with
      | nil => simp [FlInGrid] at h
      | cons d ds => cases cs with
        | nil => simp [FlInGrid] at h
        | cons c cs =>
          simp only [FlInGrid] at h
          have hd0 := hd d (by simp)
          simp only [flBinOf, InBox]
          exact ⟨⟨flBin_nonneg R hd0 h.1.1.1, h.1.2⟩, ih (fun x hx => hd x (by simp [hx])) h.2⟩

omit [IsStrictOrderedRing K] R in
theorem flInGrid_lengths {ms ds cs : List K} {ns : List Int} (h : FlInGrid rnd ms ds ns cs) :
    ms.length = ns.length ∧ ds.length = ns.length ∧ cs.length = ns.length := by
  induction ns generalizing ms ds cs with
  | nil => cases ms <;> cases ds <;> cases cs <;> simp_all [FlInGrid]
  | cons n ns ih =>
    cases ms with
    | nil => simp [FlInGrid] at h
    | cons m ms => cases ds with
      | nil => simp [FlInGrid] at h
      | cons d ds => cases cs with
        | nil => simp [FlInGrid] at h
        | cons c cs =>
          simp only [FlInGrid] at h
          have := ih h.2
          simp [this]

theorem idxLoop_in (pm pM pd pc : List K) (pt rest : List Int) {ms ds cs : List K} {ns : List Int}
    (hpM : pM.length = pm.length) (hpd : pd.length = pm.length) (hpc : pc.length = pm.length)
    (hpt : pt.length = pm.length) (hrest : rest.length = ns.length)
    (hd : ∀ d ∈ ds, 0 < d) (hn : ∀ n ∈ ns, n ≤ intMax) (h : FlInGrid rnd ms ds ns cs) :
    idxLoop rnd (pm ++ ms) (pM ++ gridMax rnd ms ds ns) (pd ++ ds) (pc ++ cs) ns.length pm.length (pt ++ rest)
      = (.ok (), pt ++ flBinOf rnd ms ds cs) := by
  induction ns generalizing ms ds cs pm pM pd pc pt rest with
  | nil =>
    have : rest = [] := by simpa using hrest
    cases ms <;> cases ds <;> cases cs <;> simp_all [FlInGrid, idxLoop, flBinOf]
  | cons n ns ih =>
    cases ms with
    | nil => simp [FlInGrid] at h
    | cons m ms => cases ds with
      | nil => simp [FlInGrid] at h
      | cons d ds => cases cs with
        | nil => simp [FlInGrid] at h
        | cons c cs => cases rest with
          | nil => simp at hrest
          | cons r rest =>
            simp only [FlInGrid] at h
            have hd0 := hd d (by simp)
            have h0 := flBin_nonneg R hd0 h.1.1.1
            have h1 := h.1.2
            have hnn := hn n (by simp)
            have e1 : vget (pm ++ m :: ms) ((pm.length : Nat) : Int) = .ok m := by rw [vget_ok]; simp
            have e2 : vget (pM ++ gridMax rnd (m :: ms) (d :: ds) (n :: ns)) ((pm.length : Nat) : Int)
                = .ok (flMax rnd m d n) := by rw [vget_ok]; simp [gridMax, ← hpM]
            have e3 : vget (pd ++ d :: ds) ((pm.length : Nat) : Int) = .ok d := by rw [vget_ok]; simp [← hpd]
            have e4 : vget (pc ++ c :: cs) ((pm.length : Nat) : Int) = .ok c := by rw [vget_ok]; simp [← hpc]
            have ei : idxAt rnd (pm ++ m :: ms) (pM ++ gridMax rnd (m :: ms) (d :: ds) (n :: ns)) (pd ++ d :: ds)
                (pc ++ c :: cs) pm.length = .ok (flBin rnd m d c) := by
              simp only [idxAt, e1, e2, e3, e4, ok_bind, if_neg (not_lt.mpr h.1.1.1), if_neg (not_lt.mpr h.1.1.2),
                if_neg hd0.ne']
              exact ckInt_nonneg _ h0 (h1.le.trans hnn)
            have es : vset (pt ++ r :: rest) ((pm.length : Nat) : Int) (flBin rnd m d c)
                = .ok ((pt ++ [flBin rnd m d c]) ++ rest) := by
              rw [vset_nat _ _ _ (by simp [hpt])]; simp [← hpt]
            simp only [List.length_cons, idxLoop, ei, es]
            have := ih (pm ++ [m]) (pM ++ [flMax rnd m d n]) (pd ++ [d]) (pc ++ [c]) (pt ++ [flBin rnd m d c]) rest
              (by simp [hpM]) (by simp [hpd]) (by simp [hpc]) (by simp [hpt]) (by simpa using hrest)
              (fun x hx => hd x (by simp [hx])) (fun x hx => hn x (by simp [hx])) h.2
            simp only [List.append_assoc, List.singleton_append, List.length_append, List.length_singleton] at this
            simp only [gridMax, List.append_assoc, List.singleton_append, flBinOf]
            exact this

theorem idxLoop_out (pm pM pd pc : List K) (pt rest : List Int) {ms ds cs : List K} {ns : List Int}
    (hpM : pM.length = pm.length) (hpd : pd.length = pm.length) (hpc : pc.length = pm.length)
    (hpt : pt.length = pm.length) (hrest : rest.length = ns.length)
    (hd : ∀ d ∈ ds, 0 < d) (hn : ∀ n ∈ ns, n ≤ intMax)
    (h : FlOutOfGrid rnd ms ds ns cs) :
    ∃ w, idxLoop rnd (pm ++ ms) (pM ++ gridMax rnd ms ds ns) (pd ++ ds) (pc ++ cs) ns.length pm.length (pt ++ rest)
      = (.error .domainError, w) ∧ w.length = pt.length + rest.length := by
  induction ns generalizing ms ds cs pm pM pd pc pt rest with
  | nil => cases ms <;> cases ds <;> cases cs <;> simp_all [FlOutOfGrid]
  | cons n ns ih =>
    cases ms with
    | nil => simp [FlOutOfGrid] at h
    | cons m ms => cases ds with
      | nil => simp [FlOutOfGrid] at h
      | cons d ds => cases cs with
        | nil => simp [FlOutOfGrid] at h
        | cons c cs => cases rest with
          | nil => simp at hrest
          | cons r rest =>
            simp only [FlOutOfGrid] at h
            have hd0 := hd d (by simp)
            have hnn := hn n (by simp)
            have e1 : vget (pm ++ m :: ms) ((pm.length : Nat) : Int) = .ok m := by rw [vget_ok]; simp
            have e2 : vget (pM ++ gridMax rnd (m :: ms) (d :: ds) (n :: ns)) ((pm.length : Nat) : Int)
                = .ok (flMax rnd m d n) := by rw [vget_ok]; simp [gridMax, ← hpM]
            have e3 : vget (pd ++ d :: ds) ((pm.length : Nat) : Int) = .ok d := by rw [vget_ok]; simp [← hpd]
            have e4 : vget (pc ++ c :: cs) ((pm.length : Nat) : Int) = .ok c := by rw [vget_ok]; simp [← hpc]
            rcases h with ⟨hc, _⟩ | ⟨hin, h2⟩
            · have ei : idxAt rnd (pm ++ m :: ms) (pM ++ gridMax rnd (m :: ms) (d :: ds) (n :: ns)) (pd ++ d :: ds)
                  (pc ++ c :: cs) pm.length = .error .domainError := by
                simp only [idxAt, e1, e2, e3, e4, ok_bind]
                by_cases hcm : c < m
                · simp [hcm]
                · have : flMax rnd m d n < c := hc.resolve_left hcm
                  simp [hcm, this]
              refine ⟨pt ++ r :: rest, ?_, by simp⟩
              simp only [List.length_cons, idxLoop, ei]
            · have hc' := hin.1
              have h0 := flBin_nonneg R hd0 hc'.1
              have h1 := hin.2
              have ei : idxAt rnd (pm ++ m :: ms) (pM ++ gridMax rnd (m :: ms) (d :: ds) (n :: ns)) (pd ++ d :: ds)
                  (pc ++ c :: cs) pm.length = .ok (flBin rnd m d c) := by
                simp only [idxAt, e1, e2, e3, e4, ok_bind, if_neg (not_lt.mpr hc'.1), if_neg (not_lt.mpr hc'.2),
                  if_neg hd0.ne']
                exact ckInt_nonneg _ h0 (h1.le.trans hnn)
              have es : vset (pt ++ r :: rest) ((pm.length : Nat) : Int) (flBin rnd m d c)
                  = .ok ((pt ++ [flBin rnd m d c]) ++ rest) := by
                rw [vset_nat _ _ _ (by simp [hpt])]; simp [← hpt]
              obtain ⟨w, hw, hl⟩ := ih (pm ++ [m]) (pM ++ [flMax rnd m d n]) (pd ++ [d]) (pc ++ [c])
                (pt ++ [flBin rnd m d c]) rest
                (by simp [hpM]) (by simp [hpd]) (by simp [hpc]) (by simp [hpt]) (by simpa using hrest)
                (fun x hx => hd x (by simp [hx])) (fun x hx => hn x (by simp [hx])) h2
              refine ⟨w, ?_, by rw [hl]; simp; omega⟩
              simp only [List.length_cons, idxLoop, ei, es]
              simp only [List.append_assoc, List.singleton_append, List.length_append, List.length_singleton] at hw
              simp only [gridMax, List.append_assoc, List.singleton_append]
              exact hw

end

/-- State invariant of a bin over a given grid (lemma-side). -/
structure Inv (rnd : K → K) (b : Bin T K) (min incr : List K) (N : List Int) : Prop where
  min_eq : b.min = min
  incr_eq : b.incr = incr
  max_eq : b.max = gridMax rnd min incr N
  item_ok : Shaped b.item N
  idx_len : b.indices.length = N.length

variable {min incr : List K} {N : List Int}

theorem mkBin_eq (T : Type) (hl1 : min.length = N.length) (hl2 : incr.length = N.length) (hg : GoodDims N) :
    (mkBin rnd min incr N : Res (Bin T K)) = .ok ⟨⟨N, strides N, List.replicate (prod N).toNat [], N.length, prod N⟩,
      min, incr, N, gridMax rnd min incr N, N⟩ := by
  have hm := maxLoop_of (rnd := rnd) [] [] (ms := min) (ds := incr) (ns := N) rfl hl1 hl2
  simp only [List.nil_append, List.length_nil] at hm
  simp [mkBin, hm, NDArray.ofDim, resize_good _ _ hg, vresize, NDArray.empty]

theorem mkBin_inv (hg : GoodGrid min incr N) {b : Bin T K} (h : mkBin rnd min incr N = .ok b) :
    Inv rnd b min incr N ∧ ∀ k, cell b.item N k = [] := by
  rw [mkBin_eq T hg.1 hg.2.1 hg.2.2.2] at h
  cases h
  have hp := prod_pos hg.2.2.2.2.1
  refine ⟨⟨rfl, rfl, rfl, ⟨rfl, rfl, rfl, rfl, by simp; omega⟩, rfl⟩, ?_⟩
  intro k
  simp only [cell, List.getElem?_replicate]
  split <;> rfl

section
variable [IsStrictOrderedRing K] (R : Rounding rnd u)
include R

theorem indicesOf_in (hg : GoodGrid min incr N) {b : Bin T K} (hi : Inv rnd b min incr N) {c : List K}
    (hc : FlInGrid rnd min incr N c) {term : List Int} (ht : term.length = N.length) :
    indicesOf rnd b c term = (.ok (), flBinOf rnd min incr c) := by
  have := idxLoop_in R [] [] [] [] [] term rfl rfl rfl rfl ht hg.2.2.1 (goodDims_le hg.2.2.2) hc
  simp only [List.nil_append, List.length_nil] at this
  simp only [indicesOf, hi.min_eq, hi.max_eq, hi.incr_eq, hi.item_ok.order_eq, Int.toNat_natCast]
  exact this

theorem indicesOf_out (hg : GoodGrid min incr N) {b : Bin T K} (hi : Inv rnd b min incr N) {c : List K}
    (hc : FlOutOfGrid rnd min incr N c) {term : List Int} (ht : term.length = N.length) :
    ∃ w, indicesOf rnd b c term = (.error .domainError, w) ∧ w.length = N.length := by
  obtain ⟨w, hw, hl⟩ := idxLoop_out R [] [] [] [] [] term rfl rfl rfl rfl ht hg.2.2.1 (goodDims_le hg.2.2.2)
    hc
  simp only [List.nil_append, List.length_nil] at hw hl
  refine ⟨w, ?_, by omega⟩
  simp only [indicesOf, hi.min_eq, hi.max_eq, hi.incr_eq, hi.item_ok.order_eq, Int.toNat_natCast]
  exact hw

omit [IsStrictOrderedRing K] R in
theorem flInGrid_not_out {min incr c : List K} {N : List Int} (h : FlInGrid rnd min incr N c) : ¬ FlOutOfGrid rnd min incr N c := by
  induction N generalizing min incr c with
  | nil => cases min <;> cases incr <;> cases c <;> simp_all [FlInGrid, FlOutOfGrid]
  | cons n ns ih =>
    cases min with
    | nil => simp [FlInGrid] at h
    | cons m ms => cases incr with
      | nil => simp [FlInGrid] at h
      | cons d ds => cases c with
        | nil => simp [FlInGrid] at h
        | cons c cs =>
          simp only [FlInGrid] at h
          simp only [FlOutOfGrid, not_or, not_and]
          refine ⟨fun ho => ?_, fun _ => ih h.2⟩
          rcases ho with ho | ho
          · exact absurd h.1.1.1 (not_le.mpr ho)
          · exact absurd h.1.1.2 (not_le.mpr ho)

theorem flBinOf_le (hd : ∀ d ∈ incr, 0 < d) {lo hi : List K} (h : LeAll lo hi)
    (j : Nat) {a b : Int} (ha : (flBinOf rnd min incr lo)[j]? = some a) (hb : (flBinOf rnd min incr hi)[j]? = some b) : a ≤ b := by
  induction j generalizing min incr lo hi with
  | zero =>
    cases min <;> cases incr <;> cases lo <;> cases hi <;> simp_all [flBinOf, LeAll]
    rw [← ha, ← hb]
    exact flBin_mono R hd.1 h.1
  | succ j ih =>
    cases min with
    | nil => simp [flBinOf] at ha
    | cons m ms => cases incr with
      | nil => simp [flBinOf] at ha
      | cons d ds => cases lo with
        | nil => simp [flBinOf] at ha
        | cons l ls => cases hi with
          | nil => simp [flBinOf] at hb
          | cons h' hs =>
            simp only [LeAll] at h
            simp only [flBinOf, List.getElem?_cons_succ] at ha hb
            exact ih (fun x hx => hd x (by simp [hx])) h.2 ha hb

theorem add_in (hg : GoodGrid min incr N) {b : Bin T K} (hi : Inv rnd b min incr N) (x : T) {c : List K}
    (hc : FlInGrid rnd min incr N c) :
    ∃ b', add rnd b x c = (.ok (), b') ∧ Inv rnd b' min incr N ∧
      ∀ k, InBox N k → cell b'.item N k = if k = flBinOf rnd min incr c then cell b.item N k ++ [x] else cell b.item N k := by
  have hk := flInGrid_inBox R hg.2.2.1 hc
  obtain ⟨it, hp, hs, hcell⟩ := push_of hi.item_ok hg.2.2.2 hk x
  refine ⟨{ b with indices := flBinOf rnd min incr c, item := it }, ?_, ?_, hcell⟩
  · simp only [add, indicesOf_in R hg hi hc hi.idx_len, hp]
  · exact ⟨hi.min_eq, hi.incr_eq, hi.max_eq, hs, inBox_length hk⟩

theorem add_out (hg : GoodGrid min incr N) {b : Bin T K} (hi : Inv rnd b min incr N) (x : T) {c : List K}
    (hc : FlOutOfGrid rnd min incr N c) :
    ∃ b', add rnd b x c = (.error .domainError, b') ∧ Inv rnd b' min incr N ∧ b'.item = b.item := by
  obtain ⟨w, hw, hl⟩ := indicesOf_out R hg hi hc hi.idx_len
  refine ⟨{ b with indices := w }, ?_, ?_, rfl⟩
  · simp only [add, hw]
  · exact ⟨hi.min_eq, hi.incr_eq, hi.max_eq, hi.item_ok, hl⟩

theorem addOnce_in [DecidableEq T] (hg : GoodGrid min incr N) {b : Bin T K} (hi : Inv rnd b min incr N) (x : T) {c : List K}
    (hc : FlInGrid rnd min incr N c) :
    ∃ b', addOnce rnd b x c = (.ok (), b') ∧ Inv rnd b' min incr N ∧
      ∀ k, InBox N k → cell b'.item N k =
        if k = flBinOf rnd min incr c ∧ x ∉ cell b.item N k then cell b.item N k ++ [x] else cell b.item N k := by
  have hk := flInGrid_inBox R hg.2.2.1 hc
  obtain ⟨it, hp, hs, hcell⟩ := push_of hi.item_ok hg.2.2.2 hk x
  have hget := get_cell hi.item_ok hg.2.2.2 hk
  by_cases hx : x ∈ cell b.item N (flBinOf rnd min incr c)
  · refine ⟨{ b with indices := flBinOf rnd min incr c }, ?_, ?_, ?_⟩
    · simp only [addOnce, indicesOf_in R hg hi hc hi.idx_len, hget, (hasItem_iff _ _).mpr hx, if_true]
    · exact ⟨hi.min_eq, hi.incr_eq, hi.max_eq, hi.item_ok, inBox_length hk⟩
    · intro k _
      have : ¬ (k = flBinOf rnd min incr c ∧ x ∉ cell b.item N k) := by rintro ⟨rfl, h⟩; exact h hx
      simp [this]
  · have hx' : Bin.hasItem x (cell b.item N (flBinOf rnd min incr c)) = false := by
      rw [← Bool.not_eq_true, hasItem_iff]; exact hx
    refine ⟨{ b with indices := flBinOf rnd min incr c, item := it }, ?_, ?_, ?_⟩
    · simp [addOnce, indicesOf_in R hg hi hc hi.idx_len, hget, hx', hp]
    · exact ⟨hi.min_eq, hi.incr_eq, hi.max_eq, hs, inBox_length hk⟩
    · intro k hk'
      show cell it N k = _
      rw [hcell k hk']
      by_cases e : k = flBinOf rnd min incr c
      · subst e; simp [hx]
      · simp [e]

theorem addOnce_out [DecidableEq T] (hg : GoodGrid min incr N) {b : Bin T K} (hi : Inv rnd b min incr N) (x : T)
    {c : List K} (hc : FlOutOfGrid rnd min incr N c) :
    ∃ b', addOnce rnd b x c = (.error .domainError, b') ∧ Inv rnd b' min incr N ∧ b'.item = b.item := by
  obtain ⟨w, hw, hl⟩ := indicesOf_out R hg hi hc hi.idx_len
  refine ⟨{ b with indices := w }, ?_, ?_, rfl⟩
  · simp only [addOnce, hw]
  · exact ⟨hi.min_eq, hi.incr_eq, hi.max_eq, hi.item_ok, hl⟩

theorem addRange_in (hg : GoodGrid min incr N) {b : Bin T K} (hi : Inv rnd b min incr N) (x : T) {lo hi' : List K}
    (hlo : FlInGrid rnd min incr N lo) (hhi : FlInGrid rnd min incr N hi') (hle : LeAll lo hi') :
    ∃ b', addRange rnd b x lo hi' = (.ok (), b') ∧ Inv rnd b' min incr N ∧
      ∀ k, InBox N k → cell b'.item N k =
        if Between (flBinOf rnd min incr lo) (flBinOf rnd min incr hi') k then cell b.item N k ++ [x] else cell b.item N k := by
  have hl := flInGrid_inBox R hg.2.2.1 hlo
  have hh := flInGrid_inBox R hg.2.2.1 hhi
  have hb := between_low hl hh fun j a b ha hb => flBinOf_le R hg.2.2.1 hle j ha hb
  have hz : (List.replicate b.item.order.toNat (0 : Int)).length = N.length := by simp [hi.item_ok.order_eq]
  have hfuel : total (flBinOf rnd min incr lo) (flBinOf rnd min incr hi') - rank (flBinOf rnd min incr lo) (flBinOf rnd min incr hi')
      (flBinOf rnd min incr lo) ≤ ((b.item.volume.toNat ^ b.item.order.toNat + 1 : Nat) : Int) := by
    have := total_le_prod hl hh hb hg.2.2.2.2.1
    have ho : b.item.order.toNat ≠ 0 := by
      rw [hi.item_ok.order_eq, Int.toNat_natCast]
      exact fun h => hg.2.2.2.1 (List.length_eq_zero_iff.mp h)
    have h2 := Nat.le_self_pow ho b.item.volume.toNat
    have h3 : b.item.volume.toNat = (prod N).toNat := by rw [hi.item_ok.vol_eq]
    rw [rank_low hb]; omega
  obtain ⟨it, idx, hr, hs, hlen, hcell⟩ := rangeLoop_of hg.2.2.2 hl hh x _ b.item _ hi.item_ok hb hfuel
  refine ⟨{ b with item := it, indices := idx }, ?_, ?_, ?_⟩
  · simp only [addRange, indicesOf_in R hg hi hlo hz, indicesOf_in R hg hi hhi hz, hr]
  · exact ⟨hi.min_eq, hi.incr_eq, hi.max_eq, hs, hlen⟩
  · intro k hk
    show cell it N k = _
    rw [hcell k hk, rank_low hb]
    by_cases e : Between (flBinOf rnd min incr lo) (flBinOf rnd min incr hi') k
    · simp [e, rank_nonneg e]
    · simp [e]

theorem addRange_out (hg : GoodGrid min incr N) {b : Bin T K} (hi : Inv rnd b min incr N) (x : T) {lo hi' : List K}
    (h : FlOutOfGrid rnd min incr N lo ∨ (FlInGrid rnd min incr N lo ∧ FlOutOfGrid rnd min incr N hi')) :
    addRange rnd b x lo hi' = (.error .domainError, b) := by
  have hz : (List.replicate b.item.order.toNat (0 : Int)).length = N.length := by simp [hi.item_ok.order_eq]
  rcases h with h | ⟨h1, h2⟩
  · obtain ⟨w, hw, _⟩ := indicesOf_out R hg hi h hz
    simp only [addRange, hw]
  · obtain ⟨w, hw, _⟩ := indicesOf_out R hg hi h2 hz
    simp only [addRange, indicesOf_in R hg hi h1 hz, hw]

theorem contents_in (hg : GoodGrid min incr N) {b : Bin T K} (hi : Inv rnd b min incr N) {c : List K}
    (hc : FlInGrid rnd min incr N c) :
    ∃ b', contents rnd b c = (.ok (cell b.item N (flBinOf rnd min incr c)), b') ∧ Inv rnd b' min incr N ∧ b'.item = b.item := by
  have hk := flInGrid_inBox R hg.2.2.1 hc
  refine ⟨{ b with indices := flBinOf rnd min incr c }, ?_, ?_, rfl⟩
  · simp only [contents, indicesOf_in R hg hi hc hi.idx_len, get_cell hi.item_ok hg.2.2.2 hk]
  · exact ⟨hi.min_eq, hi.incr_eq, hi.max_eq, hi.item_ok, inBox_length hk⟩

theorem contents_out (hg : GoodGrid min incr N) {b : Bin T K} (hi : Inv rnd b min incr N) {c : List K}
    (hc : FlOutOfGrid rnd min incr N c) :
    ∃ b', contents rnd b c = (.error .domainError, b') ∧ Inv rnd b' min incr N ∧ b'.item = b.item := by
  obtain ⟨w, hw, hl⟩ := indicesOf_out R hg hi hc hi.idx_len
  refine ⟨{ b with indices := w }, ?_, ?_, rfl⟩
  · simp only [contents, hw]
  · exact ⟨hi.min_eq, hi.incr_eq, hi.max_eq, hi.item_ok, hl⟩

theorem step_spec [DecidableEq T] (hg : GoodGrid min incr N) {b : Bin T K} (hi : Inv rnd b min incr N) (r : BinReq T K)
    (hr : FlReqOk rnd min incr N r) :
    Inv rnd (binStep rnd b (toOp r)).2 min incr N ∧
    (∀ k, InBox N k → cell (binStep rnd b (toOp r)).2.item N k = flBinStep rnd min incr N k (cell b.item N k) r) ∧
    ((binStep rnd b (toOp r)).1 = .ok () ∨ (binStep rnd b (toOp r)).1 = .error .domainError) := by
  cases r with
  | add x c =>
    rcases hr with h | h
    · obtain ⟨b', he, h1, h2⟩ := add_in R hg hi x h
      simp only [toOp, binStep, he]
      refine ⟨h1, fun k hk => ?_, by simp⟩
      rw [h2 k hk]; simp [flBinStep, h, eq_comm]
    · obtain ⟨b', he, h1, h2⟩ := add_out R hg hi x h
      simp only [toOp, binStep, he]
      refine ⟨h1, fun k hk => ?_, by simp⟩
      have : ¬ FlInGrid rnd min incr N c := fun hh => flInGrid_not_out hh h
      simp [flBinStep, this, h2]
  | addOnce x c =>
    rcases hr with h | h
    · obtain ⟨b', he, h1, h2⟩ := addOnce_in R hg hi x h
      simp only [toOp, binStep, he]
      refine ⟨h1, fun k hk => ?_, by simp⟩
      rw [h2 k hk]; simp [flBinStep, h, eq_comm]
    · obtain ⟨b', he, h1, h2⟩ := addOnce_out R hg hi x h
      simp only [toOp, binStep, he]
      refine ⟨h1, fun k hk => ?_, by simp⟩
      have : ¬ FlInGrid rnd min incr N c := fun hh => flInGrid_not_out hh h
      simp [flBinStep, this, h2]
  | addRange x lo hi' =>
    rcases hr with ⟨h1, h2, h3⟩ | h
    · obtain ⟨b', he, h4, h5⟩ := addRange_in R hg hi x h1 h2 h3
      simp only [toOp, binStep, he]
      refine ⟨h4, fun k hk => ?_, by simp⟩
      rw [h5 k hk]; simp [flBinStep, h1, h2]
    · have he := addRange_out R hg hi x h
      simp only [toOp, binStep, he]
      refine ⟨hi, fun k hk => ?_, by simp⟩
      have : ¬ (FlInGrid rnd min incr N lo ∧ FlInGrid rnd min incr N hi' ∧
          Between (flBinOf rnd min incr lo) (flBinOf rnd min incr hi') k) := by
        rintro ⟨h1, h2, _⟩
        rcases h with h | ⟨_, h⟩
        · exact flInGrid_not_out h1 h
        · exact flInGrid_not_out h2 h
      simp [flBinStep, this]

theorem run_spec [DecidableEq T] (hg : GoodGrid min incr N) (reqs : List (BinReq T K)) {b : Bin T K}
    (hi : Inv rnd b min incr N) (hr : ∀ r ∈ reqs, FlReqOk rnd min incr N r) :
    Inv rnd (binRun rnd b (reqs.map toOp)) min incr N ∧
    (∀ k, InBox N k → cell (binRun rnd b (reqs.map toOp)).item N k = reqs.foldl (flBinStep rnd min incr N k) (cell b.item N k)) := by
  induction reqs generalizing b with
  | nil => exact ⟨hi, fun k _ => rfl⟩
  | cons r rs ih =>
    obtain ⟨h1, h2, _⟩ := step_spec R hg hi r (hr r (by simp))
    have := ih h1 (fun r' hr' => hr r' (by simp [hr']))
    refine ⟨by simpa [binRun] using this.1, fun k hk => ?_⟩
    simp only [List.map_cons, binRun, List.foldl_cons]
    rw [this.2 k hk, h2 k hk]

theorem inGrid_of_between {min incr : List K} {N : List Int} (hd : ∀ d ∈ incr, 0 < d) {lo hi c : List K}
    (hlo : FlInGrid rnd min incr N lo) (hhi : FlInGrid rnd min incr N hi) (hl : c.length = lo.length) (h1 : LeAll lo c) (h2 : LeAll c hi) :
    FlInGrid rnd min incr N c ∧ Between (flBinOf rnd min incr lo) (flBinOf rnd min incr hi) (flBinOf rnd min incr c) := by
  induction N generalizing min incr lo hi c with
  | nil =>
    cases min <;> cases incr <;> cases lo <;> cases hi <;> cases c <;> simp_all [FlInGrid, flBinOf, Between]
  | cons n ns ih =>
    cases min with
    | nil => simp [FlInGrid] at hlo
    | cons m ms => cases incr with
      | nil => simp [FlInGrid] at hlo
      | cons d ds => cases lo with
        | nil => simp [FlInGrid] at hlo
        | cons l ls => cases hi with
          | nil => simp [FlInGrid] at hhi
          | cons h hs => cases c with
            | nil => simp at hl
            | cons c cs =>
              simp only [FlInGrid, FlIn] at hlo hhi
              simp only [LeAll] at h1 h2
              have hd0 := hd d (by simp)
              obtain ⟨i1, i2⟩ := ih (fun x hx => hd x (by simp [hx])) hlo.2 hhi.2 (by simpa using hl) h1.2 h2.2
              have m1 := flBin_mono R (m := m) hd0 h1.1
              have m2 := flBin_mono R (m := m) hd0 h2.1
              simp only [FlInGrid, FlIn, flBinOf, Between]
              exact ⟨⟨⟨⟨hlo.1.1.1.trans h1.1, h2.1.trans hhi.1.1.2⟩, lt_of_le_of_lt m2 hhi.1.2⟩, i1⟩, ⟨m1, m2⟩, i2⟩

omit [FloorRing K] [IsStrictOrderedRing K] R in
theorem leAll_trans {a b c : List K} (hl : a.length = b.length) (h1 : LeAll a b) (h2 : LeAll b c) : LeAll a c := by
  induction a generalizing b c with
  | nil => simp [LeAll]
  | cons x xs ih => cases b with
    | nil => simp at hl
    | cons y ys => cases c with
      | nil => simp [LeAll]
      | cons z zs =>
        simp only [LeAll] at *
        exact ⟨h1.1.trans h2.1, ih (by simpa using hl) h1.2 h2.2⟩

end

end Fl
end Verif
