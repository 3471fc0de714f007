import Verif.Lemmas.BinStep

/-!
# Insertion into a bin ends for every input
-/

namespace Verif.Bin
open Verif Spec NDArray

/-- A tuple read as a number in base `V` (lemma-side). -/
def base (V : Int) : List Int → Int
  | [] => 0
  | a :: as => a + V * base V as

theorem base_nonneg {V : Int} (hV : 0 ≤ V) {l : List Int} (h : ∀ a ∈ l, 0 ≤ a) : 0 ≤ base V l := by
  induction l with
  | nil => simp [base]
  | cons a as ih =>
    have h1 := h a (by simp)
    have h2 := ih fun x hx => h x (by simp [hx])
    have := Int.mul_nonneg hV h2
    simp only [base]; omega

theorem base_lt {V : Int} {l : List Int} (h : ∀ a ∈ l, 0 ≤ a ∧ a < V) : base V l < V ^ l.length := by
  induction l with
  | nil => simp [base]
  | cons a as ih =>
    have h1 := h a (by simp)
    have h2 := ih fun x hx => h x (by simp [hx])
    have h3 : V * base V as ≤ V * (V ^ as.length - 1) := Int.mul_le_mul_of_nonneg_left (by omega) (by omega)
    have h4 : V ^ (a :: as).length = V * V ^ as.length := by rw [List.length_cons, pow_succ, mul_comm]
    rw [h4]
    simp only [base]
    have h5 : V * (V ^ as.length - 1) = V * V ^ as.length - V := by ring
    omega

theorem base_adv {V : Int} (hV : 0 ≤ V) {ls hs ts us : List Int} (hl : ∀ a ∈ ls, 0 ≤ a) (ht : ∀ a ∈ ts, a < V)
    (h : adv ls hs ts = some us) : base V ts + 1 ≤ base V us := by
  induction ts generalizing ls hs us with
  | nil => cases ls <;> cases hs <;> simp [adv] at h
  | cons t ts ih =>
    cases ls with
    | nil => simp [adv] at h
    | cons l ls =>
      cases hs with
      | nil => simp [adv] at h
      | cons m hs =>
        simp only [adv] at h
        split at h
        · cases ha : adv ls hs ts with
          | none => simp [ha] at h
          | some us' =>
            simp only [ha, Option.map_some, Option.some.injEq] at h
            subst h
            have h1 := ih (fun a h => hl a (by simp [h])) (fun a h => ht a (by simp [h])) ha
            have h2 := hl l (by simp)
            have h3 := ht t (by simp)
            have h4 : V * (base V ts + 1) ≤ V * base V us' := Int.mul_le_mul_of_nonneg_left h1 hV
            have h5 : V * (base V ts + 1) = V * base V ts + V := by ring
            simp only [base]; omega
        · simp only [Option.some.injEq] at h
          subst h
          simp only [base]; omega

theorem adv_nonneg {ls hs ts us : List Int} (hl : ∀ a ∈ ls, 0 ≤ a) (ht : ∀ a ∈ ts, 0 ≤ a) (h : adv ls hs ts = some us) :
    (∀ a ∈ us, 0 ≤ a) ∧ us.length = ts.length := by
  induction ts generalizing ls hs us with
  | nil => cases ls <;> cases hs <;> simp [adv] at h
  | cons t ts ih =>
    cases ls with
    | nil => simp [adv] at h
    | cons l ls =>
      cases hs with
      | nil => simp [adv] at h
      | cons m hs =>
        simp only [adv] at h
        split at h
        · cases ha : adv ls hs ts with
          | none => simp [ha] at h
          | some us' =>
            simp only [ha, Option.map_some, Option.some.injEq] at h
            subst h
            obtain ⟨h1, h2⟩ := ih (fun a h => hl a (by simp [h])) (fun a h => ht a (by simp [h])) ha
            refine ⟨fun a ha => ?_, by simp [h2]⟩
            rcases List.mem_cons.mp ha with rfl | ha
            · exact hl _ (by simp)
            · exact h1 a ha
        · simp only [Option.some.injEq] at h
          subst h
          refine ⟨fun a ha => ?_, by simp⟩
          rcases List.mem_cons.mp ha with rfl | ha
          · have := ht t (by simp); omega
          · exact ht a (by simp [ha])

theorem advance_gen {imin imax idx : List Int} (h1 : imax.length = idx.length) (h2 : imin.length = idx.length)
    (hne : idx ≠ []) {order : Int} (ho : order = idx.length) :
    advance order imin imax idx = .ok (adv imin imax idx) ∨ advance order imin imax idx = .error (.ub .overflow) := by
  have hf := findPos_of [] [] (is := idx) (ms := imax) rfl h1 hne (fuel := idx.length + 1) (by omega) (order := order)
    (by simp [ho])
  simp only [List.nil_append, List.length_nil] at hf
  simp only [advance, hf, ok_bind]
  rw [adv_eq h1 h2]
  cases hp : fpos idx imax with
  | none => left; simp
  | some j =>
    have hj := fpos_lt hp
    simp only [Option.map_some, Nat.add_zero, vget_nat idx j hj.1, ok_bind, iadd, ckInt]
    split
    · left
      simp only [ok_bind, vset_nat idx j _ hj.1]
      rw [resetLoop_of j _ (by omega) (by simp; omega), NDArray.drop_set_succ _ _ _ hj.1]
      simp [List.getElem?_eq_getElem hj.1]
    · right; rfl

theorem linLoop_le {term us : List Int} (ht : ∀ a ∈ term, 0 ≤ a) (hu : ∀ u ∈ us, 1 ≤ u) :
    ∀ (i : Nat) (acc l : Int), linLoop term us i acc = .ok l →
      acc ≤ l ∧ ∀ j, i ≤ j → j < i + us.length → ∃ t, term[j]? = some t ∧ t ≤ l - acc := by
  induction us with
  | nil => intro i acc l h; simp only [linLoop, Except.ok.injEq] at h; exact ⟨by omega, fun j h1 h2 => by simp at h2; omega⟩
  | cons u us ih =>
    intro i acc l h
    simp only [linLoop] at h
    cases hv : vget term ((i : Nat) : Int) with
    | error e => simp [hv, bind, Except.bind] at h
    | ok t =>
      have hti : term[i]? = some t := by rw [vget_ok] at hv; simpa using hv
      have ht0 : 0 ≤ t := ht t (List.mem_of_getElem? hti)
      have hu1 := hu u (by simp)
      simp only [hv, ok_bind, imul, iadd, ckInt] at h
      split at h
      · simp only [ok_bind] at h
        split at h
        · simp only [ok_bind] at h
          obtain ⟨h1, h2⟩ := ih (fun x hx => hu x (by simp [hx])) (i + 1) _ _ h
          have htu : t ≤ t * u := le_mul_of_one_le_right ht0 hu1
          refine ⟨by omega, fun j hj1 hj2 => ?_⟩
          by_cases hji : j = i
          · subst hji; exact ⟨t, hti, by omega⟩
          · obtain ⟨t', ht', hle⟩ := h2 j (by omega) (by simp at hj2; omega)
            exact ⟨t', ht', by omega⟩
        · simp [bind, Except.bind] at h
      · simp [bind, Except.bind] at h

variable {T : Type}

theorem push_ok_inv {item item' : NDArray (List T)} {idx : List Int} {x : T} (h : push item idx x = .ok item') :
    (∃ l, item.linearIndex idx = .ok l ∧ l < item.val.length) ∧ item'.unroll = item.unroll ∧ item'.order = item.order ∧
      item'.volume = item.volume ∧ item'.dim = item.dim ∧ item'.val.length = item.val.length := by
  simp only [push] at h
  cases hl : item.linearIndex idx with
  | error e => simp [hl, bind, Except.bind] at h
  | ok l =>
    simp only [hl, ok_bind] at h
    cases hg : item.getLin l with
    | error e => simp [hg, bind, Except.bind] at h
    | ok v =>
      simp only [hg, ok_bind, NDArray.setLin, vset] at h
      split at h
      · next hc =>
        simp only [ok_bind, Except.ok.injEq] at h
        subst h
        exact ⟨⟨l, rfl, by omega⟩, rfl, rfl, rfl, rfl, by simp⟩
      · simp [bind, Except.bind] at h

theorem vget_no_diverge {α : Type} (v : List α) (i : Int) : vget v i ≠ .error .diverge := by
  unfold vget
  split
  · split <;> simp
  · simp

theorem vset_no_diverge {α : Type} (v : List α) (i : Int) (a : α) : vset v i a ≠ .error .diverge := by
  unfold vset; split <;> simp

theorem ckInt_no_diverge (x : Int) : ckInt x ≠ .error .diverge := by
  unfold ckInt; split <;> simp

theorem linLoop_no_diverge (term us : List Int) : ∀ i acc, linLoop term us i acc ≠ .error .diverge := by
  induction us with
  | nil => intro i acc; simp [linLoop]
  | cons u us ih =>
    intro i acc h
    simp only [linLoop] at h
    cases hv : vget term ((i : Nat) : Int) with
    | error e => rw [hv] at h; simp only [bind, Except.bind, Except.error.injEq] at h; exact vget_no_diverge _ _ (h ▸ hv)
    | ok t =>
      simp only [hv, ok_bind, imul, iadd] at h
      cases hm : ckInt (t * u) with
      | error e => rw [hm] at h; simp only [bind, Except.bind, Except.error.injEq] at h; exact ckInt_no_diverge _ (h ▸ hm)
      | ok p =>
        simp only [hm, ok_bind] at h
        cases ha : ckInt (acc + p) with
        | error e => rw [ha] at h; simp only [bind, Except.bind, Except.error.injEq] at h; exact ckInt_no_diverge _ (h ▸ ha)
        | ok q => simp only [ha, ok_bind] at h; exact ih _ _ h

theorem push_no_diverge (item : NDArray (List T)) (idx : List Int) (x : T) : push item idx x ≠ .error .diverge := by
  intro h
  simp only [push] at h
  cases hl : item.linearIndex idx with
  | error e =>
    rw [hl] at h; simp only [bind, Except.bind, Except.error.injEq] at h
    exact linLoop_no_diverge _ _ _ _ (h ▸ hl)
  | ok l =>
    simp only [hl, ok_bind] at h
    cases hg : item.getLin l with
    | error e =>
      rw [hg] at h; simp only [bind, Except.bind, Except.error.injEq] at h
      exact vget_no_diverge _ _ (h ▸ hg)
    | ok v =>
      simp only [hg, ok_bind, NDArray.setLin] at h
      cases hs : vset item.val l (v ++ [x]) with
      | error e =>
        rw [hs] at h; simp only [bind, Except.bind, Except.error.injEq] at h
        exact vset_no_diverge _ _ _ (h ▸ hs)
      | ok w => simp [hs, bind, Except.bind] at h

/-- What the counter needs of the array: positive strides, one per direction, unless the array is empty. -/
structure Countable (a : NDArray (List T)) : Prop where
  len : a.val.length = a.volume.toNat
  strides : a.val = [] ∨ ((∀ u ∈ a.unroll, 1 ≤ u) ∧ (a.unroll.length : Int) = a.order ∧ a.unroll ≠ [])

theorem rangeLoop_ends {imin imax : List Int} (x : T) (n : Nat) (hmin : ∀ a ∈ imin, 0 ≤ a) (h1 : imin.length = n)
    (h2 : imax.length = n) : ∀ (fuel : Nat) (item : NDArray (List T)) (idx : List Int), Countable item →
      item.order = n → (∀ a ∈ idx, 0 ≤ a) → idx.length = n → 1 ≤ fuel →
      (item.volume.toNat : Int) ^ n + 1 ≤ base item.volume.toNat idx + fuel →
      (rangeLoop imin imax x fuel item idx).1 ≠ .error .diverge := by
  intro fuel
  induction fuel with
  | zero => intro item idx _ _ _ _ h; omega
  | succ f ih =>
    intro item idx hc ho hi hl _ hf
    simp only [rangeLoop]
    cases hp : push item idx x with
    | error e => simp only [ne_eq, Except.error.injEq]; rintro rfl; exact push_no_diverge item idx x hp
    | ok item' =>
      obtain ⟨⟨l, hl1, hl2⟩, hu, hor, hv, _, hvl⟩ := push_ok_inv hp
      have hne : item.val ≠ [] := by
        intro h0
        simp only [push, hl1, ok_bind, NDArray.getLin, h0, vget] at hp
        split at hp <;> simp [bind, Except.bind] at hp
      obtain ⟨s1, s2, s3⟩ := hc.strides.resolve_left hne
      have hlt : ∀ a ∈ idx, 0 ≤ a ∧ a < (item.volume.toNat : Int) := by
        intro a ha
        refine ⟨hi a ha, ?_⟩
        obtain ⟨j, hj, rfl⟩ := List.getElem_of_mem ha
        obtain ⟨_, hh⟩ := linLoop_le hi s1 0 0 l hl1
        obtain ⟨t, ht, hle⟩ := hh j (by omega) (by simp; omega)
        rw [List.getElem?_eq_getElem hj, Option.some.injEq] at ht
        rw [ht]
        have := hc.len
        omega
      have hblt := base_lt hlt
      rw [hl] at hblt
      have hidxne : idx ≠ [] := by
        intro h0; subst h0
        apply s3; apply List.length_eq_zero_iff.mp
        simp at hl; omega
      have hadv := advance_gen (order := item'.order) (h2.trans hl.symm) (h1.trans hl.symm) hidxne (by rw [hor, ho, hl])
      simp only
      rcases hadv with hadv | hadv
      · rw [hadv]
        cases ha : adv imin imax idx with
        | none => simp
        | some idx' =>
          simp only
          obtain ⟨g1, g2⟩ := adv_nonneg hmin hi ha
          have g3 := base_adv (V := item.volume.toNat) (by omega) hmin (fun a h => (hlt a h).2) ha
          refine ih item' idx' ⟨by rw [hvl, hv]; exact hc.len, ?_⟩ (by rw [hor]; exact ho) g1 (g2.trans hl) ?_ ?_
          · rw [hu, hor]
            exact Or.inr ⟨s1, s2, s3⟩
          · push_cast at hf; omega
          · rw [hv]; push_cast at hf ⊢; omega
      · rw [hadv]; simp

variable {K : Type} [Field K] [LinearOrder K] [FloorRing K]

theorem idxAt_no_diverge (mn mx ic c : List K) (i : Nat) : idxAt mn mx ic c i ≠ .error .diverge := by
  intro h
  simp only [idxAt] at h
  cases h1 : vget c ((i : Nat) : Int) with
  | error e => rw [h1] at h; simp only [bind, Except.bind, Except.error.injEq] at h; exact vget_no_diverge _ _ (h ▸ h1)
  | ok a =>
    simp only [h1, ok_bind] at h
    cases h2 : vget mn ((i : Nat) : Int) with
    | error e => rw [h2] at h; simp only [bind, Except.bind, Except.error.injEq] at h; exact vget_no_diverge _ _ (h ▸ h2)
    | ok lo =>
      simp only [h2, ok_bind] at h
      split at h
      · simp at h
      · cases h3 : vget mx ((i : Nat) : Int) with
        | error e => rw [h3] at h; simp only [bind, Except.bind, Except.error.injEq] at h; exact vget_no_diverge _ _ (h ▸ h3)
        | ok hi =>
          simp only [h3, ok_bind] at h
          split at h
          · simp at h
          · cases h4 : vget ic ((i : Nat) : Int) with
            | error e =>
              rw [h4] at h; simp only [bind, Except.bind, Except.error.injEq] at h; exact vget_no_diverge _ _ (h ▸ h4)
            | ok d =>
              simp only [h4, ok_bind] at h
              split at h
              · simp at h
              · exact ckInt_no_diverge _ h

theorem idxLoop_no_diverge (mn mx ic c : List K) (n : Nat) :
    ∀ i term, (idxLoop mn mx ic c n i term).1 ≠ .error .diverge ∧ (idxLoop mn mx ic c n i term).2.length = term.length := by
  induction n with
  | zero => intro i term; simp [idxLoop]
  | succ n ih =>
    intro i term
    simp only [idxLoop]
    cases h1 : idxAt mn mx ic c i with
    | error e =>
      simp only [ne_eq, Except.error.injEq, and_true]; rintro rfl; exact idxAt_no_diverge mn mx ic c i h1
    | ok k =>
      simp only
      cases h2 : vset term ((i : Nat) : Int) k with
      | error e => simp only [ne_eq, Except.error.injEq, and_true]; rintro rfl; exact vset_no_diverge _ _ _ h2
      | ok t =>
        simp only
        have hlen : t.length = term.length := by
          unfold vset at h2; split at h2
          · simp only [Except.ok.injEq] at h2; rw [← h2]; simp
          · simp at h2
        exact ⟨(ih (i + 1) t).1, (ih (i + 1) t).2.trans hlen⟩

/-- The upper corner is the one the constructor computed, for positive numbers of bins. -/
structure Cornered (b : Bin T K) : Prop where
  pos : ∀ (i : Nat) m M d, b.min[i]? = some m → b.max[i]? = some M → b.incr[i]? = some d → m ≤ M → 0 ≤ d

variable [IsStrictOrderedRing K]

theorem idxAt_nonneg {mn mx ic c : List K}
    (hp : ∀ (i : Nat) m M d, mn[i]? = some m → mx[i]? = some M → ic[i]? = some d → m ≤ M → 0 ≤ d) {i : Nat} {k : Int}
    (h : idxAt mn mx ic c i = .ok k) : 0 ≤ k := by
  simp only [idxAt] at h
  cases h1 : vget c ((i : Nat) : Int) with
  | error e => simp [h1, bind, Except.bind] at h
  | ok a =>
    simp only [h1, ok_bind] at h
    cases h2 : vget mn ((i : Nat) : Int) with
    | error e => simp [h2, bind, Except.bind] at h
    | ok lo =>
      simp only [h2, ok_bind] at h
      split at h
      · simp at h
      · next hlo =>
        cases h3 : vget mx ((i : Nat) : Int) with
        | error e => simp [h3, bind, Except.bind] at h
        | ok hi =>
          simp only [h3, ok_bind] at h
          split at h
          · simp at h
          · next hhi =>
            cases h4 : vget ic ((i : Nat) : Int) with
            | error e => simp [h4, bind, Except.bind] at h
            | ok d =>
              simp only [h4, ok_bind] at h
              split at h
              · simp at h
              · next hd =>
                rw [vget_ok] at h2 h3 h4
                have hd0 := hp i lo hi d (by simpa using h2) (by simpa using h3) (by simpa using h4)
                  ((not_lt.mp hlo).trans (not_lt.mp hhi))
                have hdp : 0 < d := lt_of_le_of_ne hd0 (Ne.symm hd)
                simp only [ckInt] at h
                split at h
                · simp only [Except.ok.injEq] at h
                  rw [← h]
                  exact floor_idx_nonneg hdp (not_lt.mp hlo)
                · simp at h

theorem idxLoop_nonneg {mn mx ic c : List K}
    (hp : ∀ (i : Nat) m M d, mn[i]? = some m → mx[i]? = some M → ic[i]? = some d → m ≤ M → 0 ≤ d) (n : Nat) :
    ∀ i term, (∀ a ∈ term, 0 ≤ a) → ∀ a ∈ (idxLoop mn mx ic c n i term).2, 0 ≤ a := by
  induction n with
  | zero => intro i term h; simpa [idxLoop] using h
  | succ n ih =>
    intro i term h
    simp only [idxLoop]
    cases h1 : idxAt mn mx ic c i with
    | error e => simpa using h
    | ok k =>
      simp only
      cases h2 : vset term ((i : Nat) : Int) k with
      | error e => simpa using h
      | ok t =>
        simp only
        refine ih (i + 1) t fun a ha => ?_
        unfold vset at h2; split at h2
        · simp only [Except.ok.injEq] at h2
          rw [← h2] at ha
          rcases List.mem_or_eq_of_mem_set ha with ha | rfl
          · exact h a ha
          · exact idxAt_nonneg hp h1
        · simp at h2

theorem addRange_ends {b : Bin T K} (hc : Countable b.item) (hk : Cornered b) (x : T) (lo hi : List K) :
    (b.addRange x lo hi).1 ≠ .error .diverge := by
  simp only [addRange]
  have hz : ∀ a ∈ List.replicate b.item.order.toNat (0 : Int), 0 ≤ a := by
    intro a ha; rw [(List.mem_replicate.mp ha).2]
  have l1 := idxLoop_no_diverge b.min b.max b.incr lo b.item.order.toNat 0 (List.replicate b.item.order.toNat (0 : Int))
  have l2 := idxLoop_no_diverge b.min b.max b.incr hi b.item.order.toNat 0 (List.replicate b.item.order.toNat (0 : Int))
  have n1 := idxLoop_nonneg (c := lo) hk.pos b.item.order.toNat 0 _ hz
  simp only [indicesOf]
  cases h1 : idxLoop b.min b.max b.incr lo b.item.order.toNat 0 (List.replicate b.item.order.toNat (0 : Int)) with
  | mk r1 imin =>
    rw [h1] at l1 n1
    cases r1 with
    | error e => exact l1.1
    | ok _ =>
      simp only
      cases h2 : idxLoop b.min b.max b.incr hi b.item.order.toNat 0 (List.replicate b.item.order.toNat (0 : Int)) with
      | mk r2 imax =>
        rw [h2] at l2
        cases r2 with
        | error e => exact l2.1
        | ok _ =>
          simp only
          have e1 : imin.length = b.item.order.toNat := by simpa using l1.2
          have e2 : imax.length = b.item.order.toNat := by simpa using l2.2
          by_cases hv : b.item.val = []
          · simp only [rangeLoop]
            cases hp : push b.item imin x with
            | error e => simp only [ne_eq, Except.error.injEq]; rintro rfl; exact push_no_diverge b.item imin x hp
            | ok item' =>
              obtain ⟨⟨l, hl1, hl2⟩, _⟩ := push_ok_inv hp
              simp only [push, hl1, ok_bind, NDArray.getLin, hv, vget] at hp
              split at hp <;> simp [bind, Except.bind] at hp
          · obtain ⟨s1, s2, s3⟩ := hc.strides.resolve_left hv
            refine rangeLoop_ends x b.item.order.toNat n1 e1 e2 _ b.item imin hc (by omega) n1 e1 (by omega) ?_
            have h0 : 0 ≤ base (b.item.volume.toNat : Int) imin := base_nonneg (by omega) n1
            push_cast; omega

/-- Both, for the histories. -/
structure Ends (b : Bin T K) : Prop where
  cnt : Countable b.item
  cor : Cornered b

omit [LinearOrder K] [FloorRing K] [IsStrictOrderedRing K] in
theorem maxLoop_get {ic : List K} {N : List Int} : ∀ (ms : List K) (i : Nat) (Ms : List K), maxLoop ic N ms i = .ok Ms →
    ∀ j m M, ms[j]? = some m → Ms[j]? = some M → ∃ d n, ic[i + j]? = some d ∧ N[i + j]? = some n ∧ M = m + d * (n : K) := by
  intro ms
  induction ms with
  | nil => intro i Ms h j m M hj; simp at hj
  | cons a ms ih =>
    intro i Ms h j m M hj hJ
    simp only [maxLoop] at h
    cases h1 : vget ic ((i : Nat) : Int) with
    | error e => simp [h1, bind, Except.bind] at h
    | ok d =>
      simp only [h1, ok_bind] at h
      cases h2 : vget N ((i : Nat) : Int) with
      | error e => simp [h2, bind, Except.bind] at h
      | ok n =>
        simp only [h2, ok_bind] at h
        cases h3 : maxLoop ic N ms (i + 1) with
        | error e => simp [h3, bind, Except.bind] at h
        | ok rest =>
          simp only [h3, ok_bind, Except.ok.injEq] at h
          subst h
          cases j with
          | zero =>
            simp only [List.getElem?_cons_zero, Option.some.injEq] at hj hJ
            subst hj; subst hJ
            rw [vget_ok] at h1 h2
            exact ⟨d, n, by simpa using h1, by simpa using h2, rfl⟩
          | succ j =>
            simp only [List.getElem?_cons_succ] at hj hJ
            obtain ⟨d', n', e1, e2, e3⟩ := ih (i + 1) rest h3 j m M hj hJ
            exact ⟨d', n', by rw [show i + (j + 1) = i + 1 + j by omega]; exact e1,
              by rw [show i + (j + 1) = i + 1 + j by omega]; exact e2, e3⟩

theorem resize_count {d : List T} {N : List Int} {a : NDArray (List T)} (hN : ∀ n ∈ N, 0 ≤ n)
    (h : NDArray.ofDim d N = .ok a) : Countable a ∧ (a.val = [] ∨ ∀ n ∈ N, 0 < n) := by
  simp only [NDArray.ofDim, NDArray.resize] at h
  cases hv : calcVolume N with
  | error e => rw [hv] at h; simp at h
  | ok v =>
    rw [hv] at h
    simp only at h
    by_cases hneg : v < 0
    · rw [if_pos hneg] at h; simp at h
    · rw [if_neg hneg] at h
      cases hg : genUnroll N NDArray.empty.unroll with
      | error e => rw [hg] at h; simp at h
      | ok u =>
        rw [hg] at h
        simp only [Except.ok.injEq] at h
        obtain ⟨hne, rfl⟩ := genUnroll_ok hg
        have hvp := calcVolume_ok hv
        rw [if_neg hne] at hvp
        subst h
        by_cases hpos : ∀ n ∈ N, 0 < n
        · refine ⟨⟨by simp [vresize, NDArray.empty], Or.inr ⟨?_, ?_, ?_⟩⟩, Or.inr hpos⟩
          · intro x hx
            obtain ⟨i, hi, rfl⟩ := List.getElem_of_mem hx
            have hlt : i < N.length := by simpa [strides_length] using hi
            have h2 := strides_getElem? N i hlt
            rw [List.getElem?_eq_getElem hi, Option.some.injEq] at h2
            rw [h2]
            have := prod_pos (ds := N.drop (i + 1)) fun y hy => hpos y (List.mem_of_mem_drop hy)
            omega
          · simp [strides_length]
          · intro h0
            have := congrArg List.length h0
            simp [strides_length] at this
            exact hne this
        · push Not at hpos
          obtain ⟨n, hn, hn0⟩ := hpos
          have hz : n = 0 := le_antisymm hn0 (hN n hn)
          have hprod : prod N = 0 := by
            clear hv hg hvp hN hne hneg
            subst hz
            induction N with
            | nil => simp at hn
            | cons m N ih =>
              rcases List.mem_cons.mp hn with rfl | hn
              · simp [prod]
              · simp [prod, ih hn]
          rw [hprod] at hvp
          subst hvp
          refine ⟨⟨by simp [vresize, NDArray.empty], Or.inl (by simp [vresize, NDArray.empty])⟩,
            Or.inl (by simp [vresize, NDArray.empty])⟩

theorem mk'_ends {min incr : List K} {N : List Int} {b : Bin T K} (hN : ∀ n ∈ N, 0 ≤ n) (h : mk' min incr N = .ok b) :
    b.item.val = [] ∨ Ends b := by
  simp only [mk'] at h
  cases h1 : maxLoop incr N min 0 with
  | error e => simp [h1, bind, Except.bind] at h
  | ok mx =>
    simp only [h1, ok_bind] at h
    cases h2 : NDArray.ofDim ([] : List T) N with
    | error e => simp [h2, bind, Except.bind] at h
    | ok it =>
      simp only [h2, ok_bind, Except.ok.injEq] at h
      subst h
      obtain ⟨hc, hv⟩ := resize_count hN h2
      rcases hv with hv | hpos
      · exact Or.inl hv
      · refine Or.inr ⟨hc, ⟨fun i m M d e1 e2 e3 hle => ?_⟩⟩
        obtain ⟨d', n, f1, f2, f3⟩ := maxLoop_get min 0 mx h1 i m M e1 e2
        rw [Nat.zero_add] at f1 f2
        simp only at e3
        rw [e3, Option.some.injEq] at f1
        subst f1
        have hn : (0 : K) < n := by exact_mod_cast hpos n (List.mem_of_getElem? f2)
        have : 0 ≤ d * (n : K) := by linarith
        by_contra hd
        have := mul_neg_of_neg_of_pos (not_le.mp hd) hn
        linarith

omit [Field K] [LinearOrder K] [FloorRing K] [IsStrictOrderedRing K] in
theorem push_empty {item item' : NDArray (List T)} {idx : List Int} {x : T} (hv : item.val = [])
    (h : push item idx x = .ok item') : False := by
  obtain ⟨⟨l, hl1, hl2⟩, _⟩ := push_ok_inv h
  simp only [push, hl1, ok_bind, NDArray.getLin, hv, vget] at h
  split at h <;> simp [bind, Except.bind] at h

theorem push_countable {item item' : NDArray (List T)} {idx : List Int} {x : T} (hc : Countable item)
    (h : push item idx x = .ok item') : Countable item' := by
  have hne : item.val ≠ [] := fun hv => push_empty hv h
  obtain ⟨_, hu, ho, hv, _, hl⟩ := push_ok_inv h
  exact ⟨by rw [hl, hv]; exact hc.len, Or.inr (by rw [hu, ho]; exact hc.strides.resolve_left hne)⟩

theorem rangeLoop_countable {imin imax : List Int} (x : T) : ∀ (fuel : Nat) (item : NDArray (List T)) (idx : List Int),
    Countable item → Countable (rangeLoop imin imax x fuel item idx).2.1 := by
  intro fuel
  induction fuel with
  | zero => intro item idx h; exact h
  | succ f ih =>
    intro item idx h
    simp only [rangeLoop]
    cases hp : push item idx x with
    | error e => exact h
    | ok item' =>
      have h' := push_countable h hp
      simp only
      cases ha : advance item'.order imin imax idx with
      | error e => exact h'
      | ok o =>
        cases o with
        | none => exact h'
        | some idx' => exact ih item' idx' h'

theorem rangeLoop_empty {imin imax : List Int} (x : T) (fuel : Nat) (item : NDArray (List T)) (idx : List Int)
    (hv : item.val = []) : (rangeLoop imin imax x fuel item idx).2.1 = item := by
  cases fuel with
  | zero => rfl
  | succ f =>
    simp only [rangeLoop]
    cases hp : push item idx x with
    | error e => rfl
    | ok item' => exact (push_empty hv hp).elim

omit [IsStrictOrderedRing K] in
/-- A step changes only the scratch indices and the stored lists. -/
theorem step_ends [DecidableEq T] {b : Bin T K} (h : b.item.val = [] ∨ Ends b) (op : Op T K) :
    (b.step op).2.item.val = [] ∨ Ends (b.step op).2 := by
  have key : ∀ it idx, (b.item.val = [] → it = b.item) → (Countable b.item → Countable it) →
      ({ b with item := it, indices := idx } : Bin T K).item.val = [] ∨ Ends { b with item := it, indices := idx } := by
    intro it idx h1 h2
    rcases h with h | h
    · exact Or.inl (by simp only; rw [h1 h]; exact h)
    · exact Or.inr ⟨h2 h.cnt, ⟨h.cor.pos⟩⟩
  have keyi : ∀ idx, ({ b with indices := idx } : Bin T K).item.val = [] ∨ Ends { b with indices := idx } :=
    fun idx => key b.item idx (fun _ => rfl) id
  cases op with
  | add x c =>
    simp only [step, add]
    cases hi : b.indicesOf c b.indices with
    | mk r idx =>
      cases r with
      | error e => exact keyi idx
      | ok _ =>
        simp only
        cases hp : push b.item idx x with
        | error e => exact keyi idx
        | ok it => exact key it idx (fun hv => (push_empty hv hp).elim) fun hc => push_countable hc hp
  | addOnce x c =>
    simp only [step, addOnce]
    cases hi : b.indicesOf c b.indices with
    | mk r idx =>
      cases r with
      | error e => exact keyi idx
      | ok _ =>
        simp only
        cases hg : b.item.get idx with
        | error e => exact keyi idx
        | ok v =>
          simp only
          split
          · exact keyi idx
          · cases hp : push b.item idx x with
            | error e => exact keyi idx
            | ok it => exact key it idx (fun hv => (push_empty hv hp).elim) fun hc => push_countable hc hp
  | addRange x lo hi =>
    simp only [step, addRange]
    cases h1 : b.indicesOf lo (List.replicate b.item.order.toNat 0) with
    | mk r1 imin =>
      cases r1 with
      | error e => exact h
      | ok _ =>
        simp only
        cases h2 : b.indicesOf hi (List.replicate b.item.order.toNat 0) with
        | mk r2 imax =>
          cases r2 with
          | error e => exact h
          | ok _ =>
            exact key _ _ (fun hv => rangeLoop_empty x _ b.item imin hv) fun hc => rangeLoop_countable x _ b.item imin hc

theorem addRange_empty {b : Bin T K} (hv : b.item.val = []) (x : T) (lo hi : List K) :
    (b.addRange x lo hi).1 ≠ .error .diverge := by
  simp only [addRange, indicesOf]
  have l1 := idxLoop_no_diverge b.min b.max b.incr lo b.item.order.toNat 0 (List.replicate b.item.order.toNat (0 : Int))
  have l2 := idxLoop_no_diverge b.min b.max b.incr hi b.item.order.toNat 0 (List.replicate b.item.order.toNat (0 : Int))
  cases h1 : idxLoop b.min b.max b.incr lo b.item.order.toNat 0 (List.replicate b.item.order.toNat (0 : Int)) with
  | mk r1 imin =>
    rw [h1] at l1
    cases r1 with
    | error e => exact l1.1
    | ok _ =>
      simp only
      cases h2 : idxLoop b.min b.max b.incr hi b.item.order.toNat 0 (List.replicate b.item.order.toNat (0 : Int)) with
      | mk r2 imax =>
        rw [h2] at l2
        cases r2 with
        | error e => exact l2.1
        | ok _ =>
          simp only [rangeLoop]
          cases hp : push b.item imin x with
          | error e => simp only [ne_eq, Except.error.injEq]; rintro rfl; exact push_no_diverge b.item imin x hp
          | ok item' => exact (push_empty hv hp).elim

theorem addRange_no_diverge {b : Bin T K} (h : b.item.val = [] ∨ Ends b) (x : T) (lo hi : List K) :
    (b.addRange x lo hi).1 ≠ .error .diverge := by
  rcases h with h | h
  · exact addRange_empty h x lo hi
  · exact addRange_ends h.cnt h.cor x lo hi

omit [IsStrictOrderedRing K] in
theorem add_no_diverge (b : Bin T K) (x : T) (c : List K) : (b.add x c).1 ≠ .error .diverge := by
  have l1 := idxLoop_no_diverge b.min b.max b.incr c b.item.order.toNat 0 b.indices
  simp only [add, indicesOf]
  cases h1 : idxLoop b.min b.max b.incr c b.item.order.toNat 0 b.indices with
  | mk r idx =>
    rw [h1] at l1
    cases r with
    | error e => exact l1.1
    | ok _ =>
      simp only
      cases hp : push b.item idx x with
      | error e => simp only [ne_eq, Except.error.injEq]; rintro rfl; exact push_no_diverge b.item idx x hp
      | ok it => simp

omit [IsStrictOrderedRing K] in
theorem addOnce_no_diverge [DecidableEq T] (b : Bin T K) (x : T) (c : List K) : (b.addOnce x c).1 ≠ .error .diverge := by
  have l1 := idxLoop_no_diverge b.min b.max b.incr c b.item.order.toNat 0 b.indices
  simp only [addOnce, indicesOf]
  cases h1 : idxLoop b.min b.max b.incr c b.item.order.toNat 0 b.indices with
  | mk r idx =>
    rw [h1] at l1
    cases r with
    | error e => exact l1.1
    | ok _ =>
      simp only
      cases hg : b.item.get idx with
      | error e =>
        simp only [ne_eq, Except.error.injEq]; rintro rfl
        simp only [NDArray.get] at hg
        cases hl : b.item.linearIndex idx with
        | error e =>
          rw [hl] at hg; simp only [bind, Except.bind, Except.error.injEq] at hg
          exact linLoop_no_diverge _ _ _ _ (hg ▸ hl)
        | ok l => simp only [hl, ok_bind] at hg; exact vget_no_diverge _ _ hg
      | ok v =>
        simp only
        split
        · simp
        · cases hp : push b.item idx x with
          | error e => simp only [ne_eq, Except.error.injEq]; rintro rfl; exact push_no_diverge b.item idx x hp
          | ok it => simp

end Verif.Bin
