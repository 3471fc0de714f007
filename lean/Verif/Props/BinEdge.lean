import Verif.Props.Bin

/-!
# Property C10 at the upper limits, for every grid of two directions

Beside `C10_at_max_1d_violated` (every grid of one direction).
-/

namespace Verif
open Spec Bin
variable {T K : Type} [Field K] [LinearOrder K] [FloorRing K] [IsStrictOrderedRing K]

/-- The indices computed for a coordinate in the closed grid. -/
theorem indicesOf_closed_2d [DecidableEq T] {m0 m1 d0 d1 : K} {n0 n1 : Int} (hd0 : 0 < d0) (hd1 : 0 < d1) (hg : GoodGrid [m0, m1] [d0, d1] [n0, n1])
    {b : Bin T K} (hi : Inv b [m0, m1] [d0, d1] [n0, n1]) {x y : K} (hx : m0 ≤ x ∧ x ≤ m0 + d0 * n0) (hy : m1 ≤ y ∧ y ≤ m1 + d1 * n1) :
    b.indicesOf [x, y] b.indices = (.ok (), [⌊(x - m0) / d0⌋, ⌊(y - m1) / d1⌋]) := by
  have hle := goodDims_le hg.2.2.2
  have k0 := floor_idx_nonneg hd0 hx.1
  have k1 := floor_idx_nonneg hd1 hy.1
  have l0 := floor_idx_le hd0 hx.2
  have l1 := floor_idx_le hd1 hy.2
  have c0 := ckInt_nonneg _ k0 (l0.trans (hle n0 (by simp)))
  have c1 := ckInt_nonneg _ k1 (l1.trans (hle n1 (by simp)))
  obtain ⟨r, s, hr⟩ : ∃ r s, b.indices = [r, s] := List.length_eq_two.mp (by simpa using hi.idx_len)
  simp only [indicesOf, hi.min_eq, hi.max_eq, hi.incr_eq, hi.item_ok.order_eq, hr]
  simp [idxLoop, idxAt, vget, gridMax, vset, not_lt.mpr hx.1, not_lt.mpr hx.2, not_lt.mpr hy.1, not_lt.mpr hy.2, hd0.ne', hd1.ne', c0, c1]

/-- **C10, violation** (two directions, every grid and history) At the upper limit of the second direction, in a row that is not the last, an item goes to the
bin at the start of the next row and `contents` returns that bin's items; in the last row, and at the upper limit of the first direction, the access is
undefined behaviour. -/
theorem C10_at_max_2d_violated [DecidableEq T] (m0 m1 d0 d1 : K) (n0 n1 : Int)
    (hg : GoodGrid [m0, m1] [d0, d1] [n0, n1]) (reqs : List (BinReq T K)) (b : Bin T K) (hb : b.Reach [m0, m1] [d0, d1] [n0, n1] reqs) (x : T) :
    (∀ c e : K, m0 ≤ c → c < m0 + d0 * (n0 - 1 : Int) → e < m1 + d1 → m1 ≤ e →
      (b.contents [c, m1 + d1 * n1]).1 = (b.contents [c + d0, e]).1 ∧
      (b.add x [c, m1 + d1 * n1]).1 = .ok () ∧
      ∃ l, (b.contents [c + d0, e]).1 = .ok l ∧ ((b.add x [c, m1 + d1 * n1]).2.contents [c + d0, e]).1 = .ok (l ++ [x])) ∧
    (∀ c : K, m0 + d0 * (n0 - 1 : Int) ≤ c → c ≤ m0 + d0 * n0 →
      (∃ u, (b.contents [c, m1 + d1 * n1]).1 = .error (.ub u)) ∧ ∃ u, (b.add x [c, m1 + d1 * n1]).1 = .error (.ub u)) ∧
    ∀ e : K, m1 ≤ e → e ≤ m1 + d1 * n1 →
      (∃ u, (b.contents [m0 + d0 * n0, e]).1 = .error (.ub u)) ∧ ∃ u, (b.add x [m0 + d0 * n0, e]).1 = .error (.ub u) := by
  have hd0 : 0 < d0 := hg.2.2.1 d0 (by simp)
  have hd1 : 0 < d1 := hg.2.2.1 d1 (by simp)
  obtain ⟨hi, _⟩ := hb.inv hg
  have hn0 : 0 < n0 := hg.2.2.2.2.1 n0 (by simp)
  have hn1 : 0 < n1 := hg.2.2.2.2.1 n1 (by simp)
  have hv : n0 * n1 ≤ intMax := by have := hg.2.2.2.2.2; simpa [prod, intMax] using this
  have hlen : (b.item.val.length : Int) = n0 * n1 := by have := hi.item_ok.len_eq; simpa [prod] using this
  have e1 : ⌊(m1 + d1 * (n1 : K) - m1) / d1⌋ = n1 := by
    rw [add_sub_cancel_left, mul_div_cancel_left₀ _ hd1.ne', Int.floor_intCast]
  have e0 : ⌊(m0 + d0 * (n0 : K) - m0) / d0⌋ = n0 := by
    rw [add_sub_cancel_left, mul_div_cancel_left₀ _ hd0.ne', Int.floor_intCast]
  have p0 : m0 ≤ m0 + d0 * (n0 : K) := by have : (0 : K) ≤ d0 * (n0 : K) := mul_nonneg hd0.le (by exact_mod_cast hn0.le); linarith
  have p1 : m1 ≤ m1 + d1 * (n1 : K) := by have : (0 : K) ≤ d1 * (n1 : K) := mul_nonneg hd1.le (by exact_mod_cast hn1.le); linarith
  -- the linear index, as far as it is in range
  have lin : ∀ k0 k1 : Int, 0 ≤ k0 → 0 ≤ k1 → b.item.linearIndex [k0, k1] = .ok (k0 * n1 + k1) ∨
      (∃ u, b.item.linearIndex [k0, k1] = .error (.ub u)) ∧ intMax < k0 * n1 + k1 := by
    intro k0 k1 h0 h1
    have hm : 0 ≤ k0 * n1 := mul_nonneg h0 hn1.le
    have hs : b.item.linearIndex [k0, k1] = (do let p ← imul k0 n1; let l ← iadd 0 p; let q ← imul k1 1; iadd l q) := by
      simp [NDArray.linearIndex, hi.item_ok.unroll_eq, strides, prod, NDArray.linLoop, vget]
      cases imul k0 n1 with
      | error e => rfl
      | ok p => cases h : iadd 0 p with
        | error e => simp [h, bind, Except.bind]
        | ok l => simp [h]; cases imul k1 1 with
          | error e => rfl
          | ok q => rw [ok_bind, ok_bind]; cases iadd l q <;> rfl
    by_cases hf : k0 * n1 + k1 ≤ intMax
    · left
      rw [hs]
      simp [imul, iadd, ckInt_nonneg _ hm (by omega), ckInt_nonneg _ h1 (by omega), ckInt_nonneg _ (Int.add_nonneg hm h1) hf]
    · right
      refine ⟨?_, by omega⟩
      rw [hs]
      by_cases h2 : k0 * n1 ≤ intMax
      · by_cases h3 : k1 ≤ intMax
        · refine ⟨.overflow, ?_⟩
          simp [imul, iadd, ckInt_nonneg _ hm h2, ckInt_nonneg _ h1 h3]
          simp [ckInt]; omega
        · refine ⟨.overflow, ?_⟩
          have : ckInt k1 = .error (.ub .overflow) := by simp [ckInt]; omega
          simp [imul, iadd, ckInt_nonneg _ hm h2, this, bind, Except.bind]
      · refine ⟨.overflow, ?_⟩
        have : ckInt (k0 * n1) = .error (.ub .overflow) := by simp [ckInt]; omega
        simp [imul, this, bind, Except.bind]
  -- an access beyond the end
  have beyond : ∀ (c e : K) (k0 k1 : Int), b.indicesOf [c, e] b.indices = (.ok (), [k0, k1]) → 0 ≤ k0 → 0 ≤ k1 → n0 * n1 ≤ k0 * n1 + k1 →
      (∃ u, (b.contents [c, e]).1 = .error (.ub u)) ∧ ∃ u, (b.add x [c, e]).1 = .error (.ub u) := by
    intro c e k0 k1 hidx h0 h1 hbig
    rcases lin k0 k1 h0 h1 with hl | ⟨⟨u, hl⟩, _⟩
    · have hoob : vget b.item.val (k0 * n1 + k1) = .error (.ub .oob) := vget_err (by omega)
      exact ⟨⟨.oob, by simp [contents, hidx, NDArray.get, hl, NDArray.getLin, hoob]⟩,
        ⟨.oob, by simp [add, hidx, push, hl, NDArray.getLin, hoob, bind, Except.bind]⟩⟩
    · exact ⟨⟨u, by simp [contents, hidx, NDArray.get, hl, bind, Except.bind]⟩, ⟨u, by simp [add, hidx, push, hl, bind, Except.bind]⟩⟩
  refine ⟨?_, ?_, ?_⟩
  · intro c e hc hc' he' he
    have hlt : ⌊(c - m0) / d0⌋ < n0 - 1 := floor_idx_lt hd0 hc'
    have hk0 := floor_idx_nonneg hd0 hc
    have hcn : c < m0 + d0 * (n0 : K) := by
      have : d0 * ((n0 - 1 : Int) : K) = d0 * (n0 : K) - d0 := by push_cast; ring
      rw [this] at hc'; linarith
    have i1 := indicesOf_closed_2d hd0 hd1 hg hi (x := c) (y := m1 + d1 * n1) ⟨hc, hcn.le⟩ ⟨p1, le_refl _⟩
    rw [e1] at i1
    have hin : InGrid [m0, m1] [d0, d1] [n0, n1] [c + d0, e] := by
      have : d0 * ((n0 - 1 : Int) : K) = d0 * (n0 : K) - d0 := by push_cast; ring
      rw [this] at hc'
      have h1 : d1 ≤ d1 * (n1 : K) := le_mul_of_one_le_right hd1.le (by exact_mod_cast hn1)
      exact ⟨⟨by linarith, by linarith⟩, ⟨he, by linarith⟩, trivial⟩
    have hbin : binOf [m0, m1] [d0, d1] [c + d0, e] = [⌊(c - m0) / d0⌋ + 1, 0] := by
      have h1 : (c + d0 - m0) / d0 = (c - m0) / d0 + 1 := by field_simp; ring
      have h2 : ⌊(e - m1) / d1⌋ = 0 := by
        refine le_antisymm ?_ (floor_idx_nonneg hd1 he)
        have := floor_idx_lt (n := 1) hd1 (c := e) (m := m1) (by push_cast; linarith)
        omega
      simp [binOf, h1, h2, Int.floor_add_one]
    have hl : b.item.linearIndex [⌊(c - m0) / d0⌋, n1] = b.item.linearIndex [⌊(c - m0) / d0⌋ + 1, 0] := by
      have hle : ⌊(c - m0) / d0⌋ * n1 + n1 ≤ n0 * n1 := by nlinarith
      rcases lin _ n1 hk0 hn1.le with h | h
      · rcases lin (⌊(c - m0) / d0⌋ + 1) 0 (by omega) (le_refl _) with h' | h'
        · rw [h, h']; congr 1; ring
        · exfalso; have := h'.2; have e : (⌊(c - m0) / d0⌋ + 1) * n1 + 0 = ⌊(c - m0) / d0⌋ * n1 + n1 := by ring
          omega
      · exfalso; have := h.2; omega
    have hbox := inGrid_inBox hg.2.2.1 hin
    rw [hbin] at hbox
    obtain ⟨b2, q1, _, _⟩ := contents_in hg hi hin
    rw [hbin] at q1
    obtain ⟨it, q2, q3, q4⟩ := push_of hi.item_ok hg.2.2.2 hbox x
    have q2' : push b.item [⌊(c - m0) / d0⌋, n1] x = .ok it := by
      rw [← q2]; simp only [push, hl]
    have hadd : b.add x [c, m1 + d1 * n1] = (.ok (), { b with indices := [⌊(c - m0) / d0⌋, n1], item := it }) := by
      simp only [add, i1, q2']
    have hi2 : Inv ({ b with indices := [⌊(c - m0) / d0⌋, n1], item := it } : Bin T K) [m0, m1] [d0, d1] [n0, n1] := by
      exact ⟨hi.min_eq, hi.incr_eq, hi.max_eq, q3, rfl⟩
    obtain ⟨b3, q5, _, _⟩ := contents_in hg hi2 hin
    rw [hbin] at q5
    refine ⟨?_, by rw [hadd], cell b.item [n0, n1] [⌊(c - m0) / d0⌋ + 1, 0], by rw [q1], ?_⟩
    · have hget := get_cell hi.item_ok hg.2.2.2 hbox
      have hget' : b.item.get [⌊(c - m0) / d0⌋, n1] = .ok (cell b.item [n0, n1] [⌊(c - m0) / d0⌋ + 1, 0]) := by
        rw [← hget]; simp only [NDArray.get, hl]
      rw [q1]
      simp only [contents, i1, hget']
    · rw [hadd, q5, q4 _ hbox, if_pos rfl]
  · intro c hc hc'
    have hm : m0 ≤ c := by
      have : (0 : K) ≤ d0 * ((n0 - 1 : Int) : K) := mul_nonneg hd0.le (by exact_mod_cast (by omega : (0 : Int) ≤ n0 - 1))
      linarith
    have i1 := indicesOf_closed_2d hd0 hd1 hg hi (x := c) (y := m1 + d1 * n1) ⟨hm, hc'⟩ ⟨p1, le_refl _⟩
    rw [e1] at i1
    have hge : n0 - 1 ≤ ⌊(c - m0) / d0⌋ := by
      rw [Int.le_floor, le_div_iff₀ hd0]
      linarith
    exact beyond _ _ _ _ i1 (by omega) hn1.le (by nlinarith)
  · intro e he he'
    have i1 := indicesOf_closed_2d hd0 hd1 hg hi (x := m0 + d0 * n0) (y := e) ⟨p0, le_refl _⟩ ⟨he, he'⟩
    rw [e0] at i1
    have := floor_idx_nonneg hd1 he
    exact beyond _ _ _ _ i1 hn0.le this (by omega)

/-- The hypotheses hold for a 3×2 grid and a history; the position `(1/2, 2)` is in its first row. -/
example : GoodGrid [(0 : ℚ), 0] [1, 1] [3, 2] ∧ (∃ b : Bin Int ℚ, b.Reach [0, 0] [1, 1] [3, 2] [.add 5 [0, 1]]) ∧
    (0 : ℚ) ≤ 1 / 2 ∧ (1 / 2 : ℚ) < 0 + 1 * (3 - 1 : Int) := by
  have hg : GoodGrid [(0 : ℚ), 0] [1, 1] [3, 2] := ⟨rfl, rfl, by simp, ⟨by decide, by decide, by decide⟩⟩
  refine ⟨hg, Bin.Reach.exists hg _ ?_, by norm_num, by norm_num⟩
  intro r hr
  rw [List.mem_singleton.mp hr]
  exact Or.inl (by simp [InGrid])

end Verif
