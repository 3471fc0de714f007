import Verif.Lemmas.BinStep
import Mathlib.Algebra.Order.Ring.Rat
import Mathlib.Data.Rat.Floor
import Mathlib.Tactic.NormNum

/-!
# Properties C08-C13: `Bin`

The specification is `Spec/Bin.lean`: a grid, the bin a coordinate falls in (`binOf`), and the contents of a bin after a list of
requests (`binContents`). `Bin.Reach` quantifies over every history of `add`, `add_once` and `add_range` calls whose coordinates
are in the half-open grid or outside the closed grid (`ReqOk`); calls that throw are caught and the history goes on.
-/

namespace Verif
open Spec Bin
variable {T K : Type} [Field K] [LinearOrder K] [FloorRing K] [IsStrictOrderedRing K]

/-- `b` is a bin constructed from the grid and then given the requests `reqs`. -/
def Bin.Reach [DecidableEq T] (min incr : List K) (N : List Int) (reqs : List (BinReq T K)) (b : Bin T K) : Prop :=
  (∀ r ∈ reqs, ReqOk min incr N r) ∧ ∃ b0, Bin.mk' min incr N = .ok b0 ∧ b = b0.run (reqs.map toOp)

theorem Bin.Reach.inv [DecidableEq T] {min incr : List K} {N : List Int} {reqs : List (BinReq T K)} {b : Bin T K}
    (hg : GoodGrid min incr N) (h : b.Reach min incr N reqs) :
    Inv b min incr N ∧ ∀ k, InBox N k → cell b.item N k = binContents min incr N k reqs := by
  obtain ⟨hr, b0, h0, rfl⟩ := h
  obtain ⟨hi, hc⟩ := mk'_inv hg h0
  obtain ⟨h1, h2⟩ := run_spec hg reqs hi hr
  exact ⟨h1, fun k hk => by rw [h2 k hk, hc k]; rfl⟩

/-- A reachable bin exists for every legal grid and request list: construction never fails. -/
theorem Bin.Reach.exists [DecidableEq T] {min incr : List K} {N : List Int} (hg : GoodGrid min incr N)
    (reqs : List (BinReq T K)) (hr : ∀ r ∈ reqs, ReqOk min incr N r) : ∃ b, Bin.Reach min incr N reqs b :=
  ⟨_, hr, _, mk'_eq T hg.1 hg.2.1 hg.2.2.2, rfl⟩

/-- **C08** After any history, `contents(c)` returns exactly the items put in `c`'s bin, in call order. -/
theorem C08_contents_history [DecidableEq T] (min incr : List K) (N : List Int) (hg : GoodGrid min incr N)
    (reqs : List (BinReq T K)) (hr : ∀ r ∈ reqs, ReqOk min incr N r) :
    ∃ b : Bin T K, b.Reach min incr N reqs ∧
      ∀ c, InGrid min incr N c → (b.contents c).1 = .ok (binContents min incr N (binOf min incr c) reqs) := by
  obtain ⟨b, hb⟩ := Bin.Reach.exists hg reqs hr
  refine ⟨b, hb, fun c hc => ?_⟩
  obtain ⟨hi, hcell⟩ := hb.inv hg
  obtain ⟨b', he, _, _⟩ := contents_in hg hi hc
  rw [he, hcell _ (inGrid_inBox hg.2.2.1 hc)]

/-- **C09** A coordinate outside the closed grid is refused with `domain_error` by `add`, `add_once`, `contents` and (for either
corner) `add_range`, and afterwards every bin has the contents it had. -/
theorem C09_out_of_range_rejected [DecidableEq T] (min incr : List K) (N : List Int) (hg : GoodGrid min incr N)
    (reqs : List (BinReq T K)) (b : Bin T K) (hb : b.Reach min incr N reqs) (x : T) (c : List K)
    (hc : OutOfGrid min incr N c) :
    ((b.add x c).1 = .error .domainError ∧ (b.addOnce x c).1 = .error .domainError ∧
      (b.contents c).1 = .error .domainError ∧
      (∀ e, (b.addRange x c e).1 = .error .domainError) ∧
      (∀ e, InGrid min incr N e → (b.addRange x e c).1 = .error .domainError)) ∧
    ∀ e, InGrid min incr N e →
      ((b.add x c).2.contents e).1 = (b.contents e).1 ∧ ((b.addOnce x c).2.contents e).1 = (b.contents e).1 ∧
      ((b.contents c).2.contents e).1 = (b.contents e).1 ∧
      (∀ f, ((b.addRange x c f).2.contents e).1 = (b.contents e).1) ∧
      (∀ f, InGrid min incr N f → ((b.addRange x f c).2.contents e).1 = (b.contents e).1) := by
  obtain ⟨hi, _⟩ := hb.inv hg
  obtain ⟨b1, e1, i1, s1⟩ := add_out hg hi x hc
  obtain ⟨b2, e2, i2, s2⟩ := addOnce_out hg hi x hc
  obtain ⟨b3, e3, i3, s3⟩ := contents_out hg hi hc
  have e4 : ∀ e, b.addRange x c e = (.error .domainError, b) := fun e => addRange_out hg hi x (Or.inl hc)
  have e5 : ∀ e, InGrid min incr N e → b.addRange x e c = (.error .domainError, b) := fun e he =>
    addRange_out hg hi x (Or.inr ⟨he, hc⟩)
  refine ⟨⟨by rw [e1], by rw [e2], by rw [e3], fun e => by rw [e4], fun e he => by rw [e5 e he]⟩, fun e he => ?_⟩
  have key : ∀ b' : Bin T K, Inv b' min incr N → b'.item = b.item → (b'.contents e).1 = (b.contents e).1 := by
    intro b' hi' hs
    obtain ⟨c1, h1, _⟩ := contents_in hg hi' he
    obtain ⟨c2, h2, _⟩ := contents_in hg hi he
    rw [h1, h2, hs]
  refine ⟨by rw [e1]; exact key _ i1 s1, by rw [e2]; exact key _ i2 s2, by rw [e3]; exact key _ i3 s3,
    fun f => by rw [e4], fun f hf => by rw [e5 f hf]⟩

/-- **C10** (true part: the half-open grid) A coordinate with `min ≤ c < max` is accepted by `add`; the item is found by
`contents(c)`, and no coordinate of another bin sees it. Missing: `c = max` in some direction, where the claim is false. -/
theorem C10_accepted_coordinate_partial [DecidableEq T] (min incr : List K) (N : List Int) (hg : GoodGrid min incr N)
    (reqs : List (BinReq T K)) (b : Bin T K) (hb : b.Reach min incr N reqs) (x : T) (c : List K)
    (hc : InGrid min incr N c) :
    ∃ b' l, b.add x c = (.ok (), b') ∧ (b.contents c).1 = .ok l ∧ (b'.contents c).1 = .ok (l ++ [x]) ∧
      ∀ e, InGrid min incr N e → binOf min incr e ≠ binOf min incr c → (b'.contents e).1 = (b.contents e).1 := by
  obtain ⟨hi, _⟩ := hb.inv hg
  obtain ⟨b', he, hi', hcell⟩ := add_in hg hi x hc
  obtain ⟨c1, h1, _⟩ := contents_in hg hi hc
  obtain ⟨c2, h2, _⟩ := contents_in hg hi' hc
  refine ⟨b', _, he, by rw [h1], by rw [h2, hcell _ (inGrid_inBox hg.2.2.1 hc)]; simp, ?_⟩
  intro e hge hne
  obtain ⟨c3, h3, _⟩ := contents_in hg hi' hge
  obtain ⟨c4, h4, _⟩ := contents_in hg hi hge
  rw [h3, h4, hcell _ (inGrid_inBox hg.2.2.1 hge), if_neg hne]

/-- **C11** `add_range(x, lo, hi)` with `lo ≤ hi` in the grid terminates normally and appends `x` exactly once to every bin
between the bins of `lo` and `hi` in every direction, and to no other bin. -/
theorem C11_add_range_box [DecidableEq T] (min incr : List K) (N : List Int) (hg : GoodGrid min incr N)
    (reqs : List (BinReq T K)) (b : Bin T K) (hb : b.Reach min incr N reqs) (x : T) (lo hi : List K)
    (hlo : InGrid min incr N lo) (hhi : InGrid min incr N hi) (hle : LeAll lo hi) :
    ∃ b', b.addRange x lo hi = (.ok (), b') ∧ ∀ c, InGrid min incr N c → ∃ l, (b.contents c).1 = .ok l ∧
      (b'.contents c).1 = .ok (if Between (binOf min incr lo) (binOf min incr hi) (binOf min incr c)
        then l ++ [x] else l) := by
  obtain ⟨hi1, _⟩ := hb.inv hg
  obtain ⟨b', he, hi', hcell⟩ := addRange_in hg hi1 x hlo hhi hle
  refine ⟨b', he, fun c hc => ?_⟩
  obtain ⟨c1, h1, _⟩ := contents_in hg hi1 hc
  obtain ⟨c2, h2, _⟩ := contents_in hg hi' hc
  exact ⟨_, by rw [h1], by rw [h2, hcell _ (inGrid_inBox hg.2.2.1 hc)]⟩

/-- `contents` determines every bin: each index tuple in range is the bin of some coordinate of the grid, so C08, C10 and C11
(stated through coordinates) speak about all bins. -/
theorem C11_every_bin_has_a_coordinate (min incr : List K) (N : List Int) (hg : GoodGrid min incr N) (k : List Int)
    (hk : InBox N k) : ∃ c, InGrid min incr N c ∧ binOf min incr c = k := by
  obtain ⟨h1, h2, h3, h4⟩ := hg
  have h5 := h4.2.1
  clear h4
  induction N generalizing min incr k with
  | nil =>
    cases min with
    | nil => cases incr with
      | nil => cases k with
        | nil => exact ⟨[], by simp [InGrid], by simp [binOf]⟩
        | cons a as => simp [InBox] at hk
      | cons a as => simp at h2
    | cons a as => simp at h1
  | cons n ns ih => cases min with
    | nil => simp at h1
    | cons m ms => cases incr with
      | nil => simp at h2
      | cons d ds => cases k with
        | nil => simp [InBox] at hk
        | cons j js =>
          simp only [InBox] at hk
          obtain ⟨c, hc1, hc2⟩ := ih ms ds js hk.2 (by simpa using h1) (by simpa using h2)
            (fun x hx => h3 x (by simp [hx])) (fun x hx => h5 x (by simp [hx]))
          have hd := h3 d (by simp)
          have hj0 : (0 : K) ≤ (j : K) := by exact_mod_cast hk.1.1
          have hj1 : (j : K) < (n : K) := by exact_mod_cast hk.1.2
          refine ⟨(m + d * (j : K)) :: c, ?_, ?_⟩
          · simp only [InGrid]
            refine ⟨⟨?_, ?_⟩, hc1⟩
            · have := mul_nonneg hd.le hj0; linarith
            · have := mul_lt_mul_of_pos_left hj1 hd; linarith
          · simp only [binOf, hc2]
            congr 1
            have : (m + d * (j : K) - m) / d = (j : K) := by
              rw [add_sub_cancel_left]; field_simp
            rw [this, Int.floor_intCast]

/-- **C12** A bin filled only through `add_once` never holds an item twice. -/
theorem C12_add_once_nodup [DecidableEq T] (min incr : List K) (N : List Int) (hg : GoodGrid min incr N)
    (reqs : List (BinReq T K)) (honce : ∀ r ∈ reqs, ∃ x c, r = .addOnce x c) (b : Bin T K)
    (hb : b.Reach min incr N reqs) (c : List K) (hc : InGrid min incr N c) :
    ∃ l, (b.contents c).1 = .ok l ∧ l.Nodup := by
  obtain ⟨hi, hcell⟩ := hb.inv hg
  obtain ⟨c1, h1, _⟩ := contents_in hg hi hc
  refine ⟨_, by rw [h1], ?_⟩
  rw [hcell _ (inGrid_inBox hg.2.2.1 hc)]
  have : ∀ (rs : List (BinReq T K)) (l : List T), (∀ r ∈ rs, ∃ x c, r = BinReq.addOnce x c) → l.Nodup →
      (rs.foldl (binStep min incr N (binOf min incr c)) l).Nodup := by
    intro rs
    induction rs with
    | nil => intro l _ h; exact h
    | cons r rs ih =>
      intro l hrs hl
      refine ih _ (fun r hr => hrs r (by simp [hr])) ?_
      obtain ⟨x, e, rfl⟩ := hrs r (by simp)
      simp only [binStep]
      split
      · rename_i h
        rw [List.nodup_append]
        refine ⟨hl, by simp, ?_⟩
        intro a ha b hb hab
        simp at hb
        subst hb; subst hab
        exact h.2.2 ha
      · exact hl
  exact this reqs [] honce List.nodup_nil

/-- **C12** Repeating an `add_once` call, after any history, changes nothing: the second call returns normally and every bin
reads the same; the item is there. -/
theorem C12_add_once_idempotent [DecidableEq T] (min incr : List K) (N : List Int) (hg : GoodGrid min incr N)
    (reqs : List (BinReq T K)) (b : Bin T K) (hb : b.Reach min incr N reqs) (x : T) (c : List K)
    (hc : InGrid min incr N c) :
    ∃ b1 b2 l, b.addOnce x c = (.ok (), b1) ∧ b1.addOnce x c = (.ok (), b2) ∧
      (b1.contents c).1 = .ok l ∧ x ∈ l ∧
      ∀ e, InGrid min incr N e → (b2.contents e).1 = (b1.contents e).1 := by
  obtain ⟨hi, _⟩ := hb.inv hg
  obtain ⟨b1, e1, i1, c1⟩ := addOnce_in hg hi x hc
  obtain ⟨b2, e2, i2, c2⟩ := addOnce_in hg i1 x hc
  have hk := inGrid_inBox hg.2.2.1 hc
  obtain ⟨d1, h1, _⟩ := contents_in hg i1 hc
  have hmem : x ∈ cell b1.item N (binOf min incr c) := by
    rw [c1 _ hk]
    by_cases hx : x ∈ cell b.item N (binOf min incr c)
    · simp [hx]
    · simp [hx]
  refine ⟨b1, b2, _, e1, e2, by rw [h1], hmem, ?_⟩
  intro e he
  obtain ⟨f1, g1, _⟩ := contents_in hg i1 he
  obtain ⟨f2, g2, _⟩ := contents_in hg i2 he
  rw [g1, g2, c2 _ (inGrid_inBox hg.2.2.1 he)]
  have : ¬ (binOf min incr e = binOf min incr c ∧ x ∉ cell b1.item N (binOf min incr e)) := by
    rintro ⟨h, h'⟩; rw [h] at h'; exact h' hmem
  rw [if_neg this]

/-- **C13** `max_size()` is at least the size of every bin, and is 0 or the size of some bin. -/
theorem C13_max_size [DecidableEq T] (min incr : List K) (N : List Int) (hg : GoodGrid min incr N)
    (reqs : List (BinReq T K)) (b : Bin T K) (hb : b.Reach min incr N reqs) :
    ∃ M, b.maxSize = .ok M ∧
      (∀ c, InGrid min incr N c → ∃ l, (b.contents c).1 = .ok l ∧ (l.length : Int) ≤ M) ∧
      (M = 0 ∨ ∃ c l, InGrid min incr N c ∧ (b.contents c).1 = .ok l ∧ (l.length : Int) = M) := by
  obtain ⟨hi, _⟩ := hb.inv hg
  have hp := prod_pos hg.2.2.2.2.1
  have hlen := hi.item_ok.len_eq
  obtain ⟨M, h1, h2, h3, h4⟩ := maxSizeLoop_spec (item := b.item) b.item.volume.toNat 0 0
    (by rw [hi.item_ok.vol_eq]; omega)
  refine ⟨M, h1, ?_, ?_⟩
  · intro c hc
    obtain ⟨c1, e1, _⟩ := contents_in hg hi hc
    have hk := inGrid_inBox hg.2.2.1 hc
    refine ⟨_, by rw [e1], ?_⟩
    have d0 := dot_nonneg hg.2.2.2.2.1 hk
    have d1 := dot_lt hg.2.2.2.2.1 hk
    have hlt : (dot N (binOf min incr c)).toNat < b.item.val.length := by omega
    have := h3 _ (Nat.zero_le _) _ (List.getElem?_eq_getElem hlt)
    simpa [cell, List.getElem?_eq_getElem hlt] using this
  · rcases h4 with h4 | ⟨j, v, _, hv, hl⟩
    · exact Or.inl h4
    · right
      have hj := (List.getElem?_eq_some_iff.mp hv).1
      have hk := digits_inBox hg.2.2.2.2.1 (l := (j : Int)) (by omega) (by omega)
      obtain ⟨c, hc, hcb⟩ := C11_every_bin_has_a_coordinate min incr N hg _ hk
      obtain ⟨c1, e1, _⟩ := contents_in hg hi hc
      refine ⟨c, v, hc, ?_, hl⟩
      rw [e1, hcb, cell, dot_digits hg.2.2.2.2.1 (by omega) (by omega), Int.toNat_natCast, hv]; rfl

/-! ### Non-vacuity -/

/-- A 2×3 grid over `ℚ` with a box, a repeated `add_once` and a refused coordinate meets the hypotheses of C08-C13. -/
example : GoodGrid [(0 : ℚ), 1] [1 / 2, 2] [2, 3] ∧
    (∀ r ∈ ([.add 7 [1 / 4, 2], .addOnce 7 [1 / 4, 5], .addOnce 7 [1 / 4, 5], .addRange 8 [0, 1] [3 / 4, 4],
      .add 9 [2, 1]] : List (BinReq Int ℚ)), ReqOk [(0 : ℚ), 1] [1 / 2, 2] [2, 3] r) ∧
    InGrid [(0 : ℚ), 1] [1 / 2, 2] [2, 3] [1 / 4, 2] ∧ OutOfGrid [(0 : ℚ), 1] [1 / 2, 2] [2, 3] [2, 1] := by
  have ho : OutOfGrid [(0 : ℚ), 1] [1 / 2, 2] [2, 3] [2, 1] :=
    ⟨rfl, 0, 0, 1 / 2, 2, 2, rfl, rfl, rfl, rfl, by norm_num⟩
  refine ⟨⟨rfl, rfl, ?_, ?_⟩, ?_, ?_, ho⟩
  · intro d hd; simp at hd; rcases hd with h | h <;> subst h <;> norm_num
  · exact ⟨by decide, by decide, by decide⟩
  · intro r hr
    simp only [List.mem_cons, List.not_mem_nil, or_false] at hr
    rcases hr with h | h | h | h | h <;> subst h
    · left; simp only [InGrid]; norm_num
    · left; simp only [InGrid]; norm_num
    · left; simp only [InGrid]; norm_num
    · left; simp only [InGrid, LeAll]; norm_num
    · right; exact ho
  · simp only [InGrid]; norm_num

/-! ### C10, violation -/

/-- **C10, violation** In a one-directional grid, every call at `c = max` (which the range check accepts) is an out-of-bounds
access, whatever was added before. -/
theorem C10_at_max_1d_violated [DecidableEq T] (m d : K) (n : Int) (hd : 0 < d) (hn : 0 < n) (hn' : n ≤ 2147483647)
    (reqs : List (BinReq T K)) (b : Bin T K) (hb : b.Reach [m] [d] [n] reqs) (x : T) :
    (b.add x [m + d * n]).1 = .error (.ub .oob) ∧ (b.contents [m + d * n]).1 = .error (.ub .oob) := by
  have hg : GoodGrid [m] [d] [n] := ⟨rfl, rfl, by simpa using hd, by simp, by simpa using hn, by simpa [prod] using hn'⟩
  obtain ⟨hi, _⟩ := hb.inv hg
  have hfl : ⌊(m + d * (n : K) - m) / d⌋ = n := by
    have : (m + d * (n : K) - m) / d = (n : K) := by rw [add_sub_cancel_left]; field_simp
    rw [this, Int.floor_intCast]
  have hck : ckInt n = .ok n := ckInt_nonneg _ hn.le hn'
  have hdn : (0:K) ≤ d * (n : K) := mul_nonneg hd.le (by exact_mod_cast hn.le)
  have hidx : b.indicesOf [m + d * n] b.indices = (.ok (), [n]) := by
    have hl := hi.idx_len
    obtain ⟨r, hr⟩ : ∃ r, b.indices = [r] := List.length_eq_one_iff.mp (by simpa using hl)
    have hnlt : ¬ (m + d * (n : K) < m) := not_lt.mpr (by linarith)
    simp only [indicesOf, hi.min_eq, hi.max_eq, hi.incr_eq, hi.item_ok.order_eq, hr]
    have hnlt2 : ¬ (d * (n : K) < 0) := not_lt.mpr hdn
    simp [idxLoop, idxAt, vget, gridMax, hnlt2, hd.ne', vset, hck]
  have hlin : b.item.linearIndex [n] = .ok n := by
    simp [NDArray.linearIndex, hi.item_ok.unroll_eq, strides, prod, NDArray.linLoop, vget, imul, iadd, hck]
  have hoob : vget b.item.val n = .error (.ub .oob) := by
    apply vget_err
    have := hi.item_ok.len_eq
    simp [prod] at this; omega
  constructor
  · simp [add, hidx, push, hlin, NDArray.getLin, hoob]
  · simp [contents, hidx, NDArray.get, hlin, NDArray.getLin, hoob]

example : Bin.Reach [(0 : ℚ)] [1] [4] [.add 5 [3]] (((Bin.mk' [(0 : ℚ)] [1] [4]).toOption.getD Bin.empty).run
    [Bin.Op.add (5 : Int) [3]]) := by
  refine ⟨?_, _, mk'_eq Int rfl rfl (N := [4]) ⟨by decide, by decide, by decide⟩, ?_⟩
  · intro r hr
    simp at hr; subst hr
    left; simp only [InGrid]; norm_num
  · rw [mk'_eq Int (K := ℚ) (N := [4]) rfl rfl ⟨by decide, by decide, by decide⟩]; rfl

/-- **C10, violation** In two directions, a coordinate at the upper bound of the second direction is accepted and silently
shares the bin of a different coordinate: `(0, 2)` lands in the bin of `(1, 0)` of a 2×2 grid. -/
theorem C10_at_max_2d_alias_violated :
    ∃ b0 : Bin Int ℚ, Bin.mk' [(0 : ℚ), 0] [1, 1] [2, 2] = .ok b0 ∧ (b0.add 7 [0, 2]).1 = .ok () ∧
      (b0.contents [1, 0]).1 = .ok [] ∧ ((b0.add 7 [0, 2]).2.contents [1, 0]).1 = .ok [7] := by
  refine ⟨_, mk'_eq Int rfl rfl (N := [2, 2]) ⟨by decide, by decide, by decide⟩, ?_, ?_, ?_⟩ <;> decide +kernel

theorem gridMax_get (i : Nat) {min incr : List K} {N : List Int} {m d : K} {n : Int} (h1 : min[i]? = some m) (h2 : incr[i]? = some d)
    (h3 : N[i]? = some n) : (gridMax min incr N)[i]? = some (m + d * n) := by
  induction i generalizing min incr N with
  | zero => cases min <;> cases incr <;> cases N <;> simp_all [gridMax]
  | succ i ih =>
    cases min with
    | nil => simp at h1
    | cons a as => cases incr with
      | nil => simp at h2
      | cons b bs => cases N with
        | nil => simp at h3
        | cons c cs =>
          simp only [gridMax, List.getElem?_cons_succ] at *
          exact ih h1 h2 h3

/-- **C106** In every history `min()` and `max()` report, in each direction, the lower limit and the lower limit plus the number of bins times
their width. -/
theorem C106_limits [DecidableEq T] (min incr : List K) (N : List Int) (hg : GoodGrid min incr N)
    (reqs : List (BinReq T K)) (b : Bin T K) (hb : b.Reach min incr N reqs) :
    b.min = min ∧ b.max.length = N.length ∧
      ∀ (i : Nat) (m d : K) (n : Int), min[i]? = some m → incr[i]? = some d → N[i]? = some n → b.max[i]? = some (m + d * n) := by
  obtain ⟨hi, _⟩ := hb.inv hg
  refine ⟨hi.min_eq, ?_, ?_⟩
  · rw [hi.max_eq]
    exact gridMax_length hg.1 hg.2.1
  · intro i m d n h1 h2 h3
    rw [hi.max_eq]
    exact gridMax_get i h1 h2 h3

/-- **C106** (partial) A Bin after `clear()` (and a default-constructed one) has no bins, no limits, and `max_size()` 0. -/
theorem C106_clear_partial (b : Bin T K) :
    b.clear = Bin.empty ∧ b.clear.maxSize = .ok 0 ∧ b.clear.min = [] ∧ b.clear.max = [] := ⟨rfl, rfl, rfl, rfl⟩

/-- **C106** (violated) It does not refuse coordinates: every insertion and every query, at every coordinate, is an access out of bounds. -/
theorem C106_clear_violated [DecidableEq T] (b : Bin T K) (x : T) (c c' : List K) :
    (b.clear.add x c).1 = .error (.ub .oob) ∧ (b.clear.addOnce x c).1 = .error (.ub .oob) ∧
      (b.clear.addRange x c c').1 = .error (.ub .oob) ∧ (b.clear.contents c).1 = .error (.ub .oob) := by
  refine ⟨rfl, rfl, rfl, rfl⟩

/-- The hypotheses of `C106_limits` for a small grid. -/
example : ∃ b : Bin Int ℚ, b.Reach [0, 1] [1, 1 / 2] [4, 3] [.add 5 [3, 2]] ∧ b.max = [4, 5 / 2] := by
  have hg : GoodGrid [(0 : ℚ), 1] [1, 1 / 2] [4, 3] := ⟨rfl, rfl, by norm_num, by decide, by decide, by decide⟩
  obtain ⟨b, hb⟩ := Bin.Reach.exists (T := Int) hg [.add 5 [3, 2]] (by
    intro r hr; simp at hr; subst hr; left; simp only [InGrid]; norm_num)
  refine ⟨b, hb, ?_⟩
  have := (hb.inv hg).1.max_eq
  rw [this]
  decide +kernel

end Verif
