import Verif.Lemmas.RoundedBin
import Mathlib.Algebra.Order.Ring.Rat
import Mathlib.Data.Rat.Floor
import Mathlib.Tactic.NormNum

/-!
# Property C93: `Bin` in floating-point arithmetic

Every operation on doubles is rounded (`Spec/Rounding.lean`); the theorems hold for every monotone rounding, IEEE round-to-nearest-even
(`nearestEven 53` for binary64) among them. The specification is `Spec/RoundedBin.lean`.
-/

namespace Verif
open Spec Bin
variable {T K : Type} [Field K] [LinearOrder K] [FloorRing K] [IsStrictOrderedRing K] {rnd : K → K} {u : K}

/-- `b` is a bin constructed from the grid and then given the requests `reqs`, in the arithmetic `rnd`. -/
def Fl.Reach [DecidableEq T] (rnd : K → K) (min incr : List K) (N : List Int) (reqs : List (BinReq T K)) (b : Bin T K) : Prop :=
  (∀ r ∈ reqs, FlReqOk rnd min incr N r) ∧ ∃ b0, Fl.mkBin rnd min incr N = .ok b0 ∧ b = Fl.binRun rnd b0 (reqs.map toOp)

theorem Fl.Reach.inv [DecidableEq T] (R : Rounding rnd u) {min incr : List K} {N : List Int} {reqs : List (BinReq T K)} {b : Bin T K}
    (hg : GoodGrid min incr N) (h : Fl.Reach rnd min incr N reqs b) :
    Fl.Inv rnd b min incr N ∧ ∀ k, InBox N k → cell b.item N k = flBinContents rnd min incr N k reqs := by
  obtain ⟨hr, b0, h0, rfl⟩ := h
  obtain ⟨hi, hc⟩ := Fl.mkBin_inv hg h0
  obtain ⟨h1, h2⟩ := Fl.run_spec R hg reqs hi hr
  exact ⟨h1, fun k hk => by rw [h2 k hk, hc k]; rfl⟩

/-- **C93** After any history, `contents(c)` returns exactly the items put in `c`'s (computed) bin, in call order. -/
theorem C93_contents_history_partial [DecidableEq T] (R : Rounding rnd u) (min incr : List K) (N : List Int)
    (hg : GoodGrid min incr N) (reqs : List (BinReq T K)) (hr : ∀ r ∈ reqs, FlReqOk rnd min incr N r) :
    ∃ b : Bin T K, Fl.Reach rnd min incr N reqs b ∧ ∀ c, FlInGrid rnd min incr N c →
      (Fl.contents rnd b c).1 = .ok (flBinContents rnd min incr N (flBinOf rnd min incr c) reqs) := by
  have hb : Fl.Reach rnd min incr N reqs _ := ⟨hr, _, Fl.mkBin_eq T hg.1 hg.2.1 hg.2.2.2, rfl⟩
  refine ⟨_, hb, fun c hc => ?_⟩
  obtain ⟨hi, hcell⟩ := hb.inv R hg
  obtain ⟨b', he, _, _⟩ := Fl.contents_in R hg hi hc
  rw [he, hcell _ (Fl.flInGrid_inBox R hg.2.2.1 hc)]

/-- A coordinate outside the computed limits is refused with `domain_error`, and every bin keeps its contents. -/
theorem C93_out_of_range_rejected [DecidableEq T] (R : Rounding rnd u) (min incr : List K) (N : List Int) (hg : GoodGrid min incr N)
    (reqs : List (BinReq T K)) (b : Bin T K) (hb : Fl.Reach rnd min incr N reqs b) (x : T) (c : List K)
    (hc : FlOutOfGrid rnd min incr N c) :
    ((Fl.add rnd b x c).1 = .error .domainError ∧ (Fl.addOnce rnd b x c).1 = .error .domainError ∧
      (Fl.contents rnd b c).1 = .error .domainError ∧
      (∀ e, (Fl.addRange rnd b x c e).1 = .error .domainError) ∧
      (∀ e, FlInGrid rnd min incr N e → (Fl.addRange rnd b x e c).1 = .error .domainError)) ∧
    ∀ e, FlInGrid rnd min incr N e →
      (Fl.contents rnd (Fl.add rnd b x c).2 e).1 = (Fl.contents rnd b e).1 ∧
      (Fl.contents rnd (Fl.addOnce rnd b x c).2 e).1 = (Fl.contents rnd b e).1 ∧
      (Fl.contents rnd (Fl.contents rnd b c).2 e).1 = (Fl.contents rnd b e).1 := by
  obtain ⟨hi, _⟩ := hb.inv R hg
  obtain ⟨b1, e1, i1, s1⟩ := Fl.add_out R hg hi x hc
  obtain ⟨b2, e2, i2, s2⟩ := Fl.addOnce_out R hg hi x hc
  obtain ⟨b3, e3, i3, s3⟩ := Fl.contents_out R hg hi hc
  have e4 : ∀ e, Fl.addRange rnd b x c e = (.error .domainError, b) := fun e => Fl.addRange_out R hg hi x (Or.inl hc)
  have e5 : ∀ e, FlInGrid rnd min incr N e → Fl.addRange rnd b x e c = (.error .domainError, b) := fun e he =>
    Fl.addRange_out R hg hi x (Or.inr ⟨he, hc⟩)
  refine ⟨⟨by rw [e1], by rw [e2], by rw [e3], fun e => by rw [e4], fun e he => by rw [e5 e he]⟩, fun e he => ?_⟩
  have key : ∀ b' : Bin T K, Fl.Inv rnd b' min incr N → b'.item = b.item →
      (Fl.contents rnd b' e).1 = (Fl.contents rnd b e).1 := by
    intro b' hi' hs
    obtain ⟨c1, h1, _⟩ := Fl.contents_in R hg hi' he
    obtain ⟨c2, h2, _⟩ := Fl.contents_in R hg hi he
    rw [h1, h2, hs]
  exact ⟨by rw [e1]; exact key _ i1 s1, by rw [e2]; exact key _ i2 s2, by rw [e3]; exact key _ i3 s3⟩

/-- Whatever the rounding errors, an item filed over the box from `lo` to `hi` is found at every coordinate of the box: each has a bin,
and its contents have gained the item. -/
theorem C93_box_found [DecidableEq T] (R : Rounding rnd u) (min incr : List K) (N : List Int) (hg : GoodGrid min incr N)
    (reqs : List (BinReq T K)) (b : Bin T K) (hb : Fl.Reach rnd min incr N reqs b) (x : T) (lo hi : List K)
    (hlo : FlInGrid rnd min incr N lo) (hhi : FlInGrid rnd min incr N hi) (c : List K) (hl : c.length = lo.length)
    (h1 : LeAll lo c) (h2 : LeAll c hi) :
    ∃ b' l, Fl.addRange rnd b x lo hi = (.ok (), b') ∧ (Fl.contents rnd b c).1 = .ok l ∧
      (Fl.contents rnd b' c).1 = .ok (l ++ [x]) := by
  obtain ⟨hi1, _⟩ := hb.inv R hg
  obtain ⟨hc, hbt⟩ := Fl.inGrid_of_between R hg.2.2.1 hlo hhi hl h1 h2
  obtain ⟨b', he, hi', hcell⟩ := Fl.addRange_in R hg hi1 x hlo hhi (Fl.leAll_trans hl.symm h1 h2)
  obtain ⟨c1, e1, _⟩ := Fl.contents_in R hg hi1 hc
  obtain ⟨c2, e2, _⟩ := Fl.contents_in R hg hi' hc
  exact ⟨b', _, he, by rw [e1], by rw [e2, hcell _ (Fl.flInGrid_inBox R hg.2.2.1 hc), if_pos hbt]⟩

/-- One direction: a floating-point `c` from `min` to below `min + (1-4u)*incr*N` is in the grid. (`C93_below_max_violated`: nearer to the
upper limit this can fail.) -/
theorem C93_interior_in_grid (R : Rounding rnd u) (hu : u ≤ 1 / 4) (m d c : K) (n : Int) (hd : 0 < d) (hn : 0 < n) (hm : m ≤ c)
    (hc : IsFloat rnd c) (h : c < m + (1 - 4 * u) * (d * (n : K))) : FlIn rnd m d n c := by
  have hu0 := R.u_nonneg
  have hn' : (0 : K) < (n : K) := by exact_mod_cast hn
  have hdn : 0 < d * (n : K) := mul_pos hd hn'
  refine ⟨⟨hm, R.ge_of hc ?_⟩, ?_⟩
  · have := R.lower hdn.le
    nlinarith
  · rw [flBin, Int.floor_lt]
    have h1 := R.upper (sub_nonneg.mpr hm)
    have h2 : rnd (c - m) / d < (1 + u) * (1 - 4 * u) * (n : K) := by
      rw [div_lt_iff₀ hd]
      calc rnd (c - m) ≤ (1 + u) * (c - m) := h1
        _ < (1 + u) * ((1 - 4 * u) * (d * (n : K))) := mul_lt_mul_of_pos_left (by linarith) (by linarith)
        _ = _ := by ring
    have h3 := R.upper (div_nonneg (R.nonneg (sub_nonneg.mpr hm)) hd.le)
    have h4 : (1 + u) * ((1 + u) * (1 - 4 * u)) ≤ 1 := by nlinarith [mul_nonneg hu0 hu0, mul_nonneg hu0 (mul_nonneg hu0 hu0)]
    calc rnd (rnd (c - m) / d) ≤ (1 + u) * (rnd (c - m) / d) := h3
      _ < (1 + u) * ((1 + u) * (1 - 4 * u) * (n : K)) := mul_lt_mul_of_pos_left h2 (by linarith)
      _ = (1 + u) * ((1 + u) * (1 - 4 * u)) * (n : K) := by ring
      _ ≤ 1 * (n : K) := mul_le_mul_of_nonneg_right h4 hn'.le
      _ = n := one_mul _

/-- **C93** is false up to the upper limit: in binary64 arithmetic, for 17 bins of width 0.1 from 0 the computed limit is
1.7000000000000002, the coordinate 1.7 is less, yet its computed bin is number 17: `add` and `contents` go out of bounds. (In exact arithmetic
every coordinate below the limit has a bin, C08.) -/
theorem C93_below_max_violated :
    let r : ℚ → ℚ := nearestEven 53
    let d := r (1 / 10); let c := r (17 / 10)
    c < flMax r 0 d 17 ∧ ∃ b0 : Bin Int ℚ, Fl.mkBin r [0] [d] [17] = .ok b0 ∧
      (Fl.add r b0 7 [c]).1 = .error (.ub .oob) ∧ (Fl.contents r b0 [c]).1 = .error (.ub .oob) := by
  refine ⟨by decide +kernel, _, Fl.mkBin_eq Int rfl rfl (N := [17]) ⟨by decide, by decide, by decide⟩, ?_, ?_⟩ <;> decide +kernel

/-- Hypotheses of the theorems above: a 2D grid of widths 0.1, 0.3 in binary64, and a history. -/
example :
    let r : ℚ → ℚ := nearestEven 53
    let d := r (1 / 10); let e := r (3 / 10)
    Rounding r ((2 : ℚ) ^ (-53 : Int)) ∧ GoodGrid [r (-1 / 10), 0] [d, e] [4, 5] ∧
      (∀ q ∈ [BinReq.add (1 : Int) [d, e], .addRange 2 [0, e] [r (2 / 10), 1], .addOnce 1 [d, e], .add 5 [7, 7]],
        FlReqOk r [r (-1 / 10), 0] [d, e] [4, 5] q) := by
  refine ⟨nearestEven_rounding (by decide), ⟨rfl, rfl, by decide +kernel, by decide, by decide, by decide⟩, ?_⟩
  intro q hq
  simp only [List.mem_cons, List.not_mem_nil, or_false] at hq
  rcases hq with rfl | rfl | rfl | rfl
  · left; simp only [FlInGrid, FlIn]; decide +kernel
  · left; simp only [FlInGrid, FlIn, LeAll]; decide +kernel
  · left; simp only [FlInGrid, FlIn]; decide +kernel
  · right; simp only [FlOutOfGrid, FlIn, FlOut]; decide +kernel

end Verif
