import Verif.Lemmas.ScaleData
import Verif.Lemmas.RoundingScale
import Verif.Props.RoundedHex
import Mathlib.Tactic.IntervalCases

/-!
# Property C131: signs, factors and order of the data, in floating-point arithmetic

That every file is covered, whether it makes sense or not, and every position: the statements on factors. The statements on order are about points of
legal bodies.
-/

namespace Verif
open Spec
variable {K : Type} {d n : Nat} [Field K] [LinearOrder K] [FloorRing K]

/-! ### Factors -/

/-- The factors that IEEE rounding does not notice (apart from overflow and underflow): powers of two, and their negatives. -/
theorem C131_factors [IsStrictOrderedRing K] (p : Nat) (k : Int) :
    Respects (nearestEven p : K → K) (2 ^ k) ∧ Respects (nearestEven p : K → K) (-2 ^ k) := by
  refine ⟨nearestEven_pow p k, fun x => ?_⟩
  have h := nearestEven_neg (K := K) p (2 ^ k * x)
  rw [nearestEven_pow p k x] at h
  rw [show -(2 : K) ^ k * x = -1 * (2 ^ k * x) by ring, h]
  ring

namespace Fl

theorem scaled (rnd : K → K) (E : ElemOps K d) (κ : String → K) (hκ : ∀ n, Respects rnd (κ n)) (pts : List (Fin d → K)) (cells : List (List Nat))
    (flds : List (String × List K)) :
    let flds' := flds.map fun fl => (fl.1, fl.2.map (κ fl.1 * ·))
    (∀ e, load rnd E pts cells flds' = .error e ↔ load rnd E pts cells flds = .error e) ∧
    ∀ b b', load rnd E pts cells flds = .ok b → load rnd E pts cells flds' = .ok b' →
      ∀ (ops : List (Nat × Body.Call K d)) (i : Nat) (name : String) (data : List K), flds[i]? = some (name, data) →
        (∀ op, eval rnd E (evals rnd E b' ops) i op = (eval rnd E (evals rnd E b ops) i op).map (κ name * ·)) ∧
        (evals rnd E b' ops).getVal i = ((evals rnd E b ops).getVal i).map (κ name * ·) ∧
        (∀ di, (evals rnd E b' ops).getGrad i di = ((evals rnd E b ops).getGrad i di).map (κ name * ·)) ∧
        ∀ di dj, (evals rnd E b' ops).getHess i di dj = ((evals rnd E b ops).getHess i di dj).map (κ name * ·) := by
  intro flds'
  have h := load_sc (rnd := rnd) E κ pts cells flds
  refine ⟨fun e => ?_, fun b b' hb hb' ops i name data hi => ?_⟩
  · show load rnd E pts cells (flds.map _) = _ ↔ _
    rw [h]; cases load rnd E pts cells flds <;> simp [Except.map]
  · have : b' = scB κ b := by
      have h' := hb'
      rw [show flds' = flds.map _ from rfl, h, hb] at h'
      exact (Except.ok.inj h').symm
    subst this
    obtain ⟨f, hf, hn⟩ := named hb ops i name data hi
    rw [evals_sc E hκ, ← hn]
    exact ⟨fun op => eval_sc E hκ _ i op f hf, stored_sc _ i f hf⟩

end Fl

/-- **C131** (2D) Multiply the data of every field of a file by a factor that rounding does not notice, a factor for each field (C131_factors: changing
signs, or units that are powers of two; without rounding, any factor). The file is read, or not, as before, in the same way. After the same evaluations,
whatever and wherever they are, every evaluation of a field, at every position, has the outcome it had, times the factor - exactly, rounding errors
included -, and so have the stored results. -/
theorem C131_factor_2d (rnd : K → K) (κ : String → K) (hκ : ∀ n, Respects rnd (κ n)) (pts : List (Fin 2 → K)) (cells : List (List Nat))
    (flds : List (String × List K)) :
    let E := Fl.quadOps rnd
    let flds' := flds.map fun fl => (fl.1, fl.2.map (κ fl.1 * ·))
    (∀ e, Fl.load rnd E pts cells flds' = .error e ↔ Fl.load rnd E pts cells flds = .error e) ∧
    ∀ b b', Fl.load rnd E pts cells flds = .ok b → Fl.load rnd E pts cells flds' = .ok b' →
      ∀ (ops : List (Nat × Body.Call K 2)) (i : Nat) (name : String) (data : List K), flds[i]? = some (name, data) →
        (∀ op, Fl.eval rnd E (Fl.evals rnd E b' ops) i op = (Fl.eval rnd E (Fl.evals rnd E b ops) i op).map (κ name * ·)) ∧
        (Fl.evals rnd E b' ops).getVal i = ((Fl.evals rnd E b ops).getVal i).map (κ name * ·) ∧
        (∀ di, (Fl.evals rnd E b' ops).getGrad i di = ((Fl.evals rnd E b ops).getGrad i di).map (κ name * ·)) ∧
        ∀ di dj, (Fl.evals rnd E b' ops).getHess i di dj = ((Fl.evals rnd E b ops).getHess i di dj).map (κ name * ·) :=
  Fl.scaled rnd _ κ hκ pts cells flds

/-- **C131** (3D) The same. -/
theorem C131_factor_3d (rnd : K → K) (κ : String → K) (hκ : ∀ n, Respects rnd (κ n)) (pts : List (Fin 3 → K)) (cells : List (List Nat))
    (flds : List (String × List K)) :
    let E := Fl.hexOps rnd
    let flds' := flds.map fun fl => (fl.1, fl.2.map (κ fl.1 * ·))
    (∀ e, Fl.load rnd E pts cells flds' = .error e ↔ Fl.load rnd E pts cells flds = .error e) ∧
    ∀ b b', Fl.load rnd E pts cells flds = .ok b → Fl.load rnd E pts cells flds' = .ok b' →
      ∀ (ops : List (Nat × Body.Call K 3)) (i : Nat) (name : String) (data : List K), flds[i]? = some (name, data) →
        (∀ op, Fl.eval rnd E (Fl.evals rnd E b' ops) i op = (Fl.eval rnd E (Fl.evals rnd E b ops) i op).map (κ name * ·)) ∧
        (Fl.evals rnd E b' ops).getVal i = ((Fl.evals rnd E b ops).getVal i).map (κ name * ·) ∧
        (∀ di, (Fl.evals rnd E b' ops).getGrad i di = ((Fl.evals rnd E b ops).getGrad i di).map (κ name * ·)) ∧
        ∀ di dj, (Fl.evals rnd E b' ops).getHess i di dj = ((Fl.evals rnd E b ops).getHess i di dj).map (κ name * ·) :=
  Fl.scaled rnd _ κ hκ pts cells flds

/-! ### Order -/

variable [IsStrictOrderedRing K] {rnd : K → K} {u : K}

namespace Fl

theorem rsum_mono (R : Rounding rnd u) : ∀ (l l' : List K) (acc acc' : K), List.Forall₂ (· ≤ ·) l l' → acc ≤ acc' → rsum rnd acc l ≤ rsum rnd acc' l' := by
  intro l l' acc acc' h
  induction h generalizing acc acc' with
  | nil => exact id
  | cons h1 _ ih => exact fun ha => ih _ _ (R.mono _ _ (add_le_add ha h1))

/-- Values with weights that are not negative are in the order of the data. -/
theorem rsum_order (R : Rounding rnd u) (l : List (Fin n)) {W v v' : Fin n → K} (hW : ∀ j, 0 ≤ W j) (hv : ∀ j, v j ≤ v' j) :
    rsum rnd 0 (l.map fun j => rnd (W j * v j)) ≤ rsum rnd 0 (l.map fun j => rnd (W j * v' j)) := by
  refine rsum_mono R _ _ _ _ ?_ le_rfl
  induction l with
  | nil => exact List.Forall₂.nil
  | cons j l ih => exact List.Forall₂.cons (R.mono _ _ (mul_le_mul_of_nonneg_left (hv j) (hW j))) ih

omit [IsStrictOrderedRing K] in
/-- A field of a body that has just been read does not know of the other fields. -/
theorem eval_alone {E : ElemOps K d} {pts : List (Fin d → K)} {cells : List (List Nat)} {flds flds' : List (String × List K)} {b b' : Body K d}
    (hb : load rnd E pts cells flds = .ok b) (hb' : load rnd E pts cells flds' = .ok b') {i i' : Nat} {x : String × List K}
    (hi : flds[i]? = some x) (hi' : flds'[i']? = some x) (op : Call K d) : eval rnd E b i op = eval rnd E b' i' op := by
  have key : ∀ (flds : List (String × List K)) (b b' : Body K d), Body.addFields b flds = .ok b' → b'.mesh = b.mesh ∧
      List.Forall₂ (fun f fl => PField.make b.mesh fl.1 fl.2 0 = .ok f) (b'.fields.drop b.fields.length) flds ∧
      b'.fields.take b.fields.length = b.fields := by
    intro flds
    induction flds with
    | nil => intro b b' h; cases h; simp
    | cons fl fls ih =>
      intro b b' h
      simp only [Body.addFields] at h
      obtain ⟨b1, h1, h2⟩ := bind_eq_ok.mp h
      unfold Body.addField at h1
      obtain ⟨f, g1, g2⟩ := bind_eq_ok.mp h1
      cases g2
      obtain ⟨k1, k2, k3⟩ := ih _ _ h2
      simp only [List.length_append, List.length_cons, List.length_nil, Nat.zero_add] at k1 k2 k3
      have hlen : b.fields.length < b'.fields.length := by
        have := congrArg List.length k3
        simp at this
        omega
      have hf : b'.fields[b.fields.length]? = some f := by
        have := congrArg (·[b.fields.length]?) k3
        simpa [List.getElem?_take] using this
      refine ⟨k1, ?_, ?_⟩
      · rw [List.drop_eq_getElem_cons hlen]
        refine List.Forall₂.cons ?_ k2
        rw [List.getElem?_eq_getElem hlen] at hf
        rw [Option.some.inj hf]
        exact g1
      · have := congrArg (List.take b.fields.length) k3
        simpa [List.take_take] using this
  unfold load at hb hb'
  obtain ⟨m, e1, e2⟩ := bind_eq_ok.mp hb
  obtain ⟨m', e1', e2'⟩ := bind_eq_ok.mp hb'
  rw [e1] at e1'; cases e1'
  have k := key _ _ _ e2
  have k' := key _ _ _ e2'
  simp only [List.length_nil, List.drop_zero] at k k'
  unfold eval
  have get : ∀ {l : List (PField K)} {fls : List (String × List K)} {i : Nat}, List.Forall₂ (fun f fl => PField.make m fl.1 fl.2 0 = .ok f) l fls →
      fls[i]? = some x → ∃ f, l[i]? = some f ∧ PField.make m x.1 x.2 0 = .ok f := by
    intro l fls i h
    induction h generalizing i with
    | nil => intro h; simp at h
    | cons h1 _ ih =>
      cases i with
      | zero => intro h; simp at h; subst h; exact ⟨_, rfl, h1⟩
      | succ i => intro h; exact ih (by simpa using h)
  obtain ⟨f, f1, f2⟩ := get k.2.1 hi
  obtain ⟨f', f1', f2'⟩ := get k'.2.1 hi'
  rw [f2] at f2'
  obtain rfl := Except.ok.inj f2'
  rw [f1, f1', k.1, k'.1]

/-- At a point of the body results do not depend on earlier evaluations. -/
theorem eval_free {E : ElemOps K d} {unit sgn : Fin n → Fin d → K} {tested : Fin d → Prop} (F : FlElem rnd E unit sgn tested) (T : PField.ElemTotal E)
    (R : Rounding rnd u) (hu : u ≤ 1 / 64) {pts : List (Fin d → K)} {cells : List (List Nat)}
    (flds : List (String × List K)) (hm : FloatMesh unit rnd u pts cells) (hl : ∀ fl ∈ flds, fl.2.length = pts.length) (b : Body K d)
    (hb : load rnd E pts cells flds = .ok b) (ops : List (Nat × Body.Call K d)) (ho : HistOk rnd pts ops) (i : Nat) (hi : i < flds.length)
    (op : Call K d) (hc : FloatPoint unit rnd pts cells op.coord) : eval rnd E (evals rnd E b ops) i op = eval rnd E b i op := by
  obtain ⟨cell, a, h, e, lo, hi', p, _, _, _, _, _, _, g5⟩ := elem_eval F T R hu flds hm hl b hb op.coord hc
  have hi2 := List.getElem?_eq_getElem hi
  obtain ⟨v, k1, k2, k3, k4⟩ := g5 ops ho i _ _ hi2
  obtain ⟨v', k1', k2', k3', k4'⟩ := g5 [] (by simp [HistOk]) i _ _ hi2
  have hv : v' = v := by
    funext j
    obtain ⟨q, e1, e2⟩ := k1 j
    obtain ⟨q', e1', e2'⟩ := k1' j
    rw [e1] at e1'; obtain rfl := Option.some.inj e1'
    rw [e2] at e2'; exact (Option.some.inj e2').symm
  subst hv
  cases op with
  | value c =>
    obtain ⟨g, hg⟩ := T.value c
    have hw := fun q => congrFun hg q
    exact (k2 _ fun j => hw _).trans (k2' _ fun j => hw _).symm
  | grad c di =>
    obtain ⟨g, hg⟩ := T.grad c di
    have hw := fun q => congrFun hg q
    exact (k3 di _ fun j => hw _).trans (k3' di _ fun j => hw _).symm
  | hess c di dj =>
    obtain ⟨g, hg⟩ := T.hess c di dj
    have hw := fun q => congrFun hg q
    exact (k4 di dj _ fun j => hw _).trans (k4' di dj _ fun j => hw _).symm

omit [Field K] [FloorRing K] [IsStrictOrderedRing K] in
theorem corner_order {data data' : List K} {cell : List Nat} {v v' : Fin n → K} (h : CornerVals data cell v) (h' : CornerVals data' cell v')
    (hd : ∀ (p : Nat) y y', data[p]? = some y → data'[p]? = some y' → y ≤ y') (j : Fin n) : v j ≤ v' j := by
  obtain ⟨q, e1, e2⟩ := h j
  obtain ⟨q', e1', e2'⟩ := h' j
  rw [e1] at e1'; obtain rfl := Option.some.inj e1'
  exact hd q _ _ e2 e2'

end Fl

/-- **C131** (2D, order) Two bodies with the same mesh (or one body), in floating-point arithmetic: if the data of a field of the first are nowhere above
those of a field of the second, then at every point of the body, whatever was evaluated before on the two, the value computed for the first field is not
above that for the second. -/
theorem C131_order_2d (R : Rounding rnd u) (hu : u ≤ 1 / 64) (pts : List (Fin 2 → K)) (cells : List (List Nat)) (flds flds' : List (String × List K))
    (hm : FloatMesh quadUnit rnd u pts cells) (hl : ∀ fl ∈ flds, fl.2.length = pts.length) (hl' : ∀ fl ∈ flds', fl.2.length = pts.length)
    (b b' : Body K 2) (hb : Fl.load rnd (Fl.quadOps rnd) pts cells flds = .ok b) (hb' : Fl.load rnd (Fl.quadOps rnd) pts cells flds' = .ok b')
    (ops ops' : List (Nat × Body.Call K 2)) (ho : Fl.HistOk rnd pts ops) (ho' : Fl.HistOk rnd pts ops') (i i' : Nat) (name name' : String)
    (data data' : List K) (hi : flds[i]? = some (name, data)) (hi' : flds'[i']? = some (name', data'))
    (hd : ∀ (p : Nat) y y', data[p]? = some y → data'[p]? = some y' → y ≤ y') (c : Fin 2 → K) (hc : FloatPoint quadUnit rnd pts cells c) :
    ∃ y y', Fl.eval rnd (Fl.quadOps rnd) (Fl.evals rnd (Fl.quadOps rnd) b ops) i (.value c) = .ok y ∧
      Fl.eval rnd (Fl.quadOps rnd) (Fl.evals rnd (Fl.quadOps rnd) b' ops') i' (.value c) = .ok y' ∧ y ≤ y' := by
  have li := (List.getElem?_eq_some_iff.mp hi).1
  have li' := (List.getElem?_eq_some_iff.mp hi').1
  rw [Fl.eval_free Fl.flQuad Fl.flQuadTotal R hu flds hm hl b hb ops ho i li (.value c) hc,
    Fl.eval_free Fl.flQuad Fl.flQuadTotal R hu flds' hm hl' b' hb' ops' ho' i' li' (.value c) hc]
  have hll : ∀ fl ∈ flds ++ flds', fl.2.length = pts.length := fun fl h => (List.mem_append.mp h).elim (hl fl) (hl' fl)
  obtain ⟨B, hB⟩ := C94_loads R hu pts cells (flds ++ flds') hm hll
  have j1 : (flds ++ flds')[i]? = some (name, data) := by rw [List.getElem?_append_left li, hi]
  have j2 : (flds ++ flds')[flds.length + i']? = some (name', data') := by rw [List.getElem?_append_right (by omega)]; simpa using hi'
  rw [Fl.eval_alone hb hB hi j1, Fl.eval_alone hb' hB hi' j2]
  obtain ⟨cell, a, h, e, p, g1, g2, g3, _, g5⟩ := Fl.quad_eval R hu pts cells _ hm hll B hB c hc
  obtain ⟨v, k1, k2, _⟩ := g5 [] (by simp [Fl.HistOk]) i _ _ j1
  obtain ⟨v', k1', k2', _⟩ := g5 [] (by simp [Fl.HistOk]) _ _ _ j2
  exact ⟨_, _, k2, k2', Fl.rsum_order R _ (fun j => (Fl.value_weight R hu g2.2.1 g3 (cell.getD j 0) e j).1.1) (Fl.corner_order k1 k1' hd)⟩

/-- **C131** (3D, order) The same at the points of a 3D body that are vertically clear (two margins away from cells above or below that do not contain the
point; for instance anywhere in a body of one layer). -/
theorem C131_order_3d_partial (R : Rounding rnd u) (hu : u ≤ 1 / 64) (pts : List (Fin 3 → K)) (cells : List (List Nat)) (flds flds' : List (String × List K))
    (hm : FloatMesh hexUnit rnd u pts cells) (hl : ∀ fl ∈ flds, fl.2.length = pts.length) (hl' : ∀ fl ∈ flds', fl.2.length = pts.length)
    (b b' : Body K 3) (hb : Fl.load rnd (Fl.hexOps rnd) pts cells flds = .ok b) (hb' : Fl.load rnd (Fl.hexOps rnd) pts cells flds' = .ok b')
    (ops ops' : List (Nat × Body.Call K 3)) (ho : Fl.HistOk rnd pts ops) (ho' : Fl.HistOk rnd pts ops') (i i' : Nat) (name name' : String)
    (data data' : List K) (hi : flds[i]? = some (name, data)) (hi' : flds'[i']? = some (name', data'))
    (hd : ∀ (p : Nat) y y', data[p]? = some y → data'[p]? = some y' → y ≤ y') (c : Fin 3 → K) (hc : FloatPoint hexUnit rnd pts cells c)
    (hcl : VerticallyClear pts cells c) :
    ∃ y y', Fl.eval rnd (Fl.hexOps rnd) (Fl.evals rnd (Fl.hexOps rnd) b ops) i (.value c) = .ok y ∧
      Fl.eval rnd (Fl.hexOps rnd) (Fl.evals rnd (Fl.hexOps rnd) b' ops') i' (.value c) = .ok y' ∧ y ≤ y' := by
  have li := (List.getElem?_eq_some_iff.mp hi).1
  have li' := (List.getElem?_eq_some_iff.mp hi').1
  rw [Fl.eval_free Fl.flHex Fl.flHexTotal R hu flds hm hl b hb ops ho i li (.value c) hc,
    Fl.eval_free Fl.flHex Fl.flHexTotal R hu flds' hm hl' b' hb' ops' ho' i' li' (.value c) hc]
  have hll : ∀ fl ∈ flds ++ flds', fl.2.length = pts.length := fun fl h => (List.mem_append.mp h).elim (hl fl) (hl' fl)
  obtain ⟨B, hB⟩ := C107_loads R hu pts cells (flds ++ flds') hm hll
  have j1 : (flds ++ flds')[i]? = some (name, data) := by rw [List.getElem?_append_left li, hi]
  have j2 : (flds ++ flds')[flds.length + i']? = some (name', data') := by rw [List.getElem?_append_right (by omega)]; simpa using hi'
  rw [Fl.eval_alone hb hB hi j1, Fl.eval_alone hb' hB hi' j2]
  obtain ⟨cell, a, h, e, p, g1, g2, g3, _, g5⟩ := Fl.hex_eval R hu pts cells _ hm hll B hB c hc hcl
  obtain ⟨v, k1, k2, _⟩ := g5 [] (by simp [Fl.HistOk]) i _ _ j1
  obtain ⟨v', k1', k2', _⟩ := g5 [] (by simp [Fl.HistOk]) _ _ _ j2
  refine ⟨_, _, k2, k2', Fl.rsum_order R _ (fun j => ?_) (Fl.corner_order k1 k1' hd)⟩
  have w := fun i => (Fl.cfac_bounds R hu g2.2.1 g3 j i).1.1
  exact R.nonneg (mul_nonneg (R.nonneg (mul_nonneg (w 0) (w 1))) (w 2))

namespace Fl

/-- All values of a field of zeros are zero. -/
theorem rsum_signs (R : Rounding rnd u) (l : List (Fin n)) {W v : Fin n → K} (hW : ∀ j, 0 ≤ W j) :
    ((∀ j, 0 ≤ v j) → 0 ≤ rsum rnd 0 (l.map fun j => rnd (W j * v j))) ∧ ((∀ j, v j ≤ 0) → rsum rnd 0 (l.map fun j => rnd (W j * v j)) ≤ 0) := by
  have z : rsum rnd 0 (l.map fun j => rnd (W j * (fun _ => (0 : K)) j)) = 0 := rsum_zeros R R.zero _ _ fun j _ => by simp [R.zero]
  exact ⟨fun h => z.symm.trans_le (rsum_order R l hW h), fun h => (rsum_order R l hW h).trans_eq z⟩

end Fl

/-- **C131** (2D, range) If the data of a field are between `lo` and `hi`, then so is every value computed at a point of the body, up to 64 roundoffs of the
largest magnitude; and a field without negative data has no negative value, one without positive data no positive value - without exceptions for rounding. -/
theorem C131_range_2d (R : Rounding rnd u) (hu : u ≤ 1 / 64) (pts : List (Fin 2 → K)) (cells : List (List Nat)) (flds : List (String × List K))
    (hm : FloatMesh quadUnit rnd u pts cells) (hl : ∀ fl ∈ flds, fl.2.length = pts.length) (hfl : ∀ fl ∈ flds, ∀ y ∈ fl.2, IsFloat rnd y)
    (b : Body K 2) (hb : Fl.load rnd (Fl.quadOps rnd) pts cells flds = .ok b) (ops : List (Nat × Body.Call K 2)) (ho : Fl.HistOk rnd pts ops)
    (i : Nat) (name : String) (data : List K) (hi : flds[i]? = some (name, data)) (lo hi' : K) (hd : ∀ y ∈ data, lo ≤ y ∧ y ≤ hi')
    (c : Fin 2 → K) (hc : FloatPoint quadUnit rnd pts cells c) :
    ∃ y, Fl.eval rnd (Fl.quadOps rnd) (Fl.evals rnd (Fl.quadOps rnd) b ops) i (.value c) = .ok y ∧
      lo - 64 * u * max |lo| |hi'| ≤ y ∧ y ≤ hi' + 64 * u * max |lo| |hi'| ∧ (0 ≤ lo → 0 ≤ y) ∧ (hi' ≤ 0 → y ≤ 0) := by
  obtain ⟨cell, a, h, e, p, g1, g2, g3, g4, g5⟩ := Fl.quad_eval R hu pts cells flds hm hl b hb c hc
  obtain ⟨v, k1, k2, _⟩ := g5 ops ho i name data hi
  have hv : ∀ j, IsFloat rnd (v j) ∧ lo ≤ v j ∧ v j ≤ hi' := by
    intro j
    obtain ⟨q, _, hq⟩ := k1 j
    exact ⟨hfl _ (List.mem_of_getElem? hi) _ (List.mem_of_getElem? hq), hd _ (List.mem_of_getElem? hq)⟩
  have hM : ∀ j, |v j| ≤ max |lo| |hi'| := fun j => abs_le_max_abs_abs (hv j).2.1 (hv j).2.2
  have cl := Fl.value_close R hu g2.2.1 g3 hc.2 p g4 v (fun j => (hv j).1) hM (fun j => cell.getD j 0) e
  obtain ⟨c1, c2⟩ := abs_le.mp cl
  have bl : lo ≤ bilinear a h v c ∧ bilinear a h v c ≤ hi' := by
    rw [Fl.bilinear_wgt g2.2.1]
    have w0 : ∀ j, 0 ≤ Fl.wgt a h c j := fun j => mul_nonneg (Fl.fac_bounds g2.2.1 g3 j 0).1 (Fl.fac_bounds g2.2.1 g3 j 1).1
    have one : ∑ j, Fl.wgt a h c j = 1 := by
      have := Fl.bilinear_wgt (a := a) g2.2.1 (fun _ => (1 : K)) c
      simp only [mul_one] at this
      rw [← this]
      unfold bilinear
      ring
    constructor
    · calc lo = (∑ j, Fl.wgt a h c j) * lo := by rw [one, one_mul]
        _ = ∑ j, Fl.wgt a h c j * lo := by rw [Finset.sum_mul]
        _ ≤ _ := Finset.sum_le_sum fun j _ => mul_le_mul_of_nonneg_left (hv j).2.1 (w0 j)
    · calc _ ≤ ∑ j, Fl.wgt a h c j * hi' := Finset.sum_le_sum fun j _ => mul_le_mul_of_nonneg_left (hv j).2.2 (w0 j)
        _ = (∑ j, Fl.wgt a h c j) * hi' := by rw [Finset.sum_mul]
        _ = hi' := by rw [one, one_mul]
  have sg := Fl.rsum_signs R ((List.finRange 4).filter p) (v := v) (fun j => (Fl.value_weight R hu g2.2.1 g3 (cell.getD j 0) e j).1.1)
  exact ⟨_, k2, by linarith [bl.1], by linarith [bl.2], fun h0 => sg.1 fun j => h0.trans (hv j).2.1, fun h0 => sg.2 fun j => (hv j).2.2.trans h0⟩

/-- **C131** (3D, sign) At vertically clear points a 3D field without negative data has no negative value, one without positive data no positive value. -/
theorem C131_sign_3d_partial (R : Rounding rnd u) (hu : u ≤ 1 / 64) (pts : List (Fin 3 → K)) (cells : List (List Nat)) (flds : List (String × List K))
    (hm : FloatMesh hexUnit rnd u pts cells) (hl : ∀ fl ∈ flds, fl.2.length = pts.length)
    (b : Body K 3) (hb : Fl.load rnd (Fl.hexOps rnd) pts cells flds = .ok b) (ops : List (Nat × Body.Call K 3)) (ho : Fl.HistOk rnd pts ops)
    (i : Nat) (name : String) (data : List K) (hi : flds[i]? = some (name, data))
    (c : Fin 3 → K) (hc : FloatPoint hexUnit rnd pts cells c) (hcl : VerticallyClear pts cells c) :
    ∃ y, Fl.eval rnd (Fl.hexOps rnd) (Fl.evals rnd (Fl.hexOps rnd) b ops) i (.value c) = .ok y ∧
      ((∀ x ∈ data, 0 ≤ x) → 0 ≤ y) ∧ ((∀ x ∈ data, x ≤ 0) → y ≤ 0) := by
  obtain ⟨cell, a, h, e, p, g1, g2, g3, _, g5⟩ := Fl.hex_eval R hu pts cells flds hm hl b hb c hc hcl
  obtain ⟨v, k1, k2, _⟩ := g5 ops ho i name data hi
  have hv : ∀ j, v j ∈ data := by
    intro j
    obtain ⟨q, _, hq⟩ := k1 j
    exact List.mem_of_getElem? hq
  have sg := Fl.rsum_signs R ((List.finRange 8).filter p) (v := v)
    (W := fun j => rnd (rnd (Fl.cfac rnd a h c j 0 * Fl.cfac rnd a h c j 1) * Fl.cfac rnd a h c j 2)) (fun j => by
      have w := fun i => (Fl.cfac_bounds R hu g2.2.1 g3 j i).1.1
      exact R.nonneg (mul_nonneg (R.nonneg (mul_nonneg (w 0) (w 1))) (w 2)))
  exact ⟨_, k2, fun h0 => sg.1 fun j => h0 _ (hv j), fun h0 => sg.2 fun j => h0 _ (hv j)⟩

open FlDemo (r rounding) in
open FlDemo3 in
/-- **C131** is false at points of a 3D body that are not vertically clear: on three cells on top of each other in binary64 the value at the point
(1/2, 1/2, 3/4) of a field whose data are 0 and 1 is -5. -/
theorem C131_sign_3d_violated :
    FloatMesh hexUnit r ((2 : ℚ) ^ (-53 : Int)) FlDemo3.pts FlDemo3.cells ∧ FloatPoint hexUnit r FlDemo3.pts FlDemo3.cells ![1 / 2, 1 / 2, 3 / 4] ∧
    ∃ b, Fl.load r (Fl.hexOps r) FlDemo3.pts FlDemo3.cells [("v", [1, 1, 1, 1, 0, 0, 0, 0, 0, 0, 0, 0, 0, 0, 0, 0])] = .ok b ∧
      Fl.eval r (Fl.hexOps r) b 0 (.value ![1 / 2, 1 / 2, 3 / 4]) = .ok (-5) := by
  refine ⟨mesh, ⟨⟨_, by simp [cells], _, _, cell2, by unfold InCell; decide +kernel⟩, by unfold IsFloat; decide +kernel⟩, ?_⟩
  obtain ⟨b, hb⟩ := C107_loads rounding (by decide +kernel) FlDemo3.pts FlDemo3.cells [("v", [1, 1, 1, 1, 0, 0, 0, 0, 0, 0, 0, 0, 0, 0, 0, 0])] mesh
    (by decide)
  refine ⟨b, hb, ?_⟩
  have : (Fl.load r (Fl.hexOps r) FlDemo3.pts FlDemo3.cells [("v", [1, 1, 1, 1, 0, 0, 0, 0, 0, 0, 0, 0, 0, 0, 0, 0])] >>= fun b =>
      Fl.eval r (Fl.hexOps r) b 0 (.value ![1 / 2, 1 / 2, 3 / 4])) = .ok (-5) := by decide +kernel
  rw [hb] at this
  exact this

open FlDemo (r) in
/-- Hypotheses of the theorems on factors: the demo file in binary64 is read, with data as they are and with the first field in units of 1/8 and the second
with the sign changed, and the values at (0.1, 0.7) are as stated. -/
example :
    let κ : String → ℚ := fun n => if n = "u" then 8 else -1
    (∀ n, Respects r (κ n)) ∧
    (Fl.load r (Fl.quadOps r) Demo.pts Demo.cells Demo.flds >>= fun b => Fl.eval r (Fl.quadOps r) b 0 (.value ![r (1 / 10), r (7 / 10)])) ≠ .ok 0 ∧
    (Fl.load r (Fl.quadOps r) Demo.pts Demo.cells (Demo.flds.map fun fl => (fl.1, fl.2.map (κ fl.1 * ·))) >>= fun b =>
      Fl.eval r (Fl.quadOps r) b 0 (.value ![r (1 / 10), r (7 / 10)])) =
    (Fl.load r (Fl.quadOps r) Demo.pts Demo.cells Demo.flds >>= fun b =>
      Fl.eval r (Fl.quadOps r) b 0 (.value ![r (1 / 10), r (7 / 10)])).map (8 * ·) := by
  intro κ
  refine ⟨fun n => ?_, by decide +kernel, by decide +kernel⟩
  show Respects r (if n = "u" then 8 else -1)
  split
  · exact (show (8 : ℚ) = 2 ^ (3 : Int) by norm_num) ▸ (C131_factors 53 3).1
  · exact (show (-1 : ℚ) = -2 ^ (0 : Int) by norm_num) ▸ (C131_factors 53 0).2

open FlDemo (r rounding) in
open FlDemo3 in
/-- Hypotheses of the theorems on order and signs: 2D, two cells and two fields in order, evaluated at (0.1, 0.7) after different histories; 3D, the three cells at
the vertically clear point (0.1, 0.7, 3.3). (Meshes, histories and points: the examples beside C94 to C96 and C107 to C109.) -/
example :
    FloatMesh quadUnit r ((2 : ℚ) ^ (-53 : Int)) Demo.pts Demo.cells ∧ FloatPoint quadUnit r Demo.pts Demo.cells ![r (1 / 10), r (7 / 10)] ∧
    (∀ fl ∈ ([("a", [1, 2, 3, 4, 5, 7]), ("b", [1, 3, 3, 9, 5, 8])] : List (String × List ℚ)), fl.2.length = Demo.pts.length) ∧
    (∀ (p : Nat) (y y' : ℚ), [1, 2, 3, 4, 5, 7][p]? = some y → [1, 3, 3, 9, 5, 8][p]? = some y' → y ≤ y') ∧
    (∀ y ∈ ([1, 2, 3, 4, 5, 7] : List ℚ), 1 ≤ y ∧ y ≤ 7) ∧ (∀ y ∈ ([1, 2, 3, 4, 5, 7] : List ℚ), IsFloat r y) ∧
    VerticallyClear FlDemo3.pts FlDemo3.cells ![r (1 / 10), r (7 / 10), r (33 / 10)] ∧
    FloatPoint hexUnit r FlDemo3.pts FlDemo3.cells ![r (1 / 10), r (7 / 10), r (33 / 10)] ∧
    ∀ fl ∈ FlDemo3.flds, ∀ x ∈ fl.2, 0 ≤ x := by
  refine ⟨FlDemo.mesh2, ⟨⟨_, List.mem_cons_self, _, _, Demo.cell0, by unfold InCell; decide +kernel⟩, by unfold IsFloat; decide +kernel⟩, by decide, ?_,
    by decide +kernel, by unfold IsFloat; decide +kernel, ?_,
    ⟨⟨_, by simp [cells], _, _, cell2, by unfold InCell; decide +kernel⟩, by unfold IsFloat; decide +kernel⟩, by decide +kernel⟩
  · intro p y y' h h'
    have hp : p < 6 := by simpa using (List.getElem?_eq_some_iff.mp h).1
    interval_cases p <;> simp at h h' <;> subst h <;> subst h' <;> norm_num
  · intro cell hc a h hah _ hn
    have h4 := (hn 0 4 (low 2) (high 2)).2
    have hm : margin FlDemo3.pts 2 0 4 = 1 := by decide +kernel
    rw [hm] at h4
    have h3 : (3 : ℚ) ≤ (![r (1 / 10), r (7 / 10), r (33 / 10)] : Fin 3 → ℚ) 2 := by decide +kernel
    have := only cell hc a h hah
    simp only [List.mem_cons, Prod.mk.injEq, List.not_mem_nil, or_false] at this
    rcases this with ⟨rfl, rfl, rfl⟩ | ⟨rfl, rfl, rfl⟩ | ⟨rfl, rfl, rfl⟩
    · simp at h4 h3; linarith
    · simp at h4 h3; linarith
    · unfold InCell; decide +kernel

end Verif
