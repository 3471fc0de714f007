import Verif.Lemmas.RoundedMove
import Verif.Lemmas.RoundingScale
import Verif.Props.FieldMove
import Verif.Props.Order

/-!
# Property C132: units of the coordinates that are powers of two, in floating-point arithmetic

For every file, whether it makes sense or not, and every position.
-/

namespace Verif
open Spec
variable {K : Type} {d n : Nat} [Field K] [LinearOrder K] [FloorRing K] [IsStrictOrderedRing K] {rnd : K → K} {u : K}

/-! ### Meshes and points in the new units -/

omit [FloorRing K] in
theorem inUnits_rescale (s : Fin d → K) : inUnits s = rescale s 0 := by funext c i; simp [inUnits, rescale]

omit [FloorRing K] in
theorem isLow_units {s : Fin d → K} (hs : ∀ i, 0 < s i) {pts : List (Fin d → K)} {i : Fin d} {x : K} (h : IsLow (pts.map (inUnits s)) i x) :
    ∃ y, IsLow pts i y ∧ x = s i * y := by
  obtain ⟨⟨p, hp, rfl⟩, h2⟩ := h
  obtain ⟨q, hq, rfl⟩ := List.mem_map.mp hp
  exact ⟨q i, ⟨⟨q, hq, rfl⟩, fun p hp => (mul_le_mul_iff_right₀ (hs i)).mp (h2 _ (List.mem_map_of_mem hp))⟩, rfl⟩

omit [FloorRing K] in
theorem isHigh_units {s : Fin d → K} (hs : ∀ i, 0 < s i) {pts : List (Fin d → K)} {i : Fin d} {x : K} (h : IsHigh (pts.map (inUnits s)) i x) :
    ∃ y, IsHigh pts i y ∧ x = s i * y := by
  obtain ⟨⟨p, hp, rfl⟩, h2⟩ := h
  obtain ⟨q, hq, rfl⟩ := List.mem_map.mp hp
  exact ⟨q i, ⟨⟨q, hq, rfl⟩, fun p hp => (mul_le_mul_iff_right₀ (hs i)).mp (h2 _ (List.mem_map_of_mem hp))⟩, rfl⟩

omit [FloorRing K] [LinearOrder K] [IsStrictOrderedRing K] in
theorem isFloat_units {s : K} (hR : Respects rnd s) {x : K} (h : IsFloat rnd x) : IsFloat rnd (s * x) := by
  show rnd (s * x) = s * x
  rw [hR, h]

omit [FloorRing K] in
/-- A legal mesh is legal in the new units. -/
theorem floatMesh_units {unit : Fin n → Fin d → K} {s : Fin d → K} (hs : ∀ i, 0 < s i) (hR : ∀ i, Respects rnd (s i)) {pts : List (Fin d → K)}
    {cells : List (List Nat)} (hm : FloatMesh unit rnd u pts cells) : FloatMesh unit rnd u (pts.map (inUnits s)) cells where
  rect := by rw [inUnits_rescale]; exact rectMesh_rescale hs 0 hm.rect
  float p hp i := by
    obtain ⟨q, hq, rfl⟩ := List.mem_map.mp hp
    exact isFloat_units (hR i) (hm.float q hq i)
  resolved i lo hi hlo hhi := by
    obtain ⟨lo', l1, rfl⟩ := isLow_units hs hlo
    obtain ⟨hi', l2, rfl⟩ := isHigh_units hs hhi
    have h := hm.resolved i lo' hi' l1 l2
    have e := nDistinct_rescale hs 0 pts i
    rw [← inUnits_rescale] at e
    unfold margin at h ⊢
    rw [e, abs_mul, abs_of_pos (hs i), ← mul_sub, mul_div_assoc]
    have := mul_le_mul_of_nonneg_left h (hs i).le
    calc _ = s i * (16 * u * (|lo'| + (hi' - lo'))) := by ring
      _ ≤ _ := this

omit [FloorRing K] in
theorem floatPoint_units {unit : Fin n → Fin d → K} {s : Fin d → K} (hs : ∀ i, 0 < s i) (hR : ∀ i, Respects rnd (s i)) {pts : List (Fin d → K)}
    {cells : List (List Nat)} {c : Fin d → K} (hc : FloatPoint unit rnd pts cells c) : FloatPoint unit rnd (pts.map (inUnits s)) cells (inUnits s c) :=
  ⟨by rw [inUnits_rescale]; exact covered_rescale hs 0 hc.1, fun i => isFloat_units (hR i) (hc.2 i)⟩

/-! ### Any element class -/

namespace Fl

/-- Everything C132 says about any file, for any element class. -/
theorem units {E : ElemOps K d} {s : Fin d → K} (hs : ∀ i, 0 < s i) (hR : ∀ i, Respects rnd (s i)) (M : ScMoves E s) (pts : List (Fin d → K))
    (cells : List (List Nat)) (flds : List (String × List K)) :
    (∀ e, load rnd E (pts.map (inUnits s)) cells flds = .error e ↔ load rnd E pts cells flds = .error e) ∧
    ∀ b b', load rnd E pts cells flds = .ok b → load rnd E (pts.map (inUnits s)) cells flds = .ok b' →
      (∀ (ops : List (Nat × (Fin d → K))) (i : Nat) (c : Fin d → K),
        eval rnd E (evals rnd E b' (ops.map fun o => (o.1, .value (inUnits s o.2)))) i (.value (inUnits s c)) =
          eval rnd E (evals rnd E b (ops.map fun o => (o.1, .value o.2))) i (.value c)) ∧
      (∀ (i : Nat) (c : Fin d → K) (di : Fin d),
        eval rnd E b' i (.grad (inUnits s c) di) = (eval rnd E b i (.grad c di)).map (· / s di)) ∧
      (∀ (i : Nat) (c : Fin d → K) (di dj : Fin d),
        eval rnd E b' i (.hess (inUnits s c) di dj) = (eval rnd E b i (.hess c di dj)).map (· / (s di * s dj))) ∧
      (∀ i, b'.mesh.minAt i = (b.mesh.minAt i).map (s i * ·)) ∧ ∀ i, b'.mesh.maxAt i = (b.mesh.maxAt i).map (s i * ·) := by
  have h := load_scU hs hR M pts cells flds
  have hf : ∀ k : K, (fun x : K => x / k) = fun x => k⁻¹ * x := by intro k; funext x; rw [div_eq_mul_inv, mul_comm]
  refine ⟨fun e => ?_, fun b b' hb hb' => ?_⟩
  · rw [h]; cases load rnd E pts cells flds <;> simp [Except.map]
  · rw [h, hb] at hb'
    obtain rfl := Except.ok.inj hb'
    refine ⟨fun ops i c => ?_, fun i c di => ?_, fun i c di dj => ?_, fun i => ?_, fun i => ?_⟩
    · rw [evals_scU hs hR M, value_scU hs hR M]
    · rw [hf]; exact grad_scU hs hR M (load_new hb) i c di
    · rw [hf]; exact hess_scU hs hR M (load_new hb) i c di dj
    · simp only [Mesh.minAt, scU, scM]
      cases b.mesh.min i <;> rfl
    · simp only [Mesh.maxAt, scU, scM]
      cases b.mesh.max i <;> rfl

/-- Everything C132 says about points of legal bodies, for any element class. -/
theorem units_history {E : ElemOps K d} {unit sgn : Fin n → Fin d → K} {tested : Fin d → Prop} (F : FlElem rnd E unit sgn tested)
    (T : PField.ElemTotal E) (R : Rounding rnd u) (hu : u ≤ 1 / 64) {s : Fin d → K} (hs : ∀ i, 0 < s i) (hR : ∀ i, Respects rnd (s i))
    (M : ScMoves E s) (pts : List (Fin d → K)) (cells : List (List Nat)) (flds : List (String × List K)) (hm : FloatMesh unit rnd u pts cells)
    (hl : ∀ fl ∈ flds, fl.2.length = pts.length) (b b' : Body K d) (hb : load rnd E pts cells flds = .ok b)
    (hb' : load rnd E (pts.map (inUnits s)) cells flds = .ok b') (ops ops' : List (Nat × Body.Call K d)) (ho : HistOk rnd pts ops)
    (ho' : HistOk rnd (pts.map (inUnits s)) ops') (i : Nat) (hi : i < flds.length) (c : Fin d → K) (hc : FloatPoint unit rnd pts cells c) :
    eval rnd E (evals rnd E b' ops') i (.value (inUnits s c)) = eval rnd E (evals rnd E b ops) i (.value c) ∧
    (∀ di : Fin d, eval rnd E (evals rnd E b' ops') i (.grad (inUnits s c) di) = (eval rnd E (evals rnd E b ops) i (.grad c di)).map (· / s di)) ∧
    ∀ di dj : Fin d, eval rnd E (evals rnd E b' ops') i (.hess (inUnits s c) di dj) =
      (eval rnd E (evals rnd E b ops) i (.hess c di dj)).map (· / (s di * s dj)) := by
  obtain ⟨k1, k2, k3, _⟩ := (units hs hR M pts cells flds).2 b b' hb hb'
  have f := fun op hc => eval_free F T R hu flds hm hl b hb ops ho i hi op hc
  have f' := fun op hc => eval_free F T R hu flds (floatMesh_units hs hR hm) (by simpa using hl) b' hb' ops' ho' i hi op hc
  have hc' := floatPoint_units hs hR hc
  refine ⟨?_, fun di => ?_, fun di dj => ?_⟩
  · rw [f (.value c) hc, f' (.value (inUnits s c)) hc']; exact k1 [] i c
  · rw [f (.grad c di) hc, f' (.grad (inUnits s c) di) hc']; exact k2 i c di
  · rw [f (.hess c di dj) hc, f' (.hess (inUnits s c) di dj) hc']; exact k3 i c di dj

end Fl

/-! ### C132 -/

/-- **C132** (2D) Multiply the coordinates of a file by positive factors that rounding does not notice, one for each direction (powers of two:
C131_factors). The file is read, or not, as before, in the same way. After the same values have been evaluated, anywhere, every value (or exception) at
every position is exactly the one it was, rounding errors included; derivatives asked of the body as read are exactly those of the original divided by the
factors; the limits are exactly those of the original in the new units. -/
theorem C132_units_2d (s : Fin 2 → K) (hs : ∀ i, 0 < s i) (hR : ∀ i, Respects rnd (s i)) (pts : List (Fin 2 → K)) (cells : List (List Nat))
    (flds : List (String × List K)) :
    let E := Fl.quadOps rnd
    (∀ e, Fl.load rnd E (pts.map (inUnits s)) cells flds = .error e ↔ Fl.load rnd E pts cells flds = .error e) ∧
    ∀ b b', Fl.load rnd E pts cells flds = .ok b → Fl.load rnd E (pts.map (inUnits s)) cells flds = .ok b' →
      (∀ (ops : List (Nat × (Fin 2 → K))) (i : Nat) (c : Fin 2 → K),
        Fl.eval rnd E (Fl.evals rnd E b' (ops.map fun o => (o.1, .value (inUnits s o.2)))) i (.value (inUnits s c)) =
          Fl.eval rnd E (Fl.evals rnd E b (ops.map fun o => (o.1, .value o.2))) i (.value c)) ∧
      (∀ (i : Nat) (c : Fin 2 → K) (di : Fin 2),
        Fl.eval rnd E b' i (.grad (inUnits s c) di) = (Fl.eval rnd E b i (.grad c di)).map (· / s di)) ∧
      (∀ (i : Nat) (c : Fin 2 → K) (di dj : Fin 2),
        Fl.eval rnd E b' i (.hess (inUnits s c) di dj) = (Fl.eval rnd E b i (.hess c di dj)).map (· / (s di * s dj))) ∧
      (∀ i, b'.mesh.minAt i = (b.mesh.minAt i).map (s i * ·)) ∧ ∀ i, b'.mesh.maxAt i = (b.mesh.maxAt i).map (s i * ·) :=
  Fl.units hs hR (Fl.quadSc (fun i => (hs i).ne') hR) pts cells flds

/-- **C132** (3D) The same. -/
theorem C132_units_3d (s : Fin 3 → K) (hs : ∀ i, 0 < s i) (hR : ∀ i, Respects rnd (s i)) (pts : List (Fin 3 → K)) (cells : List (List Nat))
    (flds : List (String × List K)) :
    let E := Fl.hexOps rnd
    (∀ e, Fl.load rnd E (pts.map (inUnits s)) cells flds = .error e ↔ Fl.load rnd E pts cells flds = .error e) ∧
    ∀ b b', Fl.load rnd E pts cells flds = .ok b → Fl.load rnd E (pts.map (inUnits s)) cells flds = .ok b' →
      (∀ (ops : List (Nat × (Fin 3 → K))) (i : Nat) (c : Fin 3 → K),
        Fl.eval rnd E (Fl.evals rnd E b' (ops.map fun o => (o.1, .value (inUnits s o.2)))) i (.value (inUnits s c)) =
          Fl.eval rnd E (Fl.evals rnd E b (ops.map fun o => (o.1, .value o.2))) i (.value c)) ∧
      (∀ (i : Nat) (c : Fin 3 → K) (di : Fin 3),
        Fl.eval rnd E b' i (.grad (inUnits s c) di) = (Fl.eval rnd E b i (.grad c di)).map (· / s di)) ∧
      (∀ (i : Nat) (c : Fin 3 → K) (di dj : Fin 3),
        Fl.eval rnd E b' i (.hess (inUnits s c) di dj) = (Fl.eval rnd E b i (.hess c di dj)).map (· / (s di * s dj))) ∧
      (∀ i, b'.mesh.minAt i = (b.mesh.minAt i).map (s i * ·)) ∧ ∀ i, b'.mesh.maxAt i = (b.mesh.maxAt i).map (s i * ·) :=
  Fl.units hs hR (Fl.hexSc (fun i => (hs i).ne') hR) pts cells flds

/-- **C132** (2D) At a point of a legal body this holds after any evaluations whatever (different ones on the two bodies), for values, first and second
derivatives. -/
theorem C132_history_2d (R : Rounding rnd u) (hu : u ≤ 1 / 64) (s : Fin 2 → K) (hs : ∀ i, 0 < s i) (hR : ∀ i, Respects rnd (s i))
    (pts : List (Fin 2 → K)) (cells : List (List Nat)) (flds : List (String × List K)) (hm : FloatMesh quadUnit rnd u pts cells)
    (hl : ∀ fl ∈ flds, fl.2.length = pts.length) (b b' : Body K 2) (hb : Fl.load rnd (Fl.quadOps rnd) pts cells flds = .ok b)
    (hb' : Fl.load rnd (Fl.quadOps rnd) (pts.map (inUnits s)) cells flds = .ok b') (ops ops' : List (Nat × Body.Call K 2)) (ho : Fl.HistOk rnd pts ops)
    (ho' : Fl.HistOk rnd (pts.map (inUnits s)) ops') (i : Nat) (hi : i < flds.length) (c : Fin 2 → K) (hc : FloatPoint quadUnit rnd pts cells c) :
    let E := Fl.quadOps rnd
    Fl.eval rnd E (Fl.evals rnd E b' ops') i (.value (inUnits s c)) = Fl.eval rnd E (Fl.evals rnd E b ops) i (.value c) ∧
    (∀ di : Fin 2, Fl.eval rnd E (Fl.evals rnd E b' ops') i (.grad (inUnits s c) di) =
      (Fl.eval rnd E (Fl.evals rnd E b ops) i (.grad c di)).map (· / s di)) ∧
    ∀ di dj : Fin 2, Fl.eval rnd E (Fl.evals rnd E b' ops') i (.hess (inUnits s c) di dj) =
      (Fl.eval rnd E (Fl.evals rnd E b ops) i (.hess c di dj)).map (· / (s di * s dj)) :=
  Fl.units_history Fl.flQuad Fl.flQuadTotal R hu hs hR (Fl.quadSc (fun i => (hs i).ne') hR) pts cells flds hm hl b b' hb hb' ops ops' ho ho' i hi c hc

/-- **C132** (3D) The same, also at the points where the 3D code picks a cell that does not contain the point. -/
theorem C132_history_3d (R : Rounding rnd u) (hu : u ≤ 1 / 64) (s : Fin 3 → K) (hs : ∀ i, 0 < s i) (hR : ∀ i, Respects rnd (s i))
    (pts : List (Fin 3 → K)) (cells : List (List Nat)) (flds : List (String × List K)) (hm : FloatMesh hexUnit rnd u pts cells)
    (hl : ∀ fl ∈ flds, fl.2.length = pts.length) (b b' : Body K 3) (hb : Fl.load rnd (Fl.hexOps rnd) pts cells flds = .ok b)
    (hb' : Fl.load rnd (Fl.hexOps rnd) (pts.map (inUnits s)) cells flds = .ok b') (ops ops' : List (Nat × Body.Call K 3)) (ho : Fl.HistOk rnd pts ops)
    (ho' : Fl.HistOk rnd (pts.map (inUnits s)) ops') (i : Nat) (hi : i < flds.length) (c : Fin 3 → K) (hc : FloatPoint hexUnit rnd pts cells c) :
    let E := Fl.hexOps rnd
    Fl.eval rnd E (Fl.evals rnd E b' ops') i (.value (inUnits s c)) = Fl.eval rnd E (Fl.evals rnd E b ops) i (.value c) ∧
    (∀ di : Fin 3, Fl.eval rnd E (Fl.evals rnd E b' ops') i (.grad (inUnits s c) di) =
      (Fl.eval rnd E (Fl.evals rnd E b ops) i (.grad c di)).map (· / s di)) ∧
    ∀ di dj : Fin 3, Fl.eval rnd E (Fl.evals rnd E b' ops') i (.hess (inUnits s c) di dj) =
      (Fl.eval rnd E (Fl.evals rnd E b ops) i (.hess c di dj)).map (· / (s di * s dj)) :=
  Fl.units_history Fl.flHex Fl.flHexTotal R hu hs hR (Fl.hexSc (fun i => (hs i).ne') hR) pts cells flds hm hl b b' hb hb' ops ops' ho ho' i hi c hc

open FlDemo (r) in
/-- **C132** Powers of two are needed: with the demo mesh in millimetres instead of metres the value at the corresponding point is another one. -/
theorem C132_needs_powers :
    (Fl.load r (Fl.quadOps r) Demo.pts Demo.cells Demo.flds >>= fun b => Fl.eval r (Fl.quadOps r) b 0 (.value ![1 / 2, r (1 / 9)])) ≠
    (Fl.load r (Fl.quadOps r) (Demo.pts.map fun p i => r (1000 * p i)) Demo.cells Demo.flds >>= fun b =>
      Fl.eval r (Fl.quadOps r) b 0 (.value ![500, r (1000 * r (1 / 9))])) := by
  decide +kernel

open FlDemo (r rounding) in
/-- Hypotheses of the theorems above: the demo file in binary64 with the first coordinate in units of 1/1024 and the second in units of 4; a point; and the
value there, computed in both units. -/
example :
    let s : Fin 2 → ℚ := ![1024, 1 / 4]
    (∀ i, 0 < s i) ∧ (∀ i, Respects r (s i)) ∧ FloatMesh quadUnit r ((2 : ℚ) ^ (-53 : Int)) Demo.pts Demo.cells ∧
    FloatPoint quadUnit r Demo.pts Demo.cells ![r (1 / 10), r (7 / 10)] ∧
    (Fl.load r (Fl.quadOps r) Demo.pts Demo.cells Demo.flds >>= fun b => Fl.eval r (Fl.quadOps r) b 0 (.value ![r (1 / 10), r (7 / 10)])) ≠ .ok 0 ∧
    (Fl.load r (Fl.quadOps r) (Demo.pts.map (inUnits s)) Demo.cells Demo.flds >>= fun b =>
      Fl.eval r (Fl.quadOps r) b 0 (.value ![1024 * r (1 / 10), r (7 / 10) / 4])) =
    (Fl.load r (Fl.quadOps r) Demo.pts Demo.cells Demo.flds >>= fun b => Fl.eval r (Fl.quadOps r) b 0 (.value ![r (1 / 10), r (7 / 10)])) := by
  intro s
  refine ⟨by decide +kernel, fun i => ?_, FlDemo.mesh2,
    ⟨⟨_, List.mem_cons_self, _, _, Demo.cell0, by unfold InCell; decide +kernel⟩, by unfold IsFloat; decide +kernel⟩, by decide +kernel, by decide +kernel⟩
  fin_cases i
  · show Respects r (1024 : ℚ)
    exact (show (1024 : ℚ) = 2 ^ (10 : Int) by norm_num) ▸ (C131_factors 53 10).1
  · show Respects r (1 / 4 : ℚ)
    exact (show (1 / 4 : ℚ) = 2 ^ (-2 : Int) by norm_num) ▸ (C131_factors 53 (-2)).1

end Verif
