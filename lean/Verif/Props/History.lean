import Verif.Lemmas.RoundedAny
import Verif.Props.UnitsFl

/-!
# Property C133: what an evaluation remembers of earlier ones, for every file and position, in any arithmetic
-/

namespace Verif
open Spec
variable {K : Type} {d n : Nat} [Field K] [LinearOrder K] [FloorRing K] {rnd : K → K}

namespace Fl

theorem remembers {E : ElemOps K d} (h0 : rnd 0 = 0) {pts : List (Fin d → K)} {cells : List (List Nat)} {flds : List (String × List K)} {b : Body K d}
    (hb : load rnd E pts cells flds = .ok b) (c : Fin d → K) :
    (∀ (ops : List (Nat × Body.Call K d)) (i : Nat) (op : Call K d), op.coord = c → eval rnd E (evals rnd E b ops) i op = eval rnd E b i op) ∨
    ∀ (i : Nat) (op : Call K d), op.coord = c → eval rnd E b i op = .ok 0 ∨ eval rnd E b i op = .error (.ub .oob) := by
  by_cases hg : Gap rnd E b.mesh c
  · exact Or.inr fun i op hc => eval_gap h0 (load_new hb) i op (hc ▸ hg)
  · exact Or.inl fun ops i op hc => eval_any b ops i op (hc ▸ hg)

end Fl

/-- **C133** (2D) Any file that is read (whatever its cells are), any arithmetic, any position `c`. Either evaluations at `c` do not depend on earlier
evaluations: after any history, of any evaluations anywhere, each - a value, a derivative, a second derivative, of any field - has the outcome it has on the
body as read, exception or number. Or `c` is a place where the body as read gives 0 for everything (or undefined behaviour, as for a field without data). -/
theorem C133_dichotomy_2d (h0 : rnd 0 = 0) (pts : List (Fin 2 → K)) (cells : List (List Nat)) (flds : List (String × List K)) (b : Body K 2)
    (hb : Fl.load rnd (Fl.quadOps rnd) pts cells flds = .ok b) (c : Fin 2 → K) :
    (∀ (ops : List (Nat × Body.Call K 2)) (i : Nat) (op : Fl.Call K 2), op.coord = c →
      Fl.eval rnd (Fl.quadOps rnd) (Fl.evals rnd (Fl.quadOps rnd) b ops) i op = Fl.eval rnd (Fl.quadOps rnd) b i op) ∨
    ∀ (i : Nat) (op : Fl.Call K 2), op.coord = c →
      Fl.eval rnd (Fl.quadOps rnd) b i op = .ok 0 ∨ Fl.eval rnd (Fl.quadOps rnd) b i op = .error (.ub .oob) :=
  Fl.remembers h0 hb c

/-- **C133** (3D) The same. -/
theorem C133_dichotomy_3d (h0 : rnd 0 = 0) (pts : List (Fin 3 → K)) (cells : List (List Nat)) (flds : List (String × List K)) (b : Body K 3)
    (hb : Fl.load rnd (Fl.hexOps rnd) pts cells flds = .ok b) (c : Fin 3 → K) :
    (∀ (ops : List (Nat × Body.Call K 3)) (i : Nat) (op : Fl.Call K 3), op.coord = c →
      Fl.eval rnd (Fl.hexOps rnd) (Fl.evals rnd (Fl.hexOps rnd) b ops) i op = Fl.eval rnd (Fl.hexOps rnd) b i op) ∨
    ∀ (i : Nat) (op : Fl.Call K 3), op.coord = c →
      Fl.eval rnd (Fl.hexOps rnd) b i op = .ok 0 ∨ Fl.eval rnd (Fl.hexOps rnd) b i op = .error (.ub .oob) :=
  Fl.remembers h0 hb c

/-- **C133** In particular an exception, or a number other than 0, is what every later evaluation of the same kind gives as well; and then nothing at this
position depends on earlier evaluations. -/
theorem C133_once_always_2d (h0 : rnd 0 = 0) (pts : List (Fin 2 → K)) (cells : List (List Nat)) (flds : List (String × List K)) (b : Body K 2)
    (hb : Fl.load rnd (Fl.quadOps rnd) pts cells flds = .ok b) (i : Nat) (op : Fl.Call K 2) (h1 : Fl.eval rnd (Fl.quadOps rnd) b i op ≠ .ok 0)
    (h2 : Fl.eval rnd (Fl.quadOps rnd) b i op ≠ .error (.ub .oob)) (ops : List (Nat × Body.Call K 2)) (j : Nat) (op' : Fl.Call K 2)
    (hc : op'.coord = op.coord) :
    Fl.eval rnd (Fl.quadOps rnd) (Fl.evals rnd (Fl.quadOps rnd) b ops) j op' = Fl.eval rnd (Fl.quadOps rnd) b j op' := by
  rcases Fl.remembers h0 hb op.coord with h | h
  · exact h ops j op' hc
  · rcases h i op rfl with e | e
    · exact absurd e h1
    · exact absurd e h2

/-- **C133** (3D) The same. -/
theorem C133_once_always_3d (h0 : rnd 0 = 0) (pts : List (Fin 3 → K)) (cells : List (List Nat)) (flds : List (String × List K)) (b : Body K 3)
    (hb : Fl.load rnd (Fl.hexOps rnd) pts cells flds = .ok b) (i : Nat) (op : Fl.Call K 3) (h1 : Fl.eval rnd (Fl.hexOps rnd) b i op ≠ .ok 0)
    (h2 : Fl.eval rnd (Fl.hexOps rnd) b i op ≠ .error (.ub .oob)) (ops : List (Nat × Body.Call K 3)) (j : Nat) (op' : Fl.Call K 3)
    (hc : op'.coord = op.coord) :
    Fl.eval rnd (Fl.hexOps rnd) (Fl.evals rnd (Fl.hexOps rnd) b ops) j op' = Fl.eval rnd (Fl.hexOps rnd) b j op' := by
  rcases Fl.remembers h0 hb op.coord with h | h
  · exact h ops j op' hc
  · rcases h i op rfl with e | e
    · exact absurd e h1
    · exact absurd e h2

/-- **C133** Histories do not change what a body is: no evaluation changes its limits, the number of its fields, their names or their data. -/
theorem C133_body_kept (E : ElemOps K d) (b : Body K d) (ops : List (Nat × Body.Call K d)) :
    (∀ i, (Fl.evals rnd E b ops).mesh.minAt i = b.mesh.minAt i ∧ (Fl.evals rnd E b ops).mesh.maxAt i = b.mesh.maxAt i) ∧
    (Fl.evals rnd E b ops).fields.map (fun f => (f.name, f.data)) = b.fields.map fun f => (f.name, f.data) := by
  obtain ⟨⟨h1, _⟩, h2, h3⟩ := Fl.evals_same (rnd := rnd) (E := E) ops b (Fl.sameBody_refl b)
  refine ⟨fun i => ?_, ?_⟩
  · rw [h1]; exact ⟨rfl, rfl⟩
  · apply List.ext_getElem (by simp [h2])
    intro j k1 k2
    simp only [List.length_map] at k1 k2
    obtain ⟨a, b', _⟩ := h3 j _ _ (List.getElem?_eq_getElem k2) (List.getElem?_eq_getElem k1)
    simp only [List.getElem_map, a, b']

variable [IsStrictOrderedRing K]

/-- **C132** (2D, any file) Where the body as read gives an exception, or a number other than 0 for something, the units do not matter after any evaluations
whatever, different ones on the two bodies. -/
theorem C132_any_history_2d (h0 : rnd 0 = 0) (s : Fin 2 → K) (hs : ∀ i, 0 < s i) (hR : ∀ i, Respects rnd (s i)) (pts : List (Fin 2 → K))
    (cells : List (List Nat)) (flds : List (String × List K)) (b b' : Body K 2) (hb : Fl.load rnd (Fl.quadOps rnd) pts cells flds = .ok b)
    (hb' : Fl.load rnd (Fl.quadOps rnd) (pts.map (inUnits s)) cells flds = .ok b') (k : Nat) (c : Fin 2 → K)
    (h1 : Fl.eval rnd (Fl.quadOps rnd) b k (.value c) ≠ .ok 0) (h2 : Fl.eval rnd (Fl.quadOps rnd) b k (.value c) ≠ .error (.ub .oob))
    (ops ops' : List (Nat × Body.Call K 2)) (i : Nat) :
    let E := Fl.quadOps rnd
    Fl.eval rnd E (Fl.evals rnd E b' ops') i (.value (inUnits s c)) = Fl.eval rnd E (Fl.evals rnd E b ops) i (.value c) ∧
    (∀ di : Fin 2, Fl.eval rnd E (Fl.evals rnd E b' ops') i (.grad (inUnits s c) di) =
      (Fl.eval rnd E (Fl.evals rnd E b ops) i (.grad c di)).map (· / s di)) ∧
    ∀ di dj : Fin 2, Fl.eval rnd E (Fl.evals rnd E b' ops') i (.hess (inUnits s c) di dj) =
      (Fl.eval rnd E (Fl.evals rnd E b ops) i (.hess c di dj)).map (· / (s di * s dj)) := by
  intro E
  obtain ⟨k1, k2, k3, _⟩ := (C132_units_2d s hs hR pts cells flds).2 b b' hb hb'
  have e0 := k1 [] k c
  simp only [List.map_nil, Fl.evals] at e0
  have f := fun op hc => C133_once_always_2d h0 pts cells flds b hb k (.value c) h1 h2 ops i op hc
  have f' := fun op hc => C133_once_always_2d h0 _ cells flds b' hb' k (.value (inUnits s c)) (e0 ▸ h1) (e0 ▸ h2) ops' i op hc
  refine ⟨?_, fun di => ?_, fun di dj => ?_⟩
  · rw [f (.value c) rfl, f' (.value _) rfl]; exact k1 [] i c
  · rw [f (.grad c di) rfl, f' (.grad _ di) rfl]; exact k2 i c di
  · rw [f (.hess c di dj) rfl, f' (.hess _ di dj) rfl]; exact k3 i c di dj

/-- **C132** (3D, any file) The same. -/
theorem C132_any_history_3d (h0 : rnd 0 = 0) (s : Fin 3 → K) (hs : ∀ i, 0 < s i) (hR : ∀ i, Respects rnd (s i)) (pts : List (Fin 3 → K))
    (cells : List (List Nat)) (flds : List (String × List K)) (b b' : Body K 3) (hb : Fl.load rnd (Fl.hexOps rnd) pts cells flds = .ok b)
    (hb' : Fl.load rnd (Fl.hexOps rnd) (pts.map (inUnits s)) cells flds = .ok b') (k : Nat) (c : Fin 3 → K)
    (h1 : Fl.eval rnd (Fl.hexOps rnd) b k (.value c) ≠ .ok 0) (h2 : Fl.eval rnd (Fl.hexOps rnd) b k (.value c) ≠ .error (.ub .oob))
    (ops ops' : List (Nat × Body.Call K 3)) (i : Nat) :
    let E := Fl.hexOps rnd
    Fl.eval rnd E (Fl.evals rnd E b' ops') i (.value (inUnits s c)) = Fl.eval rnd E (Fl.evals rnd E b ops) i (.value c) ∧
    (∀ di : Fin 3, Fl.eval rnd E (Fl.evals rnd E b' ops') i (.grad (inUnits s c) di) =
      (Fl.eval rnd E (Fl.evals rnd E b ops) i (.grad c di)).map (· / s di)) ∧
    ∀ di dj : Fin 3, Fl.eval rnd E (Fl.evals rnd E b' ops') i (.hess (inUnits s c) di dj) =
      (Fl.eval rnd E (Fl.evals rnd E b ops) i (.hess c di dj)).map (· / (s di * s dj)) := by
  intro E
  obtain ⟨k1, k2, k3, _⟩ := (C132_units_3d s hs hR pts cells flds).2 b b' hb hb'
  have e0 := k1 [] k c
  simp only [List.map_nil, Fl.evals] at e0
  have f := fun op hc => C133_once_always_3d h0 pts cells flds b hb k (.value c) h1 h2 ops i op hc
  have f' := fun op hc => C133_once_always_3d h0 _ cells flds b' hb' k (.value (inUnits s c)) (e0 ▸ h1) (e0 ▸ h2) ops' i op hc
  refine ⟨?_, fun di => ?_, fun di dj => ?_⟩
  · rw [f (.value c) rfl, f' (.value _) rfl]; exact k1 [] i c
  · rw [f (.grad c di) rfl, f' (.grad _ di) rfl]; exact k2 i c di
  · rw [f (.hess c di dj) rfl, f' (.hess _ di dj) rfl]; exact k3 i c di dj

/-- Both cases of C133 occur in binary64 on the demo mesh: at (0.1, 0.7) there is a number other than 0; at (3.5, 0.5), beside the cells, 0 on the body as read
and 3 after an evaluation at the node (3, 0) (the defect of C29). And they occur for a file of nonsense: the first cell's corners in a wrong order. -/
example :
    let r := FlDemo.r
    let E := Fl.quadOps r
    r 0 = 0 ∧
    (Fl.load r E Demo.pts Demo.cells Demo.flds >>= fun b => Fl.eval r E b 0 (.value ![r (1 / 10), r (7 / 10)])) = .ok (3602879701896397 / 1125899906842624) ∧
    (Fl.load r E Demo.pts Demo.cells Demo.flds >>= fun b => Fl.eval r E b 0 (.value ![7 / 2, 1 / 2])) = .ok 0 ∧
    (Fl.load r E Demo.pts Demo.cells Demo.flds >>= fun b => Fl.eval r E (Fl.evals r E b [(0, .value ![3, 0])]) 0 (.value ![7 / 2, 1 / 2])) = .ok 3 ∧
    (Fl.load r E Demo.pts [[3, 1, 0, 4]] Demo.flds >>= fun b => Fl.eval r E b 0 (.value ![1 / 4, 1 / 2])) ≠ .ok 0 := by
  decide +kernel

end Verif
