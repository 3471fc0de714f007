import Verif.Model.BodyCopy
import Verif.Lemmas.RoundedAny

/-! Helper lemmas about copies of bodies. -/

namespace Verif
open Spec
namespace Fl
variable {K : Type} {d : Nat} [Field K] [LinearOrder K] [FloorRing K] {rnd : K → K}

omit [Field K] [LinearOrder K] [FloorRing K] in
theorem SameBin.symm {T : Type} {b b' : Bin T K} (h : SameBin b b') : SameBin b' b := by
  obtain ⟨h1, h2, h3⟩ := h
  have e : b'.item = b.item := by rw [h1]
  exact ⟨by rw [h1], h2.symm, fun j hj => (h3 j (by rw [← e]; exact hj)).symm⟩

omit [Field K] [LinearOrder K] [FloorRing K] in
theorem SameBin.trans {T : Type} {b b' b'' : Bin T K} (h : SameBin b b') (h' : SameBin b' b'') : SameBin b b'' := by
  obtain ⟨h1, h2, h3⟩ := h
  obtain ⟨k1, k2, k3⟩ := h'
  have e : b'.item = b.item := by rw [h1]
  exact ⟨by rw [k1, h1], h2.trans k2, fun j hj => (h3 j hj).trans (k3 j (by rw [e]; exact hj))⟩

omit [Field K] [LinearOrder K] [FloorRing K] in
theorem SameMesh.refl (m : Mesh K d) : SameMesh m m := ⟨rfl, rfl, rfl, fun _ _ => rfl⟩

omit [Field K] [LinearOrder K] [FloorRing K] in
theorem SameMesh.symm {m m' : Mesh K d} (h : SameMesh m m') : SameMesh m' m := ⟨by rw [h.1], h.2.symm⟩

omit [Field K] [LinearOrder K] [FloorRing K] in
theorem SameMesh.trans {m m' m'' : Mesh K d} (h : SameMesh m m') (h' : SameMesh m' m'') : SameMesh m m'' :=
  ⟨by rw [h'.1, h.1], h.2.trans h'.2⟩

variable {E : ElemOps K d}

theorem fill_congr {w : Interp K d → Res K} {m m' : Mesh K d} (hm : SameMesh m m') (c : Fin d → K) (b : Mesh.Buf K) :
    (fill rnd E w m c b).1 = (fill rnd E w m' c b).1 ∧ (fill rnd E w m c b).2.2 = (fill rnd E w m' c b).2.2 ∧ SameMesh m (fill rnd E w m' c b).2.1 := by
  refine ⟨?_, ?_, (fill_same hm c (b := b) (b' := b) ⟨rfl, rfl⟩).1⟩ <;>
  · obtain ⟨k1, _⟩ := contents_same (rnd := rnd) hm.2 (List.ofFn c)
    unfold fill
    revert k1
    rcases contents rnd m.bin (List.ofFn c) with ⟨r, t⟩
    rcases contents rnd m'.bin (List.ofFn c) with ⟨r', t'⟩
    intro k1
    simp only at k1
    subst k1
    cases r with
    | error e => rfl
    | ok content =>
      simp only
      cases Mesh.firstInRange E c content with
      | none => rfl
      | some q =>
        simp only
        rcases Mesh.fillLoop w q.element content 0 b with ⟨_ | _, x⟩ <;> rfl

/-- Same outcome, same field, and the mesh changed in its scratch memory only. -/
def Congr {α : Type} (m : Mesh K d) (x y : Res α × Mesh K d × PField K) : Prop := x.1 = y.1 ∧ x.2.2 = y.2.2 ∧ SameMesh m y.2.1

theorem value_congr {m m' : Mesh K d} (hm : SameMesh m m') (f : PField K) (c : Fin d → K) : Congr m (value rnd E m f c) (value rnd E m' f c) := by
  obtain ⟨k1, k2, k3⟩ := fill_congr (rnd := rnd) (E := E) (w := fun q => E.value q c) hm c f.buf
  unfold value basisFunctions
  revert k1 k2 k3
  rcases fill rnd E (fun q => E.value q c) m c f.buf with ⟨r, m1, x⟩
  rcases fill rnd E (fun q => E.value q c) m' c f.buf with ⟨r', m1', x'⟩
  intro k1 k2 k3
  simp only at k1 k2 k3
  subst k1 k2
  cases r with
  | error e => exact ⟨rfl, rfl, k3⟩
  | ok n => simp only; cases sumLoop rnd f.data x n 0 f.zero <;> exact ⟨rfl, rfl, k3⟩

theorem gradAt_congr {m m' : Mesh K d} (hm : SameMesh m m') (f : PField K) (c : Fin d → K) (di : Nat) :
    Congr m (gradAt rnd E m f c di) (gradAt rnd E m' f c di) := by
  obtain ⟨k1, k2, k3⟩ := fill_congr (rnd := rnd) (E := E) (w := fun q => E.grad q c di) hm c f.buf
  unfold gradAt gradBasisFunctions
  revert k1 k2 k3
  rcases fill rnd E (fun q => E.grad q c di) m c f.buf with ⟨r, m1, x⟩
  rcases fill rnd E (fun q => E.grad q c di) m' c f.buf with ⟨r', m1', x'⟩
  intro k1 k2 k3
  simp only at k1 k2 k3
  subst k1 k2
  cases r with
  | error e => exact ⟨rfl, rfl, k3⟩
  | ok n =>
    simp only
    cases sumLoop rnd f.data x n 0 f.zero with
    | error e => exact ⟨rfl, rfl, k3⟩
    | ok v => simp only; cases vset f.grad (di : Nat) v <;> exact ⟨rfl, rfl, k3⟩

theorem hessAt_congr {m m' : Mesh K d} (hm : SameMesh m m') (f : PField K) (c : Fin d → K) (di dj : Nat) :
    Congr m (hessAt rnd E m f c di dj) (hessAt rnd E m' f c di dj) := by
  obtain ⟨k1, k2, k3⟩ := fill_congr (rnd := rnd) (E := E) (w := fun q => E.hess q c di dj) hm c f.buf
  unfold hessAt hessBasisFunctions
  revert k1 k2 k3
  rcases fill rnd E (fun q => E.hess q c di dj) m c f.buf with ⟨r, m1, x⟩
  rcases fill rnd E (fun q => E.hess q c di dj) m' c f.buf with ⟨r', m1', x'⟩
  intro k1 k2 k3
  simp only at k1 k2 k3
  subst k1 k2
  cases r with
  | error e => exact ⟨rfl, rfl, k3⟩
  | ok n =>
    simp only
    cases sumLoop rnd f.data x n 0 f.zero with
    | error e => exact ⟨rfl, rfl, k3⟩
    | ok v => simp only; split <;> exact ⟨rfl, rfl, k3⟩

theorem evalGradLoop_congr (c : Fin d → K) (l : List Nat) : ∀ (m m' : Mesh K d) (f : PField K), SameMesh m m' →
    Congr m (evalGradLoop rnd E c l m f) (evalGradLoop rnd E c l m' f) := by
  induction l with
  | nil => intro m m' f hm; exact ⟨rfl, rfl, hm⟩
  | cons di ds ih =>
    intro m m' f hm
    obtain ⟨k1, k2, k3⟩ := gradAt_congr (rnd := rnd) (E := E) hm f c di
    obtain ⟨_, _, k4⟩ := gradAt_congr (rnd := rnd) (E := E) (SameMesh.refl m) f c di
    unfold evalGradLoop
    revert k1 k2 k3 k4
    rcases gradAt rnd E m f c di with ⟨r, m1, f1⟩
    rcases gradAt rnd E m' f c di with ⟨r', m1', f1'⟩
    intro k1 k2 k3 k4
    simp only at k1 k2 k3 k4
    subst k1 k2
    cases r with
    | error e => exact ⟨rfl, rfl, k3⟩
    | ok v =>
      obtain ⟨l1, l2, l3⟩ := ih m1 m1' f1 (k4.symm.trans k3)
      exact ⟨l1, l2, k4.trans l3⟩

theorem evalHessLoop_congr (c : Fin d → K) (l : List (Nat × Nat)) : ∀ (m m' : Mesh K d) (f : PField K), SameMesh m m' →
    Congr m (evalHessLoop rnd E c l m f) (evalHessLoop rnd E c l m' f) := by
  induction l with
  | nil => intro m m' f hm; exact ⟨rfl, rfl, hm⟩
  | cons di ds ih =>
    intro m m' f hm
    obtain ⟨i, j⟩ := di
    obtain ⟨k1, k2, k3⟩ := hessAt_congr (rnd := rnd) (E := E) hm f c i j
    obtain ⟨_, _, k4⟩ := hessAt_congr (rnd := rnd) (E := E) (SameMesh.refl m) f c i j
    unfold evalHessLoop
    revert k1 k2 k3 k4
    rcases hessAt rnd E m f c i j with ⟨r, m1, f1⟩
    rcases hessAt rnd E m' f c i j with ⟨r', m1', f1'⟩
    intro k1 k2 k3 k4
    simp only at k1 k2 k3 k4
    subst k1 k2
    cases r with
    | error e => exact ⟨rfl, rfl, k3⟩
    | ok v =>
      obtain ⟨l1, l2, l3⟩ := ih m1 m1' f1 (k4.symm.trans k3)
      exact ⟨l1, l2, k4.trans l3⟩

end Fl

namespace BodyCopy
open Fl
variable {K : Type} {d : Nat} [Field K] [LinearOrder K] [FloorRing K] {rnd : K → K} {E : ElemOps K d}

theorem sem_congr {m m' : Mesh K d} (hm : SameMesh m m') (f : PField K) (c : Call K d) : Congr m (sem rnd E m f c) (sem rnd E m' f c) := by
  have key : ∀ {α : Type} (g : Res α → Res (Option K)) {x y : Res α × Mesh K d × PField K}, Congr m x y → Congr m (g x.1, x.2) (g y.1, y.2) := by
    rintro α g ⟨r, m1, f1⟩ ⟨r', m1', f1'⟩ ⟨k1, k2, k3⟩
    simp only at k1 k2 k3
    subst k1 k2
    exact ⟨rfl, rfl, k3⟩
  cases c with
  | value c => exact key _ (value_congr hm f c)
  | grad c di => exact key _ (gradAt_congr hm f c di)
  | hess c di dj => exact key _ (hessAt_congr hm f c di dj)
  | evalGrad c => exact key (fun r => r.map fun _ => none) (evalGradLoop_congr c _ m m' f hm)
  | evalHess c => exact key (fun r => r.map fun _ => none) (evalHessLoop_congr c _ m m' f hm)
  | get => exact ⟨rfl, rfl, hm⟩
  | getGrad di => exact ⟨rfl, rfl, hm⟩
  | getHess di dj => exact ⟨rfl, rfl, hm⟩

omit [LinearOrder K] [FloorRing K] in
theorem addFields_prefix (m : Mesh K d) (fls : List (String × List K)) : ∀ (fs gs : List (PField K)),
    Body.addFields ⟨m, fs ++ gs⟩ fls = (Body.addFields ⟨m, gs⟩ fls).map fun b => ⟨b.mesh, fs ++ b.fields⟩ := by
  induction fls with
  | nil => intro fs gs; rfl
  | cons fl fls ih =>
    intro fs gs
    simp only [Body.addFields, Body.addField]
    cases PField.make m fl.1 fl.2 0 with
    | error e => rfl
    | ok f =>
      simp only [ok_bind, List.append_assoc]
      exact ih fs (gs ++ [f])

theorem loadInto_prefix (b : Body K d) (m : Mesh K d) (hm : SameMesh b.mesh m) (file : File K d) :
    loadInto rnd E b file = (loadInto rnd E ⟨m, []⟩ file).map fun b' => ⟨b'.mesh, b.fields ++ b'.fields⟩ := by
  have e : readPoints rnd b.mesh file.1 = readPoints rnd m file.1 := by
    rw [hm.1]; rfl
  simp only [loadInto, e]
  cases readPoints rnd m file.1 with
  | error er => rfl
  | ok m1 =>
    simp only [ok_bind]
    cases readCells rnd E m1 file.2.1 with
    | error er => rfl
    | ok m2 => simp only [ok_bind]; simpa using addFields_prefix m2 file.2.2 b.fields []

end BodyCopy
end Verif
