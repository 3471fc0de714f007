import Verif.Lemmas.RoundedTerm
import Verif.Lemmas.Binary64Order
import Verif.Props.Vtk

/-!
# Property C135: insertion and reading end in floating-point arithmetic
-/

namespace Verif
open Spec Bin Vtk IStream

/-- **C135** Whatever the rounding, as long as it keeps the order: on every bin made with non-negative numbers of bins and with a lower corner of
floating-point numbers (any widths, even zero or negative), after any history of insertions (legal or not, exceptions caught), a further insertion with
any coordinates whatever ends. -/
theorem C135_insertion {T K : Type} [DecidableEq T] [Field K] [LinearOrder K] [FloorRing K] [IsStrictOrderedRing K] {rnd : K → K}
    (R : OrderRounding rnd) (min incr : List K) (N : List Int) (b : Bin T K) (hN : ∀ n ∈ N, 0 ≤ n) (hmin : ∀ m ∈ min, IsFloat rnd m)
    (hb : Fl.mkBin rnd min incr N = .ok b) (history : List (Bin.Op T K)) (op : Bin.Op T K) :
    (Fl.binStep rnd (Fl.binRun rnd b history) op).1 ≠ .error .diverge := by
  have h : ∀ (ops : List (Bin.Op T K)) (b : Bin T K), (b.item.val = [] ∨ Fl.Ends b) →
      ((Fl.binRun rnd b ops).item.val = [] ∨ Fl.Ends (Fl.binRun rnd b ops)) := by
    intro ops
    induction ops with
    | nil => intro b h; exact h
    | cons o os ih => intro b h; exact ih _ (Fl.step_ends h o)
  have h1 := h history b (Fl.mkBin_ends R hN hmin hb)
  cases op with
  | add x c => exact Fl.add_no_diverge _ x c
  | addOnce x c => exact Fl.addOnce_no_diverge _ x c
  | addRange x lo hi => exact Fl.addRange_no_diverge R h1 x lo hi

section
variable {K : Type} {d : Nat} [Field K] [LinearOrder K] [FloorRing K] {rnd : K → K}

/-- **C135** (violated) If the file cannot be opened, `read_vtk` does not return, in any arithmetic. -/
theorem C135_missing_file_violated (scan : List Char → Option K × List Char) (E : ElemOps K d) (fuel : Nat) (b : Body K d) :
    Fl.readVtk rnd scan E fuel none b = .error .diverge := by
  have key : ∀ fuel (st : MSt K d), st.s = IStream.missing → st.line = [] →
      (meshLoop scan (Fl.meshOps rnd E) fuel st).1 = .error .diverge := by
    intro fuel
    induction fuel with
    | zero => intro st _ _; rfl
    | succ n ih =>
      intro st hs hl
      have hstep : meshStep scan (Fl.meshOps rnd E) st = (.ok false, st) := by
        cases st
        simp only at hs hl
        subst hs hl
        rfl
      unfold meshLoop
      rw [if_neg (by rw [hs]; decide), hstep]
      exact ih st hs hl
  have h := key fuel (mesh0 IStream.missing b.mesh) rfl rfl
  simp only [Fl.readVtk, readFrom]
  cases hm : meshLoop scan (Fl.meshOps rnd E) fuel (mesh0 IStream.missing b.mesh) with
  | mk r st => rw [hm] at h; simp only at h; subst h; rfl

variable [IsStrictOrderedRing K]

/-- **C135** (partial: the runs excluded are those of a missing file, and of a file with something else in place of a number) Started on an opened file of
`n` characters, each of the two loops of `read_vtk` makes at most `n + 2` passes, unless the stream has failed before the end of the file. -/
theorem C135_reading_partial (R : OrderRounding rnd) (scan : List Char → Option K × List Char) (hscan : ∀ t, (scan t).2.length ≤ t.length)
    (E : ElemOps K d) (text : List Char) (fuel : Nat) (hf : text.length + 2 ≤ fuel)
    (hd : Fl.readVtk rnd scan E fuel (some text) Body.empty = .error .diverge) :
    ∃ s : IStream, s.fail = true ∧ s.eof = false ∧
      (s = (meshLoop scan (Fl.meshOps rnd E) fuel (mesh0 (ofText text) Mesh.empty)).2.s ∨
        ∃ m s0, s = (bodyLoop scan fuel (body0 s0 (⟨m, []⟩ : Body K d))).2.s ∧
          s0 = (meshLoop scan (Fl.meshOps rnd E) fuel (mesh0 (ofText text) Mesh.empty)).2.s) := by
  simp only [Fl.readVtk, readFrom] at hd
  have hb0 : (Body.empty : Body K d).mesh = Mesh.empty := rfl
  rw [hb0] at hd
  have hbins : Fl.BinsOk (mesh0 (ofText text) (Mesh.empty : Mesh K d)).mesh := Or.inl rfl
  have hadv := meshLoop_adv hscan (Fl.meshOps rnd E) fuel (mesh0 (ofText text) (Mesh.empty : Mesh K d))
  have hpro := meshLoop_progress hscan (Fl.meshOps_tame R E) fuel (mesh0 (ofText text) (Mesh.empty : Mesh K d)) hbins hf
  cases hm : meshLoop scan (Fl.meshOps rnd E) fuel (mesh0 (ofText text) (Mesh.empty : Mesh K d)) with
  | mk r st =>
    rw [hm] at hd hadv hpro
    cases r with
    | error e =>
      simp only [Except.error.injEq] at hd
      subst hd
      exact ⟨st.s, (hpro rfl).1, (hpro rfl).2, Or.inl rfl⟩
    | ok u =>
      simp only at hd
      have hlen : st.s.rest.length ≤ text.length := hadv.1
      have hpro2 := bodyLoop_progress hscan fuel (body0 st.s { (Body.empty : Body K d) with mesh := st.mesh })
        (show st.s.rest.length + 2 ≤ fuel by omega)
      cases hb : bodyLoop scan fuel (body0 st.s { (Body.empty : Body K d) with mesh := st.mesh }) with
      | mk r2 st2 =>
        rw [hb] at hd hpro2
        cases r2 with
        | ok u => simp at hd
        | error e =>
          simp only [Except.error.injEq] at hd
          subst hd
          refine ⟨st2.s, (hpro2 rfl).1, (hpro2 rfl).2, Or.inr ⟨st.mesh, st.s, ?_, rfl⟩⟩
          show st2.s = (bodyLoop scan fuel (body0 st.s { (Body.empty : Body K d) with mesh := st.mesh })).2.s
          rw [hb]

/-- **C135** Roundings this is about: every rounding of the other properties, in particular to 53 binary digits, and doubles with gradual underflow and
the biggest double in place of infinities. -/
theorem C135_roundings {u : K} (hR : Rounding rnd u) :
    OrderRounding rnd ∧ OrderRounding (nearestEven 53 : K → K) ∧ OrderRounding (gradual : K → K) :=
  ⟨⟨hR.mono, hR.zero, hR.idem⟩, ⟨B64.R.mono, B64.R.zero, B64.R.idem⟩, B64.gradual_order⟩

end

/-- Bins of doubles, with an inverted range: insertion runs out of the array; with a negative width and a lower corner that absorbs it, all is in bin 0. -/
example : (∃ b : Bin Nat ℚ, Fl.mkBin gradual [0, 0] [1, 1] [3, 3] = .ok b ∧ (∀ m ∈ [(0 : ℚ), 0], IsFloat gradual m) ∧
      (Fl.binStep gradual b (.addRange 7 [0, 2] [2, 1])).1 = .error (.ub .oob)) ∧
    ∃ b : Bin Nat ℚ, Fl.mkBin gradual [2 ^ 60] [-1] [3] = .ok b ∧ IsFloat gradual (2 ^ 60 : ℚ) ∧
      (Fl.binStep gradual b (.addRange 7 [2 ^ 60] [2 ^ 60])).1 = .ok () :=
  ⟨⟨_, rfl, by unfold IsFloat; decide +kernel, by decide +kernel⟩, ⟨_, rfl, by unfold IsFloat; decide +kernel, by decide +kernel⟩⟩

/-- A file of doubles whose second value is not a number: the hypotheses of `C135_reading_partial`. -/
example : Fl.readVtk gradual Demo.scanDec (Fl.quadOps gradual) (badText.length + 2) (some badText) Body.empty = .error .diverge := by
  have h : (match Fl.readVtk gradual Demo.scanDec (Fl.quadOps gradual) (badText.length + 2) (some badText) Body.empty with
    | .error e => some e | .ok _ => none) = some .diverge := by decide +kernel
  cases e : Fl.readVtk gradual Demo.scanDec (Fl.quadOps gradual) (badText.length + 2) (some badText) Body.empty with
  | ok _ => rw [e] at h; cases h
  | error x => rw [e] at h; cases h; rfl

end Verif
