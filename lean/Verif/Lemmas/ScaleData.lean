import Verif.Spec.Scale
import Verif.Lemmas.Move
import Verif.Lemmas.MoveMesh
import Verif.Lemmas.RoundedId
import Verif.Spec.Rounding

/-! # Data multiplied by a factor that rounding does not notice: the whole computation is carried along -/

namespace Verif
open Spec

namespace Fl
variable {K : Type} {d : Nat} [Field K] [LinearOrder K] [FloorRing K] {rnd : K → K}

/-- The field with everything it holds multiplied by a factor, which depends on the name of the field. -/
def scF (κ : String → K) (f : PField K) : PField K :=
  { f with data := f.data.map (κ f.name * ·), zero := κ f.name * f.zero, val := f.val.map (κ f.name * ·), grad := f.grad.map (κ f.name * ·),
           hess := f.hess.map (List.map (κ f.name * ·)) }

/-- The body with the data of its fields multiplied. -/
def scB (κ : String → K) (b : Body K d) : Body K d := ⟨b.mesh, b.fields.map (scF κ)⟩

/-- The outcome of a member function of a field with multiplied data. -/
def scO {α : Type} (g : α → α) (κ : String → K) (r : Res α × Mesh K d × PField K) : Res α × Mesh K d × PField K :=
  (r.1.map g, r.2.1, scF κ r.2.2)

omit [LinearOrder K] [FloorRing K] in
theorem sumLoop_sc {s : K} (hs : Respects rnd s) (data : List K) (b : Mesh.Buf K) (n : Nat) : ∀ (i : Nat) (acc : K),
    sumLoop rnd (data.map (s * ·)) b n i (s * acc) = (sumLoop rnd data b n i acc).map (s * ·) := by
  induction n with
  | zero => intro i acc; rfl
  | succ n ih =>
    intro i acc
    simp only [sumLoop, vget_map, map_bind', bind_map']
    congr 1; funext w
    congr 1; funext k
    congr 1; funext v
    rw [← ih, show w * (s * v) = s * (w * v) by ring, hs, ← mul_add, hs]

section
variable (E : ElemOps K d) {κ : String → K} (hκ : ∀ n, Respects rnd (κ n)) (m : Mesh K d) (f : PField K)
include hκ

theorem value_sc (c : Fin d → K) : value rnd E m (scF κ f) c = scO (κ f.name * ·) κ (value rnd E m f c) := by
  unfold value basisFunctions
  rw [show (scF κ f).buf = f.buf from rfl]
  rcases fill rnd E (fun q => E.value q c) m c f.buf with ⟨_ | s, m', y⟩
  · rfl
  · simp only [show (scF κ f).data = f.data.map (κ f.name * ·) from rfl, show (scF κ f).zero = κ f.name * f.zero from rfl, sumLoop_sc (hκ _)]
    cases sumLoop rnd f.data y s 0 f.zero <;> rfl

theorem gradAt_sc (c : Fin d → K) (di : Nat) : gradAt rnd E m (scF κ f) c di = scO (κ f.name * ·) κ (gradAt rnd E m f c di) := by
  unfold gradAt gradBasisFunctions
  rw [show (scF κ f).buf = f.buf from rfl]
  rcases fill rnd E (fun q => E.grad q c di) m c f.buf with ⟨_ | s, m', y⟩
  · rfl
  · simp only [show (scF κ f).data = f.data.map (κ f.name * ·) from rfl, show (scF κ f).zero = κ f.name * f.zero from rfl, sumLoop_sc (hκ _)]
    cases sumLoop rnd f.data y s 0 f.zero with
    | error e => rfl
    | ok v =>
      simp only [Except.map, show (scF κ f).grad = f.grad.map (κ f.name * ·) from rfl]
      rw [show vset (f.grad.map (κ f.name * ·)) (di : Nat) (κ f.name * v) = _ from vset_map (κ f.name * ·) f.grad (di : Nat) v]
      cases vset f.grad (di : Nat) v <;> rfl

theorem hessAt_sc (c : Fin d → K) (di dj : Nat) : hessAt rnd E m (scF κ f) c di dj = scO (κ f.name * ·) κ (hessAt rnd E m f c di dj) := by
  unfold hessAt hessBasisFunctions
  rw [show (scF κ f).buf = f.buf from rfl]
  rcases fill rnd E (fun q => E.hess q c di dj) m c f.buf with ⟨_ | s, m', y⟩
  · rfl
  · simp only [show (scF κ f).data = f.data.map (κ f.name * ·) from rfl, show (scF κ f).zero = κ f.name * f.zero from rfl, sumLoop_sc (hκ _)]
    cases sumLoop rnd f.data y s 0 f.zero with
    | error e => rfl
    | ok v =>
      simp only [Except.map, show (scF κ f).hess = f.hess.map (List.map (κ f.name * ·)) from rfl]
      have e : (do let row ← vget (f.hess.map (List.map (κ f.name * ·))) (di : Nat); let row' ← vset row (dj : Nat) (κ f.name * v)
                   vset (f.hess.map (List.map (κ f.name * ·))) (di : Nat) row' : Res (List (List K))) =
          (do let row ← vget f.hess (di : Nat); let row' ← vset row (dj : Nat) v; vset f.hess (di : Nat) row' : Res (List (List K))).map
            (List.map (List.map (κ f.name * ·))) := by
        simp only [vget_map, map_bind', bind_map']
        congr 1; funext row
        rw [show vset (row.map (κ f.name * ·)) (dj : Nat) (κ f.name * v) = _ from vset_map (κ f.name * ·) row (dj : Nat) v, map_bind']
        congr 1; funext row'
        exact vset_map (List.map (κ f.name * ·)) f.hess (di : Nat) row'
      rw [e]
      cases (do let row ← vget f.hess (di : Nat); let row' ← vset row (dj : Nat) v; vset f.hess (di : Nat) row' : Res (List (List K))) <;> rfl

omit hκ in
omit [LinearOrder K] [FloorRing K] in
theorem scO_name {α : Type} (g : α → α) (r : Res α × Mesh K d × PField K) : (scO g κ r).2.2.name = r.2.2.name := rfl

theorem evalGradLoop_sc (c : Fin d → K) (l : List Nat) : ∀ (m : Mesh K d) (f : PField K),
    evalGradLoop rnd E c l m (scF κ f) = scO id κ (evalGradLoop rnd E c l m f) := by
  induction l with
  | nil => intro m f; rfl
  | cons di ds ih =>
    intro m f
    simp only [evalGradLoop, gradAt_sc E hκ]
    rcases gradAt rnd E m f c di with ⟨_ | v, m', f'⟩
    · rfl
    · exact ih m' f'

theorem evalHessLoop_sc (c : Fin d → K) (l : List (Nat × Nat)) : ∀ (m : Mesh K d) (f : PField K),
    evalHessLoop rnd E c l m (scF κ f) = scO id κ (evalHessLoop rnd E c l m f) := by
  induction l with
  | nil => intro m f; rfl
  | cons p ps ih =>
    intro m f
    simp only [evalHessLoop, hessAt_sc E hκ]
    rcases hessAt rnd E m f c p.1 p.2 with ⟨_ | v, m', f'⟩
    · rfl
    · exact ih m' f'

theorem callField_sc (op : Body.Call K d) : callField rnd E m (scF κ f) op = scO id κ (callField rnd E m f op) := by
  cases op with
  | value c =>
    simp only [callField, value_sc E hκ, scO]
    rcases value rnd E m f c with ⟨_ | v, m', f'⟩ <;> rfl
  | grad c di =>
    simp only [callField, gradAt_sc E hκ, scO]
    rcases gradAt rnd E m f c di with ⟨_ | v, m', f'⟩ <;> rfl
  | hess c di dj =>
    simp only [callField, hessAt_sc E hκ, scO]
    rcases hessAt rnd E m f c di dj with ⟨_ | v, m', f'⟩ <;> rfl
  | evalGrad c => exact evalGradLoop_sc E hκ c _ m f
  | evalHess c => exact evalHessLoop_sc E hκ c _ m f
end

theorem call_sc (E : ElemOps K d) {κ : String → K} (hκ : ∀ n, Respects rnd (κ n)) (b : Body K d) (i : Nat) (op : Body.Call K d) :
    call rnd E (scB κ b) i op = scB κ (call rnd E b i op) := by
  unfold call
  rw [show (scB κ b).fields = b.fields.map (scF κ) from rfl, List.getElem?_map]
  cases b.fields[i]? with
  | none => rfl
  | some f =>
    simp only [Option.map_some, show (scB κ b).mesh = b.mesh from rfl, callField_sc E hκ]
    rcases callField rnd E b.mesh f op with ⟨r, m', f'⟩
    simp only [scO, scB, List.map_set]

theorem evals_sc (E : ElemOps K d) {κ : String → K} (hκ : ∀ n, Respects rnd (κ n)) (ops : List (Nat × Body.Call K d)) : ∀ b : Body K d,
    evals rnd E (scB κ b) ops = scB κ (evals rnd E b ops) := by
  induction ops with
  | nil => intro b; rfl
  | cons o ops ih => intro b; simp only [evals, call_sc E hκ, ih]

theorem eval_sc (E : ElemOps K d) {κ : String → K} (hκ : ∀ n, Respects rnd (κ n)) (b : Body K d) (i : Nat) (op : Call K d) (f : PField K)
    (hf : b.fields[i]? = some f) : eval rnd E (scB κ b) i op = (eval rnd E b i op).map (κ f.name * ·) := by
  unfold eval
  rw [show (scB κ b).fields = b.fields.map (scF κ) from rfl, List.getElem?_map, hf]
  simp only [Option.map_some, show (scB κ b).mesh = b.mesh from rfl]
  cases op with
  | value c => simp only [queryField, value_sc E hκ, scO]
  | grad c di => simp only [queryField, gradAt_sc E hκ, scO]
  | hess c di dj => simp only [queryField, hessAt_sc E hκ, scO]

omit [LinearOrder K] [FloorRing K] in
theorem stored_sc {κ : String → K} (b : Body K d) (i : Nat) (f : PField K) (hf : b.fields[i]? = some f) :
    (scB κ b).getVal i = (b.getVal i).map (κ f.name * ·) ∧ (∀ di, (scB κ b).getGrad i di = (b.getGrad i di).map (κ f.name * ·)) ∧
      ∀ di dj, (scB κ b).getHess i di dj = (b.getHess i di dj).map (κ f.name * ·) := by
  unfold Body.getVal Body.getGrad Body.getHess
  rw [show (scB κ b).fields = b.fields.map (scF κ) from rfl, List.getElem?_map, hf]
  simp only [Option.map_some]
  refine ⟨?_, fun di => vget_map _ _ _, fun di dj => ?_⟩
  · unfold PField.getVal scF
    cases f.val <;> rfl
  · unfold PField.getHess
    rw [show (scF κ f).hess = f.hess.map (List.map (κ f.name * ·)) from rfl, vget_map, map_bind', bind_map']
    congr 1; funext row
    exact vget_map _ _ _

omit [LinearOrder K] [FloorRing K] in
theorem addFields_sc (κ : String → K) (flds : List (String × List K)) : ∀ b : Body K d,
    Body.addFields (scB κ b) (flds.map fun fl => (fl.1, fl.2.map (κ fl.1 * ·))) = (Body.addFields b flds).map (scB κ) := by
  induction flds with
  | nil => intro b; rfl
  | cons fl fls ih =>
    intro b
    simp only [List.map_cons, Body.addFields]
    have h : Body.addField (scB κ b) fl.1 (fl.2.map (κ fl.1 * ·)) = (Body.addField b fl.1 fl.2).map (scB κ) := by
      simp only [Body.addField, PField.make, show (scB κ b).mesh = b.mesh from rfl, bind_map']
      cases b.mesh.bin.maxSize with
      | error e => rfl
      | ok mx => simp [ok_bind, Except.map, scB, scF]
    rw [h, map_bind', bind_map']
    congr 1; funext b'
    exact ih b'

theorem load_sc (E : ElemOps K d) (κ : String → K) (pts : List (Fin d → K)) (cells : List (List Nat)) (flds : List (String × List K)) :
    load rnd E pts cells (flds.map fun fl => (fl.1, fl.2.map (κ fl.1 * ·))) = (load rnd E pts cells flds).map (scB κ) := by
  unfold load
  rw [bind_map']
  congr 1; funext m
  exact addFields_sc κ flds ⟨m, []⟩

omit [LinearOrder K] [FloorRing K] in
/-- The names of the fields are those of the file. -/
theorem addFields_names (flds : List (String × List K)) : ∀ b b' : Body K d, Body.addFields b flds = .ok b' →
    b'.fields.map PField.name = b.fields.map PField.name ++ flds.map Prod.fst := by
  induction flds with
  | nil => intro b b' h; cases h; simp
  | cons fl fls ih =>
    intro b b' h
    simp only [Body.addFields] at h
    obtain ⟨b1, h1, h2⟩ := bind_eq_ok.mp h
    rw [ih _ _ h2]
    unfold Body.addField at h1
    obtain ⟨f, g1, g2⟩ := bind_eq_ok.mp h1
    unfold PField.make at g1
    obtain ⟨mx, _, k2⟩ := bind_eq_ok.mp g1
    cases k2; cases g2
    simp

theorem callField_name (E : ElemOps K d) (m : Mesh K d) (f : PField K) (op : Body.Call K d) : (callField rnd E m f op).2.2.name = f.name := by
  have hv : ∀ (c : Fin d → K), (value rnd E m f c).2.2.name = f.name := by
    intro c
    unfold value
    rcases basisFunctions rnd E m c f.buf with ⟨_ | s, m', y⟩
    · rfl
    · simp only; cases sumLoop rnd f.data y s 0 f.zero <;> rfl
  have hg : ∀ (m : Mesh K d) (f : PField K) (c : Fin d → K) di, (gradAt rnd E m f c di).2.2.name = f.name := by
    intro m f c di
    unfold gradAt
    rcases gradBasisFunctions rnd E m c di f.buf with ⟨_ | s, m', y⟩
    · rfl
    · simp only
      cases sumLoop rnd f.data y s 0 f.zero with
      | error e => rfl
      | ok v => simp only; cases vset f.grad (di : Nat) v <;> rfl
  have hh : ∀ (m : Mesh K d) (f : PField K) (c : Fin d → K) di dj, (hessAt rnd E m f c di dj).2.2.name = f.name := by
    intro m f c di dj
    unfold hessAt
    rcases hessBasisFunctions rnd E m c di dj f.buf with ⟨_ | s, m', y⟩
    · rfl
    · simp only
      cases sumLoop rnd f.data y s 0 f.zero with
      | error e => rfl
      | ok v =>
        simp only
        cases (do let row ← vget f.hess (di : Nat); let row' ← vset row (dj : Nat) v; vset f.hess (di : Nat) row' : Res (List (List K))) <;> rfl
  cases op with
  | value c => exact hv c
  | grad c di => exact hg m f c di
  | hess c di dj => exact hh m f c di dj
  | evalGrad c =>
    show (evalGradLoop rnd E c (List.range d) m f).2.2.name = f.name
    generalize List.range d = l
    induction l generalizing m f with
    | nil => rfl
    | cons di ds ih =>
      simp only [evalGradLoop]
      have := hg m f c di
      revert this
      rcases gradAt rnd E m f c di with ⟨_ | v, m', f'⟩
      · intro h; exact h
      · intro h; simp only at h
        rw [← h]
        exact ih m' f' (fun c => by
          unfold value
          rcases basisFunctions rnd E m' c f'.buf with ⟨_ | s, m'', y⟩
          · rfl
          · simp only; cases sumLoop rnd f'.data y s 0 f'.zero <;> rfl)
  | evalHess c =>
    show (evalHessLoop rnd E c _ m f).2.2.name = f.name
    generalize ((List.range d).flatMap fun i => (List.range d).map fun j => (i, j)) = l
    clear hv
    induction l generalizing m f with
    | nil => rfl
    | cons p ps ih =>
      simp only [evalHessLoop]
      have := hh m f c p.1 p.2
      revert this
      rcases hessAt rnd E m f c p.1 p.2 with ⟨_ | v, m', f'⟩
      · intro h; exact h
      · intro h; simp only at h
        rw [← h]
        exact ih m' f'

theorem evals_names (E : ElemOps K d) (ops : List (Nat × Body.Call K d)) : ∀ b : Body K d,
    (evals rnd E b ops).fields.map PField.name = b.fields.map PField.name := by
  induction ops with
  | nil => intro b; rfl
  | cons o ops ih =>
    intro b
    simp only [evals]
    rw [ih]
    unfold call
    cases h : b.fields[o.1]? with
    | none => rfl
    | some f =>
      simp only
      have := callField_name (rnd := rnd) E b.mesh f o.2
      revert this
      rcases callField rnd E b.mesh f o.2 with ⟨r, m', f'⟩
      intro hn
      simp only at hn
      rw [List.map_set, hn]
      apply List.ext_getElem?
      intro k
      rw [List.getElem?_set]
      split
      · rename_i hk; subst hk
        rw [List.getElem?_map, h]
        simp
        have := (List.getElem?_eq_some_iff.mp h).1
        omega
      · rfl

/-- Field number `i`, after any evaluations, has the name it has in the file. -/
theorem named {E : ElemOps K d} {pts : List (Fin d → K)} {cells : List (List Nat)} {flds : List (String × List K)} {b : Body K d}
    (hb : load rnd E pts cells flds = .ok b) (ops : List (Nat × Body.Call K d)) (i : Nat) (name : String) (data : List K)
    (hi : flds[i]? = some (name, data)) : ∃ f, (evals rnd E b ops).fields[i]? = some f ∧ f.name = name := by
  unfold load at hb
  obtain ⟨m, _, h2⟩ := bind_eq_ok.mp hb
  have h := evals_names (rnd := rnd) E ops b
  rw [addFields_names flds _ _ h2] at h
  have := congrArg (·[i]?) h
  simp only [List.getElem?_map, List.map_nil, List.nil_append, hi, Option.map_some] at this
  cases hf : (evals rnd E b ops).fields[i]? with
  | none => rw [hf] at this; cases this
  | some f => rw [hf] at this; exact ⟨f, rfl, Option.some.inj this⟩

end Fl
end Verif
