import Verif.Spec.FieldVars
import Verif.Lemmas.BodyExtern
import Verif.Props.FieldState

/-!
# Fields behind pointers: evaluation
-/

namespace Verif
open Spec Bin Mesh PField Body

/-- Arguments with which the members of a field may be called: a `double*` to the coordinates of a point in the half-open binned region or
outside the closed one, and directions in range. -/
def FieldArgs {K : Type} [Field K] [LinearOrder K] {d : Nat} (D : BodyData K d) : FuncFn × List (CVal K) → Prop
  | (.calc, [.dbls v, .refDbl]) | (.eval, [.dbls v]) => ∃ c, PointAt v c ∧ (InBins D.pts c ∨ OutOfBins D.pts c)
  | (.calcGrad, [.dbls v, .int di, .refDbl]) | (.evalGrad, [.dbls v, .int di]) =>
    (0 ≤ di ∧ di < d) ∧ ∃ c, PointAt v c ∧ (InBins D.pts c ∨ OutOfBins D.pts c)
  | (.calcHess, [.dbls v, .int di, .int dj, .refDbl]) | (.evalHess, [.dbls v, .int di, .int dj]) =>
    ((0 ≤ di ∧ di < d) ∧ (0 ≤ dj ∧ dj < d)) ∧ ∃ c, PointAt v c ∧ (InBins D.pts c ∨ OutOfBins D.pts c)
  | _ => True

namespace FieldMem

section
variable {K : Type} {d : Nat} [Field K] [LinearOrder K] [FloorRing K]

omit [Field K] [LinearOrder K] [FloorRing K] in
theorem coordOf_eq {v : List K} {c : Fin d → K} (h : PointAt v c) : coordOf d v = .ok c := by
  have hd : d ≤ v.length := by
    by_contra hn
    have hlt : v.length < d := by omega
    have := h ⟨v.length, hlt⟩
    simp at this
  simp only [coordOf, dif_pos hd]
  congr 1
  funext i
  have := h i
  rw [List.getElem?_eq_getElem (by have := i.isLt; omega)] at this
  exact Option.some.inj this

theorem sizeType_eq {di : Int} {n : Nat} (hn : n ≤ 3) (h0 : 0 ≤ di) (h1 : di < n) : sizeType di = di.toNat := by
  unfold sizeType
  rw [Int.emod_eq_of_lt h0 (by omega)]

/-- The calls of the C interface on a field. -/
abbrev fsem (E : ElemOps K d) : FuncFn × List (CVal K) → Mesh K d × PField K → Res (XOut K) × Mesh K d × PField K :=
  apiSem (funcApi (fieldCls E))

theorem numOut_map (r : Res K) : (r.map (FOut.num (V := List K))).bind FOut.numOut = r.map XOut.num := by
  cases r <;> rfl

theorem voidOut_map (r : Res K) : (r.map (FOut.num (V := List K))).bind (fun _ => .ok (XOut.void (K := K))) = r.map fun _ => XOut.void := by
  cases r <;> rfl

variable (E : ElemOps K d)

theorem fsem_calc {v : List K} {c : Fin d → K} (h : PointAt v c) (m : Mesh K d) (f : PField K) :
    fsem E (.calc, [.dbls v, .refDbl]) (m, f) = ((f.value E m c).1.map .num, (f.value E m c).2) := by
  simp only [fsem, apiSem, funcApi, viaF, FClass.sem, fieldCls, FBase.sem, PField.ov, withCoord, coordOf_eq h, numF, numOut_map]

theorem fsem_eval {v : List K} {c : Fin d → K} (h : PointAt v c) (m : Mesh K d) (f : PField K) :
    fsem E (.eval, [.dbls v]) (m, f) = ((f.value E m c).1.map fun _ => .void, (f.value E m c).2) := by
  simp only [fsem, apiSem, funcApi, viaF, FClass.sem, fieldCls, FBase.sem, PField.ov, withCoord, coordOf_eq h, numF, voidOut_map]

theorem fsem_calcGrad {v : List K} {c : Fin d → K} (h : PointAt v c) (hd : d ≤ 3) {di : Int} (h0 : 0 ≤ di) (h1 : di < d) (m : Mesh K d)
    (f : PField K) : fsem E (.calcGrad, [.dbls v, .int di, .refDbl]) (m, f) =
      ((f.gradAt E m c di.toNat).1.map .num, (f.gradAt E m c di.toNat).2) := by
  simp only [fsem, apiSem, funcApi, viaF, FClass.sem, fieldCls, FBase.sem, PField.ov, withCoord, coordOf_eq h, numF, numOut_map, sizeType_eq hd h0 h1]

theorem fsem_evalGrad {v : List K} {c : Fin d → K} (h : PointAt v c) (hd : d ≤ 3) {di : Int} (h0 : 0 ≤ di) (h1 : di < d) (m : Mesh K d)
    (f : PField K) : fsem E (.evalGrad, [.dbls v, .int di]) (m, f) =
      ((f.gradAt E m c di.toNat).1.map fun _ => .void, (f.gradAt E m c di.toNat).2) := by
  simp only [fsem, apiSem, funcApi, viaF, FClass.sem, fieldCls, FBase.sem, PField.ov, withCoord, coordOf_eq h, numF, voidOut_map, sizeType_eq hd h0 h1]

theorem fsem_calcHess {v : List K} {c : Fin d → K} (h : PointAt v c) (hd : d ≤ 3) {di dj : Int} (h0 : 0 ≤ di) (h1 : di < d) (h2 : 0 ≤ dj)
    (h3 : dj < d) (m : Mesh K d) (f : PField K) : fsem E (.calcHess, [.dbls v, .int di, .int dj, .refDbl]) (m, f) =
      ((f.hessAt E m c di.toNat dj.toNat).1.map .num, (f.hessAt E m c di.toNat dj.toNat).2) := by
  simp only [fsem, apiSem, funcApi, viaF, FClass.sem, fieldCls, FBase.sem, PField.ov, withCoord, coordOf_eq h, numF, numOut_map, sizeType_eq hd h0 h1, sizeType_eq hd h2 h3]

theorem fsem_evalHess {v : List K} {c : Fin d → K} (h : PointAt v c) (hd : d ≤ 3) {di dj : Int} (h0 : 0 ≤ di) (h1 : di < d) (h2 : 0 ≤ dj)
    (h3 : dj < d) (m : Mesh K d) (f : PField K) : fsem E (.evalHess, [.dbls v, .int di, .int dj]) (m, f) =
      ((f.hessAt E m c di.toNat dj.toNat).1.map fun _ => .void, (f.hessAt E m c di.toNat dj.toNat).2) := by
  simp only [fsem, apiSem, funcApi, viaF, FClass.sem, fieldCls, FBase.sem, PField.ov, withCoord, coordOf_eq h, numF, voidOut_map, sizeType_eq hd h0 h1, sizeType_eq hd h2 h3]

end

section
variable {K : Type} [Field K] [LinearOrder K] [FloorRing K] [IsStrictOrderedRing K] {d n : Nat} {E : ElemOps K d}
  {unit : Fin n → Fin d → K} {R : (a h c : Fin d → K) → Prop} {lo hi : Fin d → K} {qs : List (Interp K d)}

/-- Any call leaves the mesh and the field in a good state. -/
theorem fsem_ok (L : ElemLaw E unit R) (T : ElemTotal E) (hd : d ≤ 3) {D : BodyData K d} {m : Mesh K d}
    (hb : Built E unit D.pts D.cells lo hi qs m) {f : PField K} (hf : FOk D.pts lo hi qs f) {c : FuncFn × List (CVal K)} (hc : FieldArgs D c) :
    StOk E unit D.pts D.cells lo hi qs f m (fsem E c (m, f)).2.1 (fsem E c (m, f)).2.2 := by
  have same : StOk E unit D.pts D.cells lo hi qs f m m f := ⟨hb, rfl, hf, Same.refl f⟩
  have val : ∀ {x : Fin d → K}, InBins D.pts x ∨ OutOfBins D.pts x →
      StOk E unit D.pts D.cells lo hi qs f m (f.value E m x).2.1 (f.value E m x).2.2 := by
    intro x hx
    obtain ⟨r, m', f', h1, h2, _⟩ := callField_ok L T hb hf (.value x) hx
    simp only [callField, Prod.mk.injEq] at h1
    rw [h1.2.1, h1.2.2]; exact h2
  have grd : ∀ {x : Fin d → K} {di : Int}, 0 ≤ di → di < d → InBins D.pts x ∨ OutOfBins D.pts x →
      StOk E unit D.pts D.cells lo hi qs f m (f.gradAt E m x di.toNat).2.1 (f.gradAt E m x di.toNat).2.2 := by
    intro x di h0 h1 hx
    obtain ⟨r, m', f', h1, h2, _⟩ := callField_ok L T hb hf (.grad x ⟨di.toNat, by omega⟩) hx
    simp only [callField, Prod.mk.injEq] at h1
    rw [h1.2.1, h1.2.2]; exact h2
  have hes : ∀ {x : Fin d → K} {di dj : Int}, 0 ≤ di → di < d → 0 ≤ dj → dj < d → InBins D.pts x ∨ OutOfBins D.pts x →
      StOk E unit D.pts D.cells lo hi qs f m (f.hessAt E m x di.toNat dj.toNat).2.1 (f.hessAt E m x di.toNat dj.toNat).2.2 := by
    intro x di dj h0 h1 h2 h3 hx
    obtain ⟨r, m', f', h1, h2, _⟩ := callField_ok L T hb hf (.hess x ⟨di.toNat, by omega⟩ ⟨dj.toNat, by omega⟩) hx
    simp only [callField, Prod.mk.injEq] at h1
    rw [h1.2.1, h1.2.2]; exact h2
  obtain ⟨fn, args⟩ := c
  cases h : funcApi (fieldCls E) fn args with
  | none => simp only [fsem, apiSem, h]; exact same
  | some k =>
    unfold funcApi at h
    split at h
    all_goals first
      | (cases h; done)
      | skip
    · simp only [fsem, apiSem, funcApi, viaF, FClass.sem, FBase.sem]; exact same
    · simp only [fsem, apiSem, funcApi, viaF, FClass.sem, FBase.sem]; exact same
    · simp only [fsem, apiSem, funcApi, viaF, FClass.sem, FBase.sem]; exact same
    · simp only [fsem, apiSem, funcApi, viaF, FClass.sem, FBase.sem]; exact same
    · obtain ⟨x, h1, h2⟩ := hc
      rw [fsem_calc E h1]; exact val h2
    · obtain ⟨⟨h3, h4⟩, x, h1, h2⟩ := hc
      rw [fsem_calcGrad E h1 hd h3 h4]; exact grd h3 h4 h2
    · obtain ⟨⟨⟨h3, h4⟩, h5, h6⟩, x, h1, h2⟩ := hc
      rw [fsem_calcHess E h1 hd h3 h4 h5 h6]; exact hes h3 h4 h5 h6 h2
    · obtain ⟨x, h1, h2⟩ := hc
      rw [fsem_eval E h1]; exact val h2
    · obtain ⟨⟨h3, h4⟩, x, h1, h2⟩ := hc
      rw [fsem_evalGrad E h1 hd h3 h4]; exact grd h3 h4 h2
    · obtain ⟨⟨⟨h3, h4⟩, h5, h6⟩, x, h1, h2⟩ := hc
      rw [fsem_evalHess E h1 hd h3 h4 h5 h6]; exact hes h3 h4 h5 h6 h2
    · simp only [fsem, apiSem, funcApi, viaF, FClass.sem, FBase.sem, fieldCls, PField.ov]; exact same
    · simp only [fsem, apiSem, funcApi, viaF, FClass.sem, FBase.sem, fieldCls, PField.ov]; exact same
    · simp only [fsem, apiSem, funcApi, viaF, FClass.sem, FBase.sem, fieldCls, PField.ov]; exact same


variable {File : Type} {los his : BodyData K d → Fin d → K} {qss : BodyData K d → List (Interp K d)}

/-- A field against its name and data. -/
def FieldOk (los his : BodyData K d → Fin d → K) (qss : BodyData K d → List (Interp K d)) (D : BodyData K d) (f : PField K)
    (fl : String × List K) : Prop := f.name = fl.1 ∧ f.data = fl.2 ∧ f.zero = 0 ∧ FOk D.pts (los D) (his D) (qss D) f

/-- A body against the data of its file. -/
def BodyPair (E : ElemOps K d) (unit : Fin n → Fin d → K) (los his : BodyData K d → Fin d → K)
    (qss : BodyData K d → List (Interp K d)) : Option (Body K d) → Option (BodyData K d) → Prop
  | none, none => True
  | some b, some D => RectMesh unit D.pts D.cells ∧ BOk E unit D.pts D.cells (los D) (his D) (qss D) D.flds b
  | _, _ => False

/-- A field variable against what it denotes. -/
def VarPair (los his : BodyData K d → Fin d → K) (qss : BodyData K d → List (Interp K d)) (tb : Slots (BodyData K d)) :
    FVar (PField K) → FVar (String × List K) → Prop
  | .empty, .empty => True
  | .view h i, .view h' i' => h = h' ∧ i = i' ∧ ∃ D, tb[h]? = some (some D) ∧ i < D.flds.length
  | .copy h f, .copy h' fl => h = h' ∧ ∃ D, tb[h]? = some (some D) ∧ FieldOk los his qss D f fl
  | _, _ => False

/-- The bodies and fields of the client against data. -/
structure TRel (E : ElemOps K d) (unit : Fin n → Fin d → K) (los his : BodyData K d → Fin d → K)
    (qss : BodyData K d → List (Interp K d)) (s : BVars (Body K d) (PField K)) (t : BVars (BodyData K d) (String × List K)) : Prop where
  blen : s.bodies.length = t.bodies.length
  bod : ∀ (h : Nat) x y, s.bodies[h]? = some x → t.bodies[h]? = some y → BodyPair E unit los his qss x y
  flen : s.fields.length = t.fields.length
  fld : ∀ (g : Nat) x y, s.fields[g]? = some x → t.fields[g]? = some y → VarPair los his qss t.bodies x y

theorem TRel.body {s : BVars (Body K d) (PField K)} {t : BVars (BodyData K d) (String × List K)} (R : TRel E unit los his qss s t) {h : Nat}
    {y : Option (BodyData K d)} (hy : t.bodies[h]? = some y) : ∃ x, s.bodies[h]? = some x ∧ BodyPair E unit los his qss x y := by
  have hl : h < s.bodies.length := by rw [R.blen]; exact (List.getElem?_eq_some_iff.mp hy).1
  exact ⟨_, List.getElem?_eq_getElem hl, R.bod h _ _ (List.getElem?_eq_getElem hl) hy⟩

theorem TRel.bodySome {s : BVars (Body K d) (PField K)} {t : BVars (BodyData K d) (String × List K)} (R : TRel E unit los his qss s t) {h : Nat}
    {D : BodyData K d} (hy : t.bodies[h]? = some (some D)) :
    ∃ b, s.bodies[h]? = some (some b) ∧ RectMesh unit D.pts D.cells ∧ BOk E unit D.pts D.cells (los D) (his D) (qss D) D.flds b := by
  obtain ⟨x, hx, hp⟩ := R.body hy
  cases x with
  | none => exact hp.elim
  | some b => exact ⟨b, hx, hp⟩

theorem TRel.bodyNone {s : BVars (Body K d) (PField K)} {t : BVars (BodyData K d) (String × List K)} (R : TRel E unit los his qss s t) {h : Nat}
    (hy : t.bodies[h]? = some none) : s.bodies[h]? = some none := by
  obtain ⟨x, hx, hp⟩ := R.body hy
  cases x with
  | none => exact hx
  | some b => exact hp.elim

theorem TRel.field {s : BVars (Body K d) (PField K)} {t : BVars (BodyData K d) (String × List K)} (R : TRel E unit los his qss s t) {g : Nat}
    {y : FVar (String × List K)} (hy : t.fields[g]? = some y) : ∃ x, s.fields[g]? = some x ∧ VarPair los his qss t.bodies x y := by
  have hl : g < s.fields.length := by rw [R.flen]; exact (List.getElem?_eq_some_iff.mp hy).1
  exact ⟨_, List.getElem?_eq_getElem hl, R.fld g _ _ (List.getElem?_eq_getElem hl) hy⟩

theorem VarPair.mono {tb tb' : Slots (BodyData K d)} {x : FVar (PField K)} {y : FVar (String × List K)}
    (h : VarPair los his qss tb x y) (hb : ∀ (k : Nat) D, tb[k]? = some (some D) → tb'[k]? = some (some D)) :
    VarPair los his qss tb' x y := by
  cases x <;> cases y <;> first | exact h.elim | trivial | skip
  · obtain ⟨h1, h2, D, h3, h4⟩ := h; exact ⟨h1, h2, D, hb _ _ h3, h4⟩
  · obtain ⟨h1, D, h3, h4⟩ := h; exact ⟨h1, D, hb _ _ h3, h4⟩

theorem TRel.setField {s : BVars (Body K d) (PField K)} {t : BVars (BodyData K d) (String × List K)} (R : TRel E unit los his qss s t) (g : Nat)
    {x : FVar (PField K)} {y : FVar (String × List K)} (h : VarPair los his qss t.bodies x y) :
    TRel E unit los his qss { s with fields := s.fields.set g x } { t with fields := t.fields.set g y } := by
  refine ⟨R.blen, R.bod, by simp [R.flen], ?_⟩
  intro k u v h1 h2
  simp only at h1 h2
  rw [List.getElem?_set] at h1 h2
  by_cases e : g = k
  · subst e
    simp only [if_true] at h1 h2
    split at h1
    · rw [if_pos (by rw [← R.flen]; assumption)] at h2
      cases h1; cases h2; exact h
    · cases h1
  · rw [if_neg e] at h1 h2
    exact R.fld k u v h1 h2

theorem TRel.setBody {s : BVars (Body K d) (PField K)} {t : BVars (BodyData K d) (String × List K)} (R : TRel E unit los his qss s t) {h : Nat}
    {D : BodyData K d} (hD : t.bodies[h]? = some (some D)) {b : Body K d}
    (hb : RectMesh unit D.pts D.cells ∧ BOk E unit D.pts D.cells (los D) (his D) (qss D) D.flds b) :
    TRel E unit los his qss { s with bodies := s.bodies.set h (some b) } t := by
  refine ⟨by simp [R.blen], ?_, R.flen, R.fld⟩
  intro k u v h1 h2
  simp only at h1
  rw [List.getElem?_set] at h1
  by_cases e : h = k
  · subst e
    simp only [if_true] at h1
    split at h1
    · cases h1; rw [hD] at h2; cases h2; exact hb
    · cases h1
  · rw [if_neg e] at h1
    exact R.bod k u v h1 h2

theorem set_self {α : Type} {l : List α} {i : Nat} {a : α} (h : l[i]? = some a) : l.set i a = l := by
  apply List.ext_getElem?; intro k
  rw [List.getElem?_set]
  split
  · rename_i e; subst e
    rw [if_pos (List.getElem?_eq_some_iff.mp h).1, h]
  · rfl

theorem find_data {b : Body K d} {D : BodyData K d} (hb : BOk E unit D.pts D.cells lo hi qs D.flds b) (name : String) :
    b.fields.findIdx? (fun f => f.name == name) = D.flds.findIdx? (fun f => f.1 == name) := by
  have h3 := hb.fields
  clear hb
  generalize b.fields = fs at h3 ⊢
  generalize D.flds = gs at h3 ⊢
  induction h3 with
  | nil => rfl
  | cons hd _ ih => simp only [List.findIdx?_cons, hd.1, ih]

/-- A field of a body after a call on it. -/
theorem bok_set {b : Body K d} {D : BodyData K d} (hb : BOk E unit D.pts D.cells lo hi qs D.flds b) {i : Nat} {f f' : PField K}
    (hf : b.fields[i]? = some f) {m' : Mesh K d} (h2 : StOk E unit D.pts D.cells lo hi qs f b.mesh m' f') :
    BOk E unit D.pts D.cells lo hi qs D.flds ⟨m', b.fields.set i f'⟩ := by
  obtain ⟨hlt, hfe⟩ := List.getElem?_eq_some_iff.mp hf
  have hl := hb.fields.length_eq
  have hfi := (List.forall₂_iff_get.mp hb.fields).2 i hlt (by omega)
  simp only [List.get_eq_getElem, hfe] at hfi
  refine ⟨h2.1, ?_⟩
  rw [List.forall₂_iff_get]
  refine ⟨by simpa using hl, ?_⟩
  intro j hj1 hj2
  simp only [List.get_eq_getElem, List.getElem_set]
  split
  · next e =>
    subst e
    have hs := h2.2.2.2
    exact ⟨hs.name.trans hfi.1, hs.data.trans hfi.2.1, hs.zero.trans hfi.2.2.1, h2.2.2.1⟩
  · have := (List.forall₂_iff_get.mp hb.fields).2 j (by simpa using hj1) hj2
    simpa using this

/-- A legal operation on the variables as data is legal on the bodies, and does the same. -/
theorem track_step (L : ElemLaw E unit R) (T : ElemTotal E) (hd : d ≤ 3) {make : File → Res (Body K d)} {info : File → BodyData K d}
    (hmk : ∀ f, ∃ b, make f = .ok b ∧ RectMesh unit (info f).pts (info f).cells ∧
      BOk E unit (info f).pts (info f).cells (los (info f)) (his (info f)) (qss (info f)) (info f).flds b)
    {s : BVars (Body K d) (PField K)} {t : BVars (BodyData K d) (String × List K)} (R' : TRel E unit los his qss s t)
    (op : BOp File (FuncFn × List (CVal K))) (hl : t.Legal (dataSem info) op)
    (hc : ∀ g c, op = .call g c → ∀ D fl, FieldIs t g D fl → FieldArgs D c) :
    s.Legal (bsem make (fsem E)) op ∧
      TRel E unit los his qss (s.step (bsem make (fsem E)) op).2 (t.step (dataSem info) op).2 := by
  have notCopy : ∀ {g : Nat} {x : FVar (PField K)}, s.fields[g]? = some x →
      (∃ y, t.fields[g]? = some y ∧ ∀ h' f, y ≠ .copy h' f) → ∀ h' f, x ≠ .copy h' f := by
    rintro g x hx ⟨y, hy, hn⟩ h' f rfl
    obtain ⟨x', hx', hp⟩ := R'.field hy
    rw [hx] at hx'; cases hx'
    cases y with
    | empty => exact hp
    | view => exact hp
    | copy h f => exact hn h f rfl
  cases op with
  | declBody =>
    refine ⟨trivial, by simp [BVars.step, R'.blen], ?_, R'.flen, ?_⟩
    · intro h x y h1 h2
      simp only [BVars.step] at h1 h2
      by_cases hh : h < s.bodies.length
      · rw [List.getElem?_append_left hh] at h1
        rw [List.getElem?_append_left (by rw [← R'.blen]; exact hh)] at h2
        exact R'.bod h x y h1 h2
      · have e1 := (List.getElem?_eq_some_iff.mp h1).1
        simp at e1
        have : h = s.bodies.length := by omega
        subst this
        rw [R'.blen] at h2
        simp at h1 h2
        subst h1 h2; trivial
    · intro g x y h1 h2
      refine (R'.fld g x y h1 h2).mono ?_
      intro k D e
      show (t.bodies ++ _)[k]? = _
      rw [List.getElem?_append_left (List.getElem?_eq_some_iff.mp e).1]; exact e
  | declField =>
    refine ⟨trivial, R'.blen, R'.bod, by simp [BVars.step, R'.flen], ?_⟩
    intro h x y h1 h2
    simp only [BVars.step] at h1 h2
    by_cases hh : h < s.fields.length
    · rw [List.getElem?_append_left hh] at h1
      rw [List.getElem?_append_left (by rw [← R'.flen]; exact hh)] at h2
      exact R'.fld h x y h1 h2
    · have e1 := (List.getElem?_eq_some_iff.mp h1).1
      simp at e1
      have : h = s.fields.length := by omega
      subst this
      rw [R'.flen] at h2
      simp at h1 h2
      subst h1 h2; trivial
  | newBody h file =>
    have hl' : t.bodies[h]? = some none := hl
    have hs := R'.bodyNone hl'
    obtain ⟨b, h1, h2⟩ := hmk file
    refine ⟨hs, ?_⟩
    have e1 : (bsem (Out := XOut K) make (fsem E)).make file = .ok b := h1
    have e2 : (dataSem (Call := FuncFn × List (CVal K)) info).make file = .ok (info file) := rfl
    simp only [BVars.step, e1, e2]
    refine ⟨by simp [R'.blen], ?_, R'.flen, ?_⟩
    · intro k u v h3 h4
      simp only at h3 h4
      rw [List.getElem?_set] at h3 h4
      by_cases e : h = k
      · subst e
        rw [if_pos rfl, if_pos (List.getElem?_eq_some_iff.mp hs).1] at h3
        rw [if_pos rfl, if_pos (List.getElem?_eq_some_iff.mp hl').1] at h4
        cases h3; cases h4; exact h2
      · rw [if_neg e] at h3 h4
        exact R'.bod k u v h3 h4
    · intro g x y h3 h4
      refine (R'.fld g x y h3 h4).mono ?_
      intro k D e
      show (t.bodies.set h _)[k]? = _
      rw [List.getElem?_set, if_neg]
      · exact e
      · rintro rfl; rw [hl'] at e; cases e
  | deleteBody h =>
    rcases hl with hl' | ⟨⟨D, hD, hbare⟩, _⟩
    · have hs := R'.bodyNone hl'
      refine ⟨Or.inl hs, ?_⟩
      simp only [BVars.step, set_self hs, set_self hl']
      exact R'
    · obtain ⟨b, _, h1, _⟩ := R'.bodySome hD
      have : D.cells.isEmpty = true := hbare
      rw [List.isEmpty_iff] at this
      exact absurd this h1.nonempty
  | field g h name =>
    obtain ⟨⟨D, hD⟩, y, hy, hn⟩ := hl
    obtain ⟨b, hb, _, hbok⟩ := R'.bodySome hD
    obtain ⟨x, hx, _⟩ := R'.field hy
    refine ⟨⟨⟨b, hb⟩, x, hx, notCopy hx ⟨y, hy, hn⟩⟩, ?_⟩
    have hf := find_data hbok name
    simp only [BVars.step, hb, hD, Option.join_some, BVars.find, bsem, dataSem, hf]
    cases hi : D.flds.findIdx? (fun f => f.1 == name) with
    | none => exact R'
    | some i =>
      have hil : i < D.flds.length := by
        rw [List.findIdx?_eq_some_iff_getElem] at hi
        exact hi.1
      exact R'.setField g ⟨rfl, rfl, D, hD, hil⟩
  | clone g k =>
    obtain ⟨⟨y, hy, hn⟩, z, hz, hne⟩ := hl
    obtain ⟨x, hx, _⟩ := R'.field hy
    obtain ⟨w, hw, hp⟩ := R'.field hz
    have hleg : s.Legal (bsem make (fsem E)) (.clone g k) := by
      refine ⟨⟨x, hx, notCopy hx ⟨y, hy, hn⟩⟩, w, hw, ?_⟩
      rintro rfl
      cases z with
      | empty => exact hne rfl
      | view => exact hp
      | copy => exact hp
    refine ⟨hleg, ?_⟩
    cases z with
    | empty => exact absurd rfl hne
    | view h i =>
      cases w with
      | empty => exact hp.elim
      | copy => exact hp.elim
      | view h' i' =>
        obtain ⟨rfl, rfl, D, hD, hi⟩ := hp
        obtain ⟨b, hb, _, hbok⟩ := R'.bodySome hD
        obtain ⟨f, hf, f1, f2, f3, f4⟩ := loaded_field hbok (i := i') (name := D.flds[i'].1) (data := D.flds[i'].2)
          (by rw [List.getElem?_eq_getElem hi])
        have e1 : ((s.bodies[h']?).join.map (bsem (Out := XOut K) make (fsem E)).fields).bind (·[i']?) = some f := by
          simp [hb, bsem, hf]
        have e2 : ((t.bodies[h']?).join.map (dataSem (Call := FuncFn × List (CVal K)) info).fields).bind (·[i']?) = some D.flds[i'] := by
          simp [hD, dataSem, hi]
        simp only [BVars.step, hw, hz, e1, e2]
        exact R'.setField g ⟨rfl, D, hD, f1, f2, f3, f4⟩
    | copy h fl =>
      cases w with
      | empty => exact hp.elim
      | view => exact hp.elim
      | copy h' f =>
        simp only [BVars.step, hw, hz]
        exact R'.setField g hp
  | call g c =>
    obtain ⟨y, hy, hne⟩ := hl
    obtain ⟨x, hx, hp⟩ := R'.field hy
    have hleg : s.Legal (bsem make (fsem E)) (.call g c) := by
      refine ⟨x, hx, ?_⟩
      rintro rfl
      cases y with
      | empty => exact hne rfl
      | view => exact hp
      | copy => exact hp
    refine ⟨hleg, ?_⟩
    cases y with
    | empty => exact absurd rfl hne
    | view h i =>
      cases x with
      | empty => exact hp.elim
      | copy => exact hp.elim
      | view h' i' =>
        obtain ⟨rfl, rfl, D, hD, hi⟩ := hp
        obtain ⟨b, hb, hcl, hbok⟩ := R'.bodySome hD
        have hargs := hc g c rfl D D.flds[i'] (Or.inl ⟨h', i', hy, hD, List.getElem?_eq_getElem hi⟩)
        obtain ⟨f, hf, f1, f2, f3, f4⟩ := loaded_field hbok (i := i') (name := D.flds[i'].1) (data := D.flds[i'].2)
          (by rw [List.getElem?_eq_getElem hi])
        have hst := fsem_ok L T hd hbok.mesh f4 hargs
        have e2 : t.bodies.set h' (some D) = t.bodies := set_self hD
        simp only [BVars.step, hx, hy, hb, hD, Option.join_some, bsem, dataSem, e2]
        refine R'.setBody hD ⟨hcl, ?_⟩
        simp only [Body.callIn, hf]
        exact bok_set hbok hf hst
    | copy h fl =>
      cases x with
      | empty => exact hp.elim
      | view => exact hp.elim
      | copy h' f =>
        obtain ⟨rfl, D, hD, f1, f2, f3, f4⟩ := hp
        obtain ⟨b, hb, hcl, hbok⟩ := R'.bodySome hD
        have hargs := hc g c rfl D fl (Or.inr ⟨h', hy, hD⟩)
        have hst := fsem_ok L T hd hbok.mesh f4 hargs
        have e2 : t.bodies.set h' (some D) = t.bodies := set_self hD
        simp only [BVars.step, hx, hy, hb, hD, Option.join_some, bsem, dataSem, e2]
        have hs := hst.2.2.2
        have R1 := R'.setField g (x := .copy h' (Body.callCopy (fsem E) c b f).2.2) (y := .copy h' fl)
          ⟨rfl, D, hD, hs.name.trans f1, hs.data.trans f2, hs.zero.trans f3, hst.2.2.1⟩
        exact R1.setBody hD ⟨hcl, hst.1, hbok.fields⟩
  | deleteField g =>
    rcases hl with hy | ⟨h, fl, hy⟩
    · obtain ⟨x, hx, hp⟩ := R'.field hy
      cases x with
      | empty => exact ⟨Or.inl hx, R'.setField g trivial⟩
      | view => exact hp.elim
      | copy => exact hp.elim
    · obtain ⟨x, hx, hp⟩ := R'.field hy
      cases x with
      | empty => exact hp.elim
      | view => exact hp.elim
      | copy h' f => exact ⟨Or.inr ⟨h', f, hx⟩, R'.setField g trivial⟩

theorem track_run (L : ElemLaw E unit R) (T : ElemTotal E) (hd : d ≤ 3) {make : File → Res (Body K d)} {info : File → BodyData K d}
    (hmk : ∀ f, ∃ b, make f = .ok b ∧ RectMesh unit (info f).pts (info f).cells ∧
      BOk E unit (info f).pts (info f).cells (los (info f)) (his (info f)) (qss (info f)) (info f).flds b)
    (ops : List (BOp File (FuncFn × List (CVal K)))) :
    ∀ {s : BVars (Body K d) (PField K)} {t : BVars (BodyData K d) (String × List K)}, TRel E unit los his qss s t →
      BVars.LegalRun (dataSem info) ops t → CallsRun FieldArgs info ops t →
      BVars.LegalRun (bsem make (fsem E)) ops s ∧
        TRel E unit los his qss (BVars.run (bsem make (fsem E)) ops s).2 (BVars.run (dataSem info) ops t).2 := by
  induction ops with
  | nil => intro s t R' _ _; exact ⟨trivial, R'⟩
  | cons op ops ih =>
    intro s t R' hl hc
    obtain ⟨h1, h2⟩ := track_step L T hd hmk R' op hl.1 (by
      rintro g c rfl; exact hc.1)
    obtain ⟨h3, h4⟩ := ih h2 hl.2 hc.2
    exact ⟨⟨h1, h3⟩, h4⟩

/-- The grid and interpolators of every legal mesh, chosen once. -/
theorem ghost (L : ElemLaw E unit R) : ∃ (los his : BodyData K d → Fin d → K) (qss : BodyData K d → List (Interp K d)),
    ∀ D : BodyData K d, RectMesh unit D.pts D.cells → ∀ flds : List (String × List K), (∀ fl ∈ flds, fl.2.length = D.pts.length) →
      ∃ b, Body.load E D.pts D.cells flds = .ok b ∧ BOk E unit D.pts D.cells (los D) (his D) (qss D) flds b := by
  have h : ∀ D : BodyData K d, ∃ lo hi qs, RectMesh unit D.pts D.cells → ∃ m, build E D.pts D.cells = .ok m ∧
      Built E unit D.pts D.cells lo hi qs m := by
    intro D
    by_cases hm : RectMesh unit D.pts D.cells
    · obtain ⟨m, lo, hi, qs, h1, h2⟩ := build_of L hm
      exact ⟨lo, hi, qs, fun _ => ⟨m, h1, h2⟩⟩
    · exact ⟨fun _ => 0, fun _ => 0, [], fun h => absurd h hm⟩
  choose los his qss h using h
  refine ⟨los, his, qss, fun D hm flds hl => ?_⟩
  obtain ⟨m, h1, h2⟩ := h D hm
  obtain ⟨c0, hc0⟩ := List.exists_mem_of_ne_nil D.cells hm.nonempty
  obtain ⟨a0, h0, hah0⟩ := hm.rect c0 hc0
  have hne : D.pts ≠ [] := List.ne_nil_of_mem (cellAt_mem L hah0).1
  obtain ⟨b, g1, g2⟩ := addFields_ok (flds0 := []) (flds := flds) (b := ⟨m, []⟩) hne ⟨h2, List.Forall₂.nil⟩ hl
  exact ⟨b, by simp only [load, h1, ok_bind, g1], by simpa using g2⟩

omit [FloorRing K] [IsStrictOrderedRing K] [LinearOrder K] in
theorem cornerVals_unique {data : List K} {cell : List Nat} {u v : Fin n → K} (hu : CornerVals data cell u)
    (hv : CornerVals data cell v) : u = v := by
  funext j
  obtain ⟨p, h1, h2⟩ := hu j
  obtain ⟨q, h3, h4⟩ := hv j
  rw [h1] at h3; cases h3
  rw [h2] at h4; exact Option.some.inj h4

/-- At a point of the body all that is computed depends on the mesh, the data and the point only. -/
theorem same_eval (L : ElemLaw E unit R) (T : ElemTotal E) {pts : List (Fin d → K)} {cells : List (List Nat)} {name : String}
    {data : List K} {b b' : Body K d} (hb : BOk E unit pts cells lo hi qs [(name, data)] b)
    (hb' : BOk E unit pts cells lo hi qs [(name, data)] b') {c : Fin d → K} (hc : Covered unit pts cells c ∨ OutOfBins pts c) :
    b.value E 0 c = b'.value E 0 c ∧ (∀ di : Fin d, b.grad E 0 c di = b'.grad E 0 c di) ∧
      ∀ di dj : Fin d, b.hess E 0 c di dj = b'.hess E 0 c di dj := by
  rcases hc with hc | hc
  · obtain ⟨e, cell, a, h, _, _, _, _, g⟩ := body_eval L hb.mesh hc
    obtain ⟨u, hu, u1, u2, u3⟩ := g _ b hb 0 name data rfl
    obtain ⟨v, hv, v1, v2, v3⟩ := g _ b' hb' 0 name data rfl
    obtain rfl := cornerVals_unique hu hv
    refine ⟨?_, fun di => ?_, fun di dj => ?_⟩
    · obtain ⟨w, hw⟩ := T.value c
      rw [u1 w hw, v1 w hw]
    · obtain ⟨w, hw⟩ := T.grad c di
      rw [u2 di w hw, v2 di w hw]
    · obtain ⟨w, hw⟩ := T.hess c di dj
      rw [u3 di dj w hw, v3 di dj w hw]
  · obtain ⟨_, u1, u2, u3⟩ := c30_generic L T hb (i := 0) (by simp) hc
    obtain ⟨_, v1, v2, v3⟩ := c30_generic L T hb' (i := 0) (by simp) hc
    exact ⟨u1.trans v1.symm, fun di => (u2 di).trans (v2 di).symm, fun di dj => (u3 di dj).trans (v3 di dj).symm⟩

/-- The object behind a field variable after a good history, and what calls on it do. -/
theorem object (L : ElemLaw E unit R) (T : ElemTotal E) (hd : d ≤ 3) {make : File → Res (Body K d)} {info : File → BodyData K d}
    (hmk : ∀ f, make f = Body.load E (info f).pts (info f).cells (info f).flds)
    (hm : ∀ f, RectMesh unit (info f).pts (info f).cells) (hlen : ∀ f, ∀ fl ∈ (info f).flds, fl.2.length = (info f).pts.length)
    (ops : List (BOp File (FuncFn × List (CVal K)))) (hl : BVars.LegalRun (dataSem info) ops ⟨[], []⟩)
    (hc : CallsRun FieldArgs info ops ⟨[], []⟩) {g : Nat} {D : BodyData K d} {fl : String × List K}
    (hg : FieldIs (dataAfter info ops) g D fl) :
    ∃ (m : Mesh K d) (f : PField K) (b0 : Body K d) (lo hi : Fin d → K) (qs : List (Interp K d)),
      Body.load E D.pts D.cells [fl] = .ok b0 ∧ BOk E unit D.pts D.cells lo hi qs [fl] b0 ∧
      BOk E unit D.pts D.cells lo hi qs [fl] ⟨m, [f]⟩ ∧
      (∀ c, ((run make (fsem E) ops start).2.step make (fsem E) (.call g c)).1 = (fsem E c (m, f)).1.map some) ∧
      ∀ c c', (((run make (fsem E) ops start).2.step make (fsem E) (.call g c)).2.step make (fsem E) (.call g c')).1 =
        (fsem E c' (fsem E c (m, f)).2).1.map some := by
  obtain ⟨los, his, qss, hG⟩ := ghost (E := E) (K := K) L
  have hmk' : ∀ f, ∃ b, make f = .ok b ∧ RectMesh unit (info f).pts (info f).cells ∧
      BOk E unit (info f).pts (info f).cells (los (info f)) (his (info f)) (qss (info f)) (info f).flds b := by
    intro f
    obtain ⟨b, h1, h2⟩ := hG (info f) (hm f) _ (hlen f)
    exact ⟨b, by rw [hmk f, h1], hm f, h2⟩
  have R0 : TRel E unit los his qss (⟨[], []⟩ : BVars (Body K d) (PField K)) ⟨[], []⟩ := ⟨rfl, by simp, rfl, by simp⟩
  obtain ⟨hl', R1⟩ := track_run L T hd hmk' ops R0 hl hc
  obtain ⟨_, F1⟩ := run_rel make (fsem E) ops rel_start hl'
  generalize (BVars.run (bsem make (fsem E)) ops ⟨[], []⟩).2 = s at R1 F1
  generalize (run make (fsem E) ops start).2 = m0 at F1
  have key : ∀ {x : FVar (PField K)}, s.fields[g]? = some x → x ≠ .empty → ∀ c,
      (m0.step make (fsem E) (.call g c)).1 = (s.step (bsem make (fsem E)) (.call g c)).1 ∧
      ∀ c', s.fields[g]?.isSome → (∃ x, (s.step (bsem make (fsem E)) (.call g c)).2.fields[g]? = some x ∧ x ≠ .empty) →
      ((m0.step make (fsem E) (.call g c)).2.step make (fsem E) (.call g c')).1 =
        ((s.step (bsem make (fsem E)) (.call g c)).2.step (bsem make (fsem E)) (.call g c')).1 := by
    intro x hx hne c
    obtain ⟨h1, h2⟩ := step_rel make (fsem E) F1 (.call g c) ⟨x, hx, hne⟩
    exact ⟨h1, fun c' _ hx' => (step_rel make (fsem E) h2 (.call g c') hx').1⟩
  rcases hg with ⟨h, i, h1, h2, h3⟩ | ⟨h, h1, h2⟩
  · obtain ⟨b, hb, hrm, hbok⟩ := R1.bodySome h2
    obtain ⟨x, hx, hp⟩ := R1.field h1
    obtain ⟨f, hf, f1, f2, f3, f4⟩ := loaded_field hbok h3 (name := fl.1) (data := fl.2)
    cases x with
    | empty => exact hp.elim
    | copy => exact hp.elim
    | view h' i' =>
      obtain ⟨rfl, rfl, _⟩ := hp
      obtain ⟨b0, g1, g2⟩ := hG D hrm [fl] (by
        intro z hz
        rw [List.mem_singleton] at hz; subst hz
        rw [← f2]; exact f4.data_len)
      have hi := (List.getElem?_eq_some_iff.mp hf).1
      have hh := (List.getElem?_eq_some_iff.mp hb).1
      refine ⟨b.mesh, f, b0, los D, his D, qss D, g1, g2, ⟨hbok.mesh, .cons ⟨f1, f2, f3, f4⟩ .nil⟩, ?_, ?_⟩
      · intro c
        rw [(key hx (by simp) c).1]
        simp only [BVars.step, hx, hb, Option.join_some, bsem, Body.callIn, hf]
      · intro c c'
        have e : (s.step (bsem make (fsem E)) (.call g c)).2 =
            { s with bodies := s.bodies.set h' (some ⟨(fsem E c (b.mesh, f)).2.1, b.fields.set i' (fsem E c (b.mesh, f)).2.2⟩) } := by
          simp only [BVars.step, hx, hb, Option.join_some, bsem, Body.callIn, hf]
        rw [(key hx (by simp) c).2 c' (by simp [hx]) ⟨_, by rw [e]; exact hx, by simp⟩, e]
        simp [BVars.step, hx, hh, bsem, Body.callIn, hi]
  · obtain ⟨b, hb, hrm, hbok⟩ := R1.bodySome h2
    obtain ⟨x, hx, hp⟩ := R1.field h1
    cases x with
    | empty => exact hp.elim
    | view => exact hp.elim
    | copy h' f =>
      obtain ⟨rfl, D', hD', f1, f2, f3, f4⟩ := hp
      rw [h2] at hD'; cases hD'
      obtain ⟨b0, g1, g2⟩ := hG D hrm [fl] (by
        intro z hz
        rw [List.mem_singleton] at hz; subst hz
        rw [← f2]; exact f4.data_len)
      have hh := (List.getElem?_eq_some_iff.mp hb).1
      have hgl := (List.getElem?_eq_some_iff.mp hx).1
      refine ⟨b.mesh, f, b0, los D, his D, qss D, g1, g2, ⟨hbok.mesh, .cons ⟨f1, f2, f3, f4⟩ .nil⟩, ?_, ?_⟩
      · intro c
        rw [(key hx (by simp) c).1]
        simp only [BVars.step, hx, hb, Option.join_some, bsem, Body.callCopy]
      · intro c c'
        have e : (s.step (bsem make (fsem E)) (.call g c)).2 =
            ⟨s.bodies.set h' (some { b with mesh := (fsem E c (b.mesh, f)).2.1 }), s.fields.set g (.copy h' (fsem E c (b.mesh, f)).2.2)⟩ := by
          simp only [BVars.step, hx, hb, Option.join_some, bsem, Body.callCopy]
        rw [(key hx (by simp) c).2 c' (by simp [hx]) ⟨.copy h' (fsem E c (b.mesh, f)).2.2, by rw [e]; simp [hgl], by simp⟩, e]
        simp [BVars.step, hh, hgl, bsem, Body.callCopy]

end
end FieldMem
end Verif
