import Verif.Lemmas.Binary64Field
import Verif.Props.RoundedFile

/-!
# Property C127: the results in floating-point arithmetic hold for binary64 with its exponent range

C94, C95, C107 and C126 are about arithmetic rounded to 53 binary digits with an unbounded exponent. For a machine whose doubles overflow and
underflow, they hold as they are when coordinates and values are of moderate size, because then no operation ever leaves the range of normal doubles.
-/

namespace Verif
open Spec
variable {K : Type} [Field K] [LinearOrder K] [IsStrictOrderedRing K] [FloorRing K] {f : K → K} {a m V d : Nat}

namespace B64

theorem tame_good {c : Fin d → K} (h : Tame a m c) : CGood (a + 52) m c := fun i => ⟨float_grid (h i).1 (h i).2, sized_le (h i).2⟩

theorem nDistinct_le {pts : List (Fin d → K)} (h : pts.length + 2 ≤ 2 ^ 31) (i : Fin d) : nDistinct pts i + 2 ≤ 2 ^ 31 := by
  have : nDistinct pts i ≤ pts.length := by
    unfold nDistinct
    exact (List.toFinset_card_le _).trans (by simp)
  omega

theorem same {g A B : Nat} {E' E : ElemOps K d} (hB : IsBinary64 f) (hR : Room g m A B V) (P : Pair g m A B E' E) {pts : List (Fin d → K)}
    (hne : pts ≠ []) (hN : pts.length + 2 ≤ 2 ^ 31) (hp : ∀ p ∈ pts, CGood g m p) (cells : List (List Nat)) {flds : List (String × List K)}
    (hv : ∀ fl ∈ flds, ∀ y ∈ fl.2, Sized V V y) :
    Fl.load f E' pts cells flds = Fl.load r E pts cells flds ∧
    ∀ b, Fl.load r E pts cells flds = .ok b → ∀ ops : List (Nat × Body.Call K d), (∀ op ∈ ops, CGood g m op.2.coord) →
      Fl.evals f E' b ops = Fl.evals r E b ops ∧
      ∀ i op, CGood g m op.coord → Fl.eval f E' (Fl.evals r E b ops) i op = Fl.eval r E (Fl.evals r E b ops) i op := by
  refine ⟨load_congr hB hR.gm P hp (nDistinct_le hN) hne cells flds, fun b hb ops ho => ?_⟩
  have hg := load_good hB hR.gm P hp (nDistinct_le hN) hne hv hb
  obtain ⟨e1, e2⟩ := evals_congr hB hR P ops ho b hg
  exact ⟨e1, fun i op hc => eval_congr hB hR P e2 i hc⟩

theorem rect_ne {n : Nat} {unit : Fin (n + 1) → Fin d → K} {pts : List (Fin d → K)} {cells : List (List Nat)} (hm : RectMesh unit pts cells) : pts ≠ [] := by
  obtain ⟨cell, hc⟩ := List.exists_mem_of_ne_nil cells hm.nonempty
  obtain ⟨a', h, hah⟩ := hm.rect cell hc
  obtain ⟨p, _, hp⟩ := hah.2.2 0
  exact List.ne_nil_of_mem (List.mem_of_getElem? hp)

theorem u_le : (2 : K) ^ (-(53 : Int)) ≤ 1 / 256 := by rw [zpow_neg]; norm_num

theorem u_le' : (2 : K) ^ (-(53 : Int)) ≤ 1 / 64 := by rw [zpow_neg]; norm_num

theorem tame_round {c : Fin d → K} (h : ∀ i, Sized a m (c i)) : Tame a m fun i => r (c i) := fun i => ⟨R.idem _, sized_round (h i)⟩

theorem roundPts_eq (hB : IsBinary64 f) {pts : List (Fin d → K)} (hp : ∀ p ∈ pts, ∀ i, Sized a m (p i)) (ha : a ≤ 1022) (hm : m ≤ 1023) :
    roundPts f pts = roundPts r pts :=
  List.map_congr_left fun p hpm => funext fun i => agree hB (hp p hpm i) ha hm

theorem roundFlds_eq (hB : IsBinary64 f) {flds : List (String × List K)} (hv : ∀ fl ∈ flds, ∀ y ∈ fl.2, Sized V V y) (h : V ≤ 1022) :
    roundFlds f flds = roundFlds r flds :=
  List.map_congr_left fun fl hfl => by rw [List.map_congr_left fun y hy => agree hB (hv fl hfl y hy) h (by omega)]

theorem roundPts_tame {pts : List (Fin d → K)} (hp : ∀ p ∈ pts, ∀ i, Sized a m (p i)) : ∀ p ∈ roundPts r pts, Tame a m p := by
  intro p h
  obtain ⟨q, hq, rfl⟩ := List.mem_map.mp h
  exact tame_round (hp q hq)

theorem roundFlds_sized {flds : List (String × List K)} (hv : ∀ fl ∈ flds, ∀ y ∈ fl.2, Sized V V y) : ∀ fl ∈ roundFlds r flds, ∀ y ∈ fl.2, Sized V V y := by
  intro fl h y hy
  obtain ⟨q, hq, rfl⟩ := List.mem_map.mp h
  obtain ⟨z, hz, rfl⟩ := List.mem_map.mp hy
  exact sized_round (hv q hq z hz)

end B64

/-- **C127** In two dimensions, whatever the cells are: when the coordinates of the points and of all evaluations are of moderate size, and so
are the values, a machine with overflow and underflow builds the same body, and every evaluation in every history has the same outcome, as with
an unbounded exponent. -/
theorem C127_same_2d (hB : IsBinary64 f) (hs : 3 * (a + m) + V ≤ 806) (pts : List (Fin 2 → K)) (hne : pts ≠ []) (hN : pts.length + 2 ≤ 2 ^ 31)
    (hp : ∀ p ∈ pts, Tame a m p) (cells : List (List Nat)) (flds : List (String × List K)) (hv : ∀ fl ∈ flds, ∀ y ∈ fl.2, Sized V V y) :
    Fl.load f (Fl.quadOps f) pts cells flds = Fl.load (nearestEven 53) (Fl.quadOps (nearestEven 53)) pts cells flds ∧
    ∀ b, Fl.load f (Fl.quadOps f) pts cells flds = .ok b →
    ∀ ops : List (Nat × Body.Call K 2), (∀ op ∈ ops, Tame a m op.2.coord) → ∀ (i : Nat) (op : Fl.Call K 2), Tame a m op.coord →
      Fl.eval f (Fl.quadOps f) (Fl.evals f (Fl.quadOps f) b ops) i op =
        Fl.eval (nearestEven 53) (Fl.quadOps (nearestEven 53)) (Fl.evals (nearestEven 53) (Fl.quadOps (nearestEven 53)) b ops) i op := by
  obtain ⟨e1, e2⟩ := B64.same hB (B64.room (g := a + 52) (m := m) (V := V) (by omega) (by omega)) (B64.quad_pair hB (by omega) (by omega)) hne hN
    (fun p h => B64.tame_good (hp p h)) cells hv
  refine ⟨e1, fun b hb ops ho i op hc => ?_⟩
  obtain ⟨k1, k2⟩ := e2 b (e1.symm.trans hb) ops fun o h => B64.tame_good (ho o h)
  rw [k1]
  exact k2 i op (B64.tame_good hc)

/-- **C127** The same in three dimensions. -/
theorem C127_same_3d (hB : IsBinary64 f) (hs : 3 * (a + m) + V ≤ 806) (pts : List (Fin 3 → K)) (hne : pts ≠ []) (hN : pts.length + 2 ≤ 2 ^ 31)
    (hp : ∀ p ∈ pts, Tame a m p) (cells : List (List Nat)) (flds : List (String × List K)) (hv : ∀ fl ∈ flds, ∀ y ∈ fl.2, Sized V V y) :
    Fl.load f (Fl.hexOps f) pts cells flds = Fl.load (nearestEven 53) (Fl.hexOps (nearestEven 53)) pts cells flds ∧
    ∀ b, Fl.load f (Fl.hexOps f) pts cells flds = .ok b →
    ∀ ops : List (Nat × Body.Call K 3), (∀ op ∈ ops, Tame a m op.2.coord) → ∀ (i : Nat) (op : Fl.Call K 3), Tame a m op.coord →
      Fl.eval f (Fl.hexOps f) (Fl.evals f (Fl.hexOps f) b ops) i op =
        Fl.eval (nearestEven 53) (Fl.hexOps (nearestEven 53)) (Fl.evals (nearestEven 53) (Fl.hexOps (nearestEven 53)) b ops) i op := by
  obtain ⟨e1, e2⟩ := B64.same hB (B64.room (g := a + 52) (m := m) (V := V) (by omega) (by omega)) (B64.hex_pair hB (by omega) (by omega)) hne hN
    (fun p h => B64.tame_good (hp p h)) cells hv
  refine ⟨e1, fun b hb ops ho i op hc => ?_⟩
  obtain ⟨k1, k2⟩ := e2 b (e1.symm.trans hb) ops fun o h => B64.tame_good (ho o h)
  rw [k1]
  exact k2 i op (B64.tame_good hc)

/-- **C127** So on a machine with overflow and underflow a legal mesh of moderate size is loaded, and the value computed at every point of the body is
within 64 roundoffs of the bilinear interpolant of a cell containing it. -/
theorem C127_value_2d (hB : IsBinary64 f) (hs : 3 * (a + m) + V ≤ 806) (pts : List (Fin 2 → K)) (hN : pts.length + 2 ≤ 2 ^ 31)
    (hp : ∀ p ∈ pts, Tame a m p) (cells : List (List Nat)) (flds : List (String × List K)) (hv : ∀ fl ∈ flds, ∀ y ∈ fl.2, Sized V V y)
    (hm : FloatMesh quadUnit (nearestEven 53) ((2 : K) ^ (-(53 : Int))) pts cells) (hl : ∀ fl ∈ flds, fl.2.length = pts.length)
    (hfl : ∀ fl ∈ flds, ∀ y ∈ fl.2, IsFloat (nearestEven 53) y) :
    ∃ b, Fl.load f (Fl.quadOps f) pts cells flds = .ok b ∧
      ∀ c, FloatPoint quadUnit (nearestEven 53) pts cells c → Tame a m c →
      ∃ cell a' h, cell ∈ cells ∧ CellAt quadUnit pts cell a' h ∧ InCell a' h c ∧
        ∀ ops : List (Nat × Body.Call K 2), Fl.HistOk (nearestEven 53) pts ops → (∀ op ∈ ops, Tame a m op.2.coord) →
        ∀ (i : Nat) (name : String) (data : List K), flds[i]? = some (name, data) →
        ∃ v y, CornerVals data cell v ∧ Fl.eval f (Fl.quadOps f) (Fl.evals f (Fl.quadOps f) b ops) i (.value c) = .ok y ∧
          ∀ M, (∀ j, |v j| ≤ M) → |y - bilinear a' h v c| ≤ 64 * (2 : K) ^ (-(53 : Int)) * M := by
  obtain ⟨b, hb⟩ := C94_loads B64.R B64.u_le' pts cells flds hm hl
  obtain ⟨e1, e2⟩ := C127_same_2d hB hs pts (B64.rect_ne hm.rect) hN hp cells flds hv
  have hb' := e1.trans hb
  refine ⟨b, hb', fun c hc ht => ?_⟩
  obtain ⟨cell, a', h, k1, k2, k3, k4⟩ := C94_value_error B64.R B64.u_le' pts cells flds hm hl hfl b hb c hc
  refine ⟨cell, a', h, k1, k2, k3, fun ops ho hto i name data hi => ?_⟩
  obtain ⟨v, y, l1, l2, l3⟩ := k4 ops ho i name data hi
  exact ⟨v, y, l1, (e2 b hb' ops hto i (.value c) ht).trans l2, l3⟩

/-- **C127** And at the nodes of a conforming mesh it returns the values of the field exactly. -/
theorem C127_nodal_2d (hB : IsBinary64 f) (hs : 3 * (a + m) + V ≤ 806) (pts : List (Fin 2 → K)) (hN : pts.length + 2 ≤ 2 ^ 31)
    (hp : ∀ p ∈ pts, Tame a m p) (cells : List (List Nat)) (flds : List (String × List K)) (hv : ∀ fl ∈ flds, ∀ y ∈ fl.2, Sized V V y)
    (hm : FloatMesh quadUnit (nearestEven 53) ((2 : K) ^ (-(53 : Int))) pts cells) (hcf : Conforming quadUnit pts cells)
    (hl : ∀ fl ∈ flds, fl.2.length = pts.length) (hfl : ∀ fl ∈ flds, ∀ y ∈ fl.2, IsFloat (nearestEven 53) y)
    (b : Body K 2) (hb : Fl.load f (Fl.quadOps f) pts cells flds = .ok b) (ops : List (Nat × Body.Call K 2)) (ho : Fl.HistOk (nearestEven 53) pts ops)
    (hto : ∀ op ∈ ops, Tame a m op.2.coord) (i : Nat) (name : String) (data : List K) (hi : flds[i]? = some (name, data)) (p : Nat)
    (cell : List Nat) (hce : cell ∈ cells) (hpc : p ∈ cell) (x : Fin 2 → K) (hx : pts[p]? = some x) (y : K) (hy : data[p]? = some y) :
    Fl.eval f (Fl.quadOps f) (Fl.evals f (Fl.quadOps f) b ops) i (.value x) = .ok y := by
  obtain ⟨e1, e2⟩ := C127_same_2d hB hs pts (B64.rect_ne hm.rect) hN hp cells flds hv
  rw [e2 b hb ops hto i (.value x) (hp x (List.mem_of_getElem? hx))]
  exact C95_nodal_exact B64.R B64.u_le' pts cells flds hm hcf hl hfl b (e1.symm.trans hb) ops ho i name data hi p cell hce hpc x hx y hy

/-- **C127** In three dimensions, for a mesh of one layer of cells (see C107 for others): the mesh is loaded and values are within 256 roundoffs
of the trilinear interpolant. -/
theorem C127_value_3d (hB : IsBinary64 f) (hs : 3 * (a + m) + V ≤ 806) (pts : List (Fin 3 → K)) (hN : pts.length + 2 ≤ 2 ^ 31)
    (hp : ∀ p ∈ pts, Tame a m p) (cells : List (List Nat)) (flds : List (String × List K)) (hv : ∀ fl ∈ flds, ∀ y ∈ fl.2, Sized V V y)
    (hm : FloatMesh hexUnit (nearestEven 53) ((2 : K) ^ (-(53 : Int))) pts cells) (hl : ∀ fl ∈ flds, fl.2.length = pts.length)
    (hfl : ∀ fl ∈ flds, ∀ y ∈ fl.2, IsFloat (nearestEven 53) y) (z dz : K)
    (hz : ∀ cell ∈ cells, ∀ a h, CellAt hexUnit pts cell a h → a 2 = z ∧ h 2 = dz) :
    ∃ b, Fl.load f (Fl.hexOps f) pts cells flds = .ok b ∧
      ∀ c, FloatPoint hexUnit (nearestEven 53) pts cells c → Tame a m c →
      ∃ cell a' h, cell ∈ cells ∧ CellAt hexUnit pts cell a' h ∧ InCell a' h c ∧
        ∀ ops : List (Nat × Body.Call K 3), Fl.HistOk (nearestEven 53) pts ops → (∀ op ∈ ops, Tame a m op.2.coord) →
        ∀ (i : Nat) (name : String) (data : List K), flds[i]? = some (name, data) →
        ∃ v y, CornerVals data cell v ∧ Fl.eval f (Fl.hexOps f) (Fl.evals f (Fl.hexOps f) b ops) i (.value c) = .ok y ∧
          ∀ M, (∀ j, |v j| ≤ M) → |y - trilinear a' h v c| ≤ 256 * (2 : K) ^ (-(53 : Int)) * M := by
  obtain ⟨b, hb⟩ := C107_loads B64.R B64.u_le' pts cells flds hm hl
  obtain ⟨e1, e2⟩ := C127_same_3d hB hs pts (B64.rect_ne hm.rect) hN hp cells flds hv
  have hb' := e1.trans hb
  refine ⟨b, hb', fun c hc ht => ?_⟩
  obtain ⟨cell, a', h, k1, k2, k3, k4⟩ := C107_one_layer_partial B64.R B64.u_le' pts cells flds hm hl hfl b hb z dz hz c hc
  refine ⟨cell, a', h, k1, k2, k3, fun ops ho hto i name data hi => ?_⟩
  obtain ⟨v, y, l1, l2, l3⟩ := k4 ops ho i name data hi
  exact ⟨v, y, l1, (e2 b hb' ops hto i (.value c) ht).trans l2, l3⟩

/-- **C127** From the text of a two-dimensional file, on a machine with overflow and underflow: when the decimal numbers in the file are 0 or of
moderate size, the file is read, and every value is within the bound of C126 of the interpolant of the decimal numbers. -/
theorem C127_file_2d (hB : IsBinary64 f) (hs : 3 * (a + m) + V ≤ 806) (pts : List (Fin 2 → K)) (hN : pts.length + 2 ≤ 2 ^ 31)
    (hp : ∀ p ∈ pts, ∀ i, Sized a m (p i)) (cells : List (List Nat)) (flds : List (String × List K)) (hv : ∀ fl ∈ flds, ∀ y ∈ fl.2, Sized V V y)
    (text : List Char) (ht : IsVtk (NumText.scan id) pts cells flds text) (hm : RectMesh quadUnit pts cells) (hcf : Conforming quadUnit pts cells)
    (hA : Apart (nearestEven 53) pts) (hr : Resolved (2 * (2 : K) ^ (-(53 : Int))) pts) :
    ∃ b N, (∀ fuel ≥ N, Fl.readVtk f (NumText.scan f) (Fl.quadOps f) fuel (some text) Body.empty = .ok b) ∧
      b.fields.map (fun F => (F.name, F.data)) = roundFlds f flds ∧
      ∀ (ops : List (Nat × Body.Call K 2)), Fl.HistOk (nearestEven 53) (roundPts (nearestEven 53) pts) ops → (∀ op ∈ ops, Tame a m op.2.coord) →
      ∀ (i : Nat) (name : String) (data : List K), flds[i]? = some (name, data) → ∀ M, (∀ y ∈ data, |y| ≤ M) →
      ∀ cell ∈ cells, ∀ (a' h : Fin 2 → K), CellAt quadUnit pts cell a' h → ∀ v, CornerVals data cell v →
      ∀ κ, Within κ a' h → 4 * (2 : K) ^ (-(53 : Int)) * κ ≤ 1 → ∀ c, InCell a' h c → Tame a m c →
      ∃ y, Fl.eval f (Fl.quadOps f) (Fl.evals f (Fl.quadOps f) b ops) i (.value c) = .ok y ∧
        |y - bilinear a' h v c| ≤ (66 + 8 * κ) * (2 : K) ^ (-(53 : Int)) * M := by
  obtain ⟨b, N, hNr, hf, hval⟩ := C126_file_2d B64.R B64.u_le' pts cells flds text ht hm hcf hA hr
  obtain ⟨N1, hN1⟩ := C126_read_is_load f (NumText.scan f) (Fl.quadOps f) _ cells _ text (NumText.isVtk_round f ht)
  obtain ⟨N2, hN2⟩ := C126_read_is_load B64.r (NumText.scan B64.r) (Fl.quadOps B64.r) _ cells _ text (NumText.isVtk_round B64.r ht)
  have hload := (hN2 (max N N2) (le_max_right _ _)).symm.trans (hNr (max N N2) (le_max_left _ _))
  rw [B64.roundPts_eq hB hp (by omega) (by omega), B64.roundFlds_eq hB hv (by omega)] at hN1
  have hne : roundPts B64.r pts ≠ [] := by
    have := B64.rect_ne hm
    simpa [roundPts] using this
  obtain ⟨e1, e2⟩ := C127_same_2d hB hs (roundPts B64.r pts) hne (by simpa [roundPts] using hN) (B64.roundPts_tame hp) cells
    (roundFlds B64.r flds) (B64.roundFlds_sized hv)
  have hb' := e1.trans hload
  refine ⟨b, N1, fun fuel h => (hN1 fuel h).trans hb', by rw [B64.roundFlds_eq hB hv (by omega)]; exact hf, ?_⟩
  intro ops ho hto i name data hi M hM cell hce a' h hah v hv κ hw hκ c hc htc
  obtain ⟨y, k1, k2⟩ := hval ops ho i name data hi M hM cell hce a' h hah v hv κ hw hκ c hc fun i => (htc i).1
  exact ⟨y, (e2 b hb' ops hto i (.value c) htc).trans k1, k2⟩

/-- **C127** The same for a three-dimensional file of one layer of cells. -/
theorem C127_file_3d (hB : IsBinary64 f) (hs : 3 * (a + m) + V ≤ 806) (pts : List (Fin 3 → K)) (hN : pts.length + 2 ≤ 2 ^ 31)
    (hp : ∀ p ∈ pts, ∀ i, Sized a m (p i)) (cells : List (List Nat)) (flds : List (String × List K)) (hv : ∀ fl ∈ flds, ∀ y ∈ fl.2, Sized V V y)
    (text : List Char) (ht : IsVtk (NumText.scan id) pts cells flds text) (hm : RectMesh hexUnit pts cells) (hcf : Conforming hexUnit pts cells)
    (hA : Apart (nearestEven 53) pts) (hr : Resolved (2 * (2 : K) ^ (-(53 : Int))) pts) (z dz : K)
    (hz : ∀ cell ∈ cells, ∀ a h, CellAt hexUnit pts cell a h → a 2 = z ∧ h 2 = dz) :
    ∃ b N, (∀ fuel ≥ N, Fl.readVtk f (NumText.scan f) (Fl.hexOps f) fuel (some text) Body.empty = .ok b) ∧
      b.fields.map (fun F => (F.name, F.data)) = roundFlds f flds ∧
      ∀ (ops : List (Nat × Body.Call K 3)), Fl.HistOk (nearestEven 53) (roundPts (nearestEven 53) pts) ops → (∀ op ∈ ops, Tame a m op.2.coord) →
      ∀ (i : Nat) (name : String) (data : List K), flds[i]? = some (name, data) → ∀ M, (∀ y ∈ data, |y| ≤ M) →
      ∀ cell ∈ cells, ∀ (a' h : Fin 3 → K), CellAt hexUnit pts cell a' h → ∀ v, CornerVals data cell v →
      ∀ κ, Within κ a' h → 4 * (2 : K) ^ (-(53 : Int)) * κ ≤ 1 → ∀ c, InCell a' h c → Tame a m c →
      ∃ y, Fl.eval f (Fl.hexOps f) (Fl.evals f (Fl.hexOps f) b ops) i (.value c) = .ok y ∧
        |y - trilinear a' h v c| ≤ (258 + 12 * κ) * (2 : K) ^ (-(53 : Int)) * M := by
  obtain ⟨b, N, hNr, hf, hval⟩ := C126_file_3d B64.R B64.u_le pts cells flds text ht hm hcf hA hr z dz hz
  obtain ⟨N1, hN1⟩ := C126_read_is_load f (NumText.scan f) (Fl.hexOps f) _ cells _ text (NumText.isVtk_round f ht)
  obtain ⟨N2, hN2⟩ := C126_read_is_load B64.r (NumText.scan B64.r) (Fl.hexOps B64.r) _ cells _ text (NumText.isVtk_round B64.r ht)
  have hload := (hN2 (max N N2) (le_max_right _ _)).symm.trans (hNr (max N N2) (le_max_left _ _))
  rw [B64.roundPts_eq hB hp (by omega) (by omega), B64.roundFlds_eq hB hv (by omega)] at hN1
  have hne : roundPts B64.r pts ≠ [] := by
    have := B64.rect_ne hm
    simpa [roundPts] using this
  obtain ⟨e1, e2⟩ := C127_same_3d hB hs (roundPts B64.r pts) hne (by simpa [roundPts] using hN) (B64.roundPts_tame hp) cells
    (roundFlds B64.r flds) (B64.roundFlds_sized hv)
  have hb' := e1.trans hload
  refine ⟨b, N1, fun fuel h => (hN1 fuel h).trans hb', by rw [B64.roundFlds_eq hB hv (by omega)]; exact hf, ?_⟩
  intro ops ho hto i name data hi M hM cell hce a' h hah v hv κ hw hκ c hc htc
  obtain ⟨y, k1, k2⟩ := hval ops ho i name data hi M hM cell hce a' h hah v hv κ hw hκ c hc fun i => (htc i).1
  exact ⟨y, (e2 b hb' ops hto i (.value c) htc).trans k1, k2⟩

/-! ### A machine with gradual underflow -/

namespace B64Demo

/-- The arithmetic of gradual underflow is one of those the theorems are about. -/
example : IsBinary64 (gradual : ℚ → ℚ) := B64.gradual_isBinary64

/-- It differs from an unbounded exponent: the square of 2^-1074 is 0. -/
example : gradual ((2 : ℚ) ^ (-1074 : Int) * 2 ^ (-1074 : Int)) = 0 ∧ nearestEven 53 ((2 : ℚ) ^ (-1074 : Int) * 2 ^ (-1074 : Int)) ≠ 0 := by decide +kernel

instance (a b : Nat) (x : ℚ) : Decidable (Sized a b x) := inferInstanceAs (Decidable (_ ∨ _))

/-- The demo mesh of two cells: coordinates 0 or between 1 and 8, values 0 or up to 16. -/
example : ∃ b, Fl.load gradual (Fl.quadOps gradual) Demo.pts Demo.cells Demo.flds = .ok b ∧
    ∀ c, FloatPoint quadUnit (nearestEven 53) Demo.pts Demo.cells c → Tame 100 100 c →
    ∃ cell a' h, cell ∈ Demo.cells ∧ CellAt quadUnit Demo.pts cell a' h ∧ InCell a' h c ∧
      ∀ (i : Nat) (name : String) (data : List ℚ), Demo.flds[i]? = some (name, data) →
      ∃ v y, CornerVals data cell v ∧ Fl.eval gradual (Fl.quadOps gradual) b i (.value c) = .ok y ∧
        ∀ M, (∀ j, |v j| ≤ M) → |y - bilinear a' h v c| ≤ 64 * (2 : ℚ) ^ (-(53 : Int)) * M := by
  obtain ⟨b, h1, h2⟩ := C127_value_2d (f := gradual) (a := 100) (m := 100) (V := 200) B64.gradual_isBinary64 (by decide) Demo.pts (by decide)
    (by unfold Tame IsFloat; decide +kernel) Demo.cells Demo.flds (by decide +kernel) FlDemo.mesh2 (by decide) (by unfold IsFloat; decide +kernel)
  refine ⟨b, h1, fun c hc ht => ?_⟩
  obtain ⟨cell, a', h, k1, k2, k3, k4⟩ := h2 c hc ht
  exact ⟨cell, a', h, k1, k2, k3, fun i name data hi => k4 [] (fun _ h => nomatch h) (fun _ h => nomatch h) i name data hi⟩

/-- A point that meets the hypotheses. -/
example : FloatPoint quadUnit (nearestEven 53) Demo.pts Demo.cells ![1 / 2, 1 / 4] ∧ Tame 100 100 (![1 / 2, 1 / 4] : Fin 2 → ℚ) :=
  ⟨⟨⟨[0, 1, 4, 3], by decide, _, _, Demo.cell0, by unfold InCell; decide +kernel⟩, by unfold IsFloat; decide +kernel⟩, by unfold Tame IsFloat; decide +kernel⟩

/-- Without the bound on the values it is false: for the constant field 2^-1074 (the least positive double) the value computed in the middle
of a cell is 0. -/
example : (Fl.load gradual (Fl.quadOps gradual) Demo.pts Demo.cells [("tiny", List.replicate 6 ((2 : ℚ) ^ (-1074 : Int)))]).bind
    (fun b => Fl.eval gradual (Fl.quadOps gradual) b 0 (.value ![1 / 2, 1 / 2])) = .ok 0 := by decide +kernel

/-- The file of C126, read and evaluated with gradual underflow. -/
example : ∃ b N y, (∀ fuel ≥ N, Fl.readVtk gradual (NumText.scan gradual) (Fl.quadOps gradual) fuel (some FileDemo.text) Body.empty = .ok b) ∧
    Fl.eval gradual (Fl.quadOps gradual) b 0 (.value ![1 / 32, 1 / 4]) = .ok y ∧
    |y - bilinear ![0, 0] ![1 / 10, 3 / 10] ![1 / 10, 2 / 10, 7 / 10, -12 / 10] ![1 / 32, 1 / 4]| ≤ 100 * (2 : ℚ) ^ (-53 : Int) := by
  obtain ⟨b, N, h1, _, h2⟩ := C127_file_2d (f := gradual) (a := 100) (m := 100) (V := 200) B64.gradual_isBinary64 (by decide) FileDemo.pts (by decide)
    (by decide +kernel) FileDemo.cells FileDemo.flds (by decide +kernel) FileDemo.text FileDemo.isVtk FileDemo.rect FileDemo.conforming
    (by unfold Apart; decide +kernel) FileDemo.resolved
  obtain ⟨y, e1, e2⟩ := h2 [] (fun _ h => nomatch h) (fun _ h => nomatch h) 0 "u" _ rfl (12 / 10) (by decide +kernel) [0, 1, 2, 3] (by decide) _ _
    FileDemo.cellAt ![1 / 10, 2 / 10, 7 / 10, -12 / 10] (by
      intro j
      fin_cases j
      · exact ⟨0, rfl, rfl⟩
      · exact ⟨1, rfl, rfl⟩
      · exact ⟨2, rfl, rfl⟩
      · exact ⟨3, rfl, rfl⟩) 1 (by unfold Within; decide +kernel) (by decide +kernel) ![1 / 32, 1 / 4] (by unfold InCell; decide +kernel)
    (by unfold Tame IsFloat; decide +kernel)
  refine ⟨b, N, y, h1, e1, e2.trans (by decide +kernel)⟩

/-- The three-dimensional file of C126. -/
example : ∃ b N y, (∀ fuel ≥ N, Fl.readVtk gradual (NumText.scan gradual) (Fl.hexOps gradual) fuel (some FileDemo3.text) Body.empty = .ok b) ∧
    Fl.eval gradual (Fl.hexOps gradual) b 0 (.value ![1 / 32, 1 / 4, 1 / 2]) = .ok y ∧
    |y - trilinear ![0, 0, 0] ![1 / 10, 3 / 10, 7 / 10] ![1 / 10, 2 / 10, 7 / 10, -12 / 10, 0, 3, -5 / 10, 9 / 100] ![1 / 32, 1 / 4, 1 / 2]|
      ≤ 810 * (2 : ℚ) ^ (-53 : Int) := by
  obtain ⟨b, N, h1, _, h2⟩ := C127_file_3d (f := gradual) (a := 100) (m := 100) (V := 200) B64.gradual_isBinary64 (by decide) FileDemo3.pts (by decide)
    (by decide +kernel) FileDemo3.cells FileDemo3.flds (by decide +kernel) FileDemo3.text FileDemo3.isVtk FileDemo3.rect FileDemo3.conforming
    (by unfold Apart; decide +kernel) FileDemo3.resolved 0 (7 / 10) (fun cell hc a h hah => by
      obtain ⟨rfl, rfl, rfl⟩ := FileDemo3.only cell hc a h hah; decide +kernel)
  obtain ⟨y, e1, e2⟩ := h2 [] (fun _ h => nomatch h) (fun _ h => nomatch h) 0 "u" _ rfl 3 (by decide +kernel) [0, 1, 2, 3, 4, 5, 6, 7] (by decide) _ _
    FileDemo3.cellAt ![1 / 10, 2 / 10, 7 / 10, -12 / 10, 0, 3, -5 / 10, 9 / 100] (by unfold CornerVals; decide +kernel)
    1 (by unfold Within; decide +kernel) (by decide +kernel) ![1 / 32, 1 / 4, 1 / 2] (by unfold InCell; decide +kernel)
    (by unfold Tame IsFloat; decide +kernel)
  exact ⟨b, N, y, h1, e1, e2.trans (by decide +kernel)⟩

end B64Demo
end Verif
