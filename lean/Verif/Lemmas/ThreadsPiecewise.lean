import Verif.Model.ThreadsPiecewise
import Verif.Lemmas.Conc
import Verif.Lemmas.Core

/-! Helper lemmas about threads that evaluate piecewise functions. -/

namespace Verif
open Spec
namespace PWPar
open Conc
variable {V O : Type}

/-- The piece that answers, as the loops find it. -/
def search (v : V) : Nat → List (SimplePiece V O) → Res (Option (Nat × SimplePiece V O))
  | _, [] => .ok none
  | k, p :: ps => do
    let b ← SimplePiece.inPiece p.conds v
    if b then .ok (some (k, p)) else search v (k + 1) ps

theorem eval_search (v : V) (ps : List (SimplePiece V O)) : ∀ k, PWSimple.eval ps v =
    (search v k ps >>= fun o => match o with | none => .error .domainError | some (_, p) => p.eval v) := by
  induction ps with
  | nil => intro k; rfl
  | cons p ps ih =>
    intro k
    simp only [PWSimple.eval, search]
    cases SimplePiece.inPiece p.conds v with
    | error e => rfl
    | ok b => cases b <;> simp [ok_bind, ih (k + 1)]

theorem inPiece_search (v : V) (ps : List (SimplePiece V O)) : ∀ k, PWSimple.inPiece ps v = (search v k ps >>= fun o => .ok o.isSome) := by
  induction ps with
  | nil => intro k; rfl
  | cons p ps ih =>
    intro k
    simp only [PWSimple.inPiece, search]
    cases SimplePiece.inPiece p.conds v with
    | error e => rfl
    | ok b => cases b <;> simp [ok_bind, ih (k + 1)]

theorem piece_search (v : V) (ps : List (SimplePiece V O)) : ∀ k, PWSimple.piece ps k v =
    (search v k ps >>= fun o => match o with | none => .error .domainError | some (i, _) => .ok i) := by
  induction ps with
  | nil => intro k; rfl
  | cons p ps ih =>
    intro k
    simp only [PWSimple.piece, search]
    cases SimplePiece.inPiece p.conds v with
    | error e => rfl
    | ok b => cases b <;> simp [ok_bind, ih (k + 1)]

/-- What a single thread gets. -/
def alone (p : PWSimple V O) : PQuery V → Res (POut O)
  | .value v => (PWSimple.eval p.pieces v).map .num
  | .inPiece v => (PWSimple.inPiece p.pieces v).map .bool
  | .piece v => (PWSimple.piece p.pieces 0 v).map .index

/-- What the evaluation writes. -/
def Writes (p : PWSimple V O) (q : PQuery V) : ∀ c, Val O c → Prop
  | .cond k i, a => ∃ pc cn, p.pieces[k]? = some pc ∧ pc.conds[i]? = some cn ∧ condAt cn q.point = .ok a
  | .expr _, a | .piece _, a | .whole, a => ∃ v, q = .value v ∧ PWSimple.eval p.pieces v = .ok a

theorem store_sound {G W : ∀ c, Val O c → Prop} {res : Res (POut O)} (c : Cell) (r : Res (Val O c)) (k : Val O c → Prog (Val O) (POut O))
    (hW : ∀ c a b, G c a → W c b → b = a) (he : ∀ e, r = .error e → res = .error e)
    (hk : ∀ a, r = .ok a → G c a ∧ ∀ D, Sound G W res (k a) D) (D : Conc.Mem (Val O)) : Sound G W res (storeP c r k) D := by
  cases r with
  | error e => exact (he e rfl).symm
  | ok a => exact ⟨(hk a rfl).1, fun b hb => hW c a b (hk a rfl).1 hb, a, by simp, (hk a rfl).2 _⟩

theorem inPiece_sound {G W : ∀ c, Val O c → Prop} {res : Res (POut O)} (v : V) (k : Nat) (next : Bool → Prog (Val O) (POut O))
    (hW : ∀ c a b, G c a → W c b → b = a) (cs : List (SFun V Bool)) : ∀ (i : Nat) (D : Conc.Mem (Val O)),
    (∀ j c b, cs[j]? = some c → condAt c v = .ok b → G (.cond k (i + j)) b) →
    (∀ e, SimplePiece.inPiece cs v = .error e → res = .error e) →
    (∀ b, SimplePiece.inPiece cs v = .ok b → ∀ D, Sound G W res (next b) D) → Sound G W res (inPieceP v k next i cs) D := by
  induction cs with
  | nil => intro i D _ _ h; exact h true rfl D
  | cons c cs ih =>
    intro i D hG he hn
    simp only [SimplePiece.inPiece] at he hn
    refine store_sound _ _ _ hW (fun e h => he e (by rw [h]; rfl)) (fun a h => ⟨hG 0 c a rfl h, fun D => ?_⟩) D
    rw [h, ok_bind] at he hn
    cases a with
    | false => exact hn false rfl D
    | true => exact ih (i + 1) D (fun j c' b hc hb => by
        have := hG (j + 1) c' b (by simpa using hc) hb
        rwa [show i + 1 + j = i + (j + 1) by omega]) he hn

theorem pieces_sound {G W : ∀ c, Val O c → Prop} {res : Res (POut O)} (v : V) (found : Nat → SimplePiece V O → Prog (Val O) (POut O))
    (none : Prog (Val O) (POut O)) (hW : ∀ c a b, G c a → W c b → b = a) (ps : List (SimplePiece V O)) : ∀ (k : Nat) (D : Conc.Mem (Val O)),
    (∀ j p, ps[j]? = some p → ∀ i c b, p.conds[i]? = some c → condAt c v = .ok b → G (.cond (k + j) i) b) →
    (∀ e, search v k ps = .error e → res = .error e) →
    (search v k ps = .ok .none → ∀ D, Sound G W res none D) →
    (∀ j p, search v k ps = .ok (.some (j, p)) → ∀ D, Sound G W res (found j p) D) → Sound G W res (piecesP v found none k ps) D := by
  induction ps with
  | nil => intro k D _ _ h _; exact h rfl D
  | cons p ps ih =>
    intro k D hG he hn hf
    simp only [search] at he hn hf
    refine inPiece_sound v k _ hW p.conds 0 D (fun i c b hc hb => by rw [Nat.zero_add]; exact hG 0 p rfl i c b hc hb) (fun e h => he e (by rw [h]; rfl)) fun b h D => ?_
    rw [h, ok_bind] at he hn hf
    cases b with
    | true => exact hf k p rfl D
    | false => exact ih (k + 1) D (fun j p' hp i c b hc hb => by
        have := hG (j + 1) p' (by simpa using hp) i c b hc hb
        rwa [show k + 1 + j = k + (j + 1) by omega]) he hn hf

theorem prog_sound (p : PWSimple V O) (q : PQuery V) (W : ∀ c, Val O c → Prop) (hW : ∀ c a b, Writes p q c a → W c b → b = a) (D : Conc.Mem (Val O)) :
    Sound (Writes p q) W (alone p q) (prog p q) D := by
  have hG : ∀ v, q.point = v → ∀ j pc, p.pieces[j]? = some pc → ∀ i c b, pc.conds[i]? = some c → condAt c v = .ok b → Writes p q (.cond (0 + j) i) b := by
    rintro v rfl j pc hp i c b hc hb
    rw [Nat.zero_add]
    exact ⟨pc, c, hp, hc, hb⟩
  cases q with
  | value v =>
    have es := eval_search v p.pieces 0
    refine pieces_sound v _ _ hW p.pieces 0 D (hG v rfl) (fun e h => ?_) (fun h D => ?_) fun j pc h D => ?_ <;> rw [h] at es
    · simp only [alone, es]; rfl
    · simp only [alone, es]; rfl
    · rw [ok_bind] at es
      refine store_sound _ _ _ hW (fun e he => by simp only [alone, es, he]; rfl) (fun a ha => ?_) D
      have hw : PWSimple.eval p.pieces v = .ok a := by rw [es]; exact ha
      refine ⟨⟨v, rfl, hw⟩, fun D => ?_⟩
      refine ⟨⟨v, rfl, hw⟩, fun b hb => hW _ _ _ ⟨v, rfl, hw⟩ hb, a, by simp, ⟨v, rfl, hw⟩, fun b hb => hW _ _ _ ⟨v, rfl, hw⟩ hb, a, by simp, ?_⟩
      simp only [alone, hw]; rfl
  | inPiece v =>
    have es := inPiece_search v p.pieces 0
    refine pieces_sound v _ _ hW p.pieces 0 D (hG v rfl) (fun e h => ?_) (fun h D => ?_) fun j pc h D => ?_ <;> rw [h] at es
    · simp only [alone, es]; rfl
    · show _ = _; simp only [alone, es]; rfl
    · show _ = _; simp only [alone, es]; rfl
  | piece v =>
    have es := piece_search v p.pieces 0
    refine pieces_sound v _ _ hW p.pieces 0 D (hG v rfl) (fun e h => ?_) (fun h D => ?_) fun j pc h D => ?_ <;> rw [h] at es
    · simp only [alone, es]; rfl
    · show _ = _; simp only [alone, es]; rfl
    · show _ = _; simp only [alone, es]; rfl

/-! ### Steps -/

/-- Steps of the loops over the pieces, at most. -/
def bound (ps : List (SimplePiece V O)) : Nat := (ps.map fun p => 2 * p.conds.length).sum

theorem inPiece_within (v : V) (k : Nat) (next : Bool → Prog (Val O) (POut O)) (N : Nat) (hn : ∀ b, Within N (next b)) (cs : List (SFun V Bool)) : ∀ i,
    Within (N + 2 * cs.length) (inPieceP v k next i cs) := by
  induction cs with
  | nil => intro i; exact hn true
  | cons c cs ih =>
    intro i
    simp only [inPieceP, storeP]
    cases condAt c v with
    | error e => exact .done _ _
    | ok a =>
      refine .write (N + 2 * cs.length + 1) _ _ _ (.read (N + 2 * cs.length) _ _ fun b => ?_)
      cases b with
      | false => exact (hn false).mono (by omega)
      | true => exact ih (i + 1)

theorem pieces_within (v : V) (found : Nat → SimplePiece V O → Prog (Val O) (POut O)) (none : Prog (Val O) (POut O)) (N : Nat)
    (hf : ∀ k p, Within N (found k p)) (hn : Within N none) (ps : List (SimplePiece V O)) : ∀ k, Within (N + bound ps) (piecesP v found none k ps) := by
  induction ps with
  | nil => intro k; exact hn
  | cons p ps ih =>
    intro k
    refine (inPiece_within v k _ (N + bound ps) (fun b => ?_) p.conds 0).mono (by simp [bound]; omega)
    cases b with
    | true => exact (hf k p).mono (by omega)
    | false => exact ih (k + 1)

theorem prog_within (p : PWSimple V O) (q : PQuery V) : Within (6 + bound p.pieces) (prog p q) := by
  cases q with
  | value v =>
    refine pieces_within v _ _ 6 (fun k pc => ?_) (.done _ _) _ _
    simp only [storeP]
    cases pc.eval v with
    | error e => exact .done _ _
    | ok a => exact .write 5 _ _ _ (.read 4 _ _ fun _ => .write 3 _ _ _ (.read 2 _ _ fun _ => .write 1 _ _ _ (.read 0 _ _ fun _ => .done _ _)))
  | inPiece v => exact pieces_within v _ _ 6 (fun _ _ => .done _ _) (.done _ _) _ _
  | piece v => exact pieces_within v _ _ 6 (fun _ _ => .done _ _) (.done _ _) _ _

/-! ### The function as given -/

theorem inside_part (p : SimplePiece V O) (v : V) : (part p).inside v = SimplePiece.inPiece p.conds v := by
  obtain ⟨nm, e, cs⟩ := p
  simp only [part, Part.inside]
  induction cs with
  | nil => rfl
  | cons c cs ih =>
    simp only [List.map_cons, List.find?_cons, SimplePiece.inPiece]
    cases h : condAt c v with
    | error er => simp [gives]
    | ok b =>
      cases b with
      | false => simp [gives, ok_bind]
      | true => simpa [gives, ok_bind] using ih

theorem answering_search (v : V) (ps : List (SimplePiece V O)) : ∀ k,
    match ((ps.map part).zipIdx k).find? fun p => !gives false (p.1.inside v) with
    | none => search v k ps = .ok none
    | some (p, i) => match p.inside v with
      | .error e => search v k ps = .error e
      | .ok _ => ∃ pc, p = part pc ∧ search v k ps = .ok (some (i, pc)) := by
  induction ps with
  | nil => intro k; rfl
  | cons p ps ih =>
    intro k
    simp only [List.map_cons, List.zipIdx_cons, List.find?_cons, inside_part, search]
    cases h : SimplePiece.inPiece p.conds v with
    | error e => simp [gives, inside_part, h]
    | ok b =>
      cases b with
      | true => simp [gives, inside_part, h]
      | false => simpa [gives] using ih (k + 1)

theorem alone_meant (p : PWSimple V O) (q : PQuery V) : alone p q = q.meant (p.pieces.map part) := by
  have h := answering_search q.point p.pieces 0
  cases q with
  | value v =>
    simp only [alone, eval_search v p.pieces 0, PQuery.meant, PQuery.point, answering] at h ⊢
    split <;> simp_all
    · rfl
    · split <;> simp_all
      · rfl
      · obtain ⟨pc, rfl, h⟩ := h
        simp [h, ok_bind, part]
  | inPiece v =>
    simp only [alone, inPiece_search v p.pieces 0, PQuery.meant, PQuery.point, answering] at h ⊢
    split <;> simp_all
    · rfl
    · split <;> simp_all
      · rfl
      · obtain ⟨pc, rfl, h⟩ := h
        simp [h, ok_bind]; rfl
  | piece v =>
    simp only [alone, piece_search v p.pieces 0, PQuery.meant, PQuery.point, answering] at h ⊢
    split <;> simp_all
    · rfl
    · split <;> simp_all
      · rfl
      · obtain ⟨pc, rfl, h⟩ := h
        simp [h, ok_bind]; rfl

end PWPar
end Verif
