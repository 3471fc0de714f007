import Verif.Model.Field

/-!
# Evaluations by several threads (datastruc/Bin.hh:154-189, datastruc/PNDArray.hh:103-116, pfield/Mesh.hh:399-514, pfield/PField.hh:105-156)

An evaluation, broken into the steps that read or write memory other evaluations on the same body can reach: each pass of `Bin::indices` writes one
number of the bin's `_indices`, each pass of `PNDArray::linear_index` reads one. The rest of an evaluation uses the buffers and results of the
field only and is one step. Threads take steps in the order of a schedule (sequential consistency; C++ gives no meaning at all to
programs in which two threads access one object without synchronisation and one of them writes).
-/

namespace Verif
open Mesh
namespace Par
variable {K : Type} {d : Nat} [Field K] [LinearOrder K] [FloorRing K]

/-- PField.hh:74-76, an evaluation of a single number. -/
inductive Query (K : Type) (d : Nat) where
  | value (c : Fin d → K)
  | grad (c : Fin d → K) (di : Fin d)
  | hess (c : Fin d → K) (di dj : Fin d)

/-- The coordinate of a query. -/
def Query.coord : Query K d → Fin d → K
  | .value c => c
  | .grad c _ => c
  | .hess c _ _ => c

omit [LinearOrder K] [FloorRing K] in
/-- Mesh.hh:416, 456, 496: what is put into `bfunc`. -/
def Query.weight (E : ElemOps K d) : Query K d → Interp K d → Res K
  | .value c => fun q => E.value q c
  | .grad c di => fun q => E.grad q c di
  | .hess c di dj => fun q => E.hess q c di dj

omit [Field K] [LinearOrder K] [FloorRing K] in
/-- PField.hh:118-126, 137-140, 152-155: where the result is kept. -/
def Query.store (f : PField K) (v : K) : Query K d → Res (PField K)
  | .value _ => .ok { f with val := some v }
  | .grad _ di => do
    let g ← vset f.grad ((di : Nat) : Nat) v
    .ok { f with grad := g }
  | .hess _ di dj => do
    let row ← vget f.hess ((di : Nat) : Nat)
    let row' ← vset row ((dj : Nat) : Nat) v
    let h ← vset f.hess ((di : Nat) : Nat) row'
    .ok { f with hess := h }

omit [LinearOrder K] [FloorRing K] in
/-- Mesh.hh:402-434 (and 442-475, 482-513), after the bin is found; then PField.hh:117-126 (136-140, 151-155). -/
def finish (E : ElemOps K d) (q : Query K d) (f : PField K) (content : List (Interp K d)) : Res K × PField K :=
  let filled : Res Nat × Buf K :=
    match firstInRange E q.coord content with
    | none => (.ok content.length, f.buf)
    | some p =>
      match fillLoop (q.weight E) p.element content 0 f.buf with
      | (.error e, b) => (.error e, b)
      | (.ok _, b) => (.ok content.length, b)
  match filled with
  | (.error e, b) => (.error e, { f with buf := b })
  | (.ok s, b) =>
    match PField.sumLoop f.data b s 0 f.zero with
    | .error e => (.error e, { f with buf := b })
    | .ok v =>
      match q.store { f with buf := b } v with
      | .error e => (.error e, { f with buf := b })
      | .ok f' => (.ok v, f')

/-- Where a thread is in its evaluation. -/
inductive Pc (K : Type) (d : Nat) where
  /-- Bin.hh:177: before pass `k` of `indices` -/
  | index (k : Nat)
  /-- PNDArray.hh:113: before pass `k` of `linear_index`, with `lindex` -/
  | locate (k : Nat) (lindex : Int)
  /-- Mesh.hh:402: the bin is found -/
  | found (content : List (Interp K d))

/-- A thread: the evaluations to come (of the given fields of its body), the place in the first of them, and the results so far (an exception is
caught, and is the result). -/
structure Thread (K : Type) (d : Nat) where
  todo : List (Nat × Query K d)
  pc : Pc K d
  results : List (Res K)

/-- The first evaluation is over. -/
def Thread.done (t : Thread K d) (rest : List (Nat × Query K d)) (r : Res K) : Thread K d :=
  ⟨rest, .index 0, t.results ++ [r]⟩

/-- One step of a thread. -/
def step (E : ElemOps K d) (t : Thread K d) (b : Body K d) : Thread K d × Body K d :=
  match t.todo with
  | [] => (t, b)
  | (i, q) :: rest =>
    match b.fields[i]? with
    | none => (t.done rest (.error (.ub .oob)), b)
    | some f =>
      let bin := b.mesh.bin
      match t.pc with
      | .index k =>
        if k < bin.item.order.toNat then
          match (do let v ← Bin.idxAt bin.min bin.max bin.incr (List.ofFn q.coord) k; vset bin.indices (k : Nat) v) with
          | .error e => (t.done rest (.error e), b)
          | .ok idx => ({ t with pc := .index (k + 1) }, { b with mesh := { b.mesh with bin := { bin with indices := idx } } })
        else ({ t with pc := .locate 0 0 }, b)
      | .locate k l =>
        match bin.item.unroll[k]? with
        | some u =>
          match (do let x ← vget bin.indices (k : Nat); let p ← imul x u; iadd l p) with
          | .error e => (t.done rest (.error e), b)
          | .ok l' => ({ t with pc := .locate (k + 1) l' }, b)
        | none =>
          match bin.item.getLin l with
          | .error e => (t.done rest (.error e), b)
          | .ok content => ({ t with pc := .found content }, b)
      | .found content =>
        match finish E q f content with
        | (r, f') => (t.done rest r, { b with fields := b.fields.set i f' })

/-- Threads and bodies; thread `t` evaluates fields of body `on t`. -/
structure Sys (K : Type) (d : Nat) where
  on : Nat → Nat
  threads : Nat → Thread K d
  bodies : Nat → Body K d

/-- Thread `t` takes a step. -/
def Sys.step (E : ElemOps K d) (s : Sys K d) (t : Nat) : Sys K d :=
  let r := Par.step E (s.threads t) (s.bodies (s.on t))
  { s with threads := fun u => if u = t then r.1 else s.threads u, bodies := fun n => if n = s.on t then r.2 else s.bodies n }

/-- The threads take steps in this order. -/
def Sys.run (E : ElemOps K d) : Sys K d → List Nat → Sys K d
  | s, [] => s
  | s, t :: ts => run E (s.step E t) ts

/-- A thread at its start. -/
def Thread.start (todo : List (Nat × Query K d)) : Thread K d := ⟨todo, .index 0, []⟩

/-- The call of a query. -/
def Query.call : Query K d → Body.Call K d
  | .value c => .value c
  | .grad c di => .grad c di
  | .hess c di dj => .hess c di dj

/-- The result of a query in the sequential model. -/
def ask (E : ElemOps K d) (b : Body K d) (i : Nat) : Query K d → Res K
  | .value c => b.value E i c
  | .grad c di => b.grad E i c di
  | .hess c di dj => b.hess E i c di dj

/-- The results of evaluations made one after the other (the sequential model). -/
def serial (E : ElemOps K d) (b : Body K d) : List (Nat × Query K d) → List (Res K)
  | [] => []
  | (i, q) :: qs => ask E b i q :: serial E (b.call E i q.call) qs

/-- What a caller's mutex around each evaluation ensures (the library has none): when a thread takes a step, no other thread that uses the same body is in the
middle of an evaluation. -/
def Sys.Locked (E : ElemOps K d) : Sys K d → List Nat → Prop
  | _, [] => True
  | s, t :: ts => (∀ u, u ≠ t → s.on u = s.on t → (s.threads u).pc = .index 0) ∧ Locked E (s.step E t) ts

end Par
end Verif
