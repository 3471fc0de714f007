import Verif.Spec.BodyVars
import Verif.Spec.Mesh

/-!
# Specification: what the field variables of a client denote

A body is the data of the file it was read from, and a field a name and one number per point. Calls change nothing.
-/

namespace Verif.Spec
variable {K File Call : Type} {d : Nat}

/-- What a vtk file describes. -/
structure BodyData (K : Type) (d : Nat) where
  pts : List (Fin d → K)
  cells : List (List Nat)
  flds : List (String × List K)

/-- Bodies and fields as data; `info` is what the files describe. Results of calls are not looked at here. -/
def dataSem (info : File → BodyData K d) : BodySem File (BodyData K d) (String × List K) Call Unit where
  make f := .ok (info f)
  fields := BodyData.flds
  name := Prod.fst
  callIn _ b _ := (.ok (), b)
  callCopy _ b f := (.ok (), b, f)
  bare b := b.cells.isEmpty

/-- The variables of the client after a history. -/
abbrev dataAfter (info : File → BodyData K d) (ops : List (BOp File Call)) : BVars (BodyData K d) (String × List K) :=
  (BVars.run (dataSem info) ops ⟨[], []⟩).2

/-- Variable `g` denotes the field `fl` over the mesh of `D`. -/
def FieldIs (t : BVars (BodyData K d) (String × List K)) (g : Nat) (D : BodyData K d) (fl : String × List K) : Prop :=
  (∃ h i, t.fields[g]? = some (.view h i) ∧ t.bodies[h]? = some (some D) ∧ D.flds[i]? = some fl) ∨
  ∃ h, t.fields[g]? = some (.copy h fl) ∧ t.bodies[h]? = some (some D)

/-- Every call of the history satisfies `P` for the body of its field. -/
def CallsRun (P : BodyData K d → Call → Prop) (info : File → BodyData K d) :
    List (BOp File Call) → BVars (BodyData K d) (String × List K) → Prop
  | [], _ => True
  | op :: ops, s =>
    (match op with
      | .call g c => ∀ D fl, FieldIs s g D fl → P D c
      | _ => True) ∧ CallsRun P info ops (s.step (dataSem info) op).2

/-- The numbers at the start of the array are the coordinates of the point. -/
def PointAt (v : List K) (c : Fin d → K) : Prop := ∀ i : Fin d, v[(i : Nat)]? = some (c i)

end Verif.Spec
