import Verif.Props.LwText
import Verif.Model.LwMain

/-! Helper lemmas: runs of the library writer. -/

namespace Verif
open Spec Spec.Cpp Spec.Lw Coll LwText
namespace Lw

theorem getlines_eq (cur t : Text) : getlines cur t = linesFrom cur t := by
  induction t generalizing cur with
  | nil => cases cur <;> simp [getlines, linesFrom]
  | cons c t ih =>
    unfold getlines linesFrom
    by_cases h : c = '\n'
    · simp [h, ih]
    · simp [h, ih]

/-- The directories, as listed. -/
def listings (e : Env) (d : Disk) : Nat → List Text → List Dir
  | _, [] => []
  | t, p :: ps =>
    match d.resolve p with
    | none => listings e d (t + 1) ps
    | some n => ((e.ord t (d.files n)).map fun x => (x.1, lines x.2)) :: listings e d (t + 1) ps

theorem scan_eq (e : Env) (d : Disk) (ps : List Text) (h : ∀ p ∈ ps, (d.resolve p).isSome) : ∀ t c,
    scan e d t ps c = collectFrom regexFind (listings e d t ps) c := by
  induction ps with
  | nil => intro t c; rfl
  | cons p ps ih =>
    intro t c
    obtain ⟨n, hn⟩ := Option.isSome_iff_exists.mp (h p (by simp))
    have e1 : listings e d t (p :: ps) = ((e.ord t (d.files n)).map fun x => (x.1, lines x.2)) :: listings e d (t + 1) ps := by
      simp only [listings, hn]
    have e2 : (fun x : Text × Text => (x.1, getlines [] x.2)) = fun x => (x.1, lines x.2) := by
      funext x; rw [getlines_eq]; rfl
    rw [e1]
    simp only [scan, hn, collectFrom, e2]
    congr 1
    funext c'
    exact ih (fun q hq => h q (by simp [hq])) (t + 1) c'

open Classical in
/-- The classes of one directory. -/
noncomputable def declaredIn (d : Dir) : List (Text × Decl) :=
  (d.filter fun f => decide (IsLibraryHeader f.1)).flatMap fun f => (f.2.filterMap (declOf regexFind)).map fun x => (f.1, x)

theorem declared_eq (ds : List Dir) : declared regexFind ds = ds.flatMap declaredIn := rfl

theorem declared_listings (e : Env) (ho : ∀ t l, (e.ord t l).Perm l) (d : Disk) (ps : List Text) : ∀ t,
    (declared regexFind (listings e d t ps)).Perm (declared regexFind (d.dirs ps)) := by
  induction ps with
  | nil => intro t; exact .refl _
  | cons p ps ih =>
    intro t
    cases hn : d.resolve p with
    | none =>
      have e1 : listings e d t (p :: ps) = listings e d (t + 1) ps := by simp only [listings, hn]
      have e2 : d.dirs (p :: ps) = d.dirs ps := by simp [Disk.dirs, hn]
      rw [e1, e2]; exact ih _
    | some n =>
      have e1 : listings e d t (p :: ps) = ((e.ord t (d.files n)).map fun x => (x.1, lines x.2)) :: listings e d (t + 1) ps := by
        simp only [listings, hn]
      have e2 : d.dirs (p :: ps) = ((d.files n).map fun x => (x.1, lines x.2)) :: d.dirs ps := by simp [Disk.dirs, hn]
      rw [e1, e2, declared_eq, declared_eq, List.flatMap_cons, List.flatMap_cons, ← declared_eq, ← declared_eq]
      refine List.Perm.append ?_ (ih _)
      unfold declaredIn
      exact (((ho t _).map _).filter _).flatMap_right _

theorem filter_setFile (p : Text × Text → Bool) (name text : Text) (hp : ∀ t, p (name, t) = false) (l : List (Text × Text)) :
    (setFile name text l).filter p = l.filter p := by
  induction l with
  | nil => simp [setFile, hp]
  | cons x xs ih =>
    unfold setFile
    by_cases h : x.1 = name
    · have hx : p x = false := by obtain ⟨a, b⟩ := x; simp only at h; subst h; exact hp b
      simp [h, hp, hx]
    · simp [h, List.filter_cons, ih]

theorem declared_write (d : Disk) (loc name text : Text) (hname : ¬ IsLibraryHeader name) (ps : List Text) :
    declared regexFind ((write d loc name text).dirs ps) = declared regexFind (d.dirs ps) := by
  unfold write
  cases hl : d.resolve loc with
  | none => rfl
  | some n =>
    simp only
    rw [declared_eq, declared_eq]
    unfold Disk.dirs
    induction ps with
    | nil => rfl
    | cons p ps ih =>
      cases hp : d.resolve p with
      | none => simpa [hp] using ih
      | some m =>
        simp only [List.filterMap_cons, hp, Option.map_some, List.flatMap_cons]
        rw [ih]
        congr 1
        by_cases hm : m = n
        · subst hm
          simp only [if_true]
          unfold declaredIn
          rw [List.filter_map, List.filter_map, List.flatMap_map, List.flatMap_map, filter_setFile]
          intro t
          simp [hname]
        · simp only [if_neg hm]

theorem not_hh : ¬ IsLibraryHeader "PLibrary.hh".toList := by
  rw [← C63_header_filter]; decide +kernel

theorem not_cc : ¬ IsLibraryHeader "PLibrary.cc".toList := by
  rw [← C63_header_filter]; decide +kernel

theorem write_resolve (d : Disk) (loc name text : Text) : (write d loc name text).resolve = d.resolve := by
  unfold write; split <;> rfl

theorem find_setFile (name text : Text) (file : Text) (l : List (Text × Text)) :
    ((setFile name text l).find? fun x => x.1 == file).map Prod.snd =
      if file = name then some text else (l.find? fun x => x.1 == file).map Prod.snd := by
  induction l with
  | nil =>
    by_cases h : file = name
    · simp [setFile, h]
    · simp [setFile, h, Ne.symm h]
  | cons x xs ih =>
    unfold setFile
    by_cases hx : x.1 = name
    · by_cases h : file = name
      · simp [hx, h]
      · have h2 : ¬ x.1 = file := fun e => h (e ▸ hx)
        have h3 : ¬ name = file := fun e => h e.symm
        simp [hx, h, h2, h3]
    · simp only [beq_iff_eq, hx, if_false, List.find?_cons]
      by_cases h2 : x.1 = file
      · have : ¬ file = name := fun e => hx (h2.trans e)
        simp [h2, this]
      · have : (x.1 == file) = false := by simp [h2]
        simp only [this, ih]

theorem write_content (d : Disk) {loc : Text} {n : Nat} (h : d.resolve loc = some n) (name text : Text) (m : Nat) (file : Text) :
    (write d loc name text).content m file = if m = n ∧ file = name then some text else d.content m file := by
  unfold write Disk.content
  simp only [h]
  by_cases hm : m = n
  · subst hm
    simp only [if_true, true_and]
    exact find_setFile name text file _
  · simp [hm]

theorem entries_perm {a b : List (Text × Decl)} (h : a.Perm b) : (entries (a.map Prod.snd)).Perm (entries (b.map Prod.snd)) :=
  (h.map _).flatMap_right _

end Lw
end Verif
