/-!
# C++ semantics used by the model

Outcomes of a C++ computation, `std::vector` access, and 32-bit `int` arithmetic.
Nothing here is specific to the repository.
-/

namespace Verif

/-- Kinds of undefined behaviour that the model makes visible. -/
inductive UB where
  | oob            -- vector access outside `[0,size)`
  | nullDeref      -- use of a NULL pointer
  | divZero        -- integer division by zero
  | overflow       -- signed overflow, or a double converted to an int it does not fit in
  | useAfterFree
  | doubleFree
  | uninit         -- read of an uninitialised object
  | missingReturn  -- flowing off the end of a non-void function
  | badCall        -- call of a function with arguments that are not those of its parameter list
  | badDelete      -- `delete` of something that was not obtained from `new`, or through a base class without virtual destructor
  deriving DecidableEq, Repr, Inhabited

/-- Everything that can end a call other than a normal return. -/
inductive Err where
  | domainError | runtimeError | invalidArgument | lengthError   -- C++ exceptions
  | exit (code : Int)                                            -- `exit(code)`
  | ub (r : UB)
  | diverge                                                      -- out of fuel (loop did not end)
  deriving DecidableEq, Repr, Inhabited

/-- Result of a side-effect-free computation. -/
abbrev Res (α : Type) := Except Err α

/-- `v[i]` on a `std::vector`. -/
def vget {α : Type} (v : List α) (i : Int) : Res α :=
  if 0 ≤ i then
    match v[i.toNat]? with
    | some a => .ok a
    | none => .error (.ub .oob)
  else .error (.ub .oob)

/-- `v[i] = a` on a `std::vector`. -/
def vset {α : Type} (v : List α) (i : Int) (a : α) : Res (List α) :=
  if 0 ≤ i ∧ i.toNat < v.length then .ok (v.set i.toNat a) else .error (.ub .oob)

/-- `v.resize(n)` for a `std::vector`: keep the first `n` elements, pad with `d`. -/
def vresize {α : Type} (v : List α) (n : Nat) (d : α) : List α :=
  v.take n ++ List.replicate (n - v.length) d

/-- Largest `int`. -/
def intMax : Int := 2147483647
/-- Smallest `int`. -/
def intMin : Int := -2147483648

/-- The result of an `int` operation: defined only if it fits. -/
def ckInt (x : Int) : Res Int :=
  if intMin ≤ x ∧ x ≤ intMax then .ok x else .error (.ub .overflow)

/-- `a * b` on ints. -/
def imul (a b : Int) : Res Int := ckInt (a * b)
/-- `a + b` on ints. -/
def iadd (a b : Int) : Res Int := ckInt (a + b)
/-- `a - b` on ints. -/
def isub (a b : Int) : Res Int := ckInt (a - b)
/-- `a / b` on ints (truncating). -/
def idiv (a b : Int) : Res Int :=
  if b = 0 then .error (.ub .divZero) else ckInt (a.tdiv b)

end Verif
