import Verif.Basics.ModelParams

/-!
# Specification: parameters
-/

set_option autoImplicit false

namespace NP.Spec

/-- The pointer of the most recent `set` with this name; the most recent call is first. -/
def lastParam (name : String) : List ParCall → Option Nat
  | [] => none
  | .set n p :: h => if n = name then p else lastParam name h
  | _ :: h => lastParam name h

/-- The number of objects made in a history. -/
def parMade : List ParCall → Nat
  | [] => 0
  | .make _ :: h => parMade h + 1
  | _ :: h => parMade h

/-- The value of object `p`, if it is a `SizeTParameter`: that of the most recent assignment, or the one it was made with; the most
recent call is first. -/
def parValue (p : Nat) : List ParCall → Option Nat
  | [] => none
  | .assign q v :: h => if q = p then some v else parValue p h
  | .make (.size v) :: h => if p = parMade h then some v else parValue p h
  | .make .other :: h => if p = parMade h then none else parValue p h
  | .set _ _ :: h => parValue p h

/-- An environment variable that is not set gives the default, and otherwise the number that it is set to. -/
def Setting (e : EnvVar) (default v : Nat) : Prop :=
  (e = .unset ∧ v = default) ∨ (e = .number (v : Int) ∧ v < 2 ^ 31)

end NP.Spec
