import Verif.Basics.ModelProfile

/-!
# Specification: what is recorded
-/

set_option autoImplicit false

namespace NP.Spec

/-- Is profiling enabled after the call? -/
def enabledAfter (e : Bool) : ProfOp → Bool
  | .enable => true
  | .disable => false
  | _ => e

/-- The calls that are made while profiling is enabled. -/
def whileEnabled (e : Bool) : List (Int × ProfOp) → List (Int × ProfOp)
  | [] => []
  | o :: os => (if e then [o] else []) ++ whileEnabled (enabledAfter e o.2) os

/-- The event of a call. -/
def eventOf : Int × ProfOp → Option (Nat × Nat × Int)
  | (t, .event k1 k2) => some (k1, k2, t)
  | _ => none

/-- The time of a call that ends a region. -/
def stopOf : Int × ProfOp → Option Int
  | (t, .stop _) => some t
  | _ => none

/-- What a call adds to the entry of a key. -/
def incOf (k1 k2 : Nat) : Int × ProfOp → Int × ℚ
  | (_, .inc a b v r) => if a = k1 ∧ b = k2 then (v, r) else (0, 0)
  | _ => (0, 0)

/-- The call sets the entry, or clears all. -/
def overwrites (k1 k2 : Nat) : ProfOp → Prop
  | .set a b _ _ => a = k1 ∧ b = k2
  | .reset => True
  | _ => False

end NP.Spec
