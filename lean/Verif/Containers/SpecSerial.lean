import Verif.Containers.ModelSerial

/-!
# Specification: serialised containers
-/

set_option autoImplicit false

namespace NP.Spec

/-- A user type is implemented correctly for an object: it writes exactly as many bytes as
it announces, reads back what it wrote, and its size fits into a `std::size_t`. -/
def Serial.Good {T : Type} (I : Serial T) (t : T) : Prop :=
  I.numBytes t < sizeTMax ∧ ∃ bytes, I.serialise t (I.numBytes t) = some bytes ∧
    bytes.length = I.numBytes t ∧ I.deserialise bytes bytes.length = some t

/-- Ways to make a container. -/
inductive SerialExpr (T : Type)
  | empty
  | ofList (ts : List T)
  | append (a b : SerialExpr T)

/-- The buffer of the container. -/
def SerialExpr.build {T : Type} (I : Serial T) : SerialExpr T → Option (List Byte)
  | .empty => some []
  | .ofList ts => serialCreate I ts
  | .append a b => (a.build I).bind fun x => (b.build I).bind fun y => some (serialAppend x y)

/-- The objects in the container, in order. -/
def SerialExpr.objects {T : Type} : SerialExpr T → List T
  | .empty => []
  | .ofList ts => ts
  | .append a b => a.objects ++ b.objects

end NP.Spec
