import Verif.Containers.ModelMHC
import Verif.Containers.LemmasSerial

/-!
# Specification: mesh hierarchy container
-/

set_option autoImplicit false

namespace NP.Spec

/-- All objects that were contributed to a cell, by rank. -/
def contributed {T : Type} (n : Nat) (data : Nat → List (Int × List T)) (cell : Int) : List T :=
  (List.range n).flatMap fun r => (data r).flatMap fun p => if p.1 = cell then p.2 else []

/-- The cell is owned by one of the `n` ranks. -/
def HasOwner (n : Nat) (owner : Int → Int) (cell : Int) : Prop := 0 ≤ owner cell ∧ owner cell < n

/-- A cell index that fits into an `int`. -/
def Fits32 (cell : Int) : Prop := -2 ^ 31 ≤ cell ∧ cell < 2 ^ 31

/-- Collective calls of `gather`, one after the other. -/
def gathers (default : CellBuffer) (n : Nat) (owner : Int → Int) :
    (Nat → MHCRank) → List (Nat → List Int) → Option (Nat → MHCRank)
  | w, [] => some w
  | w, c :: cs => (mhcGather default n owner w c).bind fun w => gathers default n owner w cs

/-- Number of bytes that all objects of a cell need, each with its size. -/
def serialBytes {T : Type} (I : Serial T) : List T → Nat
  | [] => 0
  | t :: ts => sizeofSize + I.numBytes t + serialBytes I ts

/-- Conditions on the data passed to the constructor: correctly implemented objects, cell
indices that fit into an `int`, and not more bytes for a cell than fit into memory. -/
structure DataOk {T : Type} (I : Serial T) (n : Nat) (data : Nat → List (Int × List T)) : Prop where
  good : ∀ (r : Nat), r < n → ∀ p ∈ data r, ∀ t ∈ p.2, Serial.Good I t
  fits : ∀ (r : Nat), r < n → ∀ p ∈ data r, Fits32 p.1
  size : ∀ c, serialBytes I (contributed n data c) + 16 < sizeTMax

end NP.Spec
