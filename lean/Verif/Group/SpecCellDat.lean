import Verif.Group.ModelCellDat

/-!
# Specification of a `CellDat`

What a user sees: the number of rows of every cell, and for each entry either the value
that was last written to it, or nothing if it was never written since its row appeared.
-/

set_option autoImplicit false

namespace NP.Spec

/-- Calls a user makes. -/
inductive CellCall (α : Type) where
  | setNrow (cell req : Nat)
  | reduceNrow (req : List Nat)
  | setValue (cell row col : Nat) (v : α)
  | setCell (cell : Nat) (h : HostCell α)
  /-- `get_nrow_max` or `get_nrow_min` -/
  | query

/-- The abstract state. -/
structure AbsDat (α : Type) where
  nrow : Nat → Nat
  val : Nat → Nat → Nat → Option α

variable {α : Type}

/-- A new `CellDat`: no rows, no values. -/
def AbsDat.init : AbsDat α := ⟨fun _ => 0, fun _ _ _ => none⟩

/-- Rows outside of the new size lose their value. -/
def AbsDat.resize (a : AbsDat α) (f : Nat → Nat) : AbsDat α :=
  ⟨f, fun c row col => if row < f c then a.val c row col else none⟩

/-- Effect of a call. -/
def AbsDat.call (a : AbsDat α) : CellCall α → AbsDat α
  | .setNrow cell req => a.resize fun c => if c = cell then req else a.nrow c
  | .reduceNrow req => a.resize fun c => req.getD c 0
  | .setValue cell row col v => { a with
      val := fun c r j => if c = cell ∧ r = row ∧ j = col then some v else a.val c r j }
  | .setCell cell h => { a with
      val := fun c r j => if c = cell ∧ r < a.nrow c then h.at r j else a.val c r j }
  | .query => a

/-- Calls the documentation allows: cells, rows and columns exist, `reduce_nrow` does not
increase a count, the host data is large enough. -/
def CallOk (ncells ncol : Nat) (a : AbsDat α) : CellCall α → Prop
  | .setNrow cell _ => cell < ncells
  | .reduceNrow req => req.length = ncells ∧ ∀ c, c < ncells → req.getD c 0 ≤ a.nrow c
  | .setValue cell row col _ => cell < ncells ∧ row < a.nrow cell ∧ col < ncol
  | .setCell cell h => cell < ncells ∧ a.nrow cell ≤ h.nrow ∧ ncol ≤ h.ncol ∧
      h.data.length = h.nrow * h.ncol
  | .query => 0 < ncells

/-- The effect of a list of calls. -/
def AbsDat.calls (a : AbsDat α) : List (CellCall α) → AbsDat α
  | [] => a
  | x :: xs => (a.call x).calls xs

/-- All calls of a history are allowed. -/
def CallsOk (ncells ncol : Nat) (a : AbsDat α) : List (CellCall α) → Prop
  | [] => True
  | x :: xs => CallOk ncells ncol a x ∧ CallsOk ncells ncol (a.call x) xs

end NP.Spec

namespace NP

variable {α : Type}

open Spec

/-- The model's function for a call; the arbitrary choices (contents of new memory, over
allocation) may differ from call to call. -/
def FlatDat.call (fresh : Fresh α) (over : Nat) (d : FlatDat α) : CellCall α → Option (FlatDat α)
  | .setNrow cell req => d.setNrow fresh over cell req
  | .reduceNrow req => d.reduceNrow req
  | .setValue cell row col v => d.setValue cell row col v
  | .setCell cell h => d.setCell cell h
  | .query => d.getNrowMax.bind fun r => some r.2

/-- Run a history; call number `i` uses `fresh i` and `over i`. -/
def FlatDat.calls (fresh : Nat → Fresh α) (over : Nat → Nat) (i : Nat) (d : FlatDat α) :
    List (CellCall α) → Option (FlatDat α)
  | [] => some d
  | x :: xs => (d.call (fresh i) (over i) x).bind fun d => d.calls fresh over (i + 1) xs

end NP
