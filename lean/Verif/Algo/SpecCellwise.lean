import Verif.Algo.ModelCellwise
import Verif.Algo.SpecReduce
import Verif.Boundary.Spec

/-! # Specification: methods per cell and per element, and copies between particle data -/

set_option autoImplicit false

namespace NP.Spec

variable {T : Type}

/-- A CellDatConst has memory for all its matrices. -/
def FullDat (d : CellConst T) : Prop := d.data.length = d.ncells * (d.nrow * d.ncol)

/-- The argument has one matrix per cell, with one entry or of the shape of the result. -/
def Conforms (out d : CellConst T) : Prop :=
  d.ncells = out.ncells ∧ (d.nrow = 1 ∧ d.ncol = 1 ∨ d.nrow = out.nrow ∧ d.ncol = out.ncol)

/-- The value of an argument at an element: a matrix with one entry has this value everywhere. -/
def broadcastEntry (d : CellConst T) (c row col : Nat) : Option T :=
  if d.nrow = 1 ∧ d.ncol = 1 then entry d c 0 0 else entry d c row col

/-- `n` is the number of particles of the group or sub group in cell `c`. -/
def CountIn (npart : List Nat) (par : Parent) (c n : Nat) : Prop :=
  ∃ layers : List Nat, layers.Nodup ∧ (∀ l, l ∈ layers ↔ InParent npart par c l) ∧ layers.length = n

/-- All particles have `ncomp` components. -/
def AllComps (ncomp : Nat) (rows : List (List (List T))) : Prop :=
  ∀ c l r, rowAt rows c l = some r → r.length = ncomp

end NP.Spec
