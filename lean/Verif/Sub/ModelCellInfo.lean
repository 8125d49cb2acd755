import Verif.Sub.Model

/-!
# Model: the number of particles in the cell, read in a loop

Models `CellInfoNPart`, `include/neso_particles/loop/cell_info_npart.hpp:16-77`, with the counts that
`ParticleLoopBase::create_global_info` passes on (`include/neso_particles/loop/particle_loop_base.hpp:215-236`).

Simplifications. The counts of the group on the host and on the device agree (C18).
-/

set_option autoImplicit false

namespace NP

/-- The parts of `ParticleLoopGlobalInfo` that are used, particle_loop_base.hpp:24-40. -/
structure CellInfoGlobal where
  loopType : Nat
  dNpartCellLb : List Nat

/-- `create_global_info`, particle_loop_base.hpp:215-236: for loops over groups (type 0) the counts are those of the group,
src/loop/particle_loop_base.cpp:37-39 and 49-51, and for loops over sub groups (type 1) those of the selection,
`include/neso_particles/particle_sub_group/particle_loop_sub_group.hpp:26-36`. -/
def cellInfoGlobal (npart : List Nat) : Parent → CellInfoGlobal
  | .whole => ⟨0, npart⟩
  | .sub s => ⟨1, s.dNpart⟩

/-- `create_loop_arg`, cell_info_npart.hpp:60-68. -/
def cellInfoLoopArg (g : CellInfoGlobal) : Option (List Nat) :=
  if g.loopType = 0 ∨ g.loopType = 1 then some g.dNpartCellLb else none

/-- What `get` returns in the kernel for a particle in this cell, cell_info_npart.hpp:30 and 73-77. -/
def cellInfoGet (npart : List Nat) (par : Parent) (cellx : Nat) : Option Nat :=
  (cellInfoLoopArg (cellInfoGlobal npart par)).bind fun d => rd d cellx

end NP
