import Verif.Common.Kernel

/-!
# Model: the mapper of degrees of freedom

Models `src/external_interfaces/common/dof_mapper_dg.cpp` and
`include/neso_particles/external_interfaces/common/dof_mapper_dg.hpp` on one rank. The events that
`copy_to_external` and `copy_from_external` push are complete before the next call.
-/

set_option autoImplicit false

namespace NP

variable {α : Type}

/-- `DOFMapperDG`, dof_mapper_dg.hpp:67-77: the sizes, the external index of each degree of freedom
and the device buffer, which is allocated on the first copy. The copy of the map on the device is
made again for each use (`device_valid` is never set) and is left out. -/
structure DofMapper (α : Type) where
  ncell : Nat
  ndof : Nat
  map : List Int
  dofs : Option (List α)

/-- The constructor, dof_mapper_dg.cpp:5-12. -/
def dofNew (ncell ndof : Nat) : DofMapper α := ⟨ncell, ndof, List.replicate (ncell * ndof) (-1), none⟩

/-- `index`, dof_mapper_dg.cpp:14-20. -/
def DofMapper.index (m : DofMapper α) (cell dof : Int) : Option Nat :=
  if (0 ≤ cell ∧ cell < m.ncell) ∧ 0 ≤ dof ∧ dof < m.ndof then some (cell * m.ndof + dof).toNat
  else none

/-- `set`, dof_mapper_dg.cpp:22-25. -/
def DofMapper.set (m : DofMapper α) (cell dof ix : Int) : Option (DofMapper α) :=
  (m.index cell dof).bind fun i => (st m.map i ix).bind fun map => some { m with map := map }

/-- `get`, dof_mapper_dg.cpp:27-29. -/
def DofMapper.get (m : DofMapper α) (cell dof : Int) : Option Int :=
  (m.index cell dof).bind fun i => rd m.map i

/-- `DOFMapperDGDeviceMapper::get`, dof_mapper_dg.hpp:24-26. -/
def DofMapper.devGet (m : DofMapper α) (cell dof : Nat) : Option Int := rd m.map (cell * m.ndof + dof)

/-- An access through a pointer with an `int` index. -/
def dofPtr (ix : Int) : Option Nat := if 0 ≤ ix then some ix.toNat else none

/-- `DOFMapperDGDeviceMapper::copy_to_external`, dof_mapper_dg.hpp:37-43. -/
def DofMapper.toStep (m : DofMapper α) (source : List α) (cd : Nat × Nat) (destination : List α) :
    Option (List α) :=
  (m.devGet cd.1 cd.2).bind fun ix => (dofPtr ix).bind fun i =>
  (rd source (cd.1 * m.ndof + cd.2)).bind fun v => st destination i v

/-- `DOFMapperDGDeviceMapper::copy_from_external`, dof_mapper_dg.hpp:54-60. -/
def DofMapper.fromStep (m : DofMapper α) (source : List α) (cd : Nat × Nat) (destination : List α) :
    Option (List α) :=
  (m.devGet cd.1 cd.2).bind fun ix => (dofPtr ix).bind fun i =>
  (rd source i).bind fun v => st destination (cd.1 * m.ndof + cd.2) v

/-- The iteration set of both loops, dof_mapper_dg.cpp:59-65 and 93-99. -/
def DofMapper.items (m : DofMapper α) : List (Nat × Nat) :=
  (List.range m.ncell).flatMap fun c => (List.range m.ndof).map fun d => (c, d)

/-- The device buffer, dof_mapper_dg.cpp:49-52 and 78-81. -/
def DofMapper.buffer (m : DofMapper α) (fresh : Fresh α) : List α :=
  m.dofs.getD (fresh (m.ncell * m.ndof)).1

/-- `copy_to_external`, dof_mapper_dg.cpp:44-71: the values of the CellDatConst are `source`, the
external buffer is `ext`. -/
def DofMapper.copyTo (m : DofMapper α) (fresh : Fresh α) (order : Sched) (source ext : List α) :
    Option (DofMapper α × List α) :=
  let dofs := m.buffer fresh
  if 0 < m.ncell * m.ndof then
    (runItems (m.toStep source) (order.order m.items) dofs).bind fun dofs =>
    (slice dofs 0 (m.ncell * m.ndof)).bind fun v =>
    (stRange ext 0 v).bind fun ext => some ({ m with dofs := some dofs }, ext)
  else some ({ m with dofs := some dofs }, ext)

/-- `copy_from_external`, dof_mapper_dg.cpp:73-105: the values of the CellDatConst are `dest`. The
`memcpy` has the external buffer as its destination and the device buffer as its source. -/
def DofMapper.copyFrom (m : DofMapper α) (fresh : Fresh α) (order : Sched) (dest ext : List α) :
    Option (DofMapper α × List α × List α) :=
  let dofs := m.buffer fresh
  if 0 < m.ncell * m.ndof then
    (slice dofs 0 (m.ncell * m.ndof)).bind fun v =>
    (stRange ext 0 v).bind fun ext =>
    (runItems (m.fromStep dofs) (order.order m.items) dest).bind fun dest =>
    some ({ m with dofs := some dofs }, dest, ext)
  else some ({ m with dofs := some dofs }, dest, ext)

/-- The calls that change a mapper. -/
inductive DofOp (α : Type) where
  | set (cell dof ix : Int)
  | copyTo (fresh : Fresh α) (order : Sched) (source ext : List α)
  | copyFrom (fresh : Fresh α) (order : Sched) (dest ext : List α)

/-- One call, dof_mapper_dg.cpp:22-105. -/
def DofMapper.op (o : DofOp α) (m : DofMapper α) : Option (DofMapper α) :=
  match o with
  | .set cell dof ix => m.set cell dof ix
  | .copyTo fresh order source ext => (m.copyTo fresh order source ext).bind fun r => some r.1
  | .copyFrom fresh order dest ext => (m.copyFrom fresh order dest ext).bind fun r => some r.1

end NP
