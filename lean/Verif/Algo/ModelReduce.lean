import Verif.Sub.Model

/-!
# Model: reductions of particle properties per cell

Models `include/neso_particles/algorithms/reduce_dat_cellwise.hpp` and `Kernel::joint_reduce` and
`Kernel::get_identity` of `include/neso_particles/device_functions.hpp`. The operation `op` and its
identity `e` are parameters. A SYCL group collective `reduce_over_group` combines the values of the
work items in any order. Work groups run one after another in any order. Indices do not overflow, and
the launch is within the limits of the device (`validate_nd_range`).
-/

set_option autoImplicit false

namespace NP

/-- A `CellDatConst`, cell_dat_const.hpp:583-666: a matrix of `nrow` rows and `ncol` columns per cell,
column major. -/
structure CellConst (T : Type) where
  ncells : Nat
  nrow : Nat
  ncol : Nat
  data : List T
deriving DecidableEq

/-- `stride` of a `CellDatConst`, cell_dat_const.hpp:649. -/
def CellConst.stride {T : Type} (d : CellConst T) : Nat := d.nrow * d.ncol

/-- How a launch of a reduction runs: the work group size, the order of the work groups and the
order in which `reduce_over_group` combines. -/
structure ReduceEnv where
  localSize : Nat
  groups : Sched
  combine : Sched

/-- The value of one component of the particle at a loop layer, reduce_dat_cellwise.hpp:53-56, 113-123.
`dat[cell][component][layer]`. -/
def reduceRead {T : Type} (dat : List (List (List T))) (par : Parent) (c comp i : Nat) : Option T :=
  (par.layerAt c i).bind fun layer =>
  (rd dat c).bind fun cell =>
  (rd cell comp).bind fun col => rd col layer

/-- The loop of work item `w`, device_functions.hpp:635-642 and reduce_dat_cellwise.hpp:115-123. -/
def reduceLane {T : Type} (op : T → T → T) (e : T) (n L : Nat) (read : Nat → Option T) (w : Nat) :
    Option T :=
  runItems (fun i v => (read i).bind fun x => some (op v x)) (strided w n L) e

/-- `joint_reduce` of a work group, and the loop with `reduce_over_group` of
reduce_dat_cellwise.hpp:115-125. -/
def reduceJoint {T : Type} (op : T → T → T) (e : T) (env : ReduceEnv) (n : Nat) (read : Nat → Option T) :
    Option T :=
  ((List.range env.localSize).mapM (reduceLane op e n env.localSize read)).bind fun vs =>
  some ((env.combine.order vs).foldl op e)

/-- The kernel for one work group, reduce_dat_cellwise.hpp:49-69, 109-138 and 167-189, 228-258: `c` is
the cell, `comp` the component and `index` the entry of the output. A whole group and a sub group
differ in the number of particles and in the layers. -/
def reduceStep {T : Type} (op : T → T → T) (e : T) (env : ReduceEnv) (npart : List Nat) (par : Parent)
    (dat : List (List (List T))) (c comp index : Nat) (out : List T) : Option (List T) :=
  (rd (par.dCounts npart) c).bind fun n =>
  if 0 < n then
    (reduceJoint op e env n (reduceRead dat par c comp)).bind fun value =>
    (rd out index).bind fun current => st out index (op current value)
  else some out

/-- `reduce_dat_component_cellwise`, reduce_dat_cellwise.hpp:282-309 with 27-72 and 75-142. The
component is not checked. -/
def reduceComponent {T : Type} (op : T → T → T) (e : T) (env : ReduceEnv) (npart : List Nat)
    (par : Parent) (dat : List (List (List T))) (comp : Nat) (out : CellConst T) (row col : Int) :
    Option (CellConst T) :=
  if npart.length = out.ncells then
    if 0 ≤ row ∧ row < out.nrow then
      if 0 ≤ col ∧ col < out.ncol then
        (runItems (fun c => reduceStep op e env npart par dat c comp
            (c * out.stride + out.nrow * col.toNat + row.toNat))
          (env.groups.order (List.range npart.length)) out.data).bind fun data =>
        some { out with data := data }
      else none
    else none
  else none

/-- The offsets of the components, reduce_dat_cellwise.hpp:382-390; the vector starts with zeros. -/
def reduceOffsets (ncomp nrow ncol : Nat) : Option (List Nat) :=
  (forLoop 0 nrow (fun rx s => forLoop 0 ncol (fun cx (s : List Nat × Nat) =>
    (st s.1 s.2 (nrow * cx + rx)).bind fun b => some (b, s.2 + 1)) s)
    (List.replicate ncomp 0, 0)).bind fun s => some s.1

/-- `reduce_dat_components_cellwise`, reduce_dat_cellwise.hpp:349-402 with 144-192 and 194-262. -/
def reduceComponents {T : Type} (op : T → T → T) (e : T) (env : ReduceEnv) (npart : List Nat)
    (par : Parent) (dat : List (List (List T))) (ncomp : Nat) (out : CellConst T) :
    Option (CellConst T) :=
  if npart.length = out.ncells then
    if ncomp ≥ out.nrow * out.ncol then
      (reduceOffsets ncomp out.nrow out.ncol).bind fun offsets =>
      (runItems (fun g o =>
          let c := g / ncomp
          let comp := g - c * ncomp
          (rd offsets comp).bind fun offset =>
          reduceStep op e env npart par dat c comp (c * out.stride + offset) o)
        (env.groups.order (List.range (npart.length * ncomp))) out.data).bind fun data =>
      some { out with data := data }
    else none
  else none

end NP
