import Verif.Algo.ModelReduce
import Verif.Boundary.Model

/-!
# Model: methods per cell and per element, and copies between particle data

Models `algorithms/cellwise_methods.hpp` and `algorithms/particle_data_movement.hpp`. All
CellDatConst of one loop have one element type; the conversion to the type of the result belongs to
the kernel. Sizes fit in their integer types.
-/

set_option autoImplicit false

namespace NP

/-! ## `get_npart_cell` -/

/-- The kernel of both branches, cellwise_methods.hpp:42-45 and 51-54. The index of the entry is
signed because row and column have no lower bound check. -/
def npartStep (counts : List Nat) (stride nrow : Nat) (row col : Int) (c : Nat) (data : List Int) :
    Option (List Int) :=
  let index : Int := c * stride + nrow * col + row
  if 0 ≤ index then (rd counts c).bind fun n => st data index.toNat (n : Int) else none

/-- `get_npart_cell`, cellwise_methods.hpp:18-57. `create_if_required` has made the selection of a sub
group before. -/
def npartCell (order : Sched) (npart : List Nat) (par : Parent) (out : CellConst Int) (row col : Int) :
    Option (CellConst Int) :=
  if out.ncells = npart.length then
    if (out.nrow : Int) > row then
      if (out.ncol : Int) > col then
        (runItems (npartStep (par.dCounts npart) (out.nrow * out.ncol) out.nrow row col)
          (order.order (List.range npart.length)) out.data).bind fun data =>
        some { out with data := data }
      else none
    else none
  else none

/-! ## `cell_dat_const_loop_element_wise` -/

variable {T : Type}

/-- `lambda_check_args`, cellwise_methods.hpp:202-214: whether the argument is broadcast. -/
def ewCheck (out d : CellConst T) : Option Bool :=
  let oneByOne : Bool := out.nrow == 1 && out.ncol == 1
  if d.ncells = out.ncells then
    if !oneByOne && (d.nrow == 1 && d.ncol == 1) then some true
    else if d.nrow = out.nrow then if d.ncol = out.ncol then some false else none
    else none
  else none

/-- `get_broadcast_masks`, cellwise_methods.hpp:151-160. -/
def ewMask (d : CellConst T) : Nat := if d.nrow == 1 && d.ncol == 1 then 1 else 0

/-- The index that is read from an argument, cellwise_methods.hpp:121 and 137-141. -/
def ewIndex (broadcasting : Bool) (mask cell linear : Nat) : Nat :=
  if broadcasting then mask * cell + (1 - mask) * linear else linear

/-- The kernel for one element, cellwise_methods.hpp:232-251 and 262-280: the memory of all CellDatConst
is `dats`, the result is number `res` and the arguments are given with their masks. -/
def ewStep (kernel : List T → T) (broadcasting : Bool) (nrow ncol res : Nat) (args : List (Nat × Nat))
    (it : Nat × Nat × Nat) (dats : List (CellConst T)) : Option (List (CellConst T)) :=
  let linear := nrow * it.2.1 + it.2.2 + it.1 * nrow * ncol
  (args.mapM fun a => (rd dats a.1).bind fun d => rd d.data (ewIndex broadcasting a.2 it.1 linear)).bind
    fun vs =>
  (rd dats res).bind fun o => (st o.data linear (kernel vs)).bind fun data =>
  st dats res { o with data := data }

/-- The iteration set, cellwise_methods.hpp:231 and 261: cell, column and row. -/
def ewItems (ncells nrow ncol : Nat) : List (Nat × Nat × Nat) :=
  (List.range ncells).flatMap fun c => (List.range ncol).flatMap fun k => (List.range nrow).map fun r =>
    (c, k, r)

/-- `cell_dat_const_loop_element_wise`, cellwise_methods.hpp:190-287. -/
def elementWise (kernel : List T → T) (order : Sched) (dats : List (CellConst T)) (res : Nat)
    (args : List Nat) : Option (List (CellConst T)) :=
  (rd dats res).bind fun out =>
  (args.mapM fun a => rd dats a).bind fun ds =>
  (ds.mapM (ewCheck out)).bind fun flags =>
  runItems (ewStep kernel (flags.any id) out.nrow out.ncol res (args.zip (ds.map ewMask)))
    (order.order (ewItems out.ncells out.nrow out.ncol)) dats

/-! ## Particle data movement -/

/-- The loop over the components, particle_data_movement.hpp:43-45 and 92-94. -/
def copyComps (ncomp : Nat) (src dst : List T) : Option (List T) :=
  forLoop 0 ncomp (fun cx dst => (rd src cx).bind fun v => st dst cx v) dst

/-- `copy_ephemeral_dat_to_particle_dat`, particle_data_movement.hpp:20-49: `eph[cell][loop layer]` and
`rows[cell][layer]` are the components, `none` if there is no such dat. -/
def copyFromEphemeral (P : LoopParams) (order : Sched) (npart : List Nat) (par : Parent)
    (ncompSrc ncompDst : Nat) (eph : Option (List (List (List T))))
    (rows : Option (List (List (List T)))) : Option (List (List (List T))) :=
  eph.bind fun eph => rows.bind fun rows =>
  if ncompSrc = ncompDst then
    rowLoop P order npart par (fun c k dst =>
      (rd eph c).bind fun cell => (rd cell k).bind fun src => copyComps ncompSrc src dst) rows
  else none

/-- The kernel of particle_data_movement.hpp:91-96 with its accesses. -/
def toEphStep (par : Parent) (ncomp : Nat) (rows : List (List (List T))) (it : Nat × Nat)
    (eph : List (List (List T))) : Option (List (List (List T))) :=
  (par.layerAt it.1 it.2).bind fun l =>
  (rd rows it.1).bind fun cell => (rd cell l).bind fun src =>
  (rd eph it.1).bind fun ecell => (rd ecell it.2).bind fun dst =>
  (copyComps ncomp src dst).bind fun dst' =>
  (st ecell it.2 dst').bind fun ecell' => st eph it.1 ecell'

/-- `copy_particle_dat_to_ephemeral_dat`, particle_data_movement.hpp:69-98. -/
def copyToEphemeral (P : LoopParams) (order : Sched) (npart : List Nat) (par : Parent)
    (ncompSrc ncompDst : Nat) (rows eph : Option (List (List (List T)))) :
    Option (List (List (List T))) :=
  eph.bind fun eph => rows.bind fun rows =>
  if ncompSrc = ncompDst then
    (parentVisits P npart par).bind fun visits =>
    runItems (toEphStep par ncompSrc rows) (order.order visits) eph
  else none

/-- `cellwise_broadcast`, particle_data_movement.hpp:118-151. The component is not checked. -/
def cellwiseBroadcast (P : LoopParams) (order : Sched) (npart : List Nat) (par : Parent)
    (component : Nat) (values : List T) (rows : List (List (List T))) :
    Option (List (List (List T))) :=
  if values.length = npart.length then
    rowLoop P order npart par (fun c _ r => (rd values c).bind fun v => st r component v) rows
  else none

end NP
