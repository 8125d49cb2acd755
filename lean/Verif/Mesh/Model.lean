import Verif.Common.Kernel
import Verif.Basics.Model

/-!
# Mesh hierarchy: indexing, claims and neighbouring cells

Model of `src/mesh_hierarchy.cpp` and of the index functions of the device mapper in
`include/neso_particles/mesh_hierarchy.hpp`.

`INT` and `int` are unbounded integers here; the products of cell counts are assumed
not to overflow.
-/

set_option autoImplicit false

namespace NP

/-- The shape of a mesh hierarchy, src/mesh_hierarchy.cpp:23-69. `dims` has one entry
per dimension (`ndim` is its length; the code ignores further entries of the vector).
`std::pow` of small integers is exact. -/
structure MeshHierarchy where
  /-- Number of coarse cells in each dimension. -/
  dims : List Int
  /-- Subdivision order. -/
  order : Nat
deriving DecidableEq, Repr

/-- `ndim`. -/
def MeshHierarchy.ndim (mh : MeshHierarchy) : Nat := mh.dims.length

/-- `ncells_dim_fine`, src/mesh_hierarchy.cpp:47. -/
def MeshHierarchy.ncellsDimFine (mh : MeshHierarchy) : Int := 2 ^ mh.order

/-- `ncells_coarse`, src/mesh_hierarchy.cpp:35. -/
def MeshHierarchy.ncellsCoarse (mh : MeshHierarchy) : Int := mh.dims.foldl (· * ·) 1

/-- `ncells_fine`, src/mesh_hierarchy.cpp:36. -/
def MeshHierarchy.ncellsFine (mh : MeshHierarchy) : Int := mh.ncellsDimFine ^ mh.ndim

/-- `ncells_global`, src/mesh_hierarchy.cpp:51. -/
def MeshHierarchy.ncellsGlobal (mh : MeshHierarchy) : Int := mh.ncellsCoarse * mh.ncellsFine

/-- The constructor with its assertions, src/mesh_hierarchy.cpp:23-56 (the extent and
the origin are in the mapping model). -/
def MeshHierarchy.create (dims : List Int) (order : Int) : Option MeshHierarchy :=
  if 0 < dims.length ∧ (∀ d ∈ dims, 0 < d) ∧ 0 ≤ order then some ⟨dims, order.toNat⟩ else none

/-- The loop of `tuple_to_linear_coarse` and `tuple_to_linear_fine`,
src/mesh_hierarchy.cpp:89-105, with the extents `ds`; also
include/neso_particles/mesh_hierarchy.hpp:404-447. -/
def radixToLinear (ds t : List Int) : Option Int :=
  if ds.length = 0 then none else
  (rd t (ds.length - 1)).bind fun i0 =>
    runItems (fun dimx idx => (rd ds dimx).bind fun n => (rd t dimx).bind fun x =>
      some (idx * n + x)) (List.range (ds.length - 1)).reverse i0

/-- `tuple_to_linear_coarse`, src/mesh_hierarchy.cpp:89-96. -/
def MeshHierarchy.tupleToLinearCoarse (mh : MeshHierarchy) (t : List Int) : Option Int :=
  radixToLinear mh.dims t

/-- `tuple_to_linear_fine`, src/mesh_hierarchy.cpp:98-105. -/
def MeshHierarchy.tupleToLinearFine (mh : MeshHierarchy) (t : List Int) : Option Int :=
  radixToLinear (List.replicate mh.ndim mh.ncellsDimFine) t

/-- `tuple_to_linear_global`, src/mesh_hierarchy.cpp:82-87. -/
def MeshHierarchy.tupleToLinearGlobal (mh : MeshHierarchy) (t : List Int) : Option Int :=
  (mh.tupleToLinearCoarse t).bind fun indexCoarse =>
  (mh.tupleToLinearFine (t.drop mh.ndim)).bind fun indexFine =>
    some (indexCoarse * mh.ncellsFine + indexFine)

/-- The loop of `linear_to_tuple_coarse` and `linear_to_tuple_fine`,
src/mesh_hierarchy.cpp:113-127, the values written to `index[0]`, `index[1]`, ...
`std::div` truncates; division by zero is `none`. -/
def linearToRadix : List Int → Int → Option (List Int)
  | [], _ => some []
  | d :: ds, linear =>
    if d = 0 then none else
    (linearToRadix ds (linear.tdiv d)).bind fun rest => some (linear.tmod d :: rest)

/-- `linear_to_tuple_coarse`, src/mesh_hierarchy.cpp:113-119. -/
def MeshHierarchy.linearToTupleCoarse (mh : MeshHierarchy) (linear : Int) : Option (List Int) :=
  linearToRadix mh.dims linear

/-- `linear_to_tuple_fine`, src/mesh_hierarchy.cpp:121-127. -/
def MeshHierarchy.linearToTupleFine (mh : MeshHierarchy) (linear : Int) : Option (List Int) :=
  linearToRadix (List.replicate mh.ndim mh.ncellsDimFine) linear

/-- `linear_to_tuple_global`, src/mesh_hierarchy.cpp:107-111. -/
def MeshHierarchy.linearToTupleGlobal (mh : MeshHierarchy) (linear : Int) : Option (List Int) :=
  if mh.ncellsFine = 0 then none else
  (mh.linearToTupleCoarse (linear.tdiv mh.ncellsFine)).bind fun c =>
  (mh.linearToTupleFine (linear.tmod mh.ncellsFine)).bind fun f => some (c ++ f)

/-! ## Claiming cells -/

/-- `mask`, `std::numeric_limits<int>::lowest()`,
include/neso_particles/mesh_hierarchy.hpp:21. -/
def mhMask : Int := -2147483648

/-- The state of all ranks that matters for claiming. -/
structure ClaimState where
  /-- The shared memory window `map` of each node. -/
  maps : List (List Int)
  /-- `claim_stack` of each rank, the top first. -/
  stackOf : Nat → List (Int × Int)

/-- Which ranks share memory: for each node its ranks in the order of `rank_intra`
(`CommPair`, include/neso_particles/communication/communication_utility.hpp). -/
abbrev NodeLayout := List (List Nat)

/-- The node of a rank. -/
def nodeOf (layout : NodeLayout) (r : Nat) : Option Nat :=
  layout.findIdx? fun node => decide (r ∈ node)

/-- The part of `claim_initialise` of all ranks of one node, in any order,
src/mesh_hierarchy.cpp:133-140: each rank fills its share of the window. -/
def claimInitNode (s : Sched) (ncells size : Nat) (map : List Int) : Option (List Int) :=
  runItems (fun r m => (getDecomp1d size ncells r).bind fun (lo, hi) =>
    stRange m lo (List.replicate (hi - lo) mhMask)) (s.order (List.range size)) map

/-- `f` on each item, `none` if one of them fails. -/
def forAllM {ι β : Type} (f : ι → Option β) : List ι → Option (List β)
  | [] => some []
  | i :: is => (f i).bind fun x => (forAllM f is).bind fun xs => some (x :: xs)

/-- `claim_initialise` on all ranks, src/mesh_hierarchy.cpp:129-144. -/
def claimInitialise (s : Nat → Sched) (layout : NodeLayout) (ncells : Nat) (w : ClaimState) :
    Option ClaimState :=
  if ∀ r ∈ layout.flatten, w.stackOf r = [] then
    (forAllM (fun k => (rd layout k).bind fun node => (rd w.maps k).bind fun m =>
      claimInitNode (s k) ncells node.length m) (List.range layout.length)).bind fun maps =>
    some { w with
      maps := maps }
  else none

/-- `MPI_Get_accumulate` with `MPI_MAX` on element `cell` of the window of node `k`. -/
def accumulateMax (maps : List (List Int)) (k : Nat) (cell v : Int) : Option (List (List Int)) :=
  (rd maps k).bind fun m => (index cell).bind fun c => (rd m c).bind fun old =>
    some (maps.set k (m.set c (max old v)))

/-- One call of `claim_cell` by some rank. -/
structure Claim where
  /-- The calling rank. -/
  rank : Nat
  /-- The linear index of the cell. -/
  cell : Int
  /-- The weight. -/
  weight : Int
deriving DecidableEq, Repr

/-- `claim_cell`, src/mesh_hierarchy.cpp:146-159. -/
def claimCell (layout : NodeLayout) (e : Claim) (w : ClaimState) : Option ClaimState :=
  if e.weight ≠ mhMask ∧ 0 < e.weight ∧ e.weight < -1 * (mhMask + 1) then
    let weight := e.weight + mhMask
    (nodeOf layout e.rank).bind fun k =>
    (accumulateMax w.maps k e.cell weight).bind fun maps =>
    some {
      maps := maps
      stackOf := fun r =>
        if r = e.rank then (e.cell, weight) :: w.stackOf r else w.stackOf r }
  else none

/-- Largest entry, `none` if there is none. -/
def maxOf : List Int → Option Int
  | [] => none
  | x :: xs => some (xs.foldl max x)

/-- `all_reduce_max_map`, src/mesh_hierarchy.cpp:5-21: the first rank of each node
takes part in an `MPI_Allreduce` with `MPI_MAX` whose result is stored in the window. -/
def allReduceMaxMap (ncells : Nat) (maps : List (List Int)) : Option (List (List Int)) :=
  (forAllM (fun c => (forAllM (fun m => rd m c) maps).bind maxOf) (List.range ncells)).bind
    fun row => some (maps.map fun _ => row)

/-- The first loop of `claim_finalise` on one rank, src/mesh_hierarchy.cpp:171-180: the
claims pushed to `claim_stack_binned`. `map` is the window of the rank's node. -/
def binClaims (map : List Int) : List (Int × Int) → Option (List (Int × Int))
  | [] => some []
  | cl :: cls =>
    (index cl.1).bind fun c => (rd map c).bind fun v =>
    (binClaims map cls).bind fun rest => some (if v ≤ cl.2 then cl :: rest else rest)

/-- `claim_finalise` on all ranks, src/mesh_hierarchy.cpp:161-210. The accumulate calls
of the second loop (lines 189-199) are made by all ranks concurrently, in any order. -/
def claimFinalise (s : Sched) (layout : NodeLayout) (ncells : Nat) (w : ClaimState) :
    Option ClaimState :=
  (allReduceMaxMap ncells w.maps).bind fun maps1 =>
  (forAllM (fun r => (nodeOf layout r).bind fun k => (rd maps1 k).bind fun m =>
    (binClaims m (w.stackOf r)).bind fun b => some (b.map fun cl => (r, cl.1)))
    layout.flatten).bind fun binned =>
  (runItems (fun (it : Nat × Int) maps => (nodeOf layout it.1).bind fun k =>
    accumulateMax maps k it.2 (it.1 : Int)) (s.order binned.flatten) maps1).bind fun maps2 =>
  (allReduceMaxMap ncells maps2).bind fun maps3 =>
  some {
    maps := maps3
    stackOf := fun r => if r ∈ layout.flatten then [] else w.stackOf r }

/-- One epoch: `claim_initialise`, the `claim_cell` calls of all ranks in the order in
which they take effect, `claim_finalise`. -/
def claimEpoch (s0 : Nat → Sched) (s1 : Sched) (layout : NodeLayout) (ncells : Nat)
    (claims : List Claim) (w : ClaimState) : Option ClaimState :=
  (claimInitialise s0 layout ncells w).bind fun w =>
  (runItems (claimCell layout) claims w).bind fun w =>
  claimFinalise s1 layout ncells w

/-- `get_owner` called on rank `r`, src/mesh_hierarchy.cpp:212-215 (after
`claim_finalise`). -/
def getOwner (layout : NodeLayout) (w : ClaimState) (r : Nat) (cell : Int) : Option Int :=
  (nodeOf layout r).bind fun k => (rd w.maps k).bind fun m =>
  (index cell).bind fun c => rd m c

/-! ## Neighbouring cells -/

/-- The values of `i` in `for (i = a; i < b; i++)`. -/
def intRange (a b : Int) : List Int := (List.range (b - a).toNat).map fun (k : Nat) => a + k

/-- The offsets of the three nested loops in their order, src/mesh_hierarchy.cpp:236-259,
restricted to the first `ndim` entries, which are those used. -/
def offsetTuples (ndim : Nat) (offset : Int) : List (List Int) :=
  let r := fun (d : Nat) => if d < ndim then intRange (-offset) (offset + 1) else intRange 0 1
  (r 2).flatMap fun o2 => (r 1).flatMap fun o1 => (r 0).map fun o0 => [o0, o1, o2].take ndim

/-- `std::set<INT>::insert` on the elements in ascending order. -/
def intSetInsert (x : Int) : List Int → List Int
  | [] => [x]
  | y :: ys => if x < y then x :: y :: ys else if x = y then y :: ys else y :: intSetInsert x ys

/-- The loop over the dimensions in the body, src/mesh_hierarchy.cpp:265-281: whether the
offset cell is valid, and the coarse and the fine index in each dimension. -/
def offsetCell (pbc : Bool) (nf : Int) : List Int → List Int → List Int →
    Option (Bool × List Int × List Int)
  | n :: ns, x :: xs, o :: os =>
    let count := n * nf
    let unmapped := x + o
    let ok := pbc || (decide (0 ≤ unmapped) && decide (unmapped < count))
    if count = 0 ∨ nf = 0 then none else
    let m := (unmapped + count).tmod count
    (offsetCell pbc nf ns xs os).bind fun (v, cs, fs) =>
      some (ok && v, m.tdiv nf :: cs, m.tmod nf :: fs)
  | [], [], [] => some (true, [], [])
  | _, _, _ => none

/-- The body of the loops over the offsets, src/mesh_hierarchy.cpp:263-292. The
assertions are evaluated for every offset. -/
def neighbourStep (mh : MeshHierarchy) (cell : Int) (pbc : Bool) (x : List Int)
    (o : List Int) (out : List Int) : Option (List Int) :=
  (offsetCell pbc mh.ncellsDimFine mh.dims x o).bind fun (valid, cs, fs) =>
  (mh.tupleToLinearGlobal (cs ++ fs)).bind fun lin =>
  if lin < mh.ncellsGlobal ∧ -1 < lin then
    some (if valid ∧ lin ≠ cell then intSetInsert lin out else out)
  else none

/-- `get_neighbour_mh_cells` for one cell, src/mesh_hierarchy.cpp:230-296. More than three
dimensions write outside of the local arrays. -/
def neighbourCells1 (mh : MeshHierarchy) (cell offset : Int) (pbc : Bool) (out : List Int) :
    Option (List Int) :=
  if 3 < mh.ndim then none else
  (mh.linearToTupleGlobal cell).bind fun t =>
  let x := List.zipWith (fun c f => c * mh.ncellsDimFine + f) (t.take mh.ndim) (t.drop mh.ndim)
  runItems (neighbourStep mh cell pbc x) (offsetTuples mh.ndim offset) out

/-- `get_neighbour_mh_cells` for vectors of cells, src/mesh_hierarchy.cpp:298-320. -/
def neighbourCells (mh : MeshHierarchy) (cells extra : List Int) (offset : Int) (pbc : Bool) :
    Option (List Int) :=
  let set0 := (cells ++ extra).foldl (fun s c => intSetInsert c s) []
  runItems (fun c s => neighbourCells1 mh c offset pbc s) cells set0

end NP
