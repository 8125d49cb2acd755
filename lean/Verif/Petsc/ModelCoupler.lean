import Verif.Petsc.ModelHalo
import Verif.Boundary.ModelExchange
import Mathlib.Algebra.Ring.Defs

/-!
# Model: transfer of cell values between two meshes

Models `DMPlexMeshCouplerDG0` (`src/external_interfaces/petsc/dmplex_mesh_coupler_dg0.cpp` and its
header) and `get_map_from_global_cell_points_to_ranks`
(`src/external_interfaces/petsc/dmplex_helper.cpp:753-805`).

All ranks are modelled together, as a list with one state per rank; a collective operation of MPI
is one function on the list. The order in which MPI reports the neighbours in a distributed graph
is arbitrary (`SurfOrders`).

Simplifications. Values are elements of a commutative semiring. Displacements are in elements
instead of bytes. An `int` does not overflow. The number of components is a natural number; all
ranks pass the same number, as they make the call together. The cached data types of MPI are left
out. Exceptions, failed assertions, errors of MPI and reads or writes outside of a vector are
`none`.
-/

set_option autoImplicit false

namespace NP

/-- `DMPlexMeshCouplerDG0MapEntry`, `dmplex_mesh_coupler_dg0.hpp:14-21`. -/
structure CoupEntry (T : Type) where
  /-- `cell_index`. -/
  cell : Int
  /-- `weight_forward`. -/
  fwd : T
  /-- `weight_backward`. -/
  bwd : T
  deriving DecidableEq

/-! ## The owners of the cells -/

/-- The global numbers of the cells of a rank, as both loops of
`get_map_from_global_cell_points_to_ranks` read them; constructing the `DMPlexHelper` requires that
the rank has a cell. `dmplex_helper.cpp:289, 768-772, 789-792`. -/
def coupCells (dm : Plex) : Option (List Int) :=
  if plexCells dm ≠ [] then (plexCells dm).mapM (plexGlobal dm) else none

/-- `cell_owners_local` of one rank, `dmplex_helper.cpp:763-764, 788-795`. -/
def coupOwnersLocal (count : Nat) (pmin : Int) (rank : Nat) (gids : List Int) : Option (List Int) :=
  gids.foldlM (fun m g =>
    if 0 ≤ g - pmin then st m (g - pmin).toNat (rank : Int) else none) (List.replicate count (-1))

/-- `MPI_Allreduce` with `MPI_MAX` of vectors of length `count`. -/
def coupAllMax (count : Nat) (w : List (List Int)) : Option (List Int) :=
  (List.range count).mapM fun i => (w.mapM fun v => rd v i).bind fun col => col.max?

/-- `get_map_from_global_cell_points_to_ranks`, `dmplex_helper.cpp:753-805`. The result is the
same on all ranks. The numbers are the largest and the smallest `int`. -/
def coupOwners (dms : List Plex) : Option (Int × List Int) :=
  (dms.mapM coupCells).bind fun gids =>
  let count := (gids.map List.length).sum
  (gids.map fun g => g.foldl min 2147483647).min?.bind fun pmin =>
  (gids.map fun g => g.foldl max (-2147483648)).max?.bind fun pmax =>
  if pmax - pmin + 1 = (count : Int) then
    (mapRanks gids fun r g => coupOwnersLocal count pmin r g).bind fun w =>
    (coupAllMax count w).map fun o => (pmin, o)
  else none

/-! ## The constructor -/

/-- The maps from a rank to the cells of A, the cells of B and the weights, and the set of
ranks, `dmplex_mesh_coupler_dg0.cpp:30-34`. -/
structure CoupMaps (T : Type) where
  cellsA : OMap (List Nat)
  cellsB : OMap (List Int)
  fwd : OMap (List T)
  bwd : OMap (List T)
  ranks : List Int

/-- Empty maps. -/
def CoupMaps.new {T : Type} : CoupMaps T := ⟨[], [], [], [], []⟩

/-- The body of the loop over the entries, `dmplex_mesh_coupler_dg0.cpp:38-49`. -/
def coupEntry {T : Type} (pmin : Int) (owners : List Int) (a : Nat) (m : CoupMaps T)
    (e : CoupEntry T) : Option (CoupMaps T) :=
  let index := e.cell - pmin
  if 0 ≤ index then
    (rd owners index.toNat).map fun rank =>
      { ranks := intSetInsert rank m.ranks
        cellsA := omPushAll m.cellsA rank [a]
        cellsB := omPushAll m.cellsB rank [e.cell]
        fwd := omPushAll m.fwd rank [e.fwd]
        bwd := omPushAll m.bwd rank [e.bwd] }
  else none

/-- The loop over the cells of A, `dmplex_mesh_coupler_dg0.cpp:35-52`. -/
def coupMaps {T : Type} (pmin : Int) (owners : List Int) (map : List (List (CoupEntry T))) :
    Option (CoupMaps T) :=
  (map.foldlM (fun (s : CoupMaps T × Nat) (es : List (CoupEntry T)) =>
    (es.foldlM (coupEntry pmin owners s.2) s.1).map fun m => (m, s.2 + 1)) (CoupMaps.new, 0)).map
    (·.1)

/-- A `DMPlexMeshCouplerDG0` on one rank, `dmplex_mesh_coupler_dg0.hpp:46-117`. -/
structure CoupRank (T : Type) where
  countA : Nat
  countB : Nat
  /-- `destinations_forward`. -/
  dests : List Nat
  /-- `sources_forward`. -/
  sources : List Nat
  /-- `destinations_backward`. -/
  revDests : List Nat
  /-- `sources_backward`. -/
  revSources : List Nat
  /-- `send_counts_forward`. -/
  sendF : List Nat
  /-- `recv_counts_forward`. -/
  recvF : List Nat
  /-- `send_disps_forward`. -/
  sendDispF : List Nat
  /-- `recv_disps_forward`. -/
  recvDispF : List Nat
  cellsFA : List Nat
  /-- `remote_cells`, a local variable of the constructor. -/
  remote : List Int
  weightsF : List T
  /-- `cells_forward_B` before the conversion to local points. -/
  globalsFB : List Int
  cellsFB : List Nat
  /-- `send_counts_backward`. -/
  sendB : List Nat
  /-- `recv_counts_backward`. -/
  recvB : List Nat
  /-- `send_disps_backward`. -/
  sendDispB : List Nat
  /-- `recv_disps_backward`. -/
  recvDispB : List Nat
  cellsBA : List Nat
  weightsB : List T
  /-- `cells_backward_B` before the conversion to local points. -/
  globalsBB : List Int
  cellsBB : List Nat
  /-- `total_num_send_cells_forward`. -/
  totalF : Nat
  /-- `total_num_send_cells_backward`. -/
  totalB : Nat
  /-- `stage_base_size`. -/
  base : Nat
  /-- The size of `h_send_disps`, `h_recv_disps`, `h_send_counts` and `h_recv_counts`. -/
  room : Nat
  /-- `h_stage_send`. -/
  stageSend : List T
  /-- `h_stage_recv`. -/
  stageRecv : List T

/-- The members before the body of the constructor, `dmplex_mesh_coupler_dg0.cpp:9-12` and the
initialisers of the header. -/
def CoupRank.new {T : Type} (countA : Nat) : CoupRank T where
  countA := countA
  countB := 0
  dests := []
  sources := []
  revDests := []
  revSources := []
  sendF := []
  recvF := []
  sendDispF := []
  recvDispF := []
  cellsFA := []
  remote := []
  weightsF := []
  globalsFB := []
  cellsFB := []
  sendB := []
  recvB := []
  sendDispB := []
  recvDispB := []
  cellsBA := []
  weightsB := []
  globalsBB := []
  cellsBB := []
  totalF := 0
  totalB := 0
  base := 0
  room := 0
  stageSend := []
  stageRecv := []

/-- The destinations passed to `MPI_Dist_graph_create` by a rank, which must be ranks of the
communicator. `dmplex_mesh_coupler_dg0.cpp:54-64`. -/
def coupOut {T : Type} (size : Nat) (m : CoupMaps T) : Option (List Nat) :=
  m.ranks.mapM fun d => if 0 ≤ d ∧ d.toNat < size then some d.toNat else none

/-- The ranks with an edge to rank `q`. -/
def coupIn (outs : List (List Nat)) (q : Nat) : List Nat :=
  (List.range outs.length).filter fun s =>
    match rd outs s with
    | some o => o.contains q
    | none => false

/-- The neighbours as MPI reports them, `dmplex_mesh_coupler_dg0.cpp:61-100`,
`communication_utility.cpp:21-43`. -/
def coupGraph {T : Type} (mpi : SurfOrders) (outs : List (List Nat)) (r : Nat) (a : CoupRank T) :
    Option (CoupRank T) :=
  (rd outs r).map fun o =>
    let out := (mpi.dests r).order o
    let inn := (mpi.sources r).order (coupIn outs r)
    { a with
      dests := out
      sources := inn
      revDests := (mpi.revDests r).order inn
      revSources := (mpi.revSources r).order out }

/-- The counts for each destination and the concatenated cells and weights,
`dmplex_mesh_coupler_dg0.cpp:102-111, 117-121, 149-170`. -/
def coupSend {T : Type} (m : CoupMaps T) (a : CoupRank T) : Option (CoupRank T) :=
  (a.dests.mapM fun d : Nat => (omGet m.cellsB (d : Int)).map List.length).bind fun counts =>
  (collectM (fun d : Nat => omGet m.cellsA (d : Int)) a.dests).bind fun cellsA =>
  (collectM (fun d : Nat => omGet m.cellsB (d : Int)) a.dests).bind fun cellsB =>
  (collectM (fun d : Nat => omGet m.fwd (d : Int)) a.dests).map fun weights =>
    { a with
      sendF := counts
      sendDispF := exclusiveFrom 0 counts
      totalF := counts.sum
      cellsFA := cellsA
      remote := cellsB
      weightsF := weights }

/-- `MPI_Neighbor_alltoall` of the counts, `dmplex_mesh_coupler_dg0.cpp:113-115, 122-123`. -/
def coupRecv {T : Type} (w : List (CoupRank T)) (r : Nat) (a : CoupRank T) : Option (CoupRank T) :=
  (a.sources.mapM fun s => (rd w s).bind fun b => (b.dests.idxOf? r).bind (rd b.sendF)).map
    fun c => { a with recvF := c, recvDispF := exclusiveFrom 0 c }

/-- The arguments of the exchange of the cell indices, `dmplex_mesh_coupler_dg0.cpp:172-188`. -/
def coupCellArgs {T : Type} (a : CoupRank T) : NbrArgs Int where
  dests := a.dests
  sources := a.sources
  sendcounts := a.sendF
  sdispls := a.sendDispF
  recvcounts := a.recvF
  rdispls := a.recvDispF
  sbuf := a.remote
  rbuf := List.replicate a.recvF.sum 0

/-- The maps from a rank to its index in a list, `dmplex_mesh_coupler_dg0.cpp:192-203`. -/
def coupIndex (ranks : List Nat) : OMap Nat :=
  ranks.zipIdx.foldl (fun m p => omPut m (p.1 : Int) p.2) []

/-- The loop over the sources of the backward direction, `dmplex_mesh_coupler_dg0.cpp:225-246`.
The number is `offset`. -/
def coupBackA {T : Type} (m : CoupMaps T) (index : OMap Nat) (s : CoupRank T × Nat) (rank : Nat) :
    Option (CoupRank T × Nat) :=
  (omGet index (rank : Int)).bind fun edge =>
  (rd s.1.sendF edge).bind fun num =>
  (rd s.1.sendDispF edge).bind fun disp =>
  (slice s.1.cellsFA disp (disp + num)).bind fun cells =>
  (omGet m.bwd (rank : Int)).bind fun wb =>
  if wb.length = num then
    some ({ s.1 with
      cellsBA := s.1.cellsBA ++ cells
      weightsB := s.1.weightsB ++ wb
      recvDispB := s.1.recvDispB ++ [s.2]
      recvB := s.1.recvB ++ [num] }, s.2 + num)
  else none

/-- The loop over the destinations of the backward direction,
`dmplex_mesh_coupler_dg0.cpp:249-264`. -/
def coupBackB {T : Type} (index : OMap Nat) (s : CoupRank T × Nat) (rank : Nat) :
    Option (CoupRank T × Nat) :=
  (omGet index (rank : Int)).bind fun edge =>
  (rd s.1.recvF edge).bind fun num =>
  (rd s.1.recvDispF edge).bind fun disp =>
  (slice s.1.globalsFB disp (disp + num)).bind fun cells =>
  some ({ s.1 with
    globalsBB := s.1.globalsBB ++ cells
    sendDispB := s.1.sendDispB ++ [s.2]
    sendB := s.1.sendB ++ [num] }, s.2 + num)

/-- Both loops, `dmplex_mesh_coupler_dg0.cpp:192-265`. -/
def coupBack {T : Type} (m : CoupMaps T) (a : CoupRank T) : Option (CoupRank T) :=
  (a.revSources.foldlM (coupBackA m (coupIndex a.dests)) (a, 0)).bind fun s =>
  (s.1.revDests.foldlM (coupBackB (coupIndex s.1.sources)) (s.1, 0)).map fun s =>
    { s.1 with totalB := s.2 }

/-- `lambda_global_to_local`, `dmplex_mesh_coupler_dg0.cpp:284-288`. Looking up a point may
change the map. -/
def coupLocal (lids : OMap Nat) (cells : List Int) : Option (List Nat × OMap Nat) :=
  cells.foldlM (fun s g => (localOfGlobal s.2 g).map fun p => (s.1 ++ [p.1], p.2)) ([], lids)

/-- The end of the constructor, `dmplex_mesh_coupler_dg0.cpp:280-308`. -/
def coupFinish {T : Type} [Zero T] (dm : Plex) (a : CoupRank T) : Option (CoupRank T) :=
  (coupLocal (plexLocalMap dm) a.globalsFB).bind fun f =>
  (coupLocal f.2 a.globalsBB).bind fun b =>
  if a.cellsFA.length = a.weightsF.length ∧ a.cellsBA.length = a.weightsB.length then
    some { a with
      countB := (plexCells dm).length
      cellsFB := f.1
      cellsBB := b.1
      base := max a.totalF a.totalB
      stageSend := List.replicate (max a.totalF a.totalB) 0
      stageRecv := List.replicate (max a.totalF a.totalB) 0
      room := max a.dests.length a.sources.length }
  else none

/-- The constructor, on all ranks. `dms` is the part of mesh B of each rank and `maps` the
coupling map of each rank. `dmplex_mesh_coupler_dg0.cpp:9-309`. -/
def couplerNew {T : Type} [Zero T] (mpi : SurfOrders) (dms : List Plex)
    (maps : List (List (List (CoupEntry T)))) : Option (List (CoupRank T)) :=
  (coupOwners dms).bind fun o =>
  (maps.mapM (coupMaps o.1 o.2)).bind fun ms =>
  (ms.mapM (coupOut maps.length)).bind fun outs =>
  (mapRanks maps fun r map => coupGraph mpi outs r (CoupRank.new map.length)).bind fun w =>
  (mapRanks w fun r a => (rd ms r).bind fun m => coupSend m a).bind fun w =>
  (mapRanks w (coupRecv w)).bind fun w =>
  (neighborAlltoallwArgs (w.map coupCellArgs)).bind fun cells =>
  mapRanks w fun r a =>
    (rd cells r).bind fun c => (rd ms r).bind fun m => (rd dms r).bind fun dm =>
    (coupBack m { a with globalsFB := c }).bind (coupFinish dm)

/-! ## Transfers -/

/-- `lambda_resize`, `dmplex_mesh_coupler_dg0.cpp:314-320`. -/
def coupGrow {T : Type} [Zero T] (size : Nat) (v : List T) : List T :=
  if v.length < size then v ++ List.replicate (size - v.length) 0 else v

/-- `prepare_transfer`, `dmplex_mesh_coupler_dg0.cpp:311-324`. -/
def coupPrepare {T : Type} [Zero T] (ncomp : Nat) (a : CoupRank T) : Option (CoupRank T) :=
  if 0 < ncomp then
    some { a with
      stageSend := coupGrow (ncomp * a.base) a.stageSend
      stageRecv := coupGrow (ncomp * a.base) a.stageRecv }
  else none

/-- The iterations of the loops over cells and components. -/
def coupItems (n ncomp : Nat) : List (Nat × Nat) :=
  (List.range n).flatMap fun i => (List.range ncomp).map fun c => (i, c)

/-- `std::transform` with `scale_lambda` into a vector with a given number of elements,
`dmplex_mesh_coupler_dg0.cpp:346-362, 400-416`. -/
def coupScale (room ncomp : Nat) (v : List Nat) : Option (List Nat) :=
  if v.length ≤ room then some (v.map fun x => x * ncomp) else none

/-- The assertions on the sizes, `dmplex_mesh_coupler_dg0.cpp:331-334, 387-390`. -/
def coupSizes {T : Type} (ncomp : Nat) (a : CoupRank T) (dofsA dofsB : List T) : Prop :=
  a.countA * ncomp ≤ dofsA.length ∧ a.countB * ncomp ≤ dofsB.length

instance {T : Type} (ncomp : Nat) (a : CoupRank T) (dofsA dofsB : List T) :
    Decidable (coupSizes ncomp a dofsA dofsB) := by unfold coupSizes; infer_instance

/-- The loop that packs the values of A, `dmplex_mesh_coupler_dg0.cpp:336-344`. -/
def coupPackA {T : Type} [Mul T] (ncomp : Nat) (dofsA : List T) (a : CoupRank T) :
    Option (CoupRank T) :=
  (runItems (fun x out =>
    (rd a.cellsFA x.1).bind fun i => (rd a.weightsF x.1).bind fun weight =>
    (rd dofsA (i * ncomp + x.2)).bind fun v => st out (x.1 * ncomp + x.2) (v * weight))
    (coupItems a.cellsFA.length ncomp) a.stageSend).map fun b => { a with stageSend := b }

/-- The loop that packs the values of B, `dmplex_mesh_coupler_dg0.cpp:392-398`. -/
def coupPackB {T : Type} (ncomp : Nat) (dofsB : List T) (a : CoupRank T) : Option (CoupRank T) :=
  (runItems (fun x out =>
    (rd a.cellsBB x.1).bind fun i =>
    (rd dofsB (i * ncomp + x.2)).bind fun v => st out (x.1 * ncomp + x.2) v)
    (coupItems a.cellsBB.length ncomp) a.stageSend).map fun b => { a with stageSend := b }

/-- The arguments of the exchange in `forward_transfer`,
`dmplex_mesh_coupler_dg0.cpp:346-370`. -/
def coupArgsF {T : Type} (ncomp : Nat) (a : CoupRank T) : Option (NbrArgs T) :=
  (coupScale a.room ncomp a.sendF).bind fun sc => (coupScale a.room ncomp a.sendDispF).bind fun sd =>
  (coupScale a.room ncomp a.recvF).bind fun rc => (coupScale a.room ncomp a.recvDispF).map fun rd =>
  { dests := a.dests, sources := a.sources, sendcounts := sc, sdispls := sd, recvcounts := rc,
    rdispls := rd, sbuf := a.stageSend, rbuf := a.stageRecv }

/-- The arguments of the exchange in `backward_transfer`,
`dmplex_mesh_coupler_dg0.cpp:400-424`. -/
def coupArgsB {T : Type} (ncomp : Nat) (a : CoupRank T) : Option (NbrArgs T) :=
  (coupScale a.room ncomp a.sendB).bind fun sc => (coupScale a.room ncomp a.sendDispB).bind fun sd =>
  (coupScale a.room ncomp a.recvB).bind fun rc => (coupScale a.room ncomp a.recvDispB).map fun rd =>
  { dests := a.revDests, sources := a.revSources, sendcounts := sc, sdispls := sd, recvcounts := rc,
    rdispls := rd, sbuf := a.stageSend, rbuf := a.stageRecv }

/-- The loop that adds what was received to the values of B,
`dmplex_mesh_coupler_dg0.cpp:372-379`. -/
def coupAddB {T : Type} [Zero T] [Add T] (ncomp : Nat) (a : CoupRank T) (dofsB : List T) :
    Option (List T) :=
  runItems (fun x out =>
    (rd a.cellsFB x.1).bind fun i => (rd a.stageRecv (x.1 * ncomp + x.2)).bind fun v =>
    (rd out (i * ncomp + x.2)).bind fun old => st out (i * ncomp + x.2) (old + v))
    (coupItems a.cellsFB.length ncomp) (dofsB.map fun _ => 0)

/-- The loop that adds what was received, times the weights, to the values of A,
`dmplex_mesh_coupler_dg0.cpp:426-435`. -/
def coupAddA {T : Type} [Zero T] [Add T] [Mul T] (ncomp : Nat) (a : CoupRank T) (dofsA : List T) :
    Option (List T) :=
  runItems (fun x out =>
    (rd a.cellsBA x.1).bind fun i => (rd a.weightsB x.1).bind fun weight =>
    (rd a.stageRecv (x.1 * ncomp + x.2)).bind fun v =>
    (rd out (i * ncomp + x.2)).bind fun old => st out (i * ncomp + x.2) (old + v * weight))
    (coupItems a.cellsBA.length ncomp) (dofsA.map fun _ => 0)

/-- The exchange of a transfer: the arguments of each rank, and the values received. -/
def coupExchange {T : Type} (args : CoupRank T → Option (NbrArgs T)) (w : List (CoupRank T)) :
    Option (List (CoupRank T)) :=
  (mapRanks w fun _ a => args a).bind fun k =>
  (neighborAlltoallwArgs k).bind fun recv =>
  mapRanks w fun r a => (rd recv r).map fun b => { a with stageRecv := b }

/-- `forward_transfer` on all ranks: the couplers and the values of B afterwards.
`dmplex_mesh_coupler_dg0.cpp:326-380`. -/
def couplerForward {T : Type} [Zero T] [Add T] [Mul T] (ncomp : Nat) (w : List (CoupRank T))
    (dofsA dofsB : List (List T)) : Option (List (CoupRank T) × List (List T)) :=
  (mapRanks w fun r a =>
    (rd dofsA r).bind fun dA => (rd dofsB r).bind fun dB => (coupPrepare ncomp a).bind fun a =>
    if coupSizes ncomp a dA dB then coupPackA ncomp dA a else none).bind fun w =>
  (coupExchange (coupArgsF ncomp) w).bind fun w =>
  (mapRanks w fun r a => (rd dofsB r).bind (coupAddB ncomp a)).map fun out => (w, out)

/-- `backward_transfer` on all ranks: the couplers and the values of A afterwards.
`dmplex_mesh_coupler_dg0.cpp:382-436`. -/
def couplerBackward {T : Type} [Zero T] [Add T] [Mul T] (ncomp : Nat) (w : List (CoupRank T))
    (dofsB dofsA : List (List T)) : Option (List (CoupRank T) × List (List T)) :=
  (mapRanks w fun r a =>
    (rd dofsA r).bind fun dA => (rd dofsB r).bind fun dB => (coupPrepare ncomp a).bind fun a =>
    if coupSizes ncomp a dA dB then coupPackB ncomp dB a else none).bind fun w =>
  (coupExchange (coupArgsB ncomp) w).bind fun w =>
  (mapRanks w fun r a => (rd dofsA r).bind (coupAddA ncomp a)).map fun out => (w, out)

/-- A transfer. -/
inductive CoupCall (T : Type) where
  | forward (ncomp : Nat) (dofsA dofsB : List (List T))
  | backward (ncomp : Nat) (dofsB dofsA : List (List T))

/-- One transfer, keeping only the couplers. -/
def couplerCall {T : Type} [Zero T] [Add T] [Mul T] (w : List (CoupRank T)) :
    CoupCall T → Option (List (CoupRank T))
  | .forward ncomp dofsA dofsB => (couplerForward ncomp w dofsA dofsB).map (·.1)
  | .backward ncomp dofsB dofsA => (couplerBackward ncomp w dofsB dofsA).map (·.1)

end NP
