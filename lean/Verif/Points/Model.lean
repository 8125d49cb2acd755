import Verif.Basics.Model
import Verif.Comm.ModelExchange
import Mathlib.Algebra.Group.Nat.Defs

/-!
# Model: quadrature points on many ranks

Models `src/external_interfaces/common/quadrature_point_mapper.cpp` and
`include/neso_particles/external_interfaces/common/quadrature_point_mapper.hpp` on all ranks of a
communicator. `hybrid_move` and `cell_move` between the creation of the particles and the set up of
the communication are those of Hybrid and Group: here the particles that each rank holds afterwards
are an input.
-/

set_option autoImplicit false

namespace NP

/-- A quadrature point as a particle: its position, its cell, and the components 0 and 1 of
`ADDING_RANK_INDEX`, the rank that added the point and which of its points it is. The other two
components, which are computed by `add_points_finalise`, are separate arrays (`QpHeld.write` and
`qpOrder`). -/
structure QPoint (α : Type) where
  coords : List α
  cell : Nat
  rank : Nat
  index : Nat
deriving DecidableEq

variable {α : Type}

/-- `add_point`, quadrature_point_mapper.cpp:31-39: push the point on the stack, whose top is the
head of the list. -/
def qpAdd (me : Nat) (added : List (QPoint α)) (x : List α) : List (QPoint α) :=
  ⟨x, 0, me, added.length⟩ :: added

/-- All calls of `add_point` and the loop of `add_points_finalise` over the stack,
quadrature_point_mapper.cpp:50-65: the particles in the order of the rows of the particle set. -/
def qpAdded (me : Nat) (xs : List (List α)) : List (QPoint α) := xs.foldl (qpAdd me) []

/-- `RemotePoint`, quadrature_point_mapper.cpp:71-77. The cell and the layer are never read and are
left out. -/
structure QpRemote where
  rank : Nat
  index : Nat
  write : Nat
deriving DecidableEq

/-- `map[r].push_back(v)` for a `std::map<int, std::vector<int>>`. -/
def mapPush (r v : Nat) : List (Nat × List Nat) → List (Nat × List Nat)
  | [] => [(r, [v])]
  | (k, l) :: m =>
    if r < k then (r, [v]) :: (k, l) :: m
    else if r = k then (k, l ++ [v]) :: m
    else (k, l) :: mapPush r v m

/-- The particle loop `add_points_finalise_0`, quadrature_point_mapper.cpp:89-109, for one particle:
the counter, the remote points and the temporary indices. A particle is named by its local linear
index. -/
def qpStep0 (me : Nat) (pts : List (QPoint α)) (i : Nat)
    (s : List Nat × List QpRemote × List Nat) : Option (List Nat × List QpRemote × List Nat) :=
  (rd pts i).bind fun p =>
  if p.rank ≠ me then
    (fetchAdd s.1 0).bind fun r =>
    (st s.2.1 r.1 ⟨p.rank, p.index, 0⟩).bind fun remote =>
    (st s.2.2 i r.1).bind fun tmp => some (r.2, remote, tmp)
  else some s

/-- The particle loop `add_points_finalise_1`, quadrature_point_mapper.cpp:161-179, for one particle:
the next free place for each rank, the remote points and component 2 of `ADDING_RANK_INDEX`. -/
def qpStep1 (me : Nat) (pts : List (QPoint α)) (tmp : List Nat) (i : Nat)
    (s : List Nat × List QpRemote × List Nat) : Option (List Nat × List QpRemote × List Nat) :=
  (rd pts i).bind fun p =>
  if p.rank ≠ me then
    (fetchAdd s.1 p.rank).bind fun r =>
    (rd tmp i).bind fun t =>
    (rd s.2.1 t).bind fun q =>
    (st s.2.1 t { q with write := r.1 }).bind fun remote =>
    (st s.2.2 i r.1).bind fun write => some (r.2, remote, write)
  else (st s.2.2 i p.index).bind fun write => some (s.1, s.2.1, write)

/-- The particle loop `add_points_finalise_2`, quadrature_point_mapper.cpp:214-225, for one
particle. -/
def qpStep2 (me : Nat) (pts : List (QPoint α)) (write : List Nat) (i : Nat) (s : List Nat) :
    Option (List Nat) :=
  (rd pts i).bind fun p =>
  if p.rank ≠ me then (rd write i).bind fun w => st s w p.index
  else some s

/-- The orders in which the loops of one rank run and the memory that it allocates. -/
structure QpEnv (α : Type) where
  s0 : Sched
  s1 : Sched
  s2 : Sched
  s3 : Sched
  remote : Fresh QpRemote
  tmp : Fresh Nat
  write : Fresh Nat
  idx : Fresh Nat
  recvIdx : Fresh Nat
  loc : Fresh α
  rem : Fresh α
  recv : Fresh α

/-- What a rank knows about the points that it holds: component 2 of `ADDING_RANK_INDEX`, the number
of points that other ranks added, `adding_ranks`, `adding_indices_count` and
`adding_point_indices`. -/
structure QpHeld where
  write : List Nat
  nremote : Nat
  ranks : List Nat
  counts : List Nat
  sendIdx : List Nat
deriving Inhabited, DecidableEq

/-- The first part of `add_points_finalise` after the moves, quadrature_point_mapper.cpp:79-202 and
211-228, on one rank. `map_recv_rank_start_end` is never read and is left out. -/
def qpHeld (e : QpEnv α) (size me : Nat) (pts : List (QPoint α)) : Option QpHeld :=
  let items := List.range pts.length
  (runItems (qpStep0 me pts) (e.s0.order items)
    ([0], (e.remote pts.length).1, (e.tmp pts.length).1)).bind fun a =>
  (rd a.1 0).bind fun num =>
  (slice a.2.1 0 num).bind fun points =>
  let m := points.foldl (fun m p => mapPush p.rank p.index m) []
  let ranks := m.map Prod.fst
  let counts := m.map fun x => x.2.length
  let starts := exclusiveFrom 0 counts
  (runItems (fun rx arr => (rd ranks rx).bind fun r => (rd starts rx).bind fun s => st arr r s)
    (List.range ranks.length) (List.replicate size 0)).bind fun rankStarts =>
  (runItems (qpStep1 me pts a.2.2) (e.s1.order items)
    (rankStarts, a.2.1, (e.write pts.length).1)).bind fun b =>
  (ranks.mapM fun r => rd b.1 r).bind fun ends =>
  if List.zipWith (· + ·) starts counts = ends then
    (runItems (qpStep2 me pts b.2.2) (e.s2.order items) (e.idx num).1).bind fun sendIdx =>
    some ⟨b.2.2, num, ranks, counts, sendIdx⟩
  else none

/-- The particle loop `add_points_finalise_3`, quadrature_point_mapper.cpp:257-270, for one
particle: the number of points in each cell and component 3 of `ADDING_RANK_INDEX`. -/
def qpStep3 (me : Nat) (pts : List (QPoint α)) (i : Nat) (s : List Nat × List Int) :
    Option (List Nat × List Int) :=
  (rd pts i).bind fun p =>
  if p.rank = me then
    (fetchAdd s.1 p.cell).bind fun r => (st s.2 i (r.1 : Int)).bind fun order => some (r.2, order)
  else (st s.2 i (-1)).bind fun order => some (s.1, order)

/-- The end of `add_points_finalise`, quadrature_point_mapper.cpp:251-270: component 3 of
`ADDING_RANK_INDEX` on one rank, whose values before are `old`. -/
def qpOrder (e : QpEnv α) (ncell me : Nat) (pts : List (QPoint α)) (old : List Int) :
    Option (List Int) :=
  (runItems (qpStep3 me pts) (e.s3.order (List.range pts.length)) (List.replicate ncell 0, old)).bind
    fun s => some s.2

/-- `compute_offsets`, quadrature_point_mapper.hpp:83-108, for the data to send, and the messages
that start at these offsets. -/
def qpMessages {β : Type} (ncomp : Nat) (counts : List Nat) (buf : List β) :
    Option (List (List β)) :=
  let sizes := counts.map fun c => c * ncomp
  if sizes.sum ≤ buf.length then
    ((exclusiveFrom 0 sizes).zip sizes).mapM fun os => slice buf os.1 (os.1 + os.2)
  else none

/-- The messages that arrive at the offsets of `compute_offsets`. -/
def qpPlace {β : Type} (ncomp : Nat) (counts : List Nat) (data : List (List β)) (buf : List β) :
    Option (List β) :=
  runItems (fun od buf => stRange buf od.1 od.2)
    ((exclusiveFrom 0 (counts.map fun c => c * ncomp)).zip data) buf

/-- `compute_num_bytes`, `compute_offsets` and `exchange_send_recv_data` on all ranks,
quadrature_point_mapper.cpp:230-245 and 326-336: rank `r` sends `send r` and receives into `recv r`.
The second assertion of `compute_offsets` is the condition. -/
def qpExchange {β : Type} (n : Nat) (arrive : Nat → Sched) (ncomp : Nat)
    (ranks counts owners ownCounts : Nat → List Nat) (send recv : Nat → List β) :
    Option (List (List β)) :=
  ((List.range n).mapM fun r => qpMessages ncomp (counts r) (send r)).bind fun msgs =>
  if ∀ r ∈ List.range n, ((ownCounts r).map fun c => c * ncomp).sum ≤ (recv r).length then
    (exchangeData n arrive 126 ranks (fun r => (counts r).map fun c => c * ncomp)
      (fun r => msgs.getD r []) owners (fun r => (ownCounts r).map fun c => c * ncomp)).bind
    fun got => (List.range n).mapM fun r => (rd got r).bind fun data =>
      qpPlace ncomp (ownCounts r) data (recv r)
  else none

/-- A rank after `add_points_finalise`: how many points it added, the points it holds, and the ranks
that hold its points, with their numbers and indices. -/
structure QpRank (α : Type) where
  npoint : Nat
  pts : List (QPoint α)
  held : QpHeld
  owners : List Nat
  ownCounts : List Nat
  ownIdx : List Nat
deriving Inhabited

/-- `add_points_finalise` after the moves on all ranks, quadrature_point_mapper.cpp:69-245: rank `r`
added `npoint r` points and now holds `pts r`. -/
def qpFinalise (n : Nat) (e : Nat → QpEnv α) (order : Sched) (arrive arrive' : Nat → Sched)
    (npoint : Nat → Nat) (pts : Nat → List (QPoint α)) : Option (List (QpRank α)) :=
  ((List.range n).mapM fun r => qpHeld (e r) n r (pts r)).bind fun hs =>
  let h := fun r => hs.getD r default
  (getRemoteRanks n order arrive (fun r => (h r).ranks)
    (fun r => (h r).counts.map Int.ofNat)).bind fun own =>
  let owners := fun r => (own.getD r default).1
  let ownCounts := fun r => (own.getD r default).2.map Int.toNat
  if ∀ r ∈ List.range n, (h r).counts.sum = (h r).sendIdx.length then
    (qpExchange n arrive' 1 (fun r => (h r).ranks) (fun r => (h r).counts) owners ownCounts
      (fun r => (h r).sendIdx) (fun r => ((e r).recvIdx (ownCounts r).sum).1)).bind fun idx =>
    (List.range n).mapM fun r => (rd idx r).bind fun ix =>
      some ⟨npoint r, pts r, h r, owners r, ownCounts r, ix⟩
  else none

/-- The particle loop of `get`, quadrature_point_mapper.cpp:297-312, for one particle: the values of
the points that this rank added and of those that other ranks added. -/
def qpGetStep (me ncomp : Nat) (q : QpRank α) (vals : List (List α)) (i : Nat)
    (s : List α × List α) : Option (List α × List α) :=
  (rd q.pts i).bind fun p => (rd q.held.write i).bind fun w => (rd vals i).bind fun row =>
  (slice row 0 ncomp).bind fun v =>
  if p.rank = me then (stRange s.1 (w * ncomp) v).bind fun l => some (l, s.2)
  else (stRange s.2 (w * ncomp) v).bind fun l => some (s.1, l)

/-- `get` on one rank up to the exchange, quadrature_point_mapper.cpp:285-324, with
`make_contribs_buffers`, quadrature_point_mapper.cpp:6-21: the first values of `output` and the
values to send. A buffer that is already larger stays so, which makes no difference. -/
def qpGetLocal (e : QpEnv α) (me ncomp : Nat) (q : QpRank α) (vals : List (List α)) :
    Option (List α × List α) :=
  (runItems (qpGetStep me ncomp q vals) (e.s0.order (List.range q.pts.length))
    ((e.loc (max (q.npoint * ncomp) 1)).1, (e.rem (max (q.held.nremote * ncomp) 1)).1)).bind
  fun s => (slice s.1 0 (q.npoint * ncomp)).bind fun output =>
  (slice s.2 0 (q.held.nremote * ncomp)).bind fun send => some (output, send)

/-- The loop over the received values, quadrature_point_mapper.cpp:338-346. -/
def qpScatter (ncomp : Nat) (ownIdx : List Nat) (recv output : List α) : Option (List α) :=
  runItems (fun ix output => (rd ownIdx ix).bind fun d =>
    (slice recv (ix * ncomp) (ix * ncomp + ncomp)).bind fun v => stRange output (d * ncomp) v)
    (List.range ownIdx.length) output

/-- `get` on all ranks, quadrature_point_mapper.cpp:285-347, with the assertion of `get_sym`,
quadrature_point_mapper.cpp:275-276. `recv_buffer` gets the size which `compute_num_bytes` returns,
quadrature_point_mapper.hpp:67-81: the number of points, not of values. -/
def qpGet (n : Nat) (e : Nat → QpEnv α) (arrive : Nat → Sched) (ncomp : Nat)
    (qs : Nat → QpRank α) (vals : Nat → List (List α)) : Option (List (List α)) :=
  if 0 < ncomp ∧ ncomp < 1000 then
    ((List.range n).mapM fun r => qpGetLocal (e r) r ncomp (qs r) (vals r)).bind fun ls =>
    (qpExchange n arrive ncomp (fun r => (qs r).held.ranks) (fun r => (qs r).held.counts)
      (fun r => (qs r).owners) (fun r => (qs r).ownCounts) (fun r => (ls.getD r ([], [])).2)
      (fun r => ((e r).recv (qs r).ownCounts.sum).1)).bind fun recv =>
    (List.range n).mapM fun r => (rd ls r).bind fun l => (rd recv r).bind fun rv =>
      qpScatter ncomp (qs r).ownIdx rv l.1
  else none

/-- The particle loop of `set`, quadrature_point_mapper.cpp:363-374, for one particle. -/
def qpSetStep (me ncomp : Nat) (q : QpRank α) (loc : List α) (i : Nat) (vals : List (List α)) :
    Option (List (List α)) :=
  (rd q.pts i).bind fun p => (rd q.held.write i).bind fun w =>
  if p.rank = me then
    (slice loc (w * ncomp) (w * ncomp + ncomp)).bind fun v =>
    (rd vals i).bind fun row => (stRange row 0 v).bind fun row => st vals i row
  else some vals

/-- `set` on one rank, quadrature_point_mapper.cpp:349-375. -/
def qpSet (e : QpEnv α) (me ncomp : Nat) (q : QpRank α) (input : List α) (vals : List (List α)) :
    Option (List (List α)) :=
  if (0 < ncomp ∧ ncomp < 1000) ∧ q.npoint * ncomp ≤ input.length then
    (slice input 0 (q.npoint * ncomp)).bind fun v =>
    (stRange (e.loc (max (q.npoint * ncomp) 1)).1 0 v).bind fun loc =>
    runItems (qpSetStep me ncomp q loc) (e.s0.order (List.range q.pts.length)) vals
  else none

/-- `interpolate` for all components, quadrature_point_mapper.hpp:253-274, with `assemble_args` and
`apply_args`, quadrature_point_mapper.hpp:207-240: one particle. -/
def qpInterpStep (pts : List (QPoint α)) (fs : List (List α → α)) (i : Nat) (vals : List (List α)) :
    Option (List (List α)) :=
  (rd pts i).bind fun p => (rd vals i).bind fun row =>
  (stRange row 0 (fs.map fun f => f p.coords)).bind fun row => st vals i row

/-- `interpolate` on one rank, quadrature_point_mapper.hpp:253-274. -/
def qpInterp (e : QpEnv α) (pts : List (QPoint α)) (fs : List (List α → α)) (vals : List (List α)) :
    Option (List (List α)) :=
  runItems (qpInterpStep pts fs) (e.s0.order (List.range pts.length)) vals

end NP
