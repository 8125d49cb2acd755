import Verif.Common.Kernel

/-!
# Model: non blocking exchanges between ranks

Many functions post receives (`MPI_Irecv`), start sends (`MPI_Isend`) and wait for all of them
(`MPI_Waitall`). Here such a phase is one step: every rank has a list of posted receives (slots)
and a list of messages. The messages to a rank arrive in any order and each goes to the first
slot that is free and accepts it. A message that no slot accepts, or a slot that stays free,
is the outcome `none` (in the program: a rank that waits for ever, or a message which a later
phase would receive).

MPI keeps the order of messages with the same source and tag; here any order is possible, so
there are more behaviours than in MPI. The phases of one function are separated: see DESIGN.md.
-/

set_option autoImplicit false

namespace NP

/-- A message as sent. -/
structure OutMsg (α : Type) where
  dst : Nat
  tag : Nat
  data : α
deriving DecidableEq, Repr

/-- A message as received. `src` is the `MPI_SOURCE` of the status. -/
structure InMsg (α : Type) where
  src : Nat
  tag : Nat
  data : α
deriving DecidableEq, Repr

/-- A posted receive; `src = none` is `MPI_ANY_SOURCE`. -/
structure Slot where
  src : Option Nat
  tag : Nat
deriving DecidableEq, Repr

variable {α : Type}

/-- Whether a message may be received by a slot. -/
def Slot.accepts (s : Slot) (m : InMsg α) : Bool :=
  (match s.src with
    | none => true
    | some r => r == m.src) && s.tag == m.tag

/-- A message goes to the first free slot that accepts it. -/
def place (m : InMsg α) : List (Slot × Option (InMsg α)) → Option (List (Slot × Option (InMsg α)))
  | [] => none
  | (s, none) :: l =>
    if s.accepts m then some ((s, some m) :: l) else (place m l).map ((s, none) :: ·)
  | (s, some x) :: l => (place m l).map ((s, some x) :: ·)

/-- Messages arrive one after the other; the contents of the slots when all are filled. -/
def deliver (slots : List Slot) (arrivals : List (InMsg α)) : Option (List (InMsg α)) :=
  (runItems place arrivals (slots.map fun s => (s, none))).bind fun l => l.mapM fun x => x.2

/-- All messages for rank `r`. -/
def inbox (n : Nat) (sends : Nat → List (OutMsg α)) (r : Nat) : List (InMsg α) :=
  (List.range n).flatMap fun s => (sends s).filterMap fun m =>
    if m.dst = r then some ⟨s, m.tag, m.data⟩ else none

/-- One phase on `n` ranks, seen by rank `r`: the messages in its slots. -/
def exchange (n : Nat) (arrive : Nat → Sched) (slots : Nat → List Slot)
    (sends : Nat → List (OutMsg α)) (r : Nat) : Option (List (InMsg α)) :=
  deliver (slots r) ((arrive r).order (inbox n sends r))

/-- The same on all ranks; `none` also if a message is sent to a rank that does not exist. -/
def exchangeAll (n : Nat) (arrive : Nat → Sched) (slots : Nat → List Slot)
    (sends : Nat → List (OutMsg α)) : Option (List (List (InMsg α))) :=
  if (List.range n).all fun s => (sends s).all fun m => m.dst < n then
    (List.range n).mapM (exchange n arrive slots sends)
  else none

/-! ## Neighbour exchange -/

/-- One edge of a rank in a graph communicator: the other rank, and where the data for it is in
the buffer. Counts are in bytes (elements of the model's buffers); data types are contiguous. -/
structure Edge where
  peer : Nat
  displ : Nat
  len : Nat
deriving DecidableEq, Repr

/-- The tags of the edges: `std::map<int, int>` with a counter for each peer,
communication_utility.cpp:72-76 and 87-92, 141-150 and 157-162. -/
def edgeTags : List Nat → (Nat → Nat) → List Nat
  | [], _ => []
  | p :: ps, ctr => ctr p :: edgeTags ps fun q => if q = p then ctr q + 1 else ctr q

/-- The receives of a rank: communication_utility.cpp:69-82, 140-151. -/
def edgeSlots (ins : List Edge) : List Slot :=
  (ins.zip (edgeTags (ins.map Edge.peer) fun _ => 0)).map fun et => ⟨some et.1.peer, et.2⟩

/-- The sends of a rank: communication_utility.cpp:84-98, 153-166. -/
def edgeSends (outs : List Edge) (buf : List α) : Option (List (OutMsg (List α))) :=
  (outs.zip (edgeTags (outs.map Edge.peer) fun _ => 0)).mapM fun et =>
    (slice buf et.1.displ (et.1.displ + et.1.len)).bind fun d => some ⟨et.1.peer, et.2, d⟩

/-- A received message is stored in the receive buffer; a message that is longer than the
receive is an error (`MPI_ERR_TRUNCATE`). -/
def edgeStore (em : Edge × InMsg (List α)) (buf : List α) : Option (List α) :=
  if em.2.data.length ≤ em.1.len then stRange buf em.1.displ em.2.data else none

/-- `NP_MPI_Neighbor_alltoallw` on all ranks, communication_utility.cpp:121-170. `ins r` and
`outs r` are the edges of rank `r` in the order of `MPI_Dist_graph_neighbors`. The result are the
receive buffers. Displacements are not negative. -/
def neighborAlltoallw (n : Nat) (arrive : Nat → Sched) (ins outs : Nat → List Edge)
    (sendbuf recvbuf : Nat → List α) : Option (List (List α)) :=
  ((List.range n).mapM fun r => edgeSends (outs r) (sendbuf r)).bind fun sends =>
  (exchangeAll n arrive (fun r => edgeSlots (ins r)) (fun s => sends.getD s [])).bind fun got =>
  (List.range n).mapM fun r => (rd got r).bind fun msgs =>
    runItems edgeStore ((ins r).zip msgs) (recvbuf r)

/-- The edges of `NP_MPI_Neighbor_alltoall`: `count` elements at index `ix * count`,
communication_utility.cpp:78-80 and 94-96. -/
def blockEdges (count : Nat) (peers : List Nat) : List Edge :=
  peers.mapIdx fun ix p => ⟨p, count * ix, count⟩

/-- `NP_MPI_Neighbor_alltoall` on all ranks, communication_utility.cpp:51-104. -/
def neighborAlltoall (n : Nat) (arrive : Nat → Sched) (sources destinations : Nat → List Nat)
    (sendcount recvcount : Nat → Nat) (sendbuf recvbuf : Nat → List α) : Option (List (List α)) :=
  neighborAlltoallw n arrive (fun r => blockEdges (recvcount r) (sources r))
    (fun r => blockEdges (sendcount r) (destinations r)) sendbuf recvbuf

/-! ## Counting with remote accumulates -/

/-- All remote increments: rank `s` increments the counters of the ranks it lists. The first
component names the call. -/
def rmaItems (n : Nat) (targets : Nat → List Nat) : List ((Nat × Nat) × Nat) :=
  (List.range n).flatMap fun s => (targets s).zipIdx.map fun ti => ((s, ti.2), ti.1)

/-- `MPI_Get_accumulate` of 1 on the counter of the target; the fetched value is recorded. -/
def rmaStep (it : (Nat × Nat) × Nat) (s : List Nat × (Nat × Nat → Nat)) :
    Option (List Nat × (Nat × Nat → Nat)) :=
  (fetchAdd s.1 it.2).bind fun r =>
    some (r.2, fun k => if k = it.1 then r.1 else s.2 k)

/-- `reset`, `init_count` and `get_count`, communication_edges_counter.cpp:12-35: the counters are
zero before the first barrier and are read after the second one, in between the increments happen
in any order. Also global_move_exchange.hpp:75-150 and local_move.hpp:122-141. The result are the
counters and the fetched values. -/
def rmaCount (n : Nat) (order : Sched) (targets : Nat → List Nat) :
    Option (List Nat × (Nat × Nat → Nat)) :=
  runItems rmaStep (order.order (rmaItems n targets)) (List.replicate n 0, fun _ => 0)

/-! ## CommunicationEdgesCounter -/

/-- The sends of `exchange_send_recv_counts` and of `exchange_send_recv_data`,
communication_edges_counter.cpp:53-57 and 88-93. -/
def countSends {β : Type} (tag : Nat) (ranks : List Nat) (data : List β) :
    Option (List (OutMsg β)) :=
  ranks.zipIdx.mapM fun ri => (rd data ri.2).bind fun v => some ⟨ri.1, tag, v⟩

/-- `exchange_send_recv_counts` with `ordered = false`, communication_edges_counter.cpp:37-72:
`counts r` messages of any source are received. The result of a rank are its `send_ranks` and
`send_data`. -/
def exchangeCountsAny (n : Nat) (arrive : Nat → Sched) (tag : Nat) (counts : Nat → Nat)
    (recvRanks : Nat → List Nat) (recvData : Nat → List Int) :
    Option (List (List Nat × List Int)) :=
  ((List.range n).mapM fun r => countSends tag (recvRanks r) (recvData r)).bind fun sends =>
  (exchangeAll n arrive (fun r => List.replicate (counts r) ⟨none, tag⟩)
    (fun s => sends.getD s [])).bind fun got =>
  some (got.map fun msgs => (msgs.map InMsg.src, msgs.map InMsg.data))

/-- `exchange_send_recv_counts` with `ordered = true`, communication_edges_counter.cpp:37-72, with
the assertion on the source. -/
def exchangeCountsOrdered (n : Nat) (arrive : Nat → Sched) (tag : Nat)
    (recvRanks : Nat → List Nat) (recvData : Nat → List Int) (sendRanks : Nat → List Nat) :
    Option (List (List Int)) :=
  ((List.range n).mapM fun r => countSends tag (recvRanks r) (recvData r)).bind fun sends =>
  (exchangeAll n arrive (fun r => (sendRanks r).map fun s => ⟨some s, tag⟩)
    (fun s => sends.getD s [])).bind fun got =>
  (List.range n).mapM fun r => (rd got r).bind fun msgs =>
    if msgs.map InMsg.src = sendRanks r then some (msgs.map InMsg.data) else none

/-- `exchange_send_recv_data`, communication_edges_counter.cpp:74-98: the message of index `i`
has the first `recvCounts[i]` bytes of a buffer; a message longer than the receive is an error. -/
def exchangeData (n : Nat) (arrive : Nat → Sched) (tag : Nat) (recvRanks : Nat → List Nat)
    (recvCounts : Nat → List Nat) (recvData : Nat → List (List α)) (sendRanks : Nat → List Nat)
    (sendCounts : Nat → List Nat) : Option (List (List (List α))) :=
  ((List.range n).mapM fun r =>
    (((recvRanks r).zipIdx.mapM fun ri => (rd (recvCounts r) ri.2).bind fun c =>
      (rd (recvData r) ri.2).bind fun d => slice d 0 c)).bind fun ds =>
    countSends tag (recvRanks r) ds).bind fun sends =>
  (exchangeAll n arrive (fun r => (sendRanks r).map fun s => ⟨some s, tag⟩)
    (fun s => sends.getD s [])).bind fun got =>
  (List.range n).mapM fun r => (rd got r).bind fun msgs =>
    (msgs.zipIdx.mapM fun mi => (rd (sendCounts r) mi.2).bind fun c =>
      if mi.1.data.length ≤ c then some mi.1.data else none)

/-- `get_remote_ranks`, communication_edges_counter.cpp:100-111, on all ranks. -/
def getRemoteRanks (n : Nat) (order : Sched) (arrive : Nat → Sched)
    (recvRanks : Nat → List Nat) (recvData : Nat → List Int) :
    Option (List (List Nat × List Int)) :=
  (rmaCount n order recvRanks).bind fun ctr =>
  exchangeCountsAny n arrive 127 (fun r => ctr.1.getD r 0) recvRanks recvData

end NP
