import Verif.Group.ModelRemove
import Verif.Comm.ModelExchange
import Verif.Comm.ModelSet

/-!
# Model: moving particles between ranks

Models `src/departing_particle_identification.cpp`, `src/packing_unpacking.cpp`,
`include/neso_particles/global_move.hpp`, `global_move_exchange.hpp` and `local_move.hpp`.

Packed particles are sequences of 8 byte words: REAL and INT values both have 8 bytes
(`typedefs.hpp`), all offsets in the code are multiples of 8 bytes. The C++ `int` arithmetic
does not overflow in the model.
-/

set_option autoImplicit false

namespace NP

/-! ## DepartingIdentify -/

/-- The members of `DepartingIdentify` after `identify`. -/
structure Depart where
  sendRanks : List Nat
  sendCounts : List Nat
  rankMap : List Nat
  cells : List Int
  layersSrc : List Int
  layersDst : List Nat
  numRanks : Nat
  numParticles : Nat
deriving Inhabited

/-- The rank a particle is sent to, if it is sent, departing_particle_identification.cpp:68-72. -/
def departRank (size own : Nat) (m : Mem) (rankSym comp : Nat) (p : Nat × Nat) :
    Option (Option Nat) :=
  (m ⟨rankSym, p.1, comp, p.2⟩).bind fun v =>
    some (if ((v ≥ 0) ∧ (v < (size : Int))) ∧ v ≠ (own : Int) then some v.toNat else none)

/-- The packing layer of a particle, departing_particle_identification.cpp:76-79. The layer is a
local variable of the work item; here it is recorded for each particle. -/
def departLayerStep (size own : Nat) (m : Mem) (rankSym comp : Nat) (p : Nat × Nat)
    (s : List Nat × (Nat × Nat → Nat)) : Option (List Nat × (Nat × Nat → Nat)) :=
  (departRank size own m rankSym comp p).bind fun o => match o with
    | none => some s
    | some r => (fetchAdd s.1 r).bind fun x =>
        some (x.2, fun q => if q = p then x.1 else s.2 q)

/-- The list of particles to send, departing_particle_identification.cpp:83-91. -/
def departListStep (size own : Nat) (m : Mem) (rankSym comp : Nat) (layer : Nat × Nat → Nat)
    (p : Nat × Nat) (s : List Nat × (List Int × List Int × List Nat)) :
    Option (List Nat × (List Int × List Int × List Nat)) :=
  (departRank size own m rankSym comp p).bind fun o => match o with
    | none => some s
    | some _ => (fetchAdd s.1 0).bind fun x =>
        (st s.2.1 x.1 (p.1 : Int)).bind fun cells =>
        (st s.2.2.1 x.1 (p.2 : Int)).bind fun src =>
        (st s.2.2.2 x.1 (layer p)).bind fun dst => some (x.2, cells, src, dst)

/-- The list of ranks to send to, departing_particle_identification.cpp:96-103. -/
def departRankStep (size own : Nat) (m : Mem) (rankSym comp : Nat) (layer : Nat × Nat → Nat)
    (p : Nat × Nat) (s : List Nat × (List Nat × List Nat)) :
    Option (List Nat × (List Nat × List Nat)) :=
  (departRank size own m rankSym comp p).bind fun o => match o with
    | none => some s
    | some r =>
      if layer p = 0 ∧ comp = 0 then
        (fetchAdd s.1 0).bind fun x => (st s.2.1 x.1 r).bind fun ranks =>
        (st s.2.2 r x.1).bind fun map => some (x.2, ranks, map)
      else some s

/-- `DepartingIdentify::identify`, departing_particle_identification.cpp:18-139. A work item uses
three atomic counters one after the other; other items may run between these. So the three uses
are separate passes with independent orders of the items. `map0` is the contents of
`dh_send_rank_map` before, which is not reset. -/
def identify (e : Env) (size own : Nat) (g : Group) (comp : Nat) (map0 : List Nat) :
    Option Depart :=
  if ¬ size > 0 then none else
  (g.dat? g.rankSym).bind fun rank =>
  let npartLocal := rank.hNpart.sum
  (submitVisits e.loop rank.hNpart false npartLocal none none).bind fun vis =>
  (runItems (departLayerStep size own g.mem g.rankSym comp) ((e.sched 30).order vis)
    (List.replicate size 0, fun _ => 0)).bind fun a =>
  (runItems (departListStep size own g.mem g.rankSym comp a.2) ((e.sched 31).order vis)
    ([0], (e.freshI 30 npartLocal).1, (e.freshI 31 npartLocal).1,
      (e.freshN 30 npartLocal).1)).bind fun b =>
  (runItems (departRankStep size own g.mem g.rankSym comp a.2) ((e.sched 32).order vis)
    ([0], List.replicate size 0, map0)).bind fun c =>
  (rd b.1 0).bind fun np => (rd c.1 0).bind fun nr =>
    some ⟨c.2.1, a.1, c.2.2, b.2.1, b.2.2.1, b.2.2.2, nr, np⟩

/-! ## ParticlePacker -/

/-- `dh_ncomp_exscan_*`, particle_group_pointer_map.cpp: components of the dats before. -/
def ncompExscan (dats : List Dat) : List Nat := exclusiveFrom 0 (dats.map (·.ncomp))

/-- `dh_flattened_dat_index_*` and `dh_flattened_comp_index_*`,
particle_group_pointer_map.cpp:56-68, 96-106. -/
def flatIndex (dats : List Dat) : List (Nat × Nat) :=
  dats.zipIdx.flatMap fun di => (List.range di.1.ncomp).map fun j => (di.2, j)

/-- `get_num_bytes_per_particle`, in words, particle_group_pointer_map.cpp. -/
def numWords (dats : List Dat) : Nat := (dats.map (·.ncomp)).sum

/-- What a work item for flattened component `q` of the REAL (INT) dats finds: property,
component, index of the word among the REAL (INT) words; packing_unpacking.cpp:103-105,
130-131, 275-277, 296-298. -/
def packIndex (dats : List Dat) (q : Nat) : Option (Nat × Nat × Nat) :=
  (rd (flatIndex dats) q).bind fun dj => (rd dats dj.1).bind fun d =>
  (rd (ncompExscan dats) dj.1).bind fun o => some (d.sym, dj.2, o + dj.2)

/-- The dats of one of the two kernels and the words before those of the kernel; the first `nReal`
dats of the group are REAL valued. -/
def packSide (dats : List Dat) (nReal : Nat) (isInt : Bool) : List Dat × Nat :=
  if isInt then (dats.drop nReal, numWords (dats.take nReal)) else (dats.take nReal, 0)

/-- Work items of the two kernels: kernel, particle, flattened component. The kernels are
submitted without a wait in between, so their items may interleave. -/
def packItems (dats : List Dat) (nReal n : Nat) : List (Bool × Nat × Nat) :=
  ([false, true].flatMap fun b => (List.range n).flatMap fun i =>
    (List.range (numWords (packSide dats nReal b).1)).map fun q => (b, i, q))

/-- One work item of `ParticlePacker::pack`, packing_unpacking.cpp:101-119, 127-148. `packs` are
the cells of the packing `CellDat`. -/
def packStep (m : Mem) (rankSym comp : Nat) (dats : List Dat) (nReal : Nat) (d : Depart)
    (rankMap : List Nat) (it : Bool × Nat × Nat) (packs : List (List Int)) :
    Option (List (List Int)) :=
  let side := packSide dats nReal it.1
  (packIndex side.1 it.2.2).bind fun x =>
  (rd d.cells it.2.1).bind fun cell => (index cell).bind fun c =>
  (rd d.layersSrc it.2.1).bind fun src => (index src).bind fun k =>
  (rd d.layersDst it.2.1).bind fun dst =>
  (m ⟨rankSym, c, comp, k⟩).bind fun rank => (index rank).bind fun r =>
  (rd rankMap r).bind fun pc => (rd packs pc).bind fun buf =>
  (m ⟨x.1, c, x.2.1, k⟩).bind fun v =>
  (st buf (dst * numWords dats + (side.2 + x.2.2)) v).bind fun buf => some (packs.set pc buf)

/-- `ParticlePacker::pack`, packing_unpacking.cpp:43-150. The cells of the `CellDat` have exactly
the requested number of rows; what is in them before is arbitrary. (In the code they may be
larger.) -/
def pack (e : Env) (g : Group) (nReal comp numRanks : Nat) (nparts rankMap : List Nat)
    (d : Depart) : Option (List (List Int)) :=
  ((List.range numRanks).mapM fun i => (rd nparts i).bind fun n =>
    some (e.freshI (40 + i) (n * numWords g.dats)).1).bind fun packs =>
  if d.numParticles ≤ 0 then some packs else
  runItems (packStep g.mem g.rankSym comp g.dats nReal d rankMap)
    ((e.sched 33).order (packItems g.dats nReal d.numParticles)) packs

/-- `ParticlePacker::get_packed_pointers`, packing_unpacking.cpp:5-41: what is at the pointer of
each rank. If MPI cannot read device memory (`aware = false`) the packed particles are copied one
after the other to one host buffer of length `required_send_buffer_length`. -/
def packedPointers (e : Env) (aware : Bool) (words : Nat) (nparts : List Nat)
    (packs : List (List Int)) : Option (List (List Int)) :=
  if aware then some packs else
  let fresh := (e.freshI 36 ((nparts.map (· * words)).sum)).1
  (runItems (fun (i : Nat) (s : List Int × Nat × List Nat) =>
      (rd nparts i).bind fun n => (rd packs i).bind fun buf =>
      (slice buf 0 (n * words)).bind fun data =>
      (if n * words > 0 then stRange s.1 s.2.1 data else some s.1).bind fun h =>
        some (h, s.2.1 + n * words, s.2.2 ++ [s.2.1]))
    (List.range packs.length) (fresh, 0, [])).bind fun s =>
  some (s.2.2.map fun o => s.1.drop o)

/-! ## ParticleUnpacker -/

/-- `ParticleUnpacker::reset`, packing_unpacking.cpp:175-201: offsets, and number of particles
that will be received. -/
def unpackReset (words : Nat) (nparts : List Nat) : List Nat × Nat :=
  nparts.foldl (fun s n => (s.1 ++ [s.2 * words], s.2 + n)) ([], 0)

/-- The received messages are stored at the offsets, packing_unpacking.cpp:152-173; the copy to
the device, packing_unpacking.cpp:209-214, gives the same contents. -/
def recvBuffer (e : Env) (words total : Nat) (offsets : List Nat) (msgs : List (List Int)) :
    Option (List Int) :=
  runItems (fun om buf => stRange buf om.1 om.2) (offsets.zip msgs)
    (e.freshI 37 (total * words)).1

/-- `realloc(0, n)` and `set_npart_cell(0, n)` for one dat, packing_unpacking.cpp:224-231,
particle_dat.hpp:511-521, 692-712. -/
def unpackRealloc (e : Env) (n : Nat) (s : Mem × Dat) : Option (Mem × Dat) :=
  (setNrow e 0 n s).bind fun s =>
  (st s.2.hNpart 0 n).bind fun h => (st s.2.dNpart 0 n).bind fun d =>
    some (s.1, { s.2 with hNpart := h, dNpart := d })

/-- One work item of `ParticleUnpacker::unpack`, packing_unpacking.cpp:273-289, 295-311. -/
def unpackStep (dats : List Dat) (nReal old : Nat) (buf : List Int) (it : Bool × Nat × Nat)
    (m : Mem) : Option Mem :=
  let side := packSide dats nReal it.1
  (packIndex side.1 it.2.2).bind fun x =>
  (rd buf (numWords dats * it.2.1 + (side.2 + x.2.2))).bind fun v =>
  mst m ⟨x.1, 0, x.2.1, old + it.2.1⟩ v

/-- `ParticleUnpacker::unpack`, packing_unpacking.cpp:203-318. -/
def unpack (e : Env) (g : Group) (nReal npartRecv : Nat) (buf : List Int) : Option Group :=
  (g.dat? g.rankSym).bind fun rank => (rd rank.hNpart 0).bind fun old =>
  (mapDats (unpackRealloc e (old + npartRecv)) g.dats g.mem).bind fun r =>
  if npartRecv ≤ 0 then some { g with mem := r.1, dats := r.2 } else
  (runItems (unpackStep r.2 nReal old buf)
    ((e.sched 34).order (packItems r.2 nReal npartRecv)) r.1).bind fun m =>
  some { g with mem := m, dats := r.2 }

/-! ## GlobalMove -/

/-- What a rank has prepared before the exchange: the departing particles, the ranks it sends to,
the number of particles for each and the data. -/
structure MovePrep where
  dep : Depart
  ranks : List Nat
  nparts : List Nat
  msgs : List (List Int)
deriving Inhabited

/-- The first part of `GlobalMove::move`, global_move.hpp:88-149, with the assertions of
`npart_exchange_sendrecv`, global_move_exchange.hpp:104-119, and the pointers to the packed
data, global_move_exchange.hpp:226-228. -/
def globalPrepare (e : Env) (aware : Bool) (size own nReal : Nat) (map0 : List Nat) (g : Group) :
    Option MovePrep :=
  (identify e size own g 0 map0).bind fun d =>
  (runItems (fun i a => (rd d.sendRanks i).bind fun r => (rd d.sendCounts r).bind fun n =>
    st a i n) ((e.sched 35).order (List.range d.numRanks)) (e.freshN 31 d.numRanks).1).bind
    fun nparts =>
  (pack e g nReal 0 d.numRanks nparts d.rankMap d).bind fun packs =>
  (slice d.sendRanks 0 d.numRanks).bind fun ranks =>
  if (∀ r ∈ ranks, r < size) ∧ ∀ n ∈ nparts, n > 0 then
    (packedPointers e aware (numWords g.dats) nparts packs).bind fun msgs =>
      some ⟨d, ranks, nparts, msgs⟩
  else none

/-- The last part of `GlobalMove::move`, global_move.hpp:159-200, of `LocalMove::move`,
local_move.hpp:325-357, and `set_npart_cell_from_dat`, `invalidate_group_version` of
`ParticleGroup::global_move` and `local_move`, particle_group.cpp:1086-1096. `nparts` are the
numbers of particles to receive. -/
def moveFinish (e : Env) (nReal : Nat) (g : Group) (prep : MovePrep) (nparts : List Nat)
    (msgs : List (List Int)) : Option Group :=
  let offsets := unpackReset (numWords g.dats) nparts
  (recvBuffer e (numWords g.dats) offsets.2 offsets.1 msgs).bind fun buf =>
  (compressorRemove e g prep.dep.numParticles prep.dep.cells prep.dep.layersSrc).bind fun g =>
  (unpack e g nReal offsets.2 buf).bind fun g =>
  (setNpartCellFromDat g).bind fun g => some (invalidateVersion g)

/-- `ParticleGroup::global_move` on all ranks of the communicator, particle_group.cpp:1086-1090.
`order` is the order of the remote increments, `arrive1` and `arrive2` the orders in which
messages arrive. -/
def globalMove (n : Nat) (order : Sched) (arrive1 arrive2 : Nat → Sched) (e : Nat → Env)
    (aware : Bool) (nReal : Nat) (maps : Nat → List Nat) (g : Nat → Group) :
    Option (List Group) :=
  ((List.range n).mapM fun r => globalPrepare (e r) aware n r nReal (maps r) (g r)).bind
    fun preps =>
  let prep := fun r => preps.getD r default
  (rmaCount n order fun r => (prep r).ranks).bind fun ctr =>
  (exchangeCountsAny n arrive1 42 (fun r => ctr.1.getD r 0) (fun r => (prep r).ranks)
    (fun r => (prep r).nparts.map fun (x : Nat) => (x : Int))).bind fun recv =>
  let recvRanks := fun r => (recv.getD r default).1
  let recvNparts := fun r => (recv.getD r default).2.map Int.toNat
  if ∀ r, r < n → (∀ s ∈ recvRanks r, s < n) ∧ ∀ x ∈ (recv.getD r default).2, x > 0 then
    (exchangeData n arrive2 43 (fun r => (prep r).ranks)
      (fun r => (prep r).nparts.map (· * numWords (g r).dats)) (fun r => (prep r).msgs) recvRanks
      (fun r => (recvNparts r).map (· * numWords (g r).dats))).bind fun got =>
    (List.range n).mapM fun r => (rd got r).bind fun msgs =>
      if msgs.map List.length = (recvNparts r).map (· * numWords (g r).dats) then
        moveFinish (e r) nReal (g r) (prep r) (recvNparts r) msgs
      else none
  else none

/-! ## LocalMove -/

/-- The communication pattern of a `LocalMove` on one rank. -/
structure LocalPattern where
  sendRanks : List Nat
  recvRanks : List Nat
  rankMap : List Nat
deriving Inhabited

/-- The set of ranks to send to, local_move.hpp:94-115. -/
def localSendRanks (size own : Nat) (ranks : List Int) : Option (List Nat) :=
  (runItems (fun (x : Int) (s : List Int) =>
    if x ≥ 0 ∧ x < (size : Int) then some (if x ≠ (own : Int) then rankSetInsert x s else s)
    else none) ranks []).bind fun s => s.mapM index

/-- `dh_send_rank_map`, local_move.hpp:177-181. -/
def localRankMap (fresh : List Nat) (sendRanks : List Nat) : Option (List Nat) :=
  runItems (fun (ri : Nat × Nat) map => st map ri.1 ri.2) sendRanks.zipIdx fresh

/-- The constructor of `LocalMove` on all ranks, local_move.hpp:82-183: `ranks r` is the argument
on rank `r`. The tag of the message to a rank is the fetched value of its counter; the messages
hold the rank of the sender. -/
def localSetup (n : Nat) (order : Sched) (arrive : Nat → Sched) (fresh : Nat → List Nat)
    (ranks : Nat → List Int) : Option (List LocalPattern) :=
  ((List.range n).mapM fun r => localSendRanks n r (ranks r)).bind fun sends =>
  let sendRanks := fun r => sends.getD r []
  (rmaCount n order sendRanks).bind fun ctr =>
  (exchangeAll n arrive (fun r => (List.range (ctr.1.getD r 0)).map fun i => ⟨none, i⟩)
    (fun s => (sendRanks s).zipIdx.map fun ri => ⟨ri.1, ctr.2 (s, ri.2), s⟩)).bind fun got =>
  (List.range n).mapM fun r => (rd got r).bind fun msgs =>
    (localRankMap (fresh r) (sendRanks r)).bind fun map =>
      some ⟨sendRanks r, msgs.map InMsg.data, map⟩

/-- The first part of `LocalMove::move`, local_move.hpp:282-325, and the pointers to the packed
data, local_move.hpp:228-229. -/
def localPrepare (e : Env) (aware : Bool) (size own nReal : Nat) (map0 : List Nat)
    (pat : LocalPattern) (g : Group) : Option MovePrep :=
  (identify e size own g 1 map0).bind fun d =>
  (pat.sendRanks.mapM fun r => rd d.sendCounts r).bind fun nparts =>
  (runItems (fun r a => st a r 0) pat.sendRanks d.sendCounts).bind fun rest =>
  if ∀ r, r < size → rest[r]? = some 0 then
    (pack e g nReal 1 pat.sendRanks.length nparts pat.rankMap d).bind fun packs =>
    (packedPointers e aware (numWords g.dats) nparts packs).bind fun msgs =>
      some ⟨d, pat.sendRanks, nparts, msgs⟩
  else none

/-- The received messages beside the receives with a positive count; the others have no message. -/
def fillMessages : List Nat → List (List Int) → Option (List (List Int))
  | [], [] => some []
  | [], _ :: _ => none
  | 0 :: ns, msgs => (fillMessages ns msgs).map ([] :: ·)
  | (_ + 1) :: _, [] => none
  | (_ + 1) :: ns, m :: msgs => (fillMessages ns msgs).map (m :: ·)

/-- `ParticleGroup::local_move` on all ranks, particle_group.cpp:1092-1096, local_move.hpp:199-369.
Messages without particles are not sent. -/
def localMove (n : Nat) (arrive1 arrive2 : Nat → Sched) (e : Nat → Env) (aware : Bool)
    (nReal : Nat) (maps : Nat → List Nat) (pat : Nat → LocalPattern) (g : Nat → Group) :
    Option (List Group) :=
  ((List.range n).mapM fun r => localPrepare (e r) aware n r nReal (maps r) (pat r) (g r)).bind
    fun preps =>
  let prep := fun r => preps.getD r default
  ((List.range n).mapM fun r => countSends 43 (prep r).ranks (prep r).nparts).bind fun sends =>
  (exchangeAll n arrive1 (fun r => (pat r).recvRanks.map fun s => ⟨some s, 43⟩)
    (fun s => sends.getD s [])).bind fun got1 =>
  let recvNparts := fun r => (got1.getD r []).map InMsg.data
  let sendPart := fun r => ((prep r).ranks.zip ((prep r).nparts.zip (prep r).msgs)).filter
    fun x => x.2.1 > 0
  let recvPart := fun r => ((pat r).recvRanks.zip (recvNparts r)).filter fun x => x.2 > 0
  (exchangeData n arrive2 43 (fun r => (sendPart r).map fun x => x.1)
    (fun r => (sendPart r).map fun x => x.2.1 * numWords (g r).dats)
    (fun r => (sendPart r).map fun x => x.2.2) (fun r => (recvPart r).map fun x => x.1)
    (fun r => (recvPart r).map fun x => x.2 * numWords (g r).dats)).bind fun got =>
  (List.range n).mapM fun r => (rd got r).bind fun msgs =>
    (fillMessages (recvNparts r) msgs).bind fun msgs =>
      moveFinish (e r) nReal (g r) (prep r) (recvNparts r) msgs

end NP
