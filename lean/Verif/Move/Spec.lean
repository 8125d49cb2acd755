import Verif.Group.Spec
import Verif.Move.Model

/-! # Specifications for moving particles between ranks -/

set_option autoImplicit false

namespace NP.Spec

/-- The rank that the particle in row `k` of cell `c` has to be sent to: component `comp` of its
MPI rank property, if that is a rank of the communicator other than the rank that has the
particle. -/
def destination (size own comp : Nat) (g : Group) (c k : Nat) : Option Nat :=
  (List.range size).find? fun r => r != own && g.mem ⟨g.rankSym, c, comp, k⟩ == some (r : Int)

/-- All particles (cell, row) of a group. -/
def particlesOf (g : Group) : List (Nat × Nat) :=
  (List.range g.ncell).flatMap fun c => (List.range (count g c)).map fun k => (c, k)

/-- The number of particles that have to be sent to rank `r`. -/
def sendCount (size own comp : Nat) (g : Group) (r : Nat) : Nat :=
  ((particlesOf g).filter fun p => destination size own comp g p.1 p.2 == some r).length

/-- The particles that have to be sent to rank `r`, with all their property values. -/
def leavingTo (size own comp : Nat) (g : Group) (r : Nat) : List (List (Option Int)) :=
  ((particlesOf g).filter fun p => destination size own comp g p.1 p.2 == some r).map
    fun p => particle g p.1 p.2

/-- The particles of cell `c` that are not sent anywhere. -/
def staying (size own comp : Nat) (g : Group) (c : Nat) : List (List (Option Int)) :=
  ((List.range (count g c)).filter fun k => (destination size own comp g c k).isNone).map
    (particle g c)

/-- `d` describes the departing particles: `sel` lists exactly the particles that have to be sent,
each once, as the first `numParticles` pairs (cell, row) of `d`; the counts are the numbers of
particles for each rank; and the packing layers of the particles for one rank are
0, 1, ... without repeats. -/
structure Identified (size own comp : Nat) (g : Group) (d : Depart) (sel : List (Nat × Nat)) :
    Prop where
  cells_len : d.numParticles ≤ d.cells.length
  src_len : d.numParticles ≤ d.layersSrc.length
  listed : (d.cells.zip d.layersSrc).take d.numParticles =
    sel.map fun p => ((p.1 : Int), (p.2 : Int))
  len : sel.length = d.numParticles
  nodup : sel.Nodup
  mem : ∀ c k, (c, k) ∈ sel ↔ c < g.ncell ∧ k < count g c ∧
    ∃ r, destination size own comp g c k = some r
  counts_len : d.sendCounts.length = size
  counts : ∀ r, r < size → d.sendCounts[r]? = some (sendCount size own comp g r)
  layer : ∀ (i c k r : Nat), sel[i]? = some (c, k) → destination size own comp g c k = some r →
    ∃ l, d.layersDst[i]? = some l ∧ l < sendCount size own comp g r
  layer_inj : ∀ (i c k i' c' k' r l : Nat), sel[i]? = some (c, k) → sel[i']? = some (c', k') →
    destination size own comp g c k = some r → destination size own comp g c' k' = some r →
    d.layersDst[i]? = some l → d.layersDst[i']? = some l → i = i'
  layer_surj : ∀ r l, l < sendCount size own comp g r → ∃ i c k : Nat, sel[i]? = some (c, k) ∧
    destination size own comp g c k = some r ∧ d.layersDst[i]? = some l

/-- The ranks to send to: exactly those with particles to send, each once, and a map from these
ranks to their position in the list. -/
structure RanksListed (size own comp : Nat) (g : Group) (d : Depart) : Prop where
  le : d.numRanks ≤ d.sendRanks.length
  nodup : (d.sendRanks.take d.numRanks).Nodup
  mem : ∀ r, r ∈ d.sendRanks.take d.numRanks ↔ r < size ∧ 0 < sendCount size own comp g r
  map : ∀ i r : Nat, (d.sendRanks.take d.numRanks)[i]? = some r → d.rankMap[r]? = some i

/-- What `pack` needs to know about the ranks to send to. -/
structure SendOk (size own comp : Nat) (g : Group) (rks nparts rankMap : List Nat) : Prop where
  len : nparts.length = rks.length
  lt : ∀ r ∈ rks, r < size
  count : ∀ i r : Nat, rks[i]? = some r → nparts[i]? = some (sendCount size own comp g r)
  map : ∀ i r : Nat, rks[i]? = some r → rankMap[r]? = some i
  all : ∀ r, 0 < sendCount size own comp g r → r ∈ rks

end NP.Spec

namespace NP.Spec

/-- What `global_move` (`comp = 0`) and `local_move` (`comp = 1`) need on the rank `own` of `size`
ranks: a consistent group with at least one cell whose MPI rank property has component `comp`, and
non-negative cell ids for the particles that stay. -/
structure CanMove (size own comp : Nat) (e : Env) (map0 : List Nat) (g : Group) : Prop where
  env : EnvOk e
  consistent : Consistent g
  small : SmallCounts g
  comps : ∃ d ∈ g.dats, d.sym = g.rankSym ∧ comp < d.ncomp
  map : map0.length = size
  cells : 0 < g.ncell
  ids : ∀ c k, c < g.ncell → k < count g c → destination size own comp g c k = none →
    ∃ v, cellId g c k = some v ∧ 0 ≤ v

/-- The particles that the other ranks send to rank `r`. -/
def arriving (n comp : Nat) (g : Nat → Group) (r : Nat) : List (List (Option Int)) :=
  (List.range n).flatMap fun s => leavingTo n s comp (g s) r

/-- All particles of a group. -/
def allParticles (g : Group) : List (List (Option Int)) :=
  (List.range g.ncell).flatMap (contents g)

/-- All groups after the particles were moved: every particle with a valid destination is in cell
0 of the group of that rank, all others are still in their cell, and no value has changed. -/
def Moved (n comp : Nat) (g : Nat → Group) (out : List Group) : Prop :=
  out.length = n ∧ ∀ r, r < n → ∃ g', out[r]? = some g' ∧ Consistent g' ∧ SameShape (g r) g' ∧
    g'.version = (g r).version + 2 ∧
    ∀ c, c < (g r).ncell → (contents g' c).Perm
      (staying n r comp (g r) c ++ if c = 0 then arriving n comp g r else [])

end NP.Spec

namespace NP.Spec

/-- The communication pattern of rank `r`: it can send to the other ranks it named, each once, and
it can receive from the ranks that named it, each once. -/
structure PatternOk (n : Nat) (ranks : Nat → List Int) (r : Nat) (p : LocalPattern) : Prop where
  send_nodup : p.sendRanks.Nodup
  send_mem : ∀ t : Nat, t ∈ p.sendRanks ↔ t ≠ r ∧ (t : Int) ∈ ranks r
  recv_nodup : p.recvRanks.Nodup
  recv_mem : ∀ s : Nat, s ∈ p.recvRanks ↔ s < n ∧ s ≠ r ∧ (r : Int) ∈ ranks s
  map : ∀ i t : Nat, p.sendRanks[i]? = some t → p.rankMap[t]? = some i

end NP.Spec
