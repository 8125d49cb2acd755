import Verif.Common.Kernel
import Mathlib.Logic.Function.Basic

/-!
# Model: named particle data in loops, ephemeral dats and the cache of device pointers

Models `SymVectorPointerCache`, `EphemeralDats` and the parts of `ParticleGroup`,
`ParticleSubGroup`, `ParticleLoop` and `ParticleLoopSubGroup` that decide which particle data a
loop accesses when it is given names.

Simplifications: one type of values. The code has one cache for `REAL` and one for `INT`, which
do not interact. A name is a number. A particle dat is the number of the object, which is never
used again, and stands for the device pointer of the object. The number of particles per cell
stands for the selection of a sub group.
-/

set_option autoImplicit false

namespace NP

/-- A `ParticleDatT`: the object, its number of components and, for an ephemeral dat, the number
of rows in each cell; particle_dat.hpp:227-299. -/
structure DatRef where
  id : Nat
  ncomp : Nat
  rows : List Nat
deriving DecidableEq, Repr

/-- `SymVectorPointerCache`, containers/sym_vector_pointer_cache.hpp:18-36. A device pointer is
the number of the dat it belongs to. -/
structure PtrCache where
  /-- `map_syms_ptrs` -/
  ptrs : List Nat → Option (List Nat)
  /-- `map_syms_const_ptrs` -/
  cptrs : List Nat → Option (List Nat)
  /-- `ephemeral_keys` -/
  ephKeys : List (List Nat)

/-- A new cache, sym_vector_pointer_cache.hpp:68-75. -/
def PtrCache.empty : PtrCache := ⟨fun _ => none, fun _ => none, []⟩

/-- `find`, sym_vector_pointer_cache.hpp:101-132: the dat and whether it is ephemeral. `eph` is
`none` if the pointer to the second map is null. -/
def findDat (base : Nat → Option DatRef) (eph : Option (Nat → Option DatRef)) (s : Nat) :
    Option (DatRef × Bool) :=
  let dat := match eph with
    | none => none
    | some m => m s
  match dat with
  | some d => some (d, true)
  | none => (base s).map fun d => (d, false)

/-- The loop of `create` over the names, sym_vector_pointer_cache.hpp:166-173: the pointers and
whether one of the dats is ephemeral. -/
def findAll (base : Nat → Option DatRef) (eph : Option (Nat → Option DatRef)) :
    List Nat → Option (List Nat × Bool)
  | [] => some ([], false)
  | s :: ss => (findDat base eph s).bind fun d => (findAll base eph ss).bind fun r =>
      some (d.1.id :: r.1, d.2 || r.2)

/-- `create` (162-182) for `const = false` and `create_const` (189-210) for `const = true`,
sym_vector_pointer_cache.hpp. -/
def cacheCreate (base : Nat → Option DatRef) (eph : Option (Nat → Option DatRef)) (const : Bool)
    (key : List Nat) (c : PtrCache) : Option PtrCache :=
  if ((if const then c.cptrs else c.ptrs) key).isSome then some c
  else (findAll base eph key).bind fun r =>
    let keys := if r.2 then key :: c.ephKeys else c.ephKeys
    some (if const then { c with cptrs := Function.update c.cptrs key (some r.1), ephKeys := keys }
      else { c with ptrs := Function.update c.ptrs key (some r.1), ephKeys := keys })

/-- `get` (217-226) and `get_const` (234-243), sym_vector_pointer_cache.hpp: every name is looked
up, and the stored pointers are returned. -/
def cacheGet (base : Nat → Option DatRef) (eph : Option (Nat → Option DatRef)) (const : Bool)
    (key : List Nat) (c : PtrCache) : Option (List Nat) :=
  (findAll base eph key).bind fun _ => (if const then c.cptrs else c.ptrs) key

/-- `reset_ephemeral`, sym_vector_pointer_cache.hpp:52-58. -/
def cacheResetEph (c : PtrCache) : PtrCache :=
  ⟨fun k => if k ∈ c.ephKeys then none else c.ptrs k,
   fun k => if k ∈ c.ephKeys then none else c.cptrs k, []⟩

/-- A `ParticleSubGroup` with its `EphemeralDats`. -/
structure SubDats where
  /-- `is_whole_particle_group` -/
  whole : Bool
  /-- `is_static` -/
  static : Bool
  /-- the group version differs from that of the selector -/
  groupChanged : Bool
  /-- the version of a property the selector uses differs from that of the selector -/
  datsChanged : Bool
  /-- the particles per cell which the selector would find now -/
  now : List Nat
  /-- the particles per cell of `selection` -/
  sel : List Nat
  /-- `ephemeral.dats_real` (or `dats_int`) -/
  eph : Nat → Option DatRef
  /-- `ephemeral.sym_vector_pointer_cache_dispatch` -/
  cache : PtrCache
  /-- `version` -/
  version : Nat

/-- A `ParticleGroup` and its sub groups, which are numbered. -/
structure DatWorld where
  /-- `particle_dats_real` (or `particle_dats_int`) -/
  base : Nat → Option DatRef
  /-- the number of the next particle dat made -/
  next : Nat
  /-- `sym_vector_pointer_cache_dispatch` of the group -/
  cache : PtrCache
  subs : Nat → SubDats

/-- A new sub group: the selector has seen version 0 of everything;
sub_group_selector_base.cpp:105-137. -/
def SubDats.new (whole : Bool) (counts : List Nat) : SubDats :=
  ⟨whole, false, true, false, counts, [], fun _ => none, .empty, 0⟩

/-- A group without particle dats. `whole` says which sub groups are of the whole group. -/
def DatWorld.new (whole : Nat → Bool) (counts : Nat → List Nat) : DatWorld :=
  ⟨fun _ => none, 0, .empty, fun i => .new (whole i) (counts i)⟩

/-- Replaces a sub group. -/
def DatWorld.setSub (w : DatWorld) (i : Nat) (n : SubDats) : DatWorld :=
  { w with subs := Function.update w.subs i n }

/-- `add_particle_dat`, particle_group.cpp:253-274, with `existing_compatible_dat`,
particle_group.hpp:195-207. -/
def addDat (s ncomp : Nat) (w : DatWorld) : Option DatWorld :=
  match w.base s with
  | some d => if d.ncomp = ncomp then some w else none
  | none => some { w with
      base := Function.update w.base s (some ⟨w.next, ncomp, []⟩), next := w.next + 1 }

/-- `remove_particle_dat`, particle_group.cpp:1131-1152. Not modelled: positions, cell ids and
MPI ranks cannot be removed. -/
def removeDat (s : Nat) (w : DatWorld) : Option DatWorld :=
  if (w.base s).isSome then some { w with base := Function.update w.base s none } else none

/-- `reset_ephemeral_dats`, containers/ephemeral_dats.cpp:4-15. -/
def resetEph (n : SubDats) : SubDats :=
  { n with eph := fun _ => none, cache := cacheResetEph n.cache }

/-- `invalidate_ephemeral_dats_if_required`, particle_sub_group_base.cpp:32-46. -/
def invalidateEph (n : SubDats) : SubDats :=
  if (if n.static then n.groupChanged else n.groupChanged || n.datsChanged) then resetEph n else n

/-- `create_if_required`, particle_sub_group_base.cpp:136-143, with `create_inner`, 48-60. -/
def createSub (n : SubDats) : Option SubDats :=
  if n.static then (if n.groupChanged then none else some n)
  else if n.groupChanged || n.datsChanged then
    some { resetEph { n with groupChanged := false, datsChanged := false, sel := n.now } with
      version := n.version + 1 }
  else some n

/-- `contains_ephemeral_dat`, containers/ephemeral_dats.cpp:43-51. -/
def containsEph (i s : Nat) (w : DatWorld) : DatWorld × Bool :=
  let n := invalidateEph (w.subs i)
  (w.setSub i n, (n.eph s).isSome)

/-- `get_ephemeral_dat`, containers/ephemeral_dats.cpp:53-65. -/
def getEph (i s : Nat) (w : DatWorld) : Option (DatWorld × DatRef) :=
  let w1 := w.setSub i (invalidateEph (w.subs i))
  let r := containsEph i s w1
  if r.2 then ((r.1.subs i).eph s).map fun d => (r.1, d) else none

/-- `add_ephemeral_dat`, containers/ephemeral_dats.hpp:70-91. The rows of the new dat are the
particle counts of the selection, particle_dat.hpp:236-246. -/
def addEph (i s ncomp : Nat) (w : DatWorld) : Option DatWorld :=
  (createSub (w.subs i)).bind fun n0 =>
  let w0 := w.setSub i n0
  if 0 < ncomp then
    let r := containsEph i s w0
    if r.2 then (getEph i s r.1).bind fun q => if q.2.ncomp = ncomp then some q.1 else none
    else
      let n := r.1.subs i
      some { r.1.setSub i { n with
        eph := Function.update n.eph s (some ⟨w.next, ncomp, n.sel⟩) } with next := w.next + 1 }
  else none

/-- `remove_ephemeral_dat`, containers/ephemeral_dats.hpp:98-105. -/
def removeEph (i s : Nat) (w : DatWorld) : Option DatWorld :=
  let r := containsEph i s w
  if r.2 then
    let n := r.1.subs i
    let q := containsEph i s (r.1.setSub i { n with eph := Function.update n.eph s none })
    if q.2 then none else some q.1
  else none

/-- A loop over the particle group given a list of names: `pre_loop` and `create_loop_arg`,
containers/sym_vector_impl.hpp:11-51. The result are the dats that the kernel accesses.
`const = true` for read access. -/
def loopVec (const : Bool) (key : List Nat) (w : DatWorld) : Option (DatWorld × List Nat) :=
  (cacheCreate w.base none const key w.cache).bind fun c =>
  (cacheGet w.base none const key c).bind fun ps => some ({ w with cache := c }, ps)

/-- A loop over the particle group given one name, containers/sym_vector_impl.hpp:53-78. -/
def loopSym (s : Nat) (w : DatWorld) : Option Nat :=
  (findDat w.base none s).map fun d => d.1.id

/-- What happens before a loop over a sub group: for a sub group of the whole group the loop is a
`ParticleLoop`, which does not call `create_if_required`, particle_loop_sub_group_functions.hpp:29-40
and particle_loop.hpp:151-199; otherwise particle_loop_sub_group.hpp:94-96. -/
def enterSub (n : SubDats) : Option SubDats := if n.whole then some n else createSub n

/-- A loop over a sub group given a list of names: particle_loop_sub_group.hpp:77-178 and
sym_vector_impl.hpp:11-51, with the cache of the sub group, particle_sub_group_base.hpp:30. -/
def loopVecSub (i : Nat) (const : Bool) (key : List Nat) (w : DatWorld) :
    Option (DatWorld × List Nat) :=
  (enterSub (w.subs i)).bind fun n =>
  (cacheCreate w.base (some n.eph) const key n.cache).bind fun c =>
  (cacheGet w.base (some n.eph) const key c).bind fun ps =>
  some (w.setSub i { n with cache := c }, ps)

/-- A loop over a sub group given one name. -/
def loopSymSub (i s : Nat) (w : DatWorld) : Option (DatWorld × DatRef) :=
  (enterSub (w.subs i)).bind fun n =>
  (findDat w.base (some n.eph) s).map fun d => (w.setSub i n, d.1)

/-- `static_status`, particle_sub_group_base.cpp:111-124. -/
def setStaticSub (i : Nat) (b : Bool) (w : DatWorld) : Option DatWorld :=
  let n := w.subs i
  if n.static = b then some w
  else (if b then createSub n else some n).map fun n1 => w.setSub i { n1 with static := b }

/-- Particles were added, removed or moved: every selector finds `counts i` from now on. -/
def changeParticles (counts : Nat → List Nat) (w : DatWorld) : DatWorld :=
  { w with subs := fun i => { w.subs i with groupChanged := true, now := counts i } }

/-- A property was written. The selectors of the sub groups `i` with `uses i` use it, and find
`counts i` from now on. The selector of a sub group of the whole group uses no property,
sub_group_selector_whole_group.hpp:26-29. -/
def writeProperty (uses : Nat → Bool) (counts : Nat → List Nat) (w : DatWorld) : DatWorld :=
  { w with subs := fun i =>
      if uses i && !(w.subs i).whole then { w.subs i with datsChanged := true, now := counts i }
      else w.subs i }

/-- What a program can do. -/
inductive DatOp where
  | addDat (s ncomp : Nat)
  | removeDat (s : Nat)
  | change (counts : Nat → List Nat)
  | write (uses : Nat → Bool) (counts : Nat → List Nat)
  | setStatic (i : Nat) (b : Bool)
  /-- any use of a sub group that calls `create_if_required` -/
  | use (i : Nat)
  | addEph (i s ncomp : Nat)
  | removeEph (i s : Nat)
  | containsEph (i s : Nat)
  | loopVec (const : Bool) (key : List Nat)
  | loopVecSub (i : Nat) (const : Bool) (key : List Nat)
  | loopSymSub (i s : Nat)

/-- One operation; `none` if an assertion fails. -/
def stepDat : DatOp → DatWorld → Option DatWorld
  | .addDat s n, w => NP.addDat s n w
  | .removeDat s, w => NP.removeDat s w
  | .change counts, w => some (changeParticles counts w)
  | .write uses counts, w => some (writeProperty uses counts w)
  | .setStatic i b, w => setStaticSub i b w
  | .use i, w => (createSub (w.subs i)).map fun n => w.setSub i n
  | .addEph i s n, w => NP.addEph i s n w
  | .removeEph i s, w => NP.removeEph i s w
  | .containsEph i s, w => some (NP.containsEph i s w).1
  | .loopVec const key, w => (NP.loopVec const key w).map Prod.fst
  | .loopVecSub i const key, w => (NP.loopVecSub i const key w).map Prod.fst
  | .loopSymSub i s, w => (NP.loopSymSub i s w).map Prod.fst

end NP
