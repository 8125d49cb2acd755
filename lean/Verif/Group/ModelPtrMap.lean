import Verif.Pair.ModelSimple
import Verif.Petsc.ModelHalo

/-!
# Model: the pointer map of a particle group

Models `ParticleGroupPointerMap`, `src/particle_group_pointer_map.cpp` and
`include/neso_particles/particle_group_pointer_map.hpp`, with the functions of `ParticleGroup` that add and
remove properties (`particle_group.cpp:253-274, 1131-1152`, `particle_group.hpp:196-207, 280-311`).

Simplifications. A property is named by an integer; maps are ordered by it. A `ParticleDat` is the number of its
allocations: `id` stands for `cell_dat.d_ptr`, `h_npart_cell` and `d_npart_cell`, which exist as long as the dat
does. A dat that is removed from the group is freed: the group is its only owner. Host and device copies of the
tables are one list because every create ends with `host_to_device` of all of them. `REAL` and `INT` have 8
bytes.
-/

set_option autoImplicit false

namespace NP

/-- A `ParticleDat`: which allocations it has, and the number of components. -/
structure MapDat where
  id : Nat
  ncomp : Nat
  deriving DecidableEq, Inhabited

/-- The tables for the dats of one type, particle_group_pointer_map.hpp:17-42, 104-135: `ptr` is
`dh_dat_ptr_const_*`, `symOf` is `map_index_to_sym_*` and `indexOf` is `map_sym_to_index_*`. -/
structure MapTable where
  ptr : List Nat
  ncomp : List Nat
  exscan : List Nat
  flatDat : List Nat
  flatComp : List Nat
  total : Nat
  symOf : List Int
  indexOf : OMap Nat
  ndat : Nat

/-- `ParticleGroupPointerMap`: `wptrReal`, `wptrInt` are `dh_dat_ptr_*`, `npart` is `h_npart_cell_ptrs` and
`dNpart` is `d_npart_cell_ptrs`. -/
structure PtrMap where
  validConst : Bool
  valid : Bool
  tReal : MapTable
  tInt : MapTable
  wptrReal : List Nat
  wptrInt : List Nat
  npart : List Nat
  dNpart : List Nat
  cellCount : Nat
  bytes : Nat
  bytesReal : Nat
  bytesInt : Nat

/-- A group as far as it matters here: the maps of dats, the counts that each existing dat holds per cell on the
host and on the device, how often the write callback of each dat was called, the number of cells, and the
number of dats made so far. `posSym` is the name of the positions, `fixedSyms` are the names of the cell ids
and ranks. -/
structure MapWorld where
  reals : OMap MapDat
  ints : OMap MapDat
  host : Nat → Option (List Int)
  device : Nat → Option (List Int)
  writes : Nat → Nat
  ncell : Nat
  next : Nat
  posSym : Int
  fixedSyms : List Int
  map : PtrMap

/-- Contents of new memory, and orders of work items. -/
structure MapEnv where
  fresh : Fresh Nat
  sched : Sched

/-- Buffers and counters of the first loop over dats, particle_group_pointer_map.cpp:26-31. -/
structure TableBufs where
  index : Nat
  total : Nat
  ptr : List Nat
  ncomp : List Nat
  exscan : List Nat
  symOf : List Int
  indexOf : OMap Nat
  npart : List Nat

/-- A pass of the loops in lines 33-53 and 73-92. -/
def tableStep (e : Int × MapDat) (b : TableBufs) : Option TableBufs :=
  (st b.ptr b.index e.2.id).bind fun ptr =>
  (st b.ncomp b.index e.2.ncomp).bind fun ncomp =>
  (st b.exscan b.index b.total).bind fun exscan =>
  some ⟨b.index + 1, b.total + e.2.ncomp, ptr, ncomp, exscan, b.symOf ++ [e.1], omPut b.indexOf e.1 b.index,
    b.npart ++ [e.2.id]⟩

/-- A pass of the loops in lines 60-68 and 99-107: index of the entry, index of the dat, and the two
buffers. -/
def flatStep (e : Int × MapDat) (s : Nat × Nat × List Nat × List Nat) : Option (Nat × Nat × List Nat × List Nat) :=
  (forLoop 0 e.2.ncomp (fun cx t =>
    (st t.2.1 t.1 s.2.1).bind fun fd => (st t.2.2 t.1 cx).bind fun fc => some (t.1 + 1, fd, fc))
    (s.1, s.2.2.1, s.2.2.2)).bind fun t =>
  some (t.1, s.2.1 + 1, t.2.1, t.2.2)

/-- The part of `create_const` for the dats of one type, particle_group_pointer_map.cpp:7-20 and 33-68 or
70-107, from the old tables `t` and the pointers to counts so far. -/
def buildTable (env : MapEnv) (dats : OMap MapDat) (t : MapTable) (npart : List Nat) :
    Option (MapTable × List Nat) :=
  let n := dats.length
  (runItems tableStep dats ⟨0, 0, reallocNoCopy env.fresh t.ptr n, reallocNoCopy env.fresh t.ncomp n,
    reallocNoCopy env.fresh t.exscan n, [], [], npart⟩).bind fun b =>
  (runItems flatStep dats (0, 0, reallocNoCopy env.fresh t.flatDat b.total,
    reallocNoCopy env.fresh t.flatComp b.total)).bind fun f =>
  some (⟨b.ptr, b.ncomp, b.exscan, f.2.2.1, f.2.2.2, b.total, b.symOf, b.indexOf, n⟩, b.npart)

/-- `memcpy` of a vector to the start of a buffer, particle_group_pointer_map.cpp:109-112. -/
def copyFront (buf src : List Nat) : Option (List Nat) :=
  if src.length ≤ buf.length then some (src ++ buf.drop src.length) else none

/-- `create_const`, particle_group_pointer_map.cpp:5-166. -/
def createConst (env : MapEnv) (w : MapWorld) : Option MapWorld :=
  if w.map.validConst then some w else
  let nd := w.reals.length + w.ints.length
  (buildTable env w.reals w.map.tReal []).bind fun r =>
  (buildTable env w.ints w.map.tInt r.2).bind fun i =>
  (copyFront (reallocNoCopy env.fresh w.map.dNpart nd) i.2).bind fun d =>
  some { w with map := { w.map with
    validConst := true, tReal := r.1, tInt := i.1, npart := i.2, dNpart := d,
    cellCount := if w.reals = [] then w.map.cellCount else w.ncell,
    bytes := r.1.total * 8 + i.1.total * 8, bytesReal := r.1.total * 8, bytesInt := i.1.total * 8 } }

/-- `impl_get` of a dat: the pointer, after a call of the write callback; cell_dat.hpp:208-213. -/
def implGet (d : MapDat) (writes : Nat → Nat) : Nat → Nat := fun k => if k = d.id then writes k + 1 else writes k

/-- A pass of the loops in particle_group_pointer_map.cpp:179-187. -/
def wptrStep (e : Int × MapDat) (s : Nat × List Nat × (Nat → Nat)) : Option (Nat × List Nat × (Nat → Nat)) :=
  (st s.2.1 s.1 e.2.id).bind fun p => some (s.1 + 1, p, implGet e.2 s.2.2)

/-- `create`, particle_group_pointer_map.cpp:168-235. -/
def createMap (env : MapEnv) (w : MapWorld) : Option MapWorld :=
  (createConst env w).bind fun w =>
  if w.map.valid then
    let w1 := w.reals.foldl (fun wr e => implGet e.2 wr) w.writes
    some { w with writes := w.ints.foldl (fun wr e => implGet e.2 wr) w1 }
  else
    (runItems wptrStep w.reals (0, reallocNoCopy env.fresh w.map.wptrReal w.reals.length, w.writes)).bind fun r =>
    (runItems wptrStep w.ints (0, reallocNoCopy env.fresh w.map.wptrInt w.ints.length, r.2.2)).bind fun i =>
    some { w with writes := i.2.2, map := { w.map with valid := true, wptrReal := r.2.1, wptrInt := i.2.1 } }

/-- Write an element of an array that is found through a pointer. `none` if the array was freed or is too
short. -/
def putCount (mem : Nat → Option (List Int)) (id cell : Nat) (v : Int) : Option (Nat → Option (List Int)) :=
  (mem id).bind fun l => (st l cell v).bind fun l => some fun k => if k = id then some l else mem k

/-- `set_npart_cells_host_device`, particle_group_pointer_map.hpp:177-211. -/
def setNpartCells (env : MapEnv) (h d : List Int) (w : MapWorld) : Option MapWorld :=
  (createMap env w).bind fun w =>
  let num := w.map.npart.length
  (runItems (fun (x : Nat × Nat) dev => (rd d x.2).bind fun n => (rd w.map.dNpart x.1).bind fun p =>
    putCount dev p x.2 n) (env.sched.order (pairs num w.map.cellCount)) w.device).bind fun dev =>
  let w1 := w.reals.foldl (fun wr e => implGet e.2 wr) w.writes
  let w2 := w.ints.foldl (fun wr e => implGet e.2 wr) w1
  (forLoop 0 num (fun dx host => forLoop 0 w.map.cellCount (fun cx host =>
    (rd h cx).bind fun n => (rd w.map.npart dx).bind fun p => putCount host p cx n) host) w.host).bind fun host =>
  some { w with device := dev, host := host, writes := w2 }

/-- `invalidate`, particle_group_pointer_map.hpp:158-161. -/
def invalidateMap (w : MapWorld) : MapWorld := { w with map := { w.map with validConst := false, valid := false } }

/-- A new dat with the counts of the group, particle_group.hpp:293-295. -/
def newMapDat (ncomp : Nat) (counts : List Int) (w : MapWorld) : MapDat × MapWorld :=
  (⟨w.next, ncomp⟩, { w with
    next := w.next + 1
    host := fun k => if k = w.next then some counts else w.host k
    device := fun k => if k = w.next then some counts else w.device k })

/-- `add_particle_dat` of a new REAL dat, particle_group.cpp:253-263 with particle_group.hpp:196-207, 288-311. An
existing dat with the same name and the same number of components is kept, with another number it is an
error. `counts` are the numbers of particles of the group, one per cell. -/
def addMapReal (sym : Int) (ncomp : Nat) (counts : List Int) (w : MapWorld) : Option MapWorld :=
  match omGet w.reals sym with
  | some d => if d.ncomp = ncomp then some w else none
  | none =>
    if counts.length = w.ncell then
      let r := newMapDat ncomp counts w
      some (invalidateMap { r.2 with reals := omPut w.reals sym r.1 })
    else none

/-- `add_particle_dat` of a new INT dat, particle_group.cpp:264-274. -/
def addMapInt (sym : Int) (ncomp : Nat) (counts : List Int) (w : MapWorld) : Option MapWorld :=
  match omGet w.ints sym with
  | some d => if d.ncomp = ncomp then some w else none
  | none =>
    if counts.length = w.ncell then
      let r := newMapDat ncomp counts w
      some (invalidateMap { r.2 with ints := omPut w.ints sym r.1 })
    else none

/-- `std::map::erase`. -/
def omErase {α : Type} (m : OMap α) (k : Int) : OMap α := m.filter fun e => decide (e.1 ≠ k)

/-- The memory of a dat is freed. -/
def freeDat (id : Nat) (w : MapWorld) : MapWorld := { w with
  host := fun k => if k = id then none else w.host k
  device := fun k => if k = id then none else w.device k }

/-- `remove_particle_dat(Sym<REAL>)`, particle_group.cpp:1131-1140. -/
def removeMapReal (sym : Int) (w : MapWorld) : Option MapWorld :=
  (omGet w.reals sym).bind fun d =>
  if sym = w.posSym then none else
  let w := invalidateMap w
  some (freeDat d.id { w with reals := omErase w.reals sym })

/-- `remove_particle_dat(Sym<INT>)`, particle_group.cpp:1142-1152. -/
def removeMapInt (sym : Int) (w : MapWorld) : Option MapWorld :=
  (omGet w.ints sym).bind fun d =>
  if sym ∈ w.fixedSyms then none else
  let w := invalidateMap w
  some (freeDat d.id { w with ints := omErase w.ints sym })

/-- What users of the group and the functions of the library do with it. `getConst` is also what
`get_const_device`, `get_num_bytes_per_particle` and `get_cell_count` do first, `getWrite` is `get` and
`get_device`. -/
inductive MapOp
  | addReal (sym : Int) (ncomp : Nat) (counts : List Int)
  | addInt (sym : Int) (ncomp : Nat) (counts : List Int)
  | removeReal (sym : Int)
  | removeInt (sym : Int)
  | getConst (env : MapEnv)
  | getWrite (env : MapEnv)
  | setCounts (env : MapEnv) (h d : List Int)

/-- One operation. `none`: an assertion fails or memory is accessed out of bounds or after it was freed. The
arrays that are given to `set_npart_cells_host_device` are read for each cell, particle_group_pointer_map.hpp:191-208. -/
def MapOp.run : MapOp → MapWorld → Option MapWorld
  | .addReal s n c, w => addMapReal s n c w
  | .addInt s n c, w => addMapInt s n c w
  | .removeReal s, w => removeMapReal s w
  | .removeInt s, w => removeMapInt s w
  | .getConst env, w => createConst env w
  | .getWrite env, w => createMap env w
  | .setCounts env h d, w =>
    if w.ncell ≤ h.length ∧ w.ncell ≤ d.length then setNpartCells env h d w else none

/-- Tables with the buffers of size one of the constructor, particle_group_pointer_map.cpp:237-277. -/
def MapTable.init (fresh : Fresh Nat) : MapTable :=
  ⟨(fresh 1).1, (fresh 1).1, (fresh 1).1, (fresh 1).1, (fresh 1).1, 0, [], [], 0⟩

/-- The map after construction, particle_group_pointer_map.cpp:237-277. -/
def PtrMap.init (fresh : Fresh Nat) : PtrMap :=
  ⟨false, false, MapTable.init fresh, MapTable.init fresh, (fresh 1).1, (fresh 1).1, [], (fresh 1).1, 0, 0, 0, 0⟩

/-- A group under construction, without properties; particle_group.cpp:84-116 adds the positions, cell ids and
ranks, then the other properties of the specification. -/
def MapWorld.init (fresh : Fresh Nat) (ncell : Nat) (posSym : Int) (fixedSyms : List Int) : MapWorld :=
  ⟨[], [], fun _ => none, fun _ => none, fun _ => 0, ncell, 0, posSym, fixedSyms, PtrMap.init fresh⟩

/-- A history of operations on a group with the given cells, names and components of positions. -/
def runMapOps (fresh : Fresh Nat) (ncell : Nat) (posSym : Int) (ndim : Nat) (fixedSyms : List Int)
    (ops : List MapOp) : Option MapWorld :=
  (addMapReal posSym ndim (List.replicate ncell 0) (MapWorld.init fresh ncell posSym fixedSyms)).bind (runItems MapOp.run ops)

end NP
