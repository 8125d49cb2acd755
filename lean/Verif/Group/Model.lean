import Verif.Loop.Model

/-!
# Model: storage of a `ParticleGroup`

Models `include/neso_particles/containers/cell_dat.hpp`, `particle_dat.hpp`,
`particle_group_pointer_map.{hpp,cpp}` and the bookkeeping parts of
`particle_group.{hpp,cpp}`.

Values of particle properties are opaque integer codes: the functions modelled here
copy them, set them to zero and compare cell ids, they do no arithmetic with them.
-/

set_option autoImplicit false

namespace NP

/-- Address of one value in the particle data of a group: property, cell, component,
row.  The code reaches it as `d_ptr[cell][comp][row]` of the dat of the property.  That
the flat per cell buffers behind these pointers give distinct addresses distinct
memory is proved separately (C17). -/
structure Key where
  sym : Nat
  cell : Nat
  comp : Nat
  row : Nat
deriving DecidableEq, Repr

/-- Device memory that holds the particle data; `none` is not allocated. -/
abbrev Mem := Key → Option Int

/-- Store a value; `none` is a store outside of the allocated rows. -/
def mst (m : Mem) (k : Key) (v : Int) : Option Mem :=
  if (m k).isSome then some (fun k' => if k' = k then some v else m k') else none

/-- Everything about a run that the program does not determine: the order in which the
work items of each kernel run, contents of uninitialised memory, how much a CellDat over
allocates, and the parameters of the device.  The first argument of each field numbers
the kernels (allocations) of a function. -/
structure Env where
  sched : Nat → Sched
  freshN : Nat → Fresh Nat
  freshI : Nat → Fresh Int
  /-- contents of newly allocated rows -/
  junk : Key → Int
  /-- rows requested by `(INT)(1.2 * nrow_required)` or `(INT)(1.1 * nrow_required)`
  for a cell; a rounded double product, so left arbitrary -/
  over : Nat → Nat → Nat
  /-- local size used by scans -/
  scanLocalSize : Nat
  /-- `max_compute_units` -/
  computeUnits : Nat
  /-- parameters of iteration sets -/
  loop : LoopParams

/-- The parts of a `ParticleDat`: name, number of components, the rows and allocated
rows of each cell of its `CellDat`, and the host and device copies of the number of
particles in each cell. -/
structure Dat where
  sym : Nat
  ncomp : Nat
  nrow : List Nat
  alloc : List Nat
  hNpart : List Nat
  dNpart : List Nat
deriving DecidableEq, Repr

/-- A `ParticleGroup`.  `posSym`, `rankSym` and `cellSym` name the positions, MPI rank
and cell id properties. `dats` holds the REAL dats, then the INT dats. -/
structure Group where
  ncell : Nat
  dats : List Dat
  posSym : Nat
  rankSym : Nat
  cellSym : Nat
  mem : Mem
  hNpart : List Nat
  dNpart : List Nat
  /-- `dh_npart_cell_es` (host and device copy are set together) -/
  npartEs : List Nat
  npartLocal : Nat
  /-- `npart_cell_hint` -/
  hint : Nat
  /-- `particle_group_version` -/
  version : Nat

/-- The dat of a property: `particle_dats_*.at(sym)`, `none` throws. -/
def Group.dat? (g : Group) (s : Nat) : Option Dat := g.dats.find? (fun d => d.sym == s)

/-- `dh_flattened_dat_index_*` and `dh_flattened_comp_index_*` together,
`particle_group_pointer_map.cpp:56-68,96-106`: (property, component) of each flattened
component, REAL dats then INT dats. -/
def flatComps (dats : List Dat) : List (Nat × Nat) :=
  dats.flatMap fun d => (List.range d.ncomp).map fun j => (d.sym, j)

/-! ## CellDat -/

/-- A fresh allocation for cell `c` of property `s` with `ncomp` columns of `rows` rows,
the first `keep` rows of which are copied from the old one. -/
def reallocMem (junk : Key → Int) (m : Mem) (s ncomp c rows keep : Nat) : Mem := fun k =>
  if k.sym = s ∧ k.cell = c then
    if k.comp < ncomp ∧ k.row < rows then
      if k.row < keep then m k else some (junk k)
    else none
  else m k

/-- `CellDat::set_nrow_inner`, `containers/cell_dat.hpp:160-202`, at the level of addresses (the
flat buffers are modelled by `FlatCell`). The assertions of `set_nrow` are on values the
callers here never pass (`Nat`, cell in range). -/
def setNrow (e : Env) (c req : Nat) (s : Mem × Dat) : Option (Mem × Dat) :=
  let (m, d) := s
  (rd d.alloc c).bind fun alloc =>
  (rd d.nrow c).bind fun existing =>
  if req = existing then some (m, d)
  else if req < existing then some (m, { d with nrow := d.nrow.set c req })
  else if req > alloc then
    let na := max req (e.over c req)
    some (reallocMem e.junk m d.sym d.ncomp c na (if alloc > 0 then existing else 0),
      { d with nrow := d.nrow.set c req, alloc := d.alloc.set c na })
  else some (m, { d with nrow := d.nrow.set c req })

/-- `ParticleDat::realloc`, `particle_dat.hpp:683-707`: `set_nrow` for every cell. -/
def reallocDat (e : Env) (ncell : Nat) (counts : List Nat) (s : Mem × Dat) :
    Option (Mem × Dat) :=
  forLoop 0 ncell (fun c s => (rd counts c).bind fun n => setNrow e c n s) s

/-- Apply an action to every dat, threading the memory through. -/
def mapDats (f : Mem × Dat → Option (Mem × Dat)) : List Dat → Mem → Option (Mem × List Dat)
  | [], m => some (m, [])
  | d :: ds, m => (f (m, d)).bind fun r => (mapDats f ds r.1).bind fun r' =>
      some (r'.1, r.2 :: r'.2)

/-- `ParticleGroup::realloc_all_dats`, `particle_group.hpp:161-174`. -/
def reallocAllDats (e : Env) (g : Group) : Option Group :=
  (mapDats (reallocDat e g.ncell g.hNpart) g.dats g.mem).bind fun r =>
    some { g with mem := r.1, dats := r.2 }

/-- `ParticleDat::trim_cell_dat_rows` and `CellDat::reduce_nrow`,
`particle_dat.hpp:714-719`, `containers/cell_dat.hpp:391-399`. -/
def trimDat (ncell : Nat) (d : Dat) : Option Dat :=
  (forLoop 0 ncell (fun c nrow => (rd d.hNpart c).bind fun n => st nrow c n) d.nrow).bind
    fun nrow => some { d with nrow := nrow }

/-! ## Counts -/

/-- Copy of the first `ncell` counts, in any loop of the form
`for cellx: dst[cellx] = src[cellx]` or `memcpy`. -/
def copyCounts (ncell : Nat) (src dst : List Nat) : Option (List Nat) :=
  forLoop 0 ncell (fun c a => (rd src c).bind fun n => st a c n) dst

/-- `ParticleGroupPointerMap::set_npart_cells_host_device`,
`particle_group_pointer_map.hpp:177-211`, for one dat. -/
def setNpartHostDevice (ncell : Nat) (h d : List Nat) (dat : Dat) : Option Dat :=
  (copyCounts ncell h dat.hNpart).bind fun hN =>
  (copyCounts ncell d dat.dNpart).bind fun dN =>
    some { dat with hNpart := hN, dNpart := dN }

/-- `ParticleGroup::recompute_npart_cell_es`, `particle_group.hpp:359-369`: exclusive sums
and total. -/
def recomputeEs (ncell : Nat) (npart es : List Nat) : Option (List Nat × Nat) :=
  forLoop 0 ncell (fun c s => (rd npart c).bind fun n =>
    (st s.1 c s.2).bind fun es => some (es, s.2 + n)) (es, 0)

/-- `ParticleGroup::invalidate_group_version`, `particle_group.hpp:349-355` (the 64 bit
counter is not wrapped). -/
def invalidateVersion (g : Group) : Group := { g with version := g.version + 1 }

/-- `ParticleGroup::set_npart_cell_from_dat`, `particle_group.hpp:807-814`. -/
def setNpartCellFromDat (g : Group) : Option Group :=
  (g.dat? g.posSym).bind fun pos =>
  (copyCounts g.ncell pos.hNpart g.hNpart).bind fun hN =>
  (recomputeEs g.ncell hN g.npartEs).bind fun r =>
    some (invalidateVersion { g with hNpart := hN, dNpart := hN, npartEs := r.1,
                                     npartLocal := r.2 })

/-- Replace the dats by the result of an action on each of them. -/
def updDats (f : Dat → Option Dat) (g : Group) : Option Group :=
  (g.dats.mapM f).bind fun dats => some { g with dats := dats }

/-- The common end of the functions that change `h_npart_cell` of the group: copy to the
device and `recompute_npart_cell_es`. -/
def syncCounts (g : Group) : Option Group :=
  (copyCounts g.ncell g.hNpart g.dNpart).bind fun dN =>
  (recomputeEs g.ncell g.hNpart g.npartEs).bind fun r =>
    some { g with dNpart := dN, npartEs := r.1, npartLocal := r.2 }

/-- `ParticleGroup::clear`, `particle_group.cpp:239-251`. -/
def clearGroup (e : Env) (g : Group) : Option Group :=
  (forLoop 0 g.ncell (fun c a => st a c 0) g.hNpart).bind fun hN =>
  (syncCounts { g with hNpart := hN }).bind fun g =>
  (reallocAllDats e g).bind fun g =>
  (updDats (setNpartHostDevice g.ncell g.hNpart g.dNpart) g).bind fun g =>
    some (invalidateVersion g)

/-! ## Adding a property -/

/-- A `ParticleDat` as constructed, `particle_dat.hpp:280-299`, `containers/cell_dat.hpp:302-337`. -/
def newDat (ncell sym ncomp : Nat) : Dat :=
  ⟨sym, ncomp, List.replicate ncell 0, List.replicate ncell 0, List.replicate ncell 0,
    List.replicate ncell 0⟩

/-- `add_particle_dat_common`, `particle_group.hpp:287-311`, without the version tracker
and the particle spec: allocate rows for the particles of the group, set the counts and,
if there is a hint, set the number of rows of every cell to the hint. -/
def addDatCommon (e : Env) (g : Group) (d : Dat) : Option Group :=
  (reallocDat e g.ncell g.hNpart (g.mem, d)).bind fun r =>
  (copyCounts g.ncell g.hNpart r.2.hNpart).bind fun hN =>
  (copyCounts g.ncell hN r.2.dNpart).bind fun dN =>
  (if g.hint > 0 then
      forLoop 0 g.ncell (fun c s => setNrow e c g.hint s)
        (r.1, { r.2 with hNpart := hN, dNpart := dN })
    else some (r.1, { r.2 with hNpart := hN, dNpart := dN })).bind fun r =>
    some { g with mem := r.1, dats := g.dats ++ [r.2] }

/-- `ParticleGroup::add_particle_dat`, `particle_group.cpp:253-274` with
`existing_compatible_dat`, `particle_group.hpp:196-207`, for a newly constructed dat.
`none`: a dat of that name with a different number of components exists. -/
def addParticleDat (e : Env) (g : Group) (sym ncomp : Nat) : Option Group :=
  match g.dat? sym with
  | some d => if d.ncomp = ncomp then some g else none
  | none => addDatCommon e g (newDat g.ncell sym ncomp)

/-- `ParticleGroup::remove_particle_dat`, `particle_group.cpp:1131-1152`.  `none`: the
property does not exist or must not be removed. -/
def removeParticleDat (g : Group) (sym : Nat) : Option Group :=
  if (g.dat? sym).isSome ∧ sym ≠ g.posSym ∧ sym ≠ g.rankSym ∧ sym ≠ g.cellSym then
    some { g with dats := g.dats.filter (fun d => d.sym != sym)
                  mem := fun k => if k.sym = sym then none else g.mem k }
  else none

/-- A `ParticleGroup` before `setup_internal` adds the first dat,
`particle_group.cpp:75-107`: no dats, no particles. -/
def emptyGroup (ncell posSym rankSym cellSym hint : Nat) : Group :=
  { ncell := ncell, dats := [], posSym := posSym, rankSym := rankSym, cellSym := cellSym
    mem := fun _ => none
    hNpart := List.replicate ncell 0, dNpart := List.replicate ncell 0
    npartEs := List.replicate ncell 0, npartLocal := 0, hint := hint, version := 1 }

/-- `ParticleGroup` constructor and `setup_internal`, `particle_group.cpp:75-135`: the
rank dat, then the dats of the particle spec, are added. -/
def createGroup (e : Env) (ncell posSym rankSym cellSym hint : Nat)
    (spec : List (Nat × Nat)) : Option Group :=
  runItems (fun x g => addParticleDat e g x.1 x.2) ((rankSym, 2) :: spec)
    (emptyGroup ncell posSym rankSym cellSym hint)

end NP
