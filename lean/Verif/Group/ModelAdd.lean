import Verif.Group.ModelRemove

/-!
# Model: adding particles, moving particles between cells

Models `ParticleGroup::add_particles_local` (`ParticleSet`, `ParticleGroup`,
`ParticleSubGroup`), `ParticleGroup::get_new_layers` (`src/particle_group.cpp`) and
`CellMove::move` (`src/cell_dat_move.cpp`).

The data kernels of the code loop over (some of) the components in each work item.  In the
model each (component, particle) pair is a work item of its own, in arbitrary order, which
allows every order the code allows (and more).
-/

set_option autoImplicit false

namespace NP

/-! ## ParticleSet -/

/-- A `ParticleSet`: number of particles, and for each property it contains the column
major values, `particle_set.hpp`. -/
structure PSet where
  npart : Nat
  vals : List (Nat × List Int)

/-- The values of a property: `particle_data.contains(sym)`, `particle_data.get(sym)`. -/
def PSet.get? (ps : PSet) (s : Nat) : Option (List Int) := (ps.vals.find? (fun x => x.1 == s)).map (·.2)

/-- The component check, `particle_group.cpp:818-837`. -/
def setCompsOk (g : Group) (ps : PSet) : Bool :=
  g.dats.all fun d => match ps.get? d.sym with
    | some v => v.length / ps.npart == d.ncomp
    | none => true

/-- Loop that assigns layers, `particle_group.cpp:899-906`; updates the counts and the
layers.  `none`: bad cell id. -/
def setLayerStep (ncell : Nat) (cellids : List Int) (px : Nat) (s : List Nat × List Nat) :
    Option (List Nat × List Nat) :=
  (rd cellids px).bind fun c =>
  if c ≥ 0 ∧ c < ncell then
    (fetchAdd s.1 c.toNat).bind fun r => (st s.2 px r.1).bind fun l => some (r.2, l)
  else none

/-- Copy and zero kernels, `particle_group.cpp:936-1004`.  The values were copied to the
device unchanged. -/
def setDataStep (ps : PSet) (cells : List Int) (layers : List Nat) (it : (Nat × Nat) × Nat)
    (m : Mem) : Option Mem :=
  (rd cells it.2).bind fun cell => (index cell).bind fun c => (rd layers it.2).bind fun l =>
  match ps.get? it.1.1 with
  | some v => (rd v (it.1.2 * ps.npart + it.2)).bind fun x => mst m ⟨it.1.1, c, it.1.2, l⟩ x
  | none => mst m ⟨it.1.1, c, it.1.2, l⟩ 0

/-- `ParticleGroup::add_particles_local(ParticleSet&)`, `particle_group.cpp:807-1013`.
`none`: an assertion fails (a component count, no cell ids, a bad cell id) or a source
vector is too short. -/
def addParticleSet (e : Env) (g : Group) (ps : PSet) : Option Group :=
  let g := invalidateVersion g
  if ps.npart = 0 then some g else
  if ¬ setCompsOk g ps then none else
  (ps.get? g.cellSym).bind fun cellids =>
  (forLoop 0 ps.npart (setLayerStep g.ncell cellids)
    (g.hNpart, List.replicate ps.npart 0)).bind fun r =>
  (syncCounts { g with hNpart := r.1 }).bind fun g =>
  (reallocAllDats e g).bind fun g =>
  (runItems (setDataStep ps cellids r.2) ((e.sched 0).order (compItems g.dats ps.npart))
    g.mem).bind fun m =>
  updDats (setNpartHostDevice g.ncell g.hNpart g.dNpart) { g with mem := m }

/-! ## ParticleGroup -/

/-- Counting loop, `particle_group.cpp:502-512`; updates the counts of the destination and
the total. -/
def addCountStep (src : List Nat) (c : Nat) (s : List Nat × Nat) : Option (List Nat × Nat) :=
  (rd s.1 c).bind fun n => (rd src c).bind fun k => some (s.1.set c (n + k), s.2 + k)

/-- The component check, `particle_group.cpp:479-492` and `753-757`: properties that both
groups have, have the same number of components. -/
def compsOk (dats srcDats : List Dat) : Bool :=
  dats.all fun d => match srcDats.find? (fun x => x.sym == d.sym) with
    | some d' => d.ncomp == d'.ncomp
    | none => true

/-- Data kernel, `particle_group.cpp:627-684`: the value of one component of one particle. -/
def groupDataStep (src : Group) (existing : List Nat) (it : (Nat × Nat) × (Nat × Nat))
    (m : Mem) : Option Mem :=
  let (sj, (cell, layer)) := it
  (rd existing cell).bind fun n =>
  (if (src.dat? sj.1).isSome then src.mem ⟨sj.1, cell, sj.2, layer⟩ else some 0).bind fun v =>
    mst m ⟨sj.1, cell, sj.2, n + layer⟩ v

/-- `ParticleGroup::add_particles_local(std::shared_ptr<ParticleGroup>)`,
`particle_group.cpp:465-718`, for a source that is not the group itself (that is asserted).
`none`: an assertion fails. -/
def addGroup (e : Env) (g src : Group) : Option Group :=
  if ¬ g.ncell = src.ncell then none else
  if ¬ compsOk g.dats src.dats then none else
  (forLoop 0 g.ncell (addCountStep src.hNpart) (g.hNpart, 0)).bind fun r =>
  if ¬ r.2 = src.npartLocal then none else
  let existing := g.hNpart
  let oldLocal := g.npartLocal
  (syncCounts { g with hNpart := r.1 }).bind fun g =>
  if ¬ oldLocal + r.2 = g.npartLocal then none else
  (reallocAllDats e g).bind fun g =>
  (src.dat? src.rankSym).bind fun rank =>
  (allVisits e rank.hNpart).bind fun visits =>
  (runItems (groupDataStep src existing)
    ((e.sched 0).order ((flatComps g.dats).flatMap fun sj => visits.map fun p => (sj, p)))
    g.mem).bind fun m =>
  (updDats (setNpartHostDevice g.ncell g.hNpart g.dNpart) { g with mem := m }).bind fun g =>
    some (invalidateVersion g)

/-! ## ParticleSubGroup -/

/-- Kernel of `get_new_layers`, `particle_group.cpp:16-30`; updates the counts and the
layers. -/
def newLayerStep (ncell : Nat) (cells : List Int) (i : Nat) (s : List Nat × List Int) :
    Option (List Nat × List Int) :=
  (rd cells i).bind fun cell =>
  if -1 < cell ∧ cell < ncell then
    (fetchAdd s.1 cell.toNat).bind fun r => (st s.2 i (r.1 : Int)).bind fun l => some (r.2, l)
  else (st s.2 i (-1)).bind fun l => some (s.1, l)

/-- `ParticleGroup::get_new_layers`, `particle_group.cpp:7-32`: the new counts (host and
device) and the layers. -/
def getNewLayers (s : Sched) (ncell : Nat) (npartCells : List Nat) (npart : Nat)
    (cells layers : List Int) : Option (List Nat × List Int) :=
  if npart > 0 then
    runItems (newLayerStep ncell cells) (s.order (List.range npart)) (npartCells, layers)
  else some (npartCells, layers)

/-- Where a copy kernel reads from: the memory of another group, or the memory that the
kernel writes to. -/
inductive SrcMem where
  | other (m : Mem)
  | self

/-- The memory read by a kernel that writes to `m`. -/
def SrcMem.read (src : SrcMem) (m : Mem) : Mem :=
  match src with
  | .other m' => m'
  | .self => m

/-- Copy and zero kernels, `particle_group.cpp:759-784`, `zero_dat_properties`
`particle_group.hpp:212-231`. `has s` tells if the source contains property `s`. -/
def subDataStep (src : SrcMem) (has : Nat → Bool) (cells layersSrc layersDst : List Int)
    (it : (Nat × Nat) × Nat) (m : Mem) : Option Mem :=
  (rd cells it.2).bind fun cell => (rd layersDst it.2).bind fun ld =>
  if has it.1.1 then
    (rd layersSrc it.2).bind fun ls =>
    (index cell).bind fun c => (index ls).bind fun ls => (index ld).bind fun ld =>
    (src.read m ⟨it.1.1, c, it.1.2, ls⟩).bind fun v =>
      mst m ⟨it.1.1, c, it.1.2, ld⟩ v
  else if ld > -1 then
    (index cell).bind fun c => mst m ⟨it.1.1, c, it.1.2, ld.toNat⟩ 0
  else some m

/-- `ParticleGroup::add_particles_local(std::shared_ptr<ParticleSubGroup>)`,
`particle_group.cpp:720-805`, for a sub group that is not an entire group (otherwise it is
`addGroup`).  `cells` and `layers` are what `get_cells_layers` of the sub group returns,
`srcDats` are the dats of its group.  `src = .self`: the sub group belongs to the group
itself. `none`: component counts differ. -/
def addSubGroup (e : Env) (g : Group) (src : SrcMem) (srcDats : List Dat) (npart : Nat)
    (cells layers : List Int) : Option Group :=
  if npart = 0 then some (invalidateVersion g) else
  (getNewLayers (e.sched 0) g.ncell g.hNpart npart cells ((e.freshI 0 npart).1)).bind fun r =>
  (syncCounts { g with hNpart := r.1 }).bind fun g =>
  (reallocAllDats e g).bind fun g =>
  if ¬ compsOk g.dats srcDats then none else
  (runItems (subDataStep src (fun s => (srcDats.find? (fun x => x.sym == s)).isSome) cells layers
    r.2) ((e.sched 1).order (compItems g.dats npart)) g.mem).bind fun m =>
  (updDats (setNpartHostDevice g.ncell g.hNpart g.dNpart) { g with mem := m }).bind fun g =>
    some (invalidateVersion g)

/-! ## Cell move -/

/-- Kernel `cell_move_identify`, `cell_dat_move.cpp:79-103`; updates the counter of each
cell and the temporary layers.  (The counters are padded in memory: element
`cell * cacheline_pad_int` is written `cell` here.)  `none`: a bad cell id, which sets the
error flag and makes the host assert at line 105. -/
def cmIdentifyStep (ncell cellSym : Nat) (npart : List Nat) (m : Mem) (p : Nat × Nat)
    (s : List Nat × List Int) : Option (List Nat × List Int) :=
  (m ⟨cellSym, p.1, 0, p.2⟩).bind fun cell =>
  if ¬ (cell ≥ 0 ∧ cell < ncell) then none else
  (loopLinearIndex npart 0 p.1 p.2).bind fun lin => (index lin).bind fun lin =>
  if (p.1 : Int) ≠ cell then
    (fetchAdd s.1 cell.toNat).bind fun r => (st s.2 lin (r.1 : Int)).bind fun t => some (r.2, t)
  else (st s.2 lin (-1)).bind fun t => some (s.1, t)

/-- Arrays written by the collect kernel: old cells, new cells, old layers, new layers. -/
abbrev MoveArrays := List Int × List Int × List Int × List Int

/-- Kernel `cell_move_identify_collect`, `cell_dat_move.cpp:161-181`. -/
def cmCollectStep (cellSym : Nat) (npart npartRank : List Nat) (m : Mem) (tmp : List Int)
    (exscan : List Nat) (p : Nat × Nat) (a : MoveArrays) : Option MoveArrays :=
  (loopLinearIndex npart 0 p.1 p.2).bind fun lin => (index lin).bind fun lin =>
  (rd tmp lin).bind fun off =>
  if off > -1 then
    (m ⟨cellSym, p.1, 0, p.2⟩).bind fun cell => (index cell).bind fun c =>
    (rd exscan c).bind fun b => (index (off + b)).bind fun ix =>
    (rd npartRank c).bind fun n =>
    (st a.1 ix (p.1 : Int)).bind fun a1 => (st a.2.1 ix cell).bind fun a2 =>
    (st a.2.2.1 ix (p.2 : Int)).bind fun a3 => (st a.2.2.2 ix (off + n)).bind fun a4 =>
      some (a1, a2, a3, a4)
  else some a

/-- Copy kernels, `cell_dat_move.cpp:233-273`. -/
def cmCopyStep (a : MoveArrays) (it : (Nat × Nat) × Nat) (m : Mem) : Option Mem :=
  (rd a.1 it.2).bind fun co => (rd a.2.1 it.2).bind fun cn =>
  (rd a.2.2.1 it.2).bind fun lo => (rd a.2.2.2 it.2).bind fun ln =>
  (index co).bind fun co => (index cn).bind fun cn =>
  (index lo).bind fun lo => (index ln).bind fun ln =>
  (m ⟨it.1.1, co, it.1.2, lo⟩).bind fun v => mst m ⟨it.1.1, cn, it.1.2, ln⟩ v

/-- `CellMove::move`, `cell_dat_move.cpp:7-296`. `none`: a bad cell id, or an assertion.
`e'` are the arbitrary choices of the call of `remove_particles` at the end. -/
def cellMoveInner (e e' : Env) (g : Group) : Option Group :=
  (g.dat? g.rankSym).bind fun rank =>
  (g.dat? g.cellSym).bind fun cid =>
  let npartLocal := rank.hNpart.sum
  (submitVisits e.loop cid.hNpart false 0 none none).bind fun v0 =>
  (runItems (cmIdentifyStep g.ncell g.cellSym cid.hNpart g.mem) ((e.sched 0).order v0)
    (List.replicate g.ncell 0, (e.freshI 0 npartLocal).1)).bind fun r =>
  (runItems (fun c (s : List Nat × List Nat) => (rd r.1 c).bind fun off =>
      (rd rank.dNpart c).bind fun n =>
      (st s.1 c (off + n)).bind fun a => (st s.2 c off).bind fun b => some (a, b))
    ((e.sched 1).order (List.range g.ncell))
    ((e.freshN 0 g.ncell).1, (e.freshN 1 (g.ncell + 1)).1)).bind fun cnt =>
  (jointExclusiveScanBlocking (e.sched 2) (e.sched 3) (e.sched 4) e.scanLocalSize
    e.computeUnits (g.ncell + 1) (e.freshN 2) cnt.2 (List.replicate (g.ncell + 1) 0)).bind
    fun exscan =>
  (rd exscan g.ncell).bind fun moveCount =>
  if ¬ moveCount ≤ npartLocal then none else
  (submitVisits e.loop cid.hNpart false 0 none none).bind fun v1 =>
  (runItems (cmCollectStep g.cellSym cid.hNpart rank.dNpart g.mem r.2 exscan) ((e.sched 5).order v1)
    ((e.freshI 1 npartLocal).1, (e.freshI 2 npartLocal).1, (e.freshI 3 npartLocal).1,
      (e.freshI 4 npartLocal).1)).bind fun a =>
  (mapDats (reallocDat e g.ncell cnt.1) g.dats g.mem).bind fun rr =>
  (runItems (cmCopyStep a) ((e.sched 6).order (compItems rr.2 moveCount)) rr.1).bind fun m =>
  (updDats (setNpartHostDevice g.ncell cnt.1 cnt.1) { g with mem := m, dats := rr.2 }).bind
    fun g => compressorRemove e' g moveCount a.1 a.2.2.1

/-- `ParticleGroup::cell_move`, `particle_group.cpp:1124-1129`, after the local mapper has
set the cell ids. -/
def cellMove (e e' : Env) (g : Group) : Option Group :=
  (cellMoveInner e e' g).bind fun g =>
  (setNpartCellFromDat g).bind fun g => some (invalidateVersion g)

end NP
