import Verif.Group.ModelGet
import Verif.Sub.Model
import Verif.Basics.Model

/-!
# Model: H5Part

Models writing particle trajectories to and reading them from HDF5 files
(`include/neso_particles/particle_io.hpp`, `src/particle_io.cpp`). The file is a list of steps,
a step is a list of named one dimensional datasets. Creating a step or a dataset whose name
exists, opening one that does not exist, and reading entries that were never written or that are
of the other type fail (`none`); the last two are weaker in HDF5. Collective calls are made by all
ranks in step. Opening and closing the file and the mode that writes two dimensional datasets
(`enable_multi_dim_mode`, private and never called) are not modelled, nor is the truncation of
particle counts to `int` by the constructor of `ParticleSet`.
-/

set_option autoImplicit false

namespace NP

/-- A dataset: its type, and its entries, `none` before they are written. -/
structure DSet where
  isReal : Bool
  vals : List (Option Int)
deriving DecidableEq, Repr

/-- The datasets of a step with their names. -/
abbrev StepData := List (List Char × DSet)

/-- `H5Dopen`. -/
def dset? (grp : StepData) (name : List Char) : Option DSet :=
  (grp.find? (fun x => x.1 == name)).map (·.2)

/-- `position_labels`, `particle_io.hpp:31`. `none`: an index past the array. -/
def posLabel (cx : Nat) : Option (List Char) := [['x'], ['y'], ['z']][cx]?

/-- The name of the dataset of a component, `particle_io.hpp:90` and `particle_io.cpp:143,150`. -/
def compName (name : List Char) (cx : Nat) : List Char := name ++ '_' :: Nat.toDigits 10 cx

/-- One rank when `write` is called: its group, the group or sub group that is written, the
parameters and schedules of its loops and the contents of its buffers. -/
structure IoRank where
  g : Group
  par : Parent
  P : LoopParams
  sched : Nat → Sched
  fresh : Nat → Fresh Int

/-- `get_npart_local` of the group or sub group. -/
def IoRank.npart (r : IoRank) : Nat := r.par.total r.g.hNpart

/-- Kernel of the particle loop that linearises a dat, `particle_io.hpp:71-77`. -/
def ioGatherStep (r : IoRank) (s ncomp : Nat) (v : Nat × Nat) (buf : List Int) :
    Option (List Int) :=
  (loopLinearIndex (r.par.counts r.g.hNpart) 0 v.1 v.2).bind fun i => (index i).bind fun i =>
  (r.par.layerAt v.1 v.2).bind fun k =>
  forLoop 0 ncomp (fun cx buf => (r.g.mem ⟨s, v.1, cx, k⟩).bind fun x =>
    st buf (cx * r.npart + i) x) buf

/-- The host buffer of a dat and its number of components, `particle_io.hpp:55-81`, for the
`t`-th dat that is written. The buffer has the requested size. -/
def ioColumns (r : IoRank) (t s : Nat) : Option (Nat × List Int) :=
  (r.g.dat? s).bind fun d =>
  (parentVisits r.P r.g.hNpart r.par).bind fun vis =>
  (runItems (ioGatherStep r s d.ncomp) ((r.sched t).order vis)
    (r.fresh t (d.ncomp * r.npart)).1).bind fun buf => some (d.ncomp, buf)

/-- `H5Dwrite` of component `cx` by one rank, `particle_io.hpp:98-99` with the hyperslab of
`particle_io.hpp:259-273`. -/
def ioWriteSlab (cols : List (Nat × List Int)) (counts offsets : List Nat) (cx r : Nat)
    (vals : List (Option Int)) : Option (List (Option Int)) :=
  (rd cols r).bind fun col => (rd counts r).bind fun n => (rd offsets r).bind fun o =>
  (slice col.2 (n * cx) (n * cx + n)).bind fun src => stRange vals o (src.map some)

/-- `H5Dcreate2` and `H5Dwrite` by all ranks, in any order, `particle_io.hpp:84-102`. -/
def ioWriteComp (sch : Sched) (cols : List (Nat × List Int)) (counts offsets : List Nat)
    (total : Nat) (isReal : Bool) (name : List Char) (cx : Nat) (grp : StepData) :
    Option StepData :=
  if name ∈ grp.map (·.1) then none
  else
    (runItems (ioWriteSlab cols counts offsets cx) (sch.order (List.range counts.length))
      (List.replicate total none)).bind fun vals => some (grp ++ [(name, ⟨isReal, vals⟩)])

/-- `write_dat_column_wise` on all ranks, `particle_io.hpp:49-106`. The number of components is
that of the first rank and must be the same on all. -/
def ioWriteDat (sch : Sched) (ranks : List IoRank) (counts offsets : List Nat) (total t : Nat)
    (isReal : Bool) (name : Nat → Option (List Char)) (s : Nat) (grp : StepData) :
    Option StepData :=
  (ranks.mapM (fun r => ioColumns r t s)).bind fun cols =>
  (rd cols 0).bind fun col =>
  if cols.all (fun x => x.1 == col.1) then
    forLoop 0 col.1 (fun cx grp => (name cx).bind fun n =>
      ioWriteComp sch cols counts offsets total isReal n cx grp) grp
  else none

/-- An `H5Part` writer. The names of the properties are given by `names`; REAL and INT properties
with the same name have different numbers. -/
structure H5Part where
  names : Nat → List Char
  reals : List Nat
  ints : List Nat
  step : Int
  file : List (Int × StepData)

/-- The result of `MPI_Scan` on rank `r`, minus its own value: `particle_io.hpp:246-254`. -/
def ioOffsets (counts : List Nat) : List Nat :=
  (List.range counts.length).map fun r => (counts.take (r + 1)).sum - counts.getD r 0

/-- The result of `MPI_Scan` on the last rank, which it broadcasts, `particle_io.hpp:251-253`. -/
def ioTotal (counts : List Nat) : Nat := (counts.take (counts.length - 1 + 1)).sum

/-- `write_inner`, `particle_io.hpp:227-312`: the datasets of the step. -/
def ioWriteInner (sch : Sched) (h : H5Part) (ranks : List IoRank) : Option StepData :=
  if ranks.all (fun r => (h.reals ++ h.ints).all fun s => (r.g.dat? s).isSome) then
    let counts := ranks.map IoRank.npart
    if ioTotal counts > 0 then
      (ranks[0]?).bind fun r0 =>
      (ioWriteDat sch ranks counts (ioOffsets counts) (ioTotal counts) 0 true posLabel
        r0.g.posSym []).bind fun grp =>
      (runItems (fun (ts : Nat × Nat) grp => ioWriteDat sch ranks counts (ioOffsets counts)
        (ioTotal counts) ts.1 true (fun cx => some (compName (h.names ts.2) cx)) ts.2 grp)
        (h.reals.zipIdx.map fun x => (x.2 + 1, x.1)) grp).bind fun grp =>
      runItems (fun (ts : Nat × Nat) grp => ioWriteDat sch ranks counts (ioOffsets counts)
        (ioTotal counts) ts.1 false (fun cx => some (compName (h.names ts.2) cx)) ts.2 grp)
        (h.ints.zipIdx.map fun x => (x.2 + 1 + h.reals.length, x.1)) grp
    else some []
  else none

/-- `H5Part::write`, `particle_io.cpp:49-77`, on all ranks. -/
def H5Part.write (sch : Sched) (h : H5Part) (ranks : List IoRank) (stepIn : Int) :
    Option H5Part :=
  let step := if stepIn ≥ 0 then stepIn else h.step
  if step ∈ h.file.map (·.1) then none
  else (ioWriteInner sch h ranks).bind fun grp =>
    some { h with step := step + 1, file := h.file ++ [(step, grp)] }

/-! ## Reading -/

/-- A property of the specification passed to `read`. -/
structure ReadProp where
  sym : Nat
  ncomp : Nat
  isReal : Bool
  positions : Bool

/-- The name of the dataset that is read, `particle_io.cpp:134-152`. -/
def readName (names : Nat → List Char) (useXyz : Bool) (p : ReadProp) (cx : Nat) :
    Option (List Char) :=
  if p.isReal && p.positions && useXyz then posLabel cx else some (compName (names p.sym) cx)

/-- `lambda_read_data`, `particle_io.cpp:126-131`, for component `cx` of a property: the entries
from `a` up to `b` of the dataset go to the column of the particle set, `particle_set.cpp:5-14`. -/
def readComp (grp : StepData) (total a b : Nat) (name : List Char) (p : ReadProp) (cx : Nat)
    (ps : PartSet) : Option PartSet :=
  (dset? grp name).bind fun d =>
  if d.isReal = p.isReal ∧ d.vals.length = total then
    (slice d.vals a b).bind fun src => (src.mapM id).bind fun src =>
    (ps.prop? p.sym).bind fun q =>
    (stRange q.vals (cx * ps.npart) src).bind fun v => some (ps.put p.sym v)
  else none

/-- `H5Part::read` on rank `q` of `size`, `particle_io.cpp:79-163`, with the properties of the
specification in order, REAL before INT. -/
def h5Read (names : Nat → List Char) (file : List (Int × StepData)) (size q : Nat)
    (spec : List ReadProp) (step : Int) (useXyz : Bool) : Option PartSet :=
  ((file.find? (fun x => x.1 == step)).map (·.2)).bind fun grp =>
  (dset? grp ['x']).bind fun dx =>
  (getDecomp1d size dx.vals.length q).bind fun ab =>
  let ps := newPartSet (ab.2 - ab.1) (spec.map fun p => (p.sym, p.ncomp))
  if dx.vals.length > 0 then
    runItems (fun p ps => forLoop 0 p.ncomp (fun cx ps => (readName names useXyz p cx).bind fun n =>
      readComp grp dx.vals.length ab.1 ab.2 n p cx ps) ps) spec ps
  else some ps

end NP
