import Verif.Group.ModelAdd
import Verif.Sub.Model

/-!
# Model: ParticleSet, extracting particles, removing a sub group

Models `ParticleSet` (`src/particle_set.cpp`), the particle specification that a group keeps
(`include/neso_particles/particle_spec.hpp`), `ParticleGroup::get_particles` (both overloads),
`ParticleSubGroup::get_particles` and `ParticleGroup::remove_particles(ParticleSubGroup)`.

As in `Group/Model.lean`, REAL and INT properties are numbered together and values are opaque
integer codes. `ParticleSet::operator[]`, which makes an empty column for a property that the
set does not contain, is not modelled.
-/

set_option autoImplicit false

namespace NP

/-! ## ParticleSet -/

/-- One property of a `ParticleSet`: its name, the entry of `ncomp_real` or `ncomp_int` and the
column major vector of values. -/
structure PProp where
  sym : Nat
  ncomp : Nat
  vals : List Int
deriving DecidableEq, Repr

/-- A `ParticleSet`, `particle_set.hpp:46-66`. -/
structure PartSet where
  npart : Nat
  props : List PProp
deriving DecidableEq, Repr

/-- The constructor, `particle_set.cpp:16-29`, for a specification that names no property twice. -/
def newPartSet (npart : Nat) (spec : List (Nat × Nat)) : PartSet :=
  ⟨npart, spec.map fun x => ⟨x.1, x.2, List.replicate (npart * x.2) 0⟩⟩

/-- `values_real.at(sym)` or `values_int.at(sym)` with the number of components; `contains`,
`particle_set.cpp:72-78`, is `isSome`. -/
def PartSet.prop? (ps : PartSet) (s : Nat) : Option PProp := ps.props.find? (fun p => p.sym == s)

/-- `ParticleSet::at`, `particle_set.cpp:41-54`. `none`: the property does not exist or the
index is not one of the vector. -/
def PartSet.at (ps : PartSet) (s : Nat) (particle comp : Int) : Option Int :=
  (ps.prop? s).bind fun p => (index (comp * ps.npart + particle)).bind fun i => rd p.vals i

/-- Replace the values of a property. -/
def PartSet.put (ps : PartSet) (s : Nat) (v : List Int) : PartSet :=
  { ps with props := ps.props.map fun p => if p.sym = s then { p with vals := v } else p }

/-- Assignment through the reference that `ParticleSet::at` returns, `particle_set.cpp:41-54`. -/
def PartSet.setAt (ps : PartSet) (s : Nat) (particle comp : Int) (x : Int) : Option PartSet :=
  (ps.prop? s).bind fun p => (index (comp * ps.npart + particle)).bind fun i =>
  (st p.vals i x).bind fun v => some (ps.put s v)

/-- `ParticleSet::set(sym, component, values)`, `particle_set.cpp:80-104`. `none`: an assertion
fails. -/
def PartSet.setComp (ps : PartSet) (s : Nat) (comp : Int) (values : List Int) : Option PartSet :=
  (ps.prop? s).bind fun p =>
  if values.length = ps.npart ∧ 0 ≤ comp ∧ comp < p.ncomp then
    (stRange p.vals (comp.toNat * ps.npart) values).bind fun v => some (ps.put s v)
  else none

/-- Body of the loops of `ParticleSet::set(ParticleSet&)`, `particle_set.cpp:109-129`. -/
def mergeProp (npart : Nat) (other : PartSet) (p : PProp) : Option PProp :=
  match other.prop? p.sym with
  | none => some p
  | some q =>
    if q.ncomp = p.ncomp then
      (slice q.vals 0 (npart * q.ncomp)).bind fun v =>
      (stRange p.vals 0 v).bind fun v => some { p with vals := v }
    else none

/-- `ParticleSet::set(ParticleSet&)`, `particle_set.cpp:106-130`. `none`: an assertion fails. -/
def PartSet.setFrom (ps other : PartSet) : Option PartSet :=
  if other.npart = ps.npart then
    (ps.props.mapM (mergeProp ps.npart other)).bind fun props => some { ps with props := props }
  else none

/-- What `add_particles_local(ParticleSet&)` reads of a set. -/
def PartSet.toPSet (ps : PartSet) : PSet := ⟨ps.npart, ps.props.map fun p => (p.sym, p.vals)⟩

/-! ## The specification of a group -/

/-- `ParticleSpec::remove`, `particle_spec.hpp:201-211` with the comparison of
`particle_spec.hpp:66-70`: erase the first equal property. `none`: there is none. -/
def specRemove (spec : List (Nat × Nat)) (x : Nat × Nat) : Option (List (Nat × Nat)) :=
  if x ∈ spec then some (spec.erase x) else none

/-- A group with the member `particle_spec`. -/
structure SpecGroup where
  group : Group
  spec : List (Nat × Nat)

/-- `ParticleGroup::add_particle_dat`, `particle_group.cpp:253-274`, with `push_particle_spec`,
`particle_group.hpp:233-235,290`. -/
def sgAddDat (e : Env) (sg : SpecGroup) (sym ncomp : Nat) : Option SpecGroup :=
  (addParticleDat e sg.group sym ncomp).bind fun g =>
    some ⟨g, if (sg.group.dat? sym).isSome then sg.spec else sg.spec ++ [(sym, ncomp)]⟩

/-- `ParticleGroup::remove_particle_dat`, `particle_group.cpp:1131-1152`, with
`remove_particle_dat_common`, `particle_group.hpp:279-285`. -/
def sgRemoveDat (sg : SpecGroup) (sym : Nat) : Option SpecGroup :=
  (removeParticleDat sg.group sym).bind fun g =>
  (sg.group.dat? sym).bind fun d =>
  (specRemove sg.spec (sym, d.ncomp)).bind fun spec => some ⟨g, spec⟩

/-- The constructor, `particle_group.cpp:75-135`: `particle_spec` is empty, then the rank dat and
the dats of the passed specification are added. -/
def sgCreate (e : Env) (ncell posSym rankSym cellSym hint : Nat) (spec : List (Nat × Nat)) :
    Option SpecGroup :=
  runItems (fun x sg => sgAddDat e sg x.1 x.2) ((rankSym, 2) :: spec)
    ⟨emptyGroup ncell posSym rankSym cellSym hint, []⟩

/-! ## Extracting particles -/

/-- `d_ncomp_exscan_*` and `ncomp_total_*`, `particle_group_pointer_map.cpp:33-39,74-80`. -/
def pmapExscan (dats : List Dat) : List Nat × Nat :=
  dats.foldl (fun s d => (s.1 ++ [s.2], s.2 + d.ncomp)) ([], 0)

/-- Kernels that fill the staging buffers, `particle_group.cpp:163-198`: one work item for each
dat and particle. -/
def gatherStep (dats : List Dat) (es : List Nat) (n : Nat) (cells layers : List Int) (m : Mem)
    (it : Nat × Nat) (buf : List Int) : Option (List Int) :=
  (rd cells it.2).bind fun cell => (index cell).bind fun c =>
  (rd layers it.2).bind fun layer => (index layer).bind fun k =>
  (rd dats it.1).bind fun d => (rd es it.1).bind fun o =>
  forLoop 0 d.ncomp (fun cx buf => (m ⟨d.sym, c, cx, k⟩).bind fun v =>
    st buf (o * n + cx * n + it.2) v) buf

/-- The work items of a kernel over dats and particles. -/
def datItems (ndat n : Nat) : List (Nat × Nat) :=
  (List.range ndat).flatMap fun d => (List.range n).map fun i => (d, i)

/-- The staging buffer of the REAL or of the INT dats after the kernel. -/
def gatherDats (s : Sched) (fresh : Fresh Int) (dats : List Dat) (n : Nat)
    (cells layers : List Int) (m : Mem) : Option (List Int) :=
  runItems (gatherStep dats (pmapExscan dats).1 n cells layers m)
    (s.order (datItems dats.length n)) (fresh (n * (pmapExscan dats).2)).1

/-- Host loops that copy the staging buffers into the set, `particle_group.cpp:207-223`. -/
def copyOut (dats : List Dat) (n : Nat) (buf : List Int) (ps : PartSet) : Option PartSet :=
  forLoop 0 dats.length (fun dx ps =>
    (rd dats dx).bind fun d => (rd (pmapExscan dats).1 dx).bind fun o =>
    (slice buf (o * n) (o * n + n * d.ncomp)).bind fun src =>
    (ps.prop? d.sym).bind fun p =>
    (stRange p.vals 0 src).bind fun v => some (ps.put d.sym v)) ps

/-- `ParticleGroup::get_particles` (device pointers), `particle_group.cpp:137-234`. `isReal`
tells REAL from INT properties, `spec` is `particle_spec`. -/
def getParticlesDevice (e : Env) (isReal : Nat → Bool) (spec : List (Nat × Nat)) (g : Group)
    (n : Nat) (cells layers : List Int) : Option PartSet :=
  if n > 0 then
    let reals := g.dats.filter (fun d => isReal d.sym)
    let ints := g.dats.filter (fun d => !isReal d.sym)
    (gatherDats (e.sched 0) (e.freshI 0) reals n cells layers g.mem).bind fun bufReal =>
    (gatherDats (e.sched 1) (e.freshI 1) ints n cells layers g.mem).bind fun bufInt =>
    (copyOut reals n bufReal (newPartSet n spec)).bind (copyOut ints n bufInt)
  else some (newPartSet 0 spec)

/-- The assertions on the passed cells and layers, `particle_group.cpp:1180-1187` and
`particle_sub_group_base.cpp:200-208`; `npart` are the particle counts of the cells. -/
def indicesOk (ncell : Nat) (npart : List Nat) (cells layers : List Int) : Bool :=
  (cells.zip layers).all fun p =>
    decide (-1 < p.1 ∧ p.1 < ncell) && decide (-1 < p.2 ∧ p.2 < npart.getD p.1.toNat 0)

/-- `ParticleGroup::get_particles` (host vectors), `particle_group.cpp:1154-1200`. `none`: an
assertion fails. -/
def getParticles (e : Env) (isReal : Nat → Bool) (spec : List (Nat × Nat)) (g : Group)
    (cells layers : List Int) : Option PartSet :=
  if cells.length = layers.length then
    if indicesOk g.ncell g.hNpart cells layers then
      getParticlesDevice e isReal spec g cells.length cells layers
    else none
  else none

/-- Kernel that looks up the layers of the particles of a sub group,
`particle_sub_group_base.cpp:214-226`. -/
def innerLayerStep (s : Selection) (cells layers : List Int) (i : Nat) (inner : List Int) :
    Option (List Int) :=
  (rd cells i).bind fun cell => (index cell).bind fun c =>
  (rd layers i).bind fun layer => (index layer).bind fun k =>
  (s.layerAt c k).bind fun l => st inner i (l : Int)

/-- `ParticleSubGroup::get_particles`, `particle_sub_group_base.cpp:165-240`, with the selection
up to date. `none`: an assertion fails. -/
def getParticlesSub (e : Env) (isReal : Nat → Bool) (spec : List (Nat × Nat)) (g : Group)
    (par : Parent) (cells layers : List Int) : Option PartSet :=
  match par with
  | .whole => getParticles e isReal spec g cells layers
  | .sub s =>
    if cells.length = layers.length then
      if cells.length > 0 then
        if indicesOk g.ncell s.hNpart cells layers then
          (runItems (innerLayerStep s cells layers) ((e.sched 2).order (List.range cells.length))
            (e.freshI 2 cells.length).1).bind fun inner =>
          getParticlesDevice e isReal spec g cells.length cells inner
        else none
      else some (newPartSet 0 spec)
    else none

/-! ## Removing a sub group -/

/-- `ParticleGroup::remove_particles(std::shared_ptr<ParticleSubGroup>)`,
`particle_group.cpp:1057-1083`, for a sub group of the group, with its selection up to date.
The buffer has room for `get_npart_local` cells and layers. -/
def removeSubGroup (e : Env) (g : Group) (par : Parent) : Option Group :=
  match par with
  | .whole => clearGroup e g
  | .sub s => s.cellsLayers.bind fun l =>
    if l.length = s.npartLocal then
      removeParticles e g s.npartLocal (l.map fun p => (p.1 : Int)) (l.map fun p => (p.2 : Int))
    else none

end NP
