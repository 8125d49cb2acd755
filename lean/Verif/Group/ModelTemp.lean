import Verif.Containers.Model
import Verif.Common.Kernel

/-!
# Model: temporary particle groups

Models `src/particle_group_temporary.cpp`, `include/neso_particles/particle_group_temporary.hpp` and
the parts of `ParticleGroup` that decide which properties a group has. The values of properties are
not modelled here (see Group/Model.lean), only the number of rows that each dat has in each cell.
Names of properties are numbers.
-/

set_option autoImplicit false

namespace NP

/-- The two types of properties, REAL and INT. -/
inductive PropKind
  | real
  | int
deriving DecidableEq

/-- `ParticleProp`, particle_spec.hpp:46-71. -/
structure TProp where
  sym : Nat
  ncomp : Nat
  positions : Bool
deriving DecidableEq

/-- A `ParticleDat`: its property and its number of rows in each cell (`h_npart_cell`). -/
structure TDat where
  prop : TProp
  npart : List Nat
deriving DecidableEq

/-- A `ParticleGroup`, particle_group.hpp:384-409: the maps of dats in the order of the names, the
specification, the names of the dats with positions and with cells, the names in the version
tracker and the number of particles in each cell. -/
structure TGroup where
  dats : PropKind → List TDat
  spec : PropKind → List TProp
  special : PropKind → Option Nat
  versions : List (PropKind × Nat)
  npart : List Nat

/-- Change the value of a function for one type of properties. -/
def setKind {α : Type} (f : PropKind → α) (k : PropKind) (x : α) : PropKind → α :=
  fun k' => if k' = k then x else f k'

/-- `std::map::operator[]` for a new key. -/
def insertDat (d : TDat) : List TDat → List TDat
  | [] => [d]
  | x :: l => if d.prop.sym < x.prop.sym then d :: x :: l else x :: insertDat d l

/-- The name of the property with the MPI ranks, `NESO_MPI_RANK`. -/
def tempRankSym : Nat := 0

/-- `contains_dat` and `get_dat`, particle_group.hpp:619-667: the dat with a name. -/
def TGroup.find (g : TGroup) (k : PropKind) (sym : Nat) : Option TDat :=
  (g.dats k).find? fun d => d.prop.sym = sym

/-- `add_particle_dat`, particle_group.cpp:253-274, with `existing_compatible_dat`,
particle_group.hpp:195-207, and `add_particle_dat_common`, particle_group.hpp:287-311. `none`: an
assertion fails. Left out: callbacks and the hint for the number of particles, which temporary groups
do not use. -/
def TGroup.add (g : TGroup) (k : PropKind) (p : TProp) : Option TGroup :=
  match g.find k p.sym with
  | some d => if d.prop.ncomp = p.ncomp then some g else none
  | none =>
    if (k, p.sym) ∈ g.versions then none
    else some { g with
      dats := setKind g.dats k (insertDat ⟨p, g.npart⟩ (g.dats k))
      special := if p.positions then setKind g.special k (some p.sym) else g.special
      spec := setKind g.spec k (g.spec k ++ [p])
      versions := (k, p.sym) :: g.versions }

/-- `ParticleSpec::remove`, particle_spec.hpp:206-211, with `operator==`, particle_spec.hpp:66-70,
which does not compare `positions`. -/
def tempSpecRemove : List TProp → TProp → Option (List TProp)
  | [], _ => none
  | x :: l, p => if x.sym = p.sym ∧ x.ncomp = p.ncomp then some l
    else (tempSpecRemove l p).bind fun l => some (x :: l)

/-- `remove_particle_dat`, particle_group.cpp:1131-1152, with `remove_particle_dat_common`,
particle_group.hpp:279-285. `none`: an assertion fails or there is no dat with positions. -/
def TGroup.remove (g : TGroup) (k : PropKind) (sym : Nat) : Option TGroup :=
  (g.find k sym).bind fun d =>
  if k = .int ∧ sym = tempRankSym then none
  else (g.special k).bind fun s =>
  if sym = s then none
  else (tempSpecRemove (g.spec k) d.prop).bind fun spec =>
  some { g with
    versions := g.versions.filter fun v => !(v == (k, sym))
    spec := setKind g.spec k spec
    dats := setKind g.dats k ((g.dats k).filter fun d => !(d.prop.sym == sym)) }

/-- The constructor, particle_group.hpp:428-459, with `setup_internal`, particle_group.cpp:75-117:
the property with the ranks, then the REAL and then the INT properties of the specification. -/
def TGroup.construct (ncell : Nat) (spec : PropKind → List TProp) : Option TGroup :=
  let g : TGroup := ⟨fun _ => [], fun _ => [], fun _ => none, [], List.replicate ncell 0⟩
  (g.add .int ⟨tempRankSym, 2, false⟩).bind fun g =>
  (runItems (fun p (g : TGroup) => g.add .real p) (spec .real) g).bind fun g =>
  runItems (fun p (g : TGroup) => g.add .int p) (spec .int) g

/-- What else happens to a group: the number of particles in each cell changes, in all dats, see
Group/Model.lean. -/
def TGroup.fill (g : TGroup) (npart : List Nat) : Option TGroup :=
  if npart.length = g.npart.length then
    some { g with npart := npart, dats := fun k => (g.dats k).map fun d => { d with npart := npart } }
  else none

/-- `clear`, particle_group.cpp:239-251: zero in each cell of the mesh for the group and for all
dats. -/
def TGroup.clear (g : TGroup) : TGroup :=
  let npart := g.npart.map fun _ => 0
  { g with npart := npart, dats := fun k => (g.dats k).map fun d => { d with npart := npart } }

/-! ## ParticleGroupTemporary -/

/-- `lambda_check_container_new`, particle_group_temporary.cpp:31-45, for one type of properties:
properties of the source that are missing or have another number of components. -/
def checkNew (k : PropKind) (src : List TDat) (t : TGroup) : Option TGroup :=
  runItems (fun (d : TDat) (t : TGroup) =>
    match t.find k d.prop.sym with
    | some d' =>
      if d.prop.ncomp ≠ d'.prop.ncomp then
        (t.remove k d.prop.sym).bind fun t => t.add k ⟨d.prop.sym, d.prop.ncomp, false⟩
      else some t
    | none => t.add k ⟨d.prop.sym, d.prop.ncomp, false⟩) src t

/-- `lambda_check_container_old`, particle_group_temporary.cpp:50-56, for one type of properties:
properties that the source does not have. The loop is over a copy of the map. -/
def checkOld (k : PropKind) (source : TGroup) (t : TGroup) : Option TGroup :=
  runItems (fun (d : TDat) (t : TGroup) =>
    if (source.find k d.prop.sym).isNone then t.remove k d.prop.sym else some t) (t.dats k) t

/-- A source group, its resource stack (`none` until it is needed) and the temporary groups. -/
structure TempWorld where
  source : TGroup
  stack : Option StackState
  temps : Nat → Option TGroup

/-- The temporary group `r` is `t`. -/
def TempWorld.set (w : TempWorld) (r : Nat) (t : TGroup) : TempWorld :=
  { w with temps := fun r' => if r' = r then some t else w.temps r' }

/-- `ParticleGroupTemporary::get`, particle_group_temporary.cpp:6-63, with `construct`,
particle_group_temporary.hpp:19-22: the number of the temporary group. -/
def TempWorld.get (w : TempWorld) : Option (Nat × TempWorld) :=
  let s := w.stack.getD StackState.init
  let r := s.get
  (if s.stack = [] then TGroup.construct w.source.npart.length w.source.spec else w.temps r.1).bind
    fun t =>
  (checkNew .real (w.source.dats .real) t).bind fun t =>
  (checkNew .int (w.source.dats .int) t).bind fun t =>
  (checkOld .real w.source t).bind fun t =>
  (checkOld .int w.source t).bind fun t =>
  some (r.1, ({ w with stack := some r.2 } : TempWorld).set r.1 t)

/-- `ParticleGroupTemporary::restore`, particle_group_temporary.cpp:65-75, with `clean`,
particle_group_temporary.hpp:28-31. -/
def TempWorld.restore (w : TempWorld) (r : Nat) : Option TempWorld :=
  w.stack.bind fun s => (s.restore r).bind fun s => (w.temps r).bind fun t =>
  some (({ w with stack := some s } : TempWorld).set r t.clear)

/-- User code changes a temporary group that it holds. -/
def TempWorld.modify (w : TempWorld) (r : Nat) (f : TGroup → Option TGroup) : Option TempWorld :=
  w.stack.bind fun s =>
  if r ∈ s.refs then (w.temps r).bind fun t => (f t).bind fun t => some (w.set r t) else none

end NP
