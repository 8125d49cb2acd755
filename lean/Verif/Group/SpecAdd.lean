import Verif.Group.Spec
import Verif.Group.ModelAdd

/-! # Specifications for adding particles -/

set_option autoImplicit false

namespace NP.Spec

/-- Particle `i` of a `ParticleSet` as the group would store it: the value given for each
property that the set contains, zero for the others. -/
def newParticle (g : Group) (ps : PSet) (i : Nat) : List (Option Int) :=
  (flatComps g.dats).map fun sj =>
    match ps.get? sj.1 with
    | some v => v[sj.2 * ps.npart + i]?
    | none => some 0

/-- Particle `i` of the set goes to cell `c`. -/
def goesTo (g : Group) (ps : PSet) (c i : Nat) : Bool :=
  (ps.get? g.cellSym).bind (fun ids => ids[i]?) == some (c : Int)

/-- A `ParticleSet` that fits the group: every property it has in common with the group
has a value for each particle and component, it has cell ids and they name cells. -/
structure SetOk (g : Group) (ps : PSet) : Prop where
  comps : ∀ d ∈ g.dats, ∀ v, ps.get? d.sym = some v → v.length = d.ncomp * ps.npart
  cells : ∃ ids, ps.get? g.cellSym = some ids ∧
    ∀ i, i < ps.npart → ∃ c, c < g.ncell ∧ ids[i]? = some (c : Int)

/-- The particle in row `k` of cell `c` of memory `m`, of a group with properties
`srcDats`, as group `g` would store it: missing properties are zero. -/
def projected (g : Group) (m : Mem) (srcDats : List Dat) (c k : Nat) : List (Option Int) :=
  (flatComps g.dats).map fun sj =>
    if sj.1 ∈ srcDats.map (·.sym) then m ⟨sj.1, c, sj.2, k⟩ else some 0

/-- Properties that two groups have in common have the same number of components. -/
def CommonComps (dats srcDats : List Dat) : Prop :=
  ∀ d ∈ dats, ∀ d' ∈ srcDats, d.sym = d'.sym → d.ncomp = d'.ncomp

end NP.Spec

namespace NP.Spec

/-- The memory that holds the source particles. -/
def sourceMem (g : Group) : SrcMem → Mem
  | .other m => m
  | .self => g.mem

end NP.Spec

namespace NP.Spec

/-- Addresses (cell, row) of all particles of a group. -/
def particles (g : Group) : List (Nat × Nat) :=
  (List.range g.ncell).flatMap fun c => (List.range (count g c)).map fun k => (c, k)

end NP.Spec
