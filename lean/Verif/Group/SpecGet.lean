import Verif.Group.ModelGet
import Verif.Group.SpecHistory
import Verif.Sub.SpecBuilt

/-! # Specifications for particle sets and for extracting particles -/

set_option autoImplicit false

namespace NP.Spec

/-- A particle set names no property twice and holds one value for each particle and component of
its properties. -/
structure SetShape (ps : PartSet) : Prop where
  nodup : (ps.props.map (·.sym)).Nodup
  len : ∀ p ∈ ps.props, p.vals.length = ps.npart * p.ncomp

/-- The properties of a set with their numbers of components. -/
def setProps (ps : PartSet) : List (Nat × Nat) := ps.props.map fun p => (p.sym, p.ncomp)

/-- The properties of a group with their numbers of components. -/
def groupProps (g : Group) : List (Nat × Nat) := g.dats.map fun d => (d.sym, d.ncomp)

/-- The particle set holds the particles `sel` of the group, given by cell and row: it has the
properties of the group, and particle `i` of the set has the values of the `i`-th listed
particle. -/
structure HoldsParticles (g : Group) (sel : List (Nat × Nat)) (ps : PartSet) : Prop where
  npart : ps.npart = sel.length
  shape : SetShape ps
  props : (setProps ps).Perm (groupProps g)
  values : ∀ (s n : Nat), (s, n) ∈ groupProps g → ∀ (j : Nat), j < n → ∀ (i c k : Nat),
    sel[i]? = some (c, k) → ∃ v, ps.at s i j = some v ∧ g.mem ⟨s, c, j, k⟩ = some v

/-- The requests `cells[i], layers[i]`, read as positions in the listing `L` of a sub group, name
the particles `sel`. -/
def NamesIn (L : List (List Nat)) (cells layers : List Int) (sel : List (Nat × Nat)) : Prop :=
  sel.length = cells.length ∧ layers.length = cells.length ∧
  ∀ (i c k : Nat), sel[i]? = some (c, k) → cells[i]? = some (c : Int) ∧
    ∃ (row : List Nat) (l : Nat), L[c]? = some row ∧ layers[i]? = some (l : Int) ∧
      row[l]? = some k

end NP.Spec

namespace NP

open Spec

/-- The model's function for a call on a group with its specification: calls that do not add or
remove a property leave the member `particle_spec` as it is. -/
def SpecGroup.call (e e' : Env) (sg : SpecGroup) : GroupCall → Option SpecGroup
  | .addDat sym ncomp => sgAddDat e sg sym ncomp
  | .removeDat sym => sgRemoveDat sg sym
  | x => (sg.group.call e e' x).bind fun g => some ⟨g, sg.spec⟩

/-- Run a history, with choices as in `Group.calls`. -/
def SpecGroup.calls (env : Nat → Env) (i : Nat) (sg : SpecGroup) : List GroupCall →
    Option SpecGroup
  | [] => some sg
  | x :: xs => (sg.call (env (2 * i)) (env (2 * i + 1)) x).bind fun sg => sg.calls env (i + 1) xs

end NP
