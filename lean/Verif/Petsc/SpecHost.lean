import Verif.Petsc.ModelHost

/-!
# Specification: particles to cells of unstructured meshes with PETSc
-/

set_option autoImplicit false

namespace NP.Spec

/-- The particle is one of those that are mapped: all, or those of one cell. -/
def Mapped (mapCell : Int) (cell : Nat) : Prop := mapCell < 0 ∨ mapCell = cell

/-- What a particle at `x` should be given. -/
inductive HostFound {R : Type} (m : HostMesh R) (x : List R) : Int → Int → Prop
  /-- The mesh of the rank has the point. -/
  | own : 0 ≤ m.locate x → HostFound m x (m.locate x) m.rank
  /-- The halo has the point: cell and rank of the owner of the halo cell. -/
  | halo (loc : List R → Int) (cell rank g : Int) : m.locate x < 0 → m.haloLocate = some loc → 0 ≤ loc x →
      omGet m.lids (loc x) = some (rank, cell, g) → HostFound m x cell rank
  /-- Neither has. -/
  | lost : m.locate x < 0 → (∀ loc, m.haloLocate = some loc → loc x < 0) → HostFound m x (-1) (-1)

/-- Every cell that is found in the halo has an owner. -/
def HaloKnown {R : Type} (m : HostMesh R) : Prop :=
  ∀ loc x, m.haloLocate = some loc → 0 ≤ loc x → ∃ e, omGet m.lids (loc x) = some e

/-- Point location finds a cell that contains the point, if there is one: `points` are the numbers
of the cells, `region` is the set of points of a cell. -/
def LocatesIn {R : Type} (points : List Int) (region : Int → List R → Prop) (loc : List R → Int) : Prop :=
  (∀ x, 0 ≤ loc x → loc x ∈ points ∧ region (loc x) x) ∧ ∀ x, loc x < 0 → ∀ c ∈ points, ¬ region c x

end NP.Spec
