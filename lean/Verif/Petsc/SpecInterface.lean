import Verif.Petsc.ModelInterface
import Verif.Petsc.SpecHalo
import Verif.Mesh.SpecBox
import Verif.Containers.SpecMHC

/-!
# Specification: the halo of an unstructured mesh
-/

set_option autoImplicit false

namespace NP.Spec

/-- The bounding box of the cell has a volume in common with the cell `c` of the hierarchy. -/
def Touches (g : MeshGeom) (e : DmCell) (c : Int) : Prop := ∃ share, Overlaps g e.lower e.upper c share

/-- A cell of a list covers at least a millionth of the cell `c` of the hierarchy. -/
def Claims (g : MeshGeom) (es : List DmCell) (c : Int) : Prop :=
  ∃ e ∈ es, ∃ share, Overlaps g e.lower e.upper c share ∧ 1 ≤ 1000000 * share

/-- Rank `r` has a bounding box that covers at least a millionth of the cell `c` of the hierarchy and
as many millionths as any other, and it is the highest of the ranks with as many. -/
def IsDmOwner (g : MeshGeom) (n : Nat) (cells : Nat → List DmCell) (c : Int) (r : Nat) : Prop :=
  r < n ∧ ∃ e ∈ cells r, ∃ share, Overlaps g e.lower e.upper c share ∧ 1 ≤ 1000000 * share ∧
    ∀ q, q < n → ∀ e' ∈ cells q, ∀ share', Overlaps g e'.lower e'.upper c share' →
      ⌊1000000 * share'⌋ ≤ ⌊1000000 * share⌋ ∧
        (⌊1000000 * share'⌋ = ⌊1000000 * share⌋ → q ≤ r)

/-- Neighbouring cells of the hierarchy, or the same cell. -/
def Adjacent (g : MeshGeom) (c c' : Int) : Prop :=
  ∃ x y, IsCellAt g.mh x c ∧ IsCellAt g.mh y c' ∧ NearCell g.mh false 1 x y

/-- A mesh distributed over `n` ranks, and its hierarchy. -/
structure DmOk (ki n : Nat) (g : MeshGeom) (cells : Nat → List DmCell) : Prop where
  pos : 0 < n
  geom : ValidGeom g
  dims : g.mh.dims.length ≤ 3
  count : g.mh.ncellsGlobal < 2 ^ 31
  boxes : ∀ (r : Nat), r < n → ∀ e ∈ cells r, BoxFor g e.lower e.upper
  ranks : ∀ (r : Nat), r < n → ∀ e ∈ cells r, e.packed.rank = r
  good : ∀ (r : Nat), r < n → ∀ e ∈ cells r, Serial.Good (packedCellSerial ki) e.packed
  size : serialBytes (packedCellSerial ki) ((List.range n).flatMap fun r => (cells r).map (·.packed)) + 16
    < sizeTMax

/-- The window of the hierarchy before the claims: no claims are pending. -/
structure ClaimReady (layout : NodeLayout) (n : Nat) (g : MeshGeom) (w : ClaimState) : Prop where
  valid : ValidLayout layout
  ranks : ∀ (r : Nat), r ∈ layout.flatten ↔ r < n
  pending : ∀ r ∈ layout.flatten, w.stackOf r = []
  length : w.maps.length = layout.length
  maps : ∀ m ∈ w.maps, m.length = g.mh.ncellsGlobal.toNat

/-- The position is in the cell `c` of the hierarchy; the faces belong to it. -/
def InFineCell (g : MeshGeom) (x : List ℚ) (c : Int) : Prop :=
  ∃ t, IsCellAt g.mh t c ∧ ∀ (d : Nat) (o : ℚ) (i : Int), g.origin[d]? = some o → t[d]? = some i →
    ∃ p, x[d]? = some p ∧ o + i * fineWidth g ≤ p ∧ p ≤ o + (i + 1) * fineWidth g

/-- The position is in the bounding box of the cell. -/
def InBoxOf (ndim : Nat) (x : List ℚ) (e : DmCell) : Prop :=
  ∀ d, d < ndim → ∃ p a b, x[d]? = some p ∧ e.lower[d]? = some a ∧ e.upper[d]? = some b ∧ a ≤ p ∧ p ≤ b

/-- A bounding box that is not flat, in the part of space that the hierarchy covers. -/
def CellBoxInside (g : MeshGeom) (e : DmCell) : Prop :=
  ∀ (d : Nat) (o : ℚ) (m : Int), g.origin[d]? = some o → g.mh.dims[d]? = some m →
    ∃ a b, e.lower[d]? = some a ∧ e.upper[d]? = some b ∧ a < b ∧ o ≤ a ∧ b ≤ o + m * g.width

end NP.Spec
