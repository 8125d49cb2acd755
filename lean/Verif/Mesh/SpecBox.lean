import Verif.Mesh.SpecMap
import Verif.Mesh.ModelBox

/-!
# What the properties of bounding box claims say
-/

set_option autoImplicit false

namespace NP.Spec

/-- The length of the intersection of the intervals from `a` to `b` and from `c` to `d`. -/
def overlap (a b c d : ℚ) : ℚ := max 0 (min b d - max a c)

/-- The volume of the intersection of the box from `lower` to `upper` with the fine cell with
coordinates `t`, which in each dimension reaches from `o + i w` to `o + (i + 1) w`. -/
def overlapVolume (w : ℚ) : List ℚ → List ℚ → List ℚ → List Int → ℚ
  | o :: os, lo :: los, hi :: his, i :: is =>
    overlap lo hi (o + i * w) (o + (i + 1) * w) * overlapVolume w os los his is
  | _, _, _, _ => 1

/-- A box with bounds for each dimension of the mesh. -/
def BoxFor (g : MeshGeom) (lower upper : List ℚ) : Prop :=
  g.mh.dims.length ≤ lower.length ∧ g.mh.dims.length ≤ upper.length

/-- The fraction of the volume of the cell with linear index `c` that is in the box is `r`, and
it is not zero. -/
def Overlaps (g : MeshGeom) (lower upper : List ℚ) (c : Int) (r : ℚ) : Prop :=
  ∃ t, IsCellAt g.mh t c ∧ 0 < r ∧
    r = overlapVolume (fineWidth g) g.origin lower upper t / fineWidth g ^ g.mh.dims.length

end NP.Spec
