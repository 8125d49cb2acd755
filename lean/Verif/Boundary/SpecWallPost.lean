import Verif.Boundary.ModelWallPost
import Verif.Boundary.SpecWall
import Verif.Boundary.Spec

/-!
# What the trajectory intersection of a Cartesian mesh returns
-/

set_option autoImplicit false

namespace NP.Spec

/-- The setting of a call of `post_integration`: a mesh of two or three dimensions, a tolerance
smaller than the cells, groups with different labels made of different sides of the domain, any
group or sub group of particles, any memory contents and schedules. -/
structure WallSetup (m : CartMesh) (extent tol : ℚ) (groups : List (Int × List Int))
    (e : WallEnv m.mh.dims.length) (npart : List Nat) (par : Parent) (rows : List (List WallPart)) :
    Prop where
  mesh : ValidCartMesh m
  ndim : m.mh.dims.length = 2 ∨ m.mh.dims.length = 3
  extent_pos : 0 < extent
  tol_nonneg : 0 ≤ tol
  tol_small : tol < extent / 2 ^ m.mh.order
  labels : groups.Pairwise fun a b => a.1 < b.1
  label_ok : ∀ g ∈ groups, g.1 ≠ -2 ^ 31
  sides : ∀ g ∈ groups, ∀ f ∈ g.2, 0 ≤ f ∧ f < 2 * m.mh.dims.length
  disjoint : groups.Pairwise fun a b => ∀ f ∈ a.2, f ∉ b.2
  loop : RowLoopOk e.P npart par
  dep : SelOk e.dep npart
  grp : ∀ g ∈ groups, SelOk (e.grp g.1) npart
  shape : Shape npart rows

/-- A call for particles whose previous positions are strictly inside of the domain. -/
structure WallCall (m : CartMesh) (extent tol : ℚ) (groups : List (Int × List Int))
    (e : WallEnv m.mh.dims.length) (npart : List Nat) (par : Parent) (rows : List (List WallPart)) :
    Prop extends WallSetup m extent tol groups e npart par rows where
  particles : ∀ c l, InParent npart par c l → ∃ p, rowAt rows c l = some p ∧
    HasComps (m.globalExtents extent) p.pos ∧ InsideDomain (m.globalExtents extent) p.prev

/-- The particle is not strictly inside of the domain. -/
def Departed (ext : List ℚ) (rows : List (List WallPart)) (c l : Nat) : Prop :=
  ∃ p, rowAt rows c l = some p ∧ ¬ InsideDomain ext p.pos

/-- What is stored for a particle that left at point `q` of side `f`, which is in group `g`: the
point, the unit normal of the side that points into the domain, the group and the id of the face
of the cell on that side which contains the point. -/
structure HitRow (m : CartMesh) (extent : ℚ) (g : Int) (f : Nat) (q : List ℚ) (r : WallRow) : Prop where
  point : r.point = q
  normalLength : r.normal.length = m.mh.dims.length
  normal : ∃ d up, sideOf f = some (d, up) ∧ ∀ (i : Nat) x, r.normal[i]? = some x →
    x = if i = d then (if up then -1 else 1) else 0
  info : ∃ id t, r.info = [g, id] ∧ IsFace m id f t ∧ OnSide m f t ∧ NearestCell m extent t q

/-- What is returned for the group `g`: a sub group of exactly the particles of the iteration set
which left through a side of the group, each once, with the information about its particles. -/
structure GroupOut (m : CartMesh) (extent : ℚ) (npart : List Nat) (par : Parent)
    (rows : List (List WallPart)) (side : Nat → Nat → Nat) (point : Nat → Nat → List ℚ)
    (g : Int × List Int) (out : Int × Selection × List (List WallRow)) : Prop where
  label : out.1 = g.1
  built : Built npart (.sub out.2.1)
  once : NoRepeats out.2.1
  members : ∀ c l, InParent npart (.sub out.2.1) c l ↔
    InParent npart par c l ∧ Departed (m.globalExtents extent) rows c l ∧ (side c l : Int) ∈ g.2
  shape : Shape out.2.1.hNpart out.2.2
  rows : ∀ c l k, LoopLayer npart (.sub out.2.1) c l k → ∃ r, rowAt out.2.2 c k = some r ∧
    HitRow m extent g.1 (side c l) (point c l) r

end NP.Spec
