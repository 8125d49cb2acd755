import Verif.Petsc.ModelEdges
import Verif.Petsc.SpecHalo
import Verif.Mesh.SpecMap
import Verif.Containers.SpecTree

/-!
# What the properties of the boundary of two dimensional meshes say
-/

set_option autoImplicit false

namespace NP.Spec

/-- A point of the plane. -/
abbrev Pt := ℚ × ℚ

/-- The point a fraction `t` of the way from `a` to `b`. -/
def ptAlong (a b : Pt) (t : ℚ) : Pt := (a.1 + t * (b.1 - a.1), a.2 + t * (b.2 - a.2))

/-- `p` is on the segment from `a` to `b`. -/
def OnSegment (a b p : Pt) : Prop := ∃ t, 0 ≤ t ∧ t ≤ 1 ∧ p = ptAlong a b t

/-- The directions of two segments differ. -/
def NotParallel (a b v w : Pt) : Prop :=
  (b.1 - a.1) * (w.2 - v.2) - (b.2 - a.2) * (w.1 - v.1) ≠ 0

/-- The step from `a` to `b` crosses the edge from `v` to `w` at `p`. -/
def Crosses (a b v w p : Pt) : Prop := NotParallel a b v w ∧ OnSegment a b p ∧ OnSegment v w p

/-- The square of the distance. -/
def dist2 (a p : Pt) : ℚ := (a.1 - p.1) * (a.1 - p.1) + (a.2 - p.2) * (a.2 - p.2)

/-- `x` is between `a` and `b`, up to `tol`. -/
def Within (tol a b x : ℚ) : Prop := min a b - tol ≤ x ∧ x ≤ max a b + tol

/-- The lines of the step and the edge meet in `p`, which is on the edge up to `tol` times its
length and in the bounding box of the step up to `tol`. -/
def CrossesTol (tol : ℚ) (a b v w p : Pt) : Prop :=
  NotParallel a b v w ∧ (∃ t, p = ptAlong a b t) ∧ (∃ t, -tol ≤ t ∧ t ≤ 1 + tol ∧ p = ptAlong v w t) ∧
  Within tol a.1 b.1 p.1 ∧ Within tol a.2 b.2 p.2

/-- The face sets of the ranks of each node. -/
abbrev FaceSets := List (List (OMap (List FacePoint)))

/-- The point `pt` is in the face set `label` of some rank. -/
def InFaceSet (nodes : FaceSets) (label : Int) (pt : FacePoint) : Prop :=
  ∃ node ∈ nodes, ∃ sets ∈ node, ∃ pts, (label, pts) ∈ sets ∧ pt ∈ pts

/-- `label` belongs to the boundary group `g`. -/
def LabelIn (groups : OMap (List Int)) (g label : Int) : Prop :=
  ∃ ls, (g, ls) ∈ groups ∧ label ∈ ls

/-- There is an edge from `v` to `w` with index `gid` on the part of the boundary that belongs to
group `g`. -/
def EdgeOf (nodes : FaceSets) (groups : OMap (List Int)) (g gid : Int) (v w : Pt) : Prop :=
  ∃ label, LabelIn groups g label ∧ InFaceSet nodes label ⟨[[v.1, v.2], [w.1, w.2]], gid⟩

/-- The normal of the edge from `v` to `w`; `invSqrt` is the inverse of the square root. -/
def edgeNormal (invSqrt : ℚ → ℚ) (v w : Pt) : Pt :=
  let l := invSqrt ((w.2 - v.2) * (w.2 - v.2) + (w.1 - v.1) * (w.1 - v.1))
  (-(w.2 - v.2) * l, (w.1 - v.1) * l)

/-- A grid of cells in the plane, so small that its extents are `int`s. -/
structure Grid2D (g : MeshGeom) : Prop where
  valid : ValidGeom g
  two : g.mh.dims.length = 2
  small : ∀ n ∈ g.mh.dims, n * g.mh.ncellsDimFine < 2147483648

/-- The groups are a map whose keys are not negative and no label is in two of them. -/
structure GroupsOk2D (groups : OMap (List Int)) : Prop where
  keys : OMapOk groups
  nonneg : ∀ g ∈ groups, 0 ≤ g.1
  disjoint : ∀ g g' label, LabelIn groups g label → LabelIn groups g' label → g = g'

/-- Every point of the face sets that belong to a group is an edge in the domain of the grid. -/
def FacesOk (geom : MeshGeom) (groups : OMap (List Int)) (nodes : FaceSets) : Prop :=
  ∀ g label pt, LabelIn groups g label → InFaceSet nodes label pt →
    ∃ v w : Pt, pt.coords = [[v.1, v.2], [w.1, w.2]] ∧
      InDomain geom [v.1, v.2] ∧ InDomain geom [w.1, w.2]

/-- The particles of a call and what depends on the run. -/
structure EdgeCall where
  env : EdgeEnv
  cells : List (List EdgeParticle)
  sel : List (Nat × Nat)

/-- The selected particles exist, and have two coordinates and two earlier coordinates. -/
structure CallOk2D (cellCount : Nat) (c : EdgeCall) : Prop where
  count : c.cells.length = cellCount
  exist : ∀ it ∈ c.sel, ∃ p, rd2 c.cells it = some p ∧ p.pos.length = 2 ∧ p.prev.length = 2
  nodup : c.sel.Nodup
  nodeD : ∀ n, NodeSized 8 (c.env.nodeD n)
  nodeN : ∀ n, NodeSized 8 (c.env.nodeN n)

/-- A particle that moved from `a` to `b`. -/
def Stepped (c : EdgeCall) (it : Nat × Nat) (a b : Pt) : Prop :=
  rd2 c.cells it = some ⟨[b.1, b.2], [a.1, a.2]⟩

/-- The step does not lie on or beyond the upper ends of the domain. -/
def BelowTop (g : MeshGeom) (a b : Pt) : Prop :=
  ∀ (d : Nat) (n : Int) (o x y : ℚ), g.mh.dims[d]? = some n → g.origin[d]? = some o →
    [a.1, a.2][d]? = some x → [b.1, b.2][d]? = some y → min x y < o + n * g.width

/-- The result of a call: particle and data in the sub group of `g`. -/
def Hit (m : List (Int × List ((Nat × Nat) × HitData))) (g : Int) (it : Nat × Nat) (d : HitData) :
    Prop := ∃ l, (g, l) ∈ m ∧ (it, d) ∈ l

/-- An object after calls. -/
def edgeRun (big : ℚ) (e : Edges2D) (calls : List EdgeCall) : Option Edges2D :=
  calls.foldlM (fun e c => (e.post c.env big 2 c.cells c.sel).map (·.1)) e

end NP.Spec
