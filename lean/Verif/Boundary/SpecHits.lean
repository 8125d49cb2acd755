import Verif.Boundary.ModelHits
import Verif.Boundary.SpecWallPost
import Verif.Boundary.SpecSurface
import Verif.Algo.SpecUnseen

/-!
# What the registration of the faces that are hit promises
-/

set_option autoImplicit false

namespace NP.Spec

/-- The boundary groups given to the constructor: existing sides, none twice in a group, and no
reserved label. -/
structure GroupsOk (m : CartMesh) (groups : List (Int × List Int)) : Prop where
  label_ok : ∀ g ∈ groups, g.1 ≠ -2 ^ 31
  sides : ∀ g ∈ groups, ∀ f ∈ g.2, 0 ≤ f ∧ f < 2 * m.mh.dims.length
  once : ∀ g ∈ groups, g.2.Nodup

/-- The extraction runs on a device; new nodes of the tree have the size of a node. -/
structure SeeOk (tw : Nat) (x : SeeEnv) : Prop where
  localSize : 0 < x.P.localSize
  localSizeInt : x.P.localSize < 2 ^ 31
  nbin : 0 < x.P.nbin
  nodes : ∀ i, NodeSized tw (x.garbage i)

/-- A collective call of `post_integration`: on every rank the particles were strictly inside of
the domain before. -/
structure HitStepOk (m : CartMesh) (extent tol : ℚ) (groups : List (Int × List Int)) (tw : Nat)
    (s : HitStep m.mh.dims.length) : Prop where
  ranks : s.ranks.length = m.comm.dims.prod
  calls : ∀ x ∈ s.ranks, WallCall m extent tol groups x.env x.npart x.par x.rows
  see : ∀ x ∈ s.ranks, ∀ g ∈ groups, SeeOk tw (x.see g.1)

/-- A particle of the sub group returned for group number `j` hit the face `id`, as the metadata of
the particle say. -/
def HitFace (out : HitOut) (j : Nat) (id : Int) : Prop :=
  ∃ o c k row, out[j]? = some o ∧ rowAt o.2.2 c k = some row ∧ row.info[1]? = some id

/-- In one of the calls, rank `r` returned a particle of group number `j` which hit the face. -/
def EverHit (outs : List (List HitOut)) (r j : Nat) (id : Int) : Prop :=
  ∃ o ∈ outs, ∃ out, o[r]? = some out ∧ HitFace out j id

/-- The faces of rank `r` on the sides of the group. -/
def GroupFace (m : CartMesh) (g : Int × List Int) (r : Nat) (id : Int) : Prop :=
  ∃ (f : Nat) (t : List Int), (f : Int) ∈ g.2 ∧ IsFace m id f t ∧ OnSide m f t ∧ Owns m r t

end NP.Spec
