import Verif.Boundary.Model
import Verif.Sub.SpecBuilt

/-! Specification of truncation and reflection at a boundary. -/

set_option autoImplicit false

namespace NP.Spec

/-- The inner product of two vectors. -/
noncomputable def inner (a b : List ℝ) : ℝ := (List.zipWith (· * ·) a b).sum

/-- The distance between two points. -/
noncomputable def pointDist (a b : List ℝ) : ℝ := Real.sqrt ((List.zipWith (fun x y => (x - y) ^ 2) a b).sum)

/-- The point `a + t (b - a)`. -/
noncomputable def along (a b : List ℝ) (t : ℝ) : List ℝ := List.zipWith (fun x y => x + t * (y - x)) a b

/-- `v'` is the specular reflection of `v` at a wall with unit normal `n`, in words that do not
mention a formula for it: the speed is kept, the component along the normal changes sign, all
components across it are kept. -/
structure Reflects (v n v' : List ℝ) : Prop where
  length : v'.length = v.length
  energy : inner v' v' = inner v v
  normal : inner v' n = - inner v n
  tangential : ∀ t : List ℝ, t.length = n.length → inner t n = 0 → inner v' t = inner v t

/-- `l'` differs from `l` in the first `n` components at most. -/
def FirstOnly (n : Nat) (l l' : List ℝ) : Prop :=
  l'.length = l.length ∧ ∀ i, n ≤ i → l'[i]? = l[i]?

/-- The particle is put on the segment between the previous position and the intersection point: at
the reset distance from the wall, or at the previous position if that is nearer. -/
structure Truncates (ndim : Nat) (reset : ℝ) (prev ip pos pos' : List ℝ) : Prop where
  others : FirstOnly ndim pos pos'
  onSegment : ∃ t, 0 ≤ t ∧ t ≤ 1 ∧ pos'.take ndim = along (prev.take ndim) (ip.take ndim) t
  distance : pointDist (pos'.take ndim) (ip.take ndim) = min reset (pointDist (prev.take ndim) (ip.take ndim))

/-- The last time increment is scaled by a factor in [0, 1] and the time is corrected by the change
of the increment; if the wall was hit on the way from the previous position to the position, the
factor is the part of the way before the wall. -/
structure Retimes (ndim : Nat) (prev ip pos tsp tsp' : List ℝ) : Prop where
  others : FirstOnly 2 tsp tsp'
  times : ∃ time dt f : ℝ, tsp[0]? = some time ∧ tsp[1]? = some dt ∧ 0 ≤ f ∧ f ≤ 1 ∧
    tsp'[0]? = some (time - (dt - dt * f)) ∧ tsp'[1]? = some (dt * f) ∧
    ∀ s, 0 ≤ s → s ≤ 1 → 1e-16 < pointDist (pos.take ndim) (prev.take ndim) →
      ip.take ndim = along (prev.take ndim) (pos.take ndim) s → f = s

/-- The rows hold, in every cell, the properties of the particles of the cell. -/
def Shape {ρ : Type _} (npart : List Nat) (rows : List (List ρ)) : Prop := rows.map List.length = npart

/-- The properties of particle `(c, l)`. -/
def rowAt {ρ : Type _} (rows : List (List ρ)) (c l : Nat) : Option ρ := (rows[c]?).bind fun cell => cell[l]?

/-- The vectors of the particle have the components the kernels use. -/
structure RowOk (ndim : Nat) (r : TrajRow) : Prop where
  pos : ndim ≤ r.pos.length
  vel : ndim ≤ r.vel.length
  prev : ndim ≤ r.prev.length
  tsp : 2 ≤ r.tsp.length

/-- A loop over the group or sub group on a device. -/
structure RowLoopOk (P : LoopParams) (npart : List Nat) (par : Parent) : Prop where
  built : Built npart par
  localSize : 0 < P.localSize
  localSizeInt : P.localSize < 2 ^ 31
  nbin : 0 < P.nbin
  counts : ∀ n ∈ npart, n < 2 ^ 31

/-- The loop sees particle `(c, l)` as loop layer `k` of the cell: `k` is the position of the
particle in its cell among those of the sub group. -/
def LoopLayer (npart : List Nat) (par : Parent) (c l k : Nat) : Prop :=
  par.layerAt c k = some l ∧ ∃ n, (par.counts npart)[c]? = some n ∧ k < n

end NP.Spec
