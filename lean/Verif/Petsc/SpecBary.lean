import Verif.Petsc.ModelBary
import Verif.Petsc.SpecProject
import Verif.Mesh.SpecCoord

/-!
# What the properties of functions given at the vertices of cells say
-/

set_option autoImplicit false

namespace NP.Spec

open Finset

/-- The weights of the vertices of a cell at a point: in a triangle the numbers with sum one that give
the point as combination of the vertices, in a quadrilateral the values of the four bilinear
functions. For quadrilaterals which are not parallelograms, the condition of C86. -/
inductive IsWeights : List (ℝ × ℝ) → ℝ × ℝ → List ℝ → Prop
  | tri {a b c x : ℝ × ℝ} {l1 l2 l3 : ℝ} : turnR a b c ≠ 0 → l1 + l2 + l3 = 1 →
      l1 • a + l2 • b + l3 • c = x → IsWeights [a, b, c] x [l1, l2, l3]
  | par {a b c d e : ℝ × ℝ} : turnR a b c ≠ 0 → d - a = c - b → RefSquare e →
      IsWeights [a, b, c, d] (bilinear a b c d e)
        [(1 - e.1) * (1 - e.2) / 4, (1 + e.1) * (1 - e.2) / 4, (1 + e.1) * (1 + e.2) / 4,
          (1 - e.1) * (1 + e.2) / 4]
  | quad {a b c d e : ℝ × ℝ} : ConvexQuad a b c d → RefSquare e →
      (Steep a b c d → (across a b c d e.1).2 ≠ 0) → (¬ Steep a b c d → (across a b c d e.1).1 ≠ 0) →
      IsWeights [a, b, c, d] (bilinear a b c d e)
        [(1 - e.1) * (1 - e.2) / 4, (1 + e.1) * (1 - e.2) / 4, (1 + e.1) * (1 + e.2) / 4,
          (1 - e.1) * (1 + e.2) / 4]

/-- Entry of a list of numbers. -/
noncomputable def ent (l : List ℝ) (i : Nat) : ℝ := l[i]?.getD 0

/-- What is assumed of the LU solver, on arrays in column-major format: what it returns is a solution,
and it returns one if the matrix has an inverse. -/
structure LuSolves (solve : Nat → List ℝ → List ℝ → Option (List ℝ)) : Prop where
  sound : ∀ N A B X, A.length = N * N → B.length = N * N → solve N A B = some X →
    X.length = N * N ∧ ∀ i < N, ∀ j < N,
      ∑ k ∈ range N, ent A (k * N + i) * ent X (j * N + k) = ent B (j * N + i)
  total : ∀ N A B, A.length = N * N → B.length = N * N →
    (∃ Y : Nat → Nat → ℝ, ∀ i < N, ∀ j < N,
      ∑ k ∈ range N, ent A (k * N + i) * Y k j = if i = j then 1 else 0) →
    ∃ X, solve N A B = some X

/-- The same points, with values that may differ. -/
def SamePoints (pts pts' : List (List BPoint)) : Prop :=
  ∀ it, (rd2 pts it).map (fun p => (p.order, p.pos, p.w)) =
    (rd2 pts' it).map fun p => (p.order, p.pos, p.w)

/-- An object and its points after any calls, on a mesh whose cells have the vertices `verts` and the
volumes `vols`. The values at the points may be changed in between. -/
inductive BaryReach (solve : Nat → List ℝ → List ℝ → Option (List ℝ)) (verts : List (List (ℝ × ℝ)))
    (vols : List ℝ) : BaryObj → List (List BPoint) → Prop
  | new {s0 s1 s2 space order ndim added pts o pts'} :
      baryNew solve s0 s1 s2 space order ndim verts vols added pts = some (o, pts') →
      BaryReach solve verts vols o pts'
  | project {o s0 s1 ncomp cells sel pts o' pts'} : BaryReach solve verts vols o pts →
      o.project s0 s1 ncomp cells sel pts = some (o', pts') → BaryReach solve verts vols o' pts'
  | evaluate {o s0 s1 ncomp cells sel pts o' cells'} : BaryReach solve verts vols o pts →
      o.evaluate s0 s1 ncomp pts cells sel = some (o', cells') → BaryReach solve verts vols o' pts
  | write {o pts pts'} : BaryReach solve verts vols o pts → SamePoints pts pts' →
      BaryReach solve verts vols o pts'

/-- The particles are distinct and have `ncomp` components and weights `b` in their cells. -/
structure BPartsOk (verts : List (List (ℝ × ℝ))) (ncomp : Nat) (cells : List (List BPart))
    (sel : List (Nat × Nat)) (b : Nat × Nat → List ℝ) : Prop where
  nodup : sel.Nodup
  exist : ∀ it ∈ sel, ∃ vs p, verts[it.1]? = some vs ∧ rd2 cells it = some p ∧ p.val.length = ncomp ∧
    IsWeights vs p.pos (b it)

/-- The points have the weights `w`, from zero to one, in their cells. -/
def PointsIn (verts : List (List (ℝ × ℝ))) (pts : List (List BPoint)) (w : Nat × Nat → List ℝ) : Prop :=
  ∀ ip p, rd2 pts ip = some p → ∃ vs, verts[ip.1]? = some vs ∧ IsWeights vs p.pos (w ip) ∧
    ∀ x ∈ w ip, 0 ≤ x ∧ x ≤ 1

/-- The points have `ncomp` components, which a mapper can hold, and lie in their cells. -/
structure BPointsOk (verts : List (List (ℝ × ℝ))) (ncomp : Nat) (pts : List (List BPoint))
    (w : Nat × Nat → List ℝ) : Prop where
  pos : 0 < ncomp
  small : ncomp < 1000
  len : ∀ ip p, rd2 pts ip = some p → p.val.length = ncomp
  inside : PointsIn verts pts w

/-- Component `r` of the value of a particle. -/
noncomputable def partVal (cells : List (List BPart)) (r : Nat) (it : Nat × Nat) : ℝ :=
  ((rd2 cells it).bind fun p => p.val[r]?).getD 0

/-- The numbered points of cell `c`, which has `n` vertices, hold component `r` of the function
whose values at the vertices are `q`. -/
def BHolds (pts : List (List BPoint)) (w : Nat × Nat → List ℝ) (c n r : Nat) (q : Nat → ℝ) : Prop :=
  ∀ ip p, rd2 pts ip = some p → ip.1 = c → 0 ≤ p.order → p.order < n →
    p.val[r]? = some (∑ v ∈ range n, ent (w ip) v * q v)

/-- Cell `c`, which has `n` vertices, has one point with each number below `n`. -/
def OneEach (pts : List (List BPoint)) (c n : Nat) : Prop :=
  ∀ i < n, ∃! ip : Nat × Nat, ip.1 = c ∧ ∃ p, rd2 pts ip = some p ∧ p.order = i

/-- Only the function zero vanishes at the numbered points of cell `c`. -/
def Determined (pts : List (List BPoint)) (w : Nat × Nat → List ℝ) (c n : Nat) : Prop :=
  ∀ q : Nat → ℝ, (∀ ip p, rd2 pts ip = some p → ip.1 = c → 0 ≤ p.order → p.order < n →
    ∑ v ∈ range n, ent (w ip) v * q v = 0) → ∀ v < n, q v = 0

end NP.Spec
