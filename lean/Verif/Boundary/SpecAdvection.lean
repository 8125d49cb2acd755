import Verif.Boundary.ModelAdvection

/-! Specification of the initialisation by advection. -/

set_option autoImplicit false

namespace NP.Spec

/-- All particles of all ranks. -/
def allRows (w : AdvWorld) : List AdvRow := w.flatMap List.flatten

/-- The point at the part `t` of the way from `start` to `target`. -/
def advPoint (start target : List ℚ) (t : ℚ) : List ℚ :=
  List.zipWith (fun s p => s + t * (p - s)) start target

/-- All particles when each is at the part `t` of the straight way from the point of the rank it
was created on to the position it was created with. -/
def allAt (point : Nat → List ℚ) (w : AdvWorld) (t : ℚ) : List AdvRow :=
  w.zipIdx.flatMap fun x => x.1.flatten.map fun r =>
    { r with pos := advPoint ((point x.2).take r.pos.length) r.pos t, orig := r.pos }

/-- `hybrid_move` moves particles between ranks, cells and layers and keeps their properties. -/
def Moves (move : Nat → AdvWorld → Option AdvWorld) : Prop :=
  ∀ i w, ∃ w', move i w = some w' ∧ (allRows w').Perm (allRows w)

/-- Devices, points and number of particles of a call. -/
structure AdvOk (e : AdvEnv) (w : AdvWorld) : Prop where
  localSize : ∀ r, 0 < (e.P r).localSize
  localSizeInt : ∀ r, (e.P r).localSize < 2 ^ 31
  nbin : ∀ r, 0 < (e.P r).nbin
  count : (allRows w).length < 2 ^ 31
  moves : Moves e.move
  point : ∀ r rows, w[r]? = some rows → ∀ x ∈ rows.flatten, x.pos.length ≤ (e.point r).length
  fresh : ∀ x ∈ allRows w, x.orig = []

end NP.Spec
