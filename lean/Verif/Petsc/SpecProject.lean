import Verif.Petsc.ModelProject

/-!
# What the properties of piecewise constant functions say
-/

set_option autoImplicit false

namespace NP.Spec

variable {K : Type}

/-- The sum of `f` over the particles of `sel` that are in cell `c`. -/
def cellSum [AddCommMonoid K] (sel : List (Nat × Nat)) (c : Nat) (f : Nat × Nat → K) : K :=
  ((sel.filter fun it => it.1 = c).map f).sum

/-- Component `r` of the value of a particle. -/
def comp [Zero K] (cells : List (List (List K))) (r : Nat) (it : Nat × Nat) : K :=
  ((rd2 cells it).bind fun p => p[r]?).getD 0

/-- The particles are distinct, are in cells of the mesh, and have `ncomp` components. -/
structure HasValues (ncells ncomp : Nat) (cells : List (List (List K))) (sel : List (Nat × Nat)) :
    Prop where
  nodup : sel.Nodup
  exist : ∀ it ∈ sel, it.1 < ncells ∧ ∃ p, rd2 cells it = some p ∧ p.length = ncomp

/-- The points are in cells of the mesh and have `ncomp` components, which a mapper can hold. -/
structure PointsOk (ncells ncomp : Nat) (pts : List (List (DgPoint K))) : Prop where
  count : pts.length ≤ ncells
  comps : ∀ row ∈ pts, ∀ p ∈ row, p.val.length = ncomp
  pos : 0 < ncomp
  small : ncomp < 1000

/-- The value of the function in cell `c`, component `r`. -/
def DofIs (o : DgObj K) (c r : Nat) (v : K) : Prop := o.tab.at c r 0 = some v

/-- An object after any calls on a mesh whose cells have volumes `vols`. -/
inductive DgReach [Field K] [DecidableEq K] (vols : List K) (qpm : Bool) : DgObj K → Prop
  | new {space order ndim o} : dgNew space order ndim vols qpm = some o → DgReach vols qpm o
  | project {o s0 s1 ncomp cells sel pts o' pts'} : DgReach vols qpm o →
      o.project s0 s1 ncomp cells sel pts = some (o', pts') → DgReach vols qpm o'
  | evaluate {o s0 s1 ncomp cells sel pts o' cells'} : DgReach vols qpm o →
      o.evaluate s0 s1 ncomp pts cells sel = some (o', cells') → DgReach vols qpm o'
  | setDofs {o ncomp dofs o'} : DgReach vols qpm o → o.setDofs ncomp dofs = some o' →
      DgReach vols qpm o'

end NP.Spec
