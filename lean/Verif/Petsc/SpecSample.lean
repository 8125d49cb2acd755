import Verif.Petsc.ModelSample

/-!
# Specification: sampling positions in the cells of unstructured meshes
-/

set_option autoImplicit false

namespace NP.Spec

/-- The position proposed with the numbers `g`, `g + 1`, ... of the generator: each component is a
draw over the side of the bounding box of the cell. -/
def Proposal (m : SampleMesh) (cell g : Nat) (x : List ℚ) : Prop :=
  x.length = m.ndim ∧ ∃ box, m.box cell = some box ∧ ∀ dx < m.ndim, ∃ lo hi, box[dx]? = some (lo, hi) ∧
    x[dx]? = some (m.draw (g + dx) lo hi)

/-- Rejection sampling: `x` is the first of the proposals from state `g` on that is in the cell, the
`n`th one, and the state is `g'` afterwards. -/
inductive Accepted (m : SampleMesh) (cell : Nat) : Nat → List ℚ → Nat → Nat → Prop
  | take (g : Nat) (x : List ℚ) : Proposal m cell g x → m.contains cell x = some true →
      Accepted m cell g x (g + m.ndim) 1
  | skip (g : Nat) (y x : List ℚ) (g' n : Nat) : Proposal m cell g y → m.contains cell y = some false →
      Accepted m cell (g + m.ndim) x g' n → Accepted m cell g x g' (n + 1)

/-- Component `dx` of the position of particle `i`. -/
def posAt (positions : List (List ℚ)) (i dx : Nat) : Option ℚ := (positions[dx]?).bind fun row => row[i]?

/-- Particle `i` is in the cell `cell`, at the first accepted position from state `g` on, for which
fewer than `amax` attempts were needed. -/
def SampledAt (m : SampleMesh) (amax cell i g g' : Nat) (positions : List (List ℚ)) (cells : List Int) : Prop :=
  cells[i]? = some (cell : Int) ∧ ∃ x n, Accepted m cell g x g' n ∧ n < amax ∧
    ∀ dx < m.ndim, posAt positions i dx = x[dx]?

/-- The nearest integer; half way between two integers the one further from zero. -/
def Nearest (x : ℚ) (r : Int) : Prop := |x - r| < 1 / 2 ∨ (|x - r| = 1 / 2 ∧ |x| < |(r : ℚ)|)

end NP.Spec
