import Verif.Common.Kernel
import Mathlib.Data.Rat.Floor

/-!
# Model: sampling positions in the cells of unstructured meshes

Models `uniform_within_dmplex_cell`, `uniform_within_dmplex_cells` and
`uniform_density_within_dmplex_cells`, `src/external_interfaces/petsc/dmplex_utility.cpp:7-126`.

Simplifications. Numbers are rational. A random number generator is the sequence of numbers that the
distributions make of its output: `draw k lo hi` is the number that the `k`th use gives for a
distribution over `[lo, hi)`, and the state is the number of uses so far. Counts are unbounded and, if
they are arguments, not negative.
-/

set_option autoImplicit false

namespace NP

/-- What the functions use of the mesh: dimension, number of cells, the sides of the bounding box of a
cell, `cell_contains_point`, the volume of a cell; and the generator. -/
structure SampleMesh where
  ndim : Nat
  cellCount : Nat
  box : Nat → Option (List (ℚ × ℚ))
  contains : Nat → List ℚ → Option Bool
  volume : Nat → ℚ
  draw : Nat → ℚ → ℚ → ℚ

/-- The proposed position, lines 45-47. -/
def samplePropose (m : SampleMesh) (box : List (ℚ × ℚ)) (s : List ℚ × Nat) : Option (List ℚ × Nat) :=
  forLoop 0 m.ndim (fun dx s => (rd box dx).bind fun b =>
    (st s.1 dx (m.draw s.2 b.1 b.2)).bind fun x => some (x, s.2 + 1)) s

/-- The `while` loop, lines 44-50; the first argument is the number of attempts that are left, which is
returned with the proposed position and the state of the generator. -/
def sampleTry (m : SampleMesh) (cell : Nat) (box : List (ℚ × ℚ)) : Nat → List ℚ × Nat →
    Option (Nat × List ℚ × Nat)
  | 0, s => some (0, s)
  | left + 1, s => (samplePropose m box s).bind fun s' => (m.contains cell s'.1).bind fun contained =>
    if contained then some (left, s') else sampleTry m cell box left s'

/-- `positions.at(dx).at(index) = proposed_position.at(dx)` for all `dx`, lines 52-54. -/
def sampleStore (ndim index : Nat) (x : List ℚ) (positions : List (List ℚ)) : Option (List (List ℚ)) :=
  forLoop 0 ndim (fun dx ps => (rd x dx).bind fun v => (rd ps dx).bind fun row =>
    (st row index v).bind fun row' => st ps dx row') positions

/-- Result: index, positions, cells, state of the generator. -/
structure SampleState where
  index : Nat
  positions : List (List ℚ)
  cells : List Int
  rng : Nat

/-- `uniform_within_dmplex_cell`, lines 7-60. -/
def sampleCell (m : SampleMesh) (attemptMax cell npart : Nat) (s : SampleState) : Option SampleState :=
  (forLoop 0 m.ndim (fun dx (_ : Unit) => (rd s.positions dx).bind fun row =>
    if row.length ≥ s.index + npart then some () else none) ()).bind fun _ =>
  if s.cells.length ≥ s.index + npart then
    (m.box cell).bind fun box =>
    (forLoop 0 npart (fun _ (sp : SampleState × List ℚ) =>
      (sampleTry m cell box attemptMax (sp.2, sp.1.rng)).bind fun r =>
      if r.1 > 0 then
        (sampleStore m.ndim sp.1.index r.2.1 sp.1.positions).bind fun ps =>
        (st sp.1.cells sp.1.index (cell : Int)).bind fun cs =>
        some (⟨sp.1.index + 1, ps, cs, r.2.2⟩, r.2.1)
      else none) (s, List.replicate m.ndim 0)).map fun sp => sp.1
  else none

/-- Resizes the output and samples every cell, lines 75-91 and 112-125. -/
def sampleAll (m : SampleMesh) (attemptMax : Nat) (nparts : List Nat) (total : Nat) (cells : List Int)
    (rng : Nat) : Option SampleState :=
  (forLoop 0 m.cellCount (fun cx s => (rd nparts cx).bind fun n => sampleCell m attemptMax cx n s)
    ⟨0, List.replicate m.ndim (List.replicate total 0), (cells ++ List.replicate total 0).take total, rng⟩).bind
  fun s => if s.index = total then some s else none

/-- `uniform_within_dmplex_cells`, lines 62-92. -/
def sampleCells (m : SampleMesh) (attemptMax npart : Nat) (cells : List Int) (rng : Nat) :
    Option SampleState :=
  sampleAll m attemptMax (List.replicate m.cellCount npart) (npart * m.cellCount) cells rng

/-- `std::round`: to the nearest integer, half way cases away from zero. -/
def stdRound (x : ℚ) : Int := if 0 ≤ x then ⌊x + 1 / 2⌋ else -⌊-x + 1 / 2⌋

/-- `uniform_density_within_dmplex_cells`, lines 94-126. A negative number of particles is an error. -/
def sampleDensity (m : SampleMesh) (attemptMax : Nat) (density : ℚ) (cells : List Int) (rng : Nat) :
    Option (Nat × SampleState) :=
  ((List.range m.cellCount).mapM fun cx => index (stdRound (density * m.volume cx))).bind fun nparts =>
  (sampleAll m attemptMax nparts nparts.sum cells rng).map fun s => (nparts.sum, s)

end NP
