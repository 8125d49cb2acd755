import Verif.Mesh.ModelCart

/-!
# Model: uniform positions in the cells of a Cartesian mesh

Models `uniform_within_extents`, `include/neso_particles/utility.hpp:28-44`, and `uniform_within_cartesian_cells`,
`src/utility.cpp:19-77`.

Simplifications. `gen k` is the `k`-th sample of the uniform distribution. The vectors `cells` and `positions`, which are indexed by
dimension and then particle, are one list with the cell and the position of each particle, in the order in which they are
written, which is increasing.
-/

set_option autoImplicit false

namespace NP

/-- `uniform_within_extents` from the `k`-th sample on: one column of `n` samples for each dimension, utility.hpp:32-43, and the
number of the next sample. -/
def uniformWithinExtents (gen : Nat → ℚ) (n : Nat) : Nat → List ℚ → List (List ℚ) × Nat
  | k, [] => ([], k)
  | k, ex :: exs =>
    let r := uniformWithinExtents gen n (k + n) exs
    ((List.range n).map (fun px => ex * gen (k + px)) :: r.1, r.2)

/-- The loop over dimensions, src/utility.cpp:70-73, with the offset in lines 62-66: the position with this index in its cell; the
origin of the mesh hierarchy is zero, src/cartesian_mesh/cartesian_h_mesh.cpp:113-116. -/
def pointInCell (w : ℚ) (index : Nat) : List Int → List (List ℚ) → Option (List ℚ)
  | _, [] => some []
  | c :: cs, col :: cols =>
    let origin := 0
    let offset := origin + c * w
    (col[index]?).bind fun x => (pointInCell w index cs cols).bind fun r => some ((offset + x) :: r)
  | [], _ :: _ => none

/-- The particles `index, ..., index + count - 1` of one cell, src/utility.cpp:54-58 and 68-75. -/
def placeInCell (w : ℚ) (id : Int) (cell : List Int) (cols : List (List ℚ)) :
    Nat → Nat → Option (List (Int × List ℚ))
  | _, 0 => some []
  | index, count + 1 => (pointInCell w index cell cols).bind fun p =>
    (placeInCell w id cell cols (index + 1) count).bind fun r => some ((id, p) :: r)

/-- The loop over cells, src/utility.cpp:53-76. -/
def placeInCells (gen : Nat → ℚ) (w : ℚ) (ndim n : Nat) (single : Bool) :
    Nat → Nat → List (List Int) → Option (List (Int × List ℚ))
  | _, _, [] => some []
  | cx, k, cell :: rest =>
    let (cols, k') := uniformWithinExtents gen n k (List.replicate ndim w)
    let id : Int := if single then 0 else cx
    (placeInCell w id cell cols 0 n).bind fun here =>
    (placeInCells gen w ndim n single (cx + 1) k' rest).bind fun r => some (here ++ r)

/-- `uniform_within_cartesian_cells` on rank `r`, src/utility.cpp:19-77. -/
def CartMesh.uniformWithinCells (m : CartMesh) (extent : ℚ) (gen : Nat → ℚ) (single : Bool) (r n : Nat) :
    Option (List (Int × List ℚ)) :=
  (m.box r).bind fun b => (getOwnedCells b).bind fun cells =>
  placeInCells gen (extent / 2 ^ m.mh.order) m.ndim n single 0 0 cells

end NP
