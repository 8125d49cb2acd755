import Verif.Mesh.ModelGrid
import Mathlib.Data.List.Forall2

/-!
# What the properties of the grid of ranks say
-/

set_option autoImplicit false

namespace NP.Spec

/-- `MPI_Dims_create` gives a grid with the given size, and `std::sort` sorts. -/
structure ValidGridEnv (e : GridEnv) : Prop where
  /-- Number of dimensions. -/
  dims_length : ∀ size n, 0 < size → 0 < n → (e.dimsCreate size n).length = n
  /-- Number of ranks. -/
  dims_prod : ∀ size n, 0 < size → 0 < n → (e.dimsCreate size n).prod = size
  /-- Positive dimensions. -/
  dims_pos : ∀ size n, 0 < size → 0 < n → ∀ x ∈ e.dimsCreate size n, 0 < x
  /-- All indices. -/
  sort_perm : ∀ l, (e.argsort l).Perm (List.range l.length)
  /-- In descending order of their keys. -/
  sort_desc : ∀ l, (e.argsort l).Pairwise fun i j => ∀ x y, l[i]? = some x → l[j]? = some y → y ≤ x

/-- The grid is for `size` ranks and no dimension has more ranks than cells. -/
def ValidGrid (size : Int) (counts grid : List Int) : Prop :=
  grid.prod = size ∧ List.Forall₂ (fun g c => 0 < g ∧ g ≤ c) grid counts

end NP.Spec
