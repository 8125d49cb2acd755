import Verif.Mesh.SpecMap
import Verif.Mesh.ModelCart

/-!
# What the Cartesian mesh properties say
-/

set_option autoImplicit false

namespace NP.Spec

/-- Coordinates of a rank in the grid of ranks. -/
def InGrid (ns xs : List Nat) : Prop := List.Forall₂ (fun n x => x < n) ns xs

/-- The ranks `0, ..., size - 1` are numbered by the coordinates, in some order. -/
structure ValidCart (c : CartComm) : Prop where
  /-- Coordinates have a rank, from which they are recovered. -/
  rank : ∀ xs, InGrid c.dims xs → c.rankOf xs < c.dims.prod ∧ c.coordsOf (c.rankOf xs) = xs
  /-- A rank has coordinates, from which it is recovered. -/
  coords : ∀ r, r < c.dims.prod → InGrid c.dims (c.coordsOf r) ∧ c.rankOf (c.coordsOf r) = r

/-- A Cartesian mesh that the constructor accepts: at most three dimensions and no more
ranks than cells in each dimension. -/
structure ValidCartMesh (m : CartMesh) : Prop where
  /-- Positive cell counts. -/
  mesh : ValidMesh m.mh
  /-- A communicator. -/
  comm : ValidCart m.comm
  /-- Number of dimensions. -/
  ndim : m.mh.dims.length ≤ 3
  /-- No dimension has more ranks than cells. -/
  grid : List.Forall₂ (fun (n : Nat) (c : Int) => 0 < n ∧ (n : Int) ≤ c) m.comm.dims
    (m.mh.dims.map (· * 2 ^ m.mh.order))

/-- The cell with coordinates `t` in the form of three entries. -/
def pad3 (t : List Int) : List Int := t ++ List.replicate (3 - t.length) 0

/-- The coordinates of a cell of the mesh. -/
def IsMeshCell (m : CartMesh) (t : List Int) : Prop :=
  InRange (m.mh.dims.map (· * 2 ^ m.mh.order)) t

/-- Rank `r` owns the cell with coordinates `t`: it is in the result of `get_owned_cells` on
that rank. -/
def Owns (m : CartMesh) (r : Nat) (t : List Int) : Prop :=
  ∃ b cells, m.box r = some b ∧ getOwnedCells b = some cells ∧ pad3 t ∈ cells

/-- The position is in the half open cell with coordinates `t` (the origin is zero and the
cells have width `extent / 2 ^ order`). -/
def InMeshCell (m : CartMesh) (extent : ℚ) (t : List Int) (p : List ℚ) : Prop :=
  List.Forall₂ (fun (i : Int) (x : ℚ) => i * (extent / 2 ^ m.mh.order) ≤ x ∧
    x < (i + 1) * (extent / 2 ^ m.mh.order)) t p

/-- In every dimension the cell with coordinates `t` is at most `stencil` cells, periodically,
from some cell of rank `r`. -/
def InHalo (m : CartMesh) (r : Nat) (t : List Int) : Prop :=
  ∃ u, IsMeshCell m u ∧ Owns m r u ∧ List.Forall₂ (fun (a : Int) (bn : Int × Int) =>
      ∃ o : Int, -m.stencil ≤ o ∧ o ≤ m.stencil ∧ (a - (bn.1 + o)) % bn.2 = 0) t
    (u.zip (m.mh.dims.map (· * 2 ^ m.mh.order)))

end NP.Spec

namespace NP.Spec

/-- The cell of the mesh in which the position is, or the one nearest to it if the position is
outside of the domain. -/
def NearestCell (m : CartMesh) (extent : ℚ) (t : List Int) (p : List ℚ) : Prop :=
  IsMeshCell m t ∧ t.length ≤ p.length ∧
  ∀ (d : Nat) (n i : Int) (x : ℚ), m.mh.dims[d]? = some n → t[d]? = some i → p[d]? = some x →
    (i = 0 ∨ i * (extent / 2 ^ m.mh.order) ≤ x) ∧
    (i = n * 2 ^ m.mh.order - 1 ∨ x < (i + 1) * (extent / 2 ^ m.mh.order))

end NP.Spec
