import Verif.Common.Kernel
import Verif.Petsc.ModelHalo

/-!
# Model: particles to cells of unstructured meshes with PETSc

Models `DMPlexHostMapper::map`,
`src/external_interfaces/petsc/particle_cell_mapping/dmplex_host_mapper.cpp:16-167`.

Simplifications. Numbers are of any type. `DMLocatePoints` is a function from a point to the number
that it reports (a PETSc point, negative if there is none): points are found one by one.
-/

set_option autoImplicit false

namespace NP

/-- A particle: position, cell and rank properties. -/
structure HostPart (R : Type) where
  pos : List R
  cell : List Int
  rank : List Int

/-- What a rank has: `DMLocatePoints` of its mesh and of its halo (if it has one), the map
`map_local_lid_remote_lid` and its number; the dimension of the coordinates. -/
structure HostMesh (R : Type) where
  ndim : Nat
  rank : Int
  locate : List R → Int
  haloLocate : Option (List R → Int)
  lids : LidMap

/-- The particles of a loop over all cells or over one cell, as (cell, layer). -/
def hostItems (npart : List Nat) (mapCell : Int) : Option (List (Nat × Nat)) :=
  if mapCell > -1 then (rd npart mapCell.toNat).map fun n => (List.range n).map fun l => (mapCell.toNat, l)
  else some (npart.zipIdx.flatMap fun nc => (List.range nc.1).map fun l => (nc.2, l))

/-- `get_loop_linear_index`, `include/neso_particles/loop/particle_loop_index.hpp:40-58`. -/
def hostLinear (npart : List Nat) (mapCell : Int) (cl : Nat × Nat) : Nat :=
  (npart.take cl.1).sum - (npart.take (if mapCell > -1 then mapCell.toNat else 0)).sum + cl.2

/-- The particle of a cell and layer. -/
def hostGet {R : Type} (cells : List (List (HostPart R))) (cl : Nat × Nat) : Option (HostPart R) :=
  (rd cells cl.1).bind fun ps => rd ps cl.2

/-- Writes the particle of a cell and layer. -/
def hostPut {R : Type} (cells : List (List (HostPart R))) (cl : Nat × Nat) (p : HostPart R) :
    Option (List (List (HostPart R))) :=
  (rd cells cl.1).bind fun ps => (st ps cl.2 p).bind fun ps' => st cells cl.1 ps'

/-- `for (dx ...) dst[a + dx] = src[b + dx]`. -/
def copyBlock {R : Type} (src : List R) (b n a : Nat) (dst : List R) : Option (List R) :=
  forLoop 0 n (fun dx d => (rd src (b + dx)).bind fun x => st d (a + dx) x) dst

/-- The loop `DMPlexLocalMapper::interlace`, lines 36-51. -/
def hostInterlace {R : Type} (s : Sched) (ndim : Nat) (lin : Nat × Nat → Nat) (items : List (Nat × Nat))
    (cells : List (List (HostPart R))) (buf : List R) : Option (List R) :=
  runItems (fun cl buf => (hostGet cells cl).bind fun p => copyBlock p.pos 0 ndim (lin cl * ndim) buf)
    (s.order items) buf

/-- The points of an interlaced vector, as `DMLocatePoints` reads them. -/
def hostPoints {R : Type} (ndim n : Nat) (v : List R) : List (List R) :=
  (List.range n).map fun k => (v.drop (k * ndim)).take ndim

/-- The loop over the result of `DMLocatePoints` for the mesh, lines 83-95: `dh_cells`, `dh_ranks`,
`not_local_found`. -/
def hostLocal (rank : Int) (n : Nat) (found : List Int) (s : List Int × List Int × List Nat) :
    Option (List Int × List Int × List Nat) :=
  forLoop 0 n (fun px s => (rd found px).bind fun c =>
    (st s.1 px (if c > -1 then c else -1)).bind fun cs =>
    (st s.2.1 px (if c > -1 then rank else -1)).bind fun rs =>
    some (cs, rs, if c > -1 then s.2.2 else s.2.2 ++ [px])) s

/-- The copy of the points not found to the vector for the halo, lines 113-119. -/
def hostHaloCopy {R : Type} (ndim : Nat) (nf : List Nat) (v vh : List R) : Option (List R) :=
  forLoop 0 nf.length (fun qx vh => (rd nf qx).bind fun px => copyBlock v (px * ndim) ndim (qx * ndim) vh) vh

/-- The loop over the result of `DMLocatePoints` for the halo, lines 127-142. -/
def hostHalo (lids : LidMap) (nf : List Nat) (found : List Int) (s : List Int × List Int) :
    Option (List Int × List Int) :=
  forLoop 0 nf.length (fun qx s => (rd nf qx).bind fun px => (rd found qx).bind fun c =>
    (if c > -1 then (omGet lids c).map fun rc => (rc.2.1, rc.1) else some (-1, -1)).bind fun cr =>
    (st s.1 px cr.1).bind fun cs => (st s.2 px cr.2).bind fun rs => some (cs, rs)) s

/-- Lines 70-145: cells and ranks for the points of the vector `v`. -/
def hostSearch {R : Type} (fi : Fresh Int) (fr : Fresh R) (m : HostMesh R) (n : Nat) (v : List R) :
    Option (List Int × List Int) :=
  (hostLocal m.rank n ((hostPoints m.ndim n v).map m.locate) ((fi n).1, (fi n).1, [])).bind fun s =>
  match m.haloLocate with
  | none => some (s.1, s.2.1)
  | some loc => (hostHaloCopy m.ndim s.2.2 v (fr (n * m.ndim)).1).bind fun vh =>
    hostHalo m.lids s.2.2 ((hostPoints m.ndim n vh).map loc) (s.1, s.2.1)

/-- The loop `DMPlexLocalMapper::deinterlace`, lines 154-163. -/
def hostDeinterlace {R : Type} (s : Sched) (lin : Nat × Nat → Nat) (items : List (Nat × Nat))
    (cs rs : List Int) (cells : List (List (HostPart R))) : Option (List (List (HostPart R))) :=
  runItems (fun cl cells => (hostGet cells cl).bind fun p =>
    (rd cs (lin cl)).bind fun c => (st p.cell 0 c).bind fun pc =>
    (rd rs (lin cl)).bind fun r => (st p.rank 1 r).bind fun pr =>
    hostPut cells cl { p with cell := pc, rank := pr }) (s.order items) cells

/-- `DMPlexHostMapper::map`. Buffers have exactly the size that is asked for. -/
def hostMap {R : Type} (s1 s2 : Sched) (fi : Fresh Int) (fr : Fresh R) (m : HostMesh R) (mapCell : Int)
    (cells : List (List (HostPart R))) : Option (List (List (HostPart R))) :=
  let npart := cells.map List.length
  (if mapCell > -1 then rd npart mapCell.toNat else some npart.sum).bind fun n =>
  (hostItems npart mapCell).bind fun items =>
  (hostInterlace s1 m.ndim (hostLinear npart mapCell) items cells (fr (n * m.ndim)).1).bind fun v =>
  (hostSearch fi fr m n v).bind fun cr =>
  hostDeinterlace s2 (hostLinear npart mapCell) items cr.1 cr.2 cells

end NP
