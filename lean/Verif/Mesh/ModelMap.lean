import Verif.Mesh.Model
import Mathlib.Data.Rat.Floor
import Mathlib.Tactic.Linarith

/-!
# Mapping positions to mesh hierarchy cells

Model of `src/global_mapping.cpp` and of the device mapper of
`include/neso_particles/mesh_hierarchy.hpp`. `REAL` arithmetic is exact (rational).
-/

set_option autoImplicit false

namespace NP

/-- Conversion of a `REAL` to an integer type: towards zero. -/
def truncZ (q : ℚ) : Int := if 0 ≤ q then ⌊q⌋ else ⌈q⌉

/-- A mesh hierarchy with its origin and the coarse cell width `extent`. -/
structure MeshGeom where
  /-- The cells. -/
  mh : MeshHierarchy
  /-- The origin. -/
  origin : List ℚ
  /-- `cell_width_coarse`. -/
  width : ℚ

/-- `cell_width_fine`, src/mesh_hierarchy.cpp:31. -/
def MeshGeom.widthFine (g : MeshGeom) : ℚ := g.width / (g.mh.ncellsDimFine : ℚ)

/-- What is computed for one dimension. -/
structure DimMap where
  /-- The entry stored for the coarse index. -/
  coarse : Int
  /-- The entry stored for the fine index. -/
  fine : Int
  /-- If the error flag was set. -/
  bad : Bool
deriving DecidableEq

/-- The constant `tol`. -/
def mapTol : ℚ := 1 / 10000000000

/-- The body of the loop over the dimensions, src/global_mapping.cpp:118-164, and
`map_to_tuple`, include/neso_particles/mesh_hierarchy.hpp:287-327 (which does not set an
error flag). -/
def mapDim (n nf : Int) (width o p : ℚ) : DimMap :=
  let inverseCoarse := 1 / width
  let inverseFine := (nf : ℚ) / width
  let widthFine := width / (nf : ℚ)
  let pos := p - o
  let cc0 := truncZ (pos * inverseCoarse)
  -- the coarse index used further on, the entry stored, the error flag
  let coarse : Int × Int × Bool :=
    if cc0 ≥ n then
      if |pos - n * width| / |pos| ≤ mapTol then (n - 1, n - 1, false) else (0, -2, true)
    else (cc0, cc0, false)
  let posFine := pos - coarse.1 * width
  let cf0 := truncZ (posFine * inverseFine)
  let fine : Int × Bool :=
    if cf0 ≥ nf then
      if |posFine - nf * widthFine| / |posFine| ≤ mapTol then (nf - 1, false) else (-2, true)
    else (cf0, false)
  ⟨coarse.2.1, fine.1, coarse.2.2 || fine.2⟩

/-- The loop over the dimensions: the coarse entries, the fine entries, the error flag. -/
def mapDims (nf : Int) (width : ℚ) : List Int → List ℚ → List ℚ →
    Option (List Int × List Int × Bool)
  | [], _, _ => some ([], [], false)
  | n :: ns, o :: os, p :: ps =>
    let m := mapDim n nf width o p
    (mapDims nf width ns os ps).bind fun (cs, fs, bad) =>
      some (m.coarse :: cs, m.fine :: fs, m.bad || bad)
  | _, _, _ => none

/-- The tuple computed for a position and the error flag. -/
def MeshGeom.mapPosition (g : MeshGeom) (p : List ℚ) : Option (List Int × Bool) :=
  (mapDims g.mh.ncellsDimFine g.width g.mh.dims g.origin p).bind fun (cs, fs, bad) =>
    some (cs ++ fs, bad)

/-- The components of a particle that take part: the position and the first two
components of the `ParticleDat` of MPI ranks. -/
structure MapParticle where
  /-- Position. -/
  pos : List ℚ
  /-- Component 0 of the MPI ranks. -/
  rank0 : Int
  /-- Component 1 of the MPI ranks. -/
  rank1 : Int
deriving DecidableEq

/-- The indices (cell, layer) of all particles. -/
def particleItems {P : Type} (cells : List (List P)) : List (Nat × Nat) :=
  (List.range cells.length).flatMap fun c =>
    (List.range ((cells[c]?).getD []).length).map fun l => (c, l)

/-- Read the particle in a layer of a cell. -/
def rd2 {P : Type} (cells : List (List P)) (cl : Nat × Nat) : Option P :=
  (rd cells cl.1).bind fun row => rd row cl.2

/-- Store a particle in a layer of a cell. -/
def st2 {P : Type} (cells : List (List P)) (cl : Nat × Nat) (p : P) : Option (List (List P)) :=
  (rd cells cl.1).bind fun row => (st row cl.2 p).bind fun row' => st cells cl.1 row'

/-- The first kernel, src/global_mapping.cpp:38-65: particles whose component 1 is negative
take the next index and store where they are. The state is the counter and the arrays of
cells and layers. -/
def lookupStep (nlocal : Nat) (cells : List (List MapParticle)) (it : Nat × Nat)
    (s : Nat × List (Nat × Nat)) : Option (Nat × List (Nat × Nat)) :=
  (rd2 cells it).bind fun p =>
  if p.rank1 < 0 then
    if s.1 < nlocal then (st s.2 s.1 it).bind fun arr => some (s.1 + 1, arr) else none
  else some s

/-- The second kernel, src/global_mapping.cpp:110-168, the state is
`d_lookup_global_cells` and the error flag. -/
def mapStep (g : MeshGeom) (cells : List (List MapParticle)) (lookup : List (Nat × Nat))
    (idx : Nat) (s : List Int × Bool) : Option (List Int × Bool) :=
  (rd lookup idx).bind fun it => (rd2 cells it).bind fun p =>
  (g.mapPosition p.pos).bind fun (t, bad) =>
  (stRange s.1 (idx * g.mh.ndim * 2) t).bind fun arr => some (arr, s.2 || bad)

/-- `MeshHierarchy::get_owners`, src/mesh_hierarchy.cpp:217-228. -/
def getOwners (mh : MeshHierarchy) (map : List Int) (nqueries : Nat) (indices : List Int) :
    Option (List Int) :=
  forAllM (fun qx => (mh.tupleToLinearGlobal (indices.drop (qx * mh.ndim * 2))).bind fun lin =>
    (index lin).bind fun i => rd map i) (List.range nqueries)

/-- The last kernel, src/global_mapping.cpp:223-233. -/
def writeRankStep (lookup : List (Nat × Nat)) (ranks : List Int) (idx : Nat)
    (cells : List (List MapParticle)) : Option (List (List MapParticle)) :=
  (rd lookup idx).bind fun it => (rd ranks idx).bind fun r => (rd2 cells it).bind fun p =>
  st2 cells it { p with
    rank0 := r }

/-- `MeshHierarchyGlobalMap::execute`, src/global_mapping.cpp:11-237. `map` is the map of
owners of the mesh hierarchy. The buffers of global cells have six entries per query. -/
def globalMapExecute (s0 s1 s2 : Sched) (f0 : Fresh (Nat × Nat)) (f1 : Fresh Int) (g : MeshGeom)
    (map : List Int) (cells : List (List MapParticle)) : Option (List (List MapParticle)) :=
  let nlocal := (particleItems cells).length
  (runItems (lookupStep nlocal cells) (s0.order (particleItems cells)) (0, (f0 nlocal).val)).bind
    fun (nquery, lookup) =>
  (runItems (mapStep g cells lookup) (s1.order (List.range nquery)) ((f1 (nquery * 6)).val, false)).bind
    fun (indices, bad) =>
  if bad then none else
  (getOwners g.mh map nquery indices).bind fun ranks =>
  runItems (writeRankStep lookup ranks) (s2.order (List.range nquery)) cells

/-- `reset_mpi_ranks`, src/global_mapping.cpp:241-253. -/
def resetMpiRanks (s : Sched) (cells : List (List MapParticle)) :
    Option (List (List MapParticle)) :=
  runItems (fun it cells => (rd2 cells it).bind fun p => st2 cells it { p with
    rank0 := -1
    rank1 := -1 }) (s.order (particleItems cells)) cells

/-! ## The device mapper -/

/-- `map_tuple_to_cart_tuple`, include/neso_particles/mesh_hierarchy.hpp:341-347. -/
def MeshHierarchy.tupleToCart (mh : MeshHierarchy) (t : List Int) : Option (List Int) :=
  forAllM (fun d => (rd t (mh.ndim + d)).bind fun f => (rd t d).bind fun c =>
    some (f + c * mh.ncellsDimFine)) (List.range mh.ndim)

/-- `cart_tuple_to_tuple`, include/neso_particles/mesh_hierarchy.hpp:385-392. -/
def MeshHierarchy.cartToTuple (mh : MeshHierarchy) (t : List Int) : Option (List Int) :=
  (forAllM (fun d => (rd t d).bind fun c => some (c.tdiv mh.ncellsDimFine))
    (List.range mh.ndim)).bind fun cs =>
  (forAllM (fun d => (rd t d).bind fun c => some (c.tmod mh.ncellsDimFine))
    (List.range mh.ndim)).bind fun fs => some (cs ++ fs)

/-- The body of `map_to_cart_tuple_no_trunc`,
include/neso_particles/mesh_hierarchy.hpp:358-376. -/
def cartIndexNoTrunc (nf : Int) (width o p : ℚ) : Int :=
  let inverseFine := (nf : ℚ) / width
  if p < o then
    -(truncZ ((o - p) * inverseFine) + 1)
  else truncZ ((p - o) * inverseFine)

/-- `map_to_cart_tuple_no_trunc`. -/
def MeshGeom.mapToCartNoTrunc (g : MeshGeom) (p : List ℚ) : Option (List Int) :=
  forAllM (fun d => (rd g.origin d).bind fun o => (rd p d).bind fun x =>
    some (cartIndexNoTrunc g.mh.ncellsDimFine g.width o x)) (List.range g.mh.ndim)

end NP
