import Verif.Mesh.ModelCart

/-!
# Faces of the boundary of the Cartesian mesh

Model of the parts of `src/cartesian_mesh/cartesian_h_mesh.cpp` about the cells of the faces of
the boundary. Arrays with six entries are lists with six entries. Integers are unbounded.
-/

set_option autoImplicit false

namespace NP

/-- `num_faces`, src/cartesian_mesh/cartesian_h_mesh.cpp:467. -/
def CartMesh.numFaces (m : CartMesh) : Nat := if m.ndim = 2 then 4 else 6

/-- `num_geoms_per_face`, src/cartesian_mesh/cartesian_h_mesh.cpp:207-209 and 231-243; the
entries are zero initially. The assertions about the totals in lines 213-215 and 247-252 are
equalities of the same sums. -/
def CartMesh.geomsPerFace (m : CartMesh) : List Int :=
  let nf := m.mh.ncellsDimFine
  match m.mh.dims with
  | [d0, d1] => [d0 * nf, d1 * nf, d0 * nf, d1 * nf, 0, 0]
  | [d0, d1, d2] => [d0 * d2 * nf ^ 2, d1 * d2 * nf ^ 2, d0 * d2 * nf ^ 2, d1 * d2 * nf ^ 2,
      d0 * d1 * nf ^ 2, d0 * d1 * nf ^ 2]
  | _ => [0, 0, 0, 0, 0, 0]

/-- `ncells_face_global`, src/cartesian_mesh/cartesian_h_mesh.cpp:212-216 and 245-254. -/
def CartMesh.ncellsFaceGlobal (m : CartMesh) : Int := m.geomsPerFace.sum

/-- `face_strides0`, src/cartesian_mesh/cartesian_h_mesh.cpp:219-221 and 256-261. -/
def CartMesh.faceStrides0 (m : CartMesh) : List Int :=
  let nf := m.mh.ncellsDimFine
  match m.mh.dims with
  | [d0, d1] => [d0 * nf, d1 * nf, d0 * nf, d1 * nf, 0, 0]
  | [d0, d1, _] => [d0 * nf, d1 * nf, d0 * nf, d1 * nf, d0 * nf, d0 * nf]
  | _ => [0, 0, 0, 0, 0, 0]

/-- `face_strides1`, src/cartesian_mesh/cartesian_h_mesh.cpp:222-225 and 263-265. -/
def CartMesh.faceStrides1 (m : CartMesh) : List Int :=
  let nf := m.mh.ncellsDimFine
  match m.mh.dims with
  | [_, _] => [1, 1, 1, 1, 0, 0]
  | [_, d1, d2] => [d2 * nf, d2 * nf, d2 * nf, d2 * nf, d1 * nf, d1 * nf]
  | _ => [0, 0, 0, 0, 0, 0]

/-- `num_geoms_per_face_exscan` and `num_geoms_per_face_incscan`, loop in
src/cartesian_mesh/cartesian_h_mesh.cpp:269-275. -/
def faceScans : Int → List Int → List (Int × Int)
  | _, [] => []
  | total, g :: gs => (total, total + g) :: faceScans (total + g) gs

/-- The search for the face, src/cartesian_mesh/cartesian_h_mesh.cpp:475-481. -/
def findFace : List (Int × Int) → Int → Option Nat
  | [], _ => none
  | s :: ss, id => if id < s.2 then some 0 else (findFace ss id).bind fun f => some (f + 1)

/-- `get_face_id_as_tuple`, src/cartesian_mesh/cartesian_h_mesh.cpp:464-507. -/
def CartMesh.getFaceIdAsTuple (m : CartMesh) (id : Int) : Option (List Int) :=
  let scans := faceScans 0 m.geomsPerFace
  if 0 ≤ id ∧ id < (m.geomsPerFace.take m.numFaces).sum then
    (findFace (scans.take m.numFaces) id).bind fun f =>
    (rd scans f).bind fun sc => (rd m.faceStrides0 f).bind fun s0 =>
    (rd m.faceStrides1 f).bind fun s1 =>
    let loc := id - sc.1
    if s0 = 0 then none else
    let l0 := loc.tmod s0
    let l1 := loc.tdiv s0
    if (0 ≤ l1 ∧ l1 < s1) ∧ l0 + l1 * s0 = loc ∧ sc.1 + loc = id then some [(f : Int), l0, l1]
    else none
  else none

/-- `get_mesh_tuple_owning_face_tuple`, src/cartesian_mesh/cartesian_h_mesh.cpp:509-536, writes
into the given tuple. -/
def CartMesh.meshTupleOwningFace (m : CartMesh) (face tuple : List Int) : Option (List Int) :=
  (rd face 0).bind fun fi => (index fi).bind fun f => (rd face 1).bind fun l0 =>
  if m.ndim = 2 then
    (rd m.cellCounts 0).bind fun c0 => (rd m.cellCounts 1).bind fun c1 =>
    (rd [0, 1, 0, 1] f).bind fun i0 => (rd [1, 0, 1, 0] f).bind fun i1 =>
    (rd [0, c0 - 1, c1 - 1, 0] f).bind fun last =>
    (st tuple i0 l0).bind fun t => st t i1 last
  else
    (rd face 2).bind fun l1 =>
    (rd m.cellCounts 0).bind fun c0 => (rd m.cellCounts 1).bind fun c1 =>
    (rd m.cellCounts 2).bind fun c2 =>
    (rd [0, 1, 0, 1, 0, 0] f).bind fun i0 => (rd [2, 2, 2, 2, 1, 1] f).bind fun i1 =>
    (rd [1, 0, 1, 0, 2, 2] f).bind fun i2 =>
    (rd [0, c0 - 1, c1 - 1, 0, 0, c2 - 1] f).bind fun last =>
    (st tuple i0 l0).bind fun t => (st t i1 l1).bind fun t => st t i2 last

/-- `get_face_linear_index_from_tuple`, src/cartesian_mesh/cartesian_h_mesh.cpp:538-551. -/
def CartMesh.faceLinearIndex (m : CartMesh) (face : List Int) : Option Int :=
  (rd face 0).bind fun fi => (index fi).bind fun f => (rd face 1).bind fun l0 =>
  if f ≤ m.geomsPerFace.length then
    let offset := (m.geomsPerFace.take f).sum
    if m.ndim = 2 then some (offset + l0)
    else (rd face 2).bind fun l1 => (rd m.faceStrides0 f).bind fun s0 =>
      some (offset + l0 + l1 * s0)
  else none

/-- `cache_map_face_id_to_rank`, a map (the key is the face id). -/
abbrev FaceCache := Int → Option Nat

/-- `get_face_id_owning_rank`, src/cartesian_mesh/cartesian_h_mesh.cpp:553-570. -/
def CartMesh.faceOwner (m : CartMesh) (cache : FaceCache) (id : Int) : Option (Nat × FaceCache) :=
  if (m.ndim = 2 ∨ m.ndim = 3) ∧ (0 ≤ id ∧ id < m.ncellsFaceGlobal) then
    match cache id with
    | some r => some (r, cache)
    | none =>
      (m.getFaceIdAsTuple id).bind fun face => (m.meshTupleOwningFace face [0, 0, 0]).bind fun t =>
      (m.owningRank t).bind fun r => some (r, fun k => if k = id then some r else cache k)
  else none

/-- The loops of `compute_owned_face_indices`,
src/cartesian_mesh/cartesian_h_mesh.cpp:289-313: the tuples (face, l0, l1) in order. -/
def CartMesh.localFaceTuples (m : CartMesh) (b : List (Int × Int)) : Option (List (List Int)) :=
  (rd (padBox b) 0).bind fun b0 => (rd (padBox b) 1).bind fun b1 => (rd (padBox b) 2).bind fun b2 =>
  collectM (fun f => (rd [b0, b1, b0, b1, b0, b0] f).bind fun r0 =>
    (rd [b2, b2, b2, b2, b1, b1] f).bind fun r1 =>
    some ((intRange r1.1 r1.2).flatMap fun l1 => (intRange r0.1 r0.2).map fun l0 =>
      [(f : Int), l0, l1])) (List.range m.numFaces)

/-- The body of those loops, src/cartesian_mesh/cartesian_h_mesh.cpp:313-322. -/
def CartMesh.ownedFaceStep (m : CartMesh) (r : Nat) (tuple : List Int)
    (s : FaceCache × List Int) : Option (FaceCache × List Int) :=
  (m.faceLinearIndex tuple).bind fun id => (m.faceOwner s.1 id).bind fun (o, cache) =>
  some (cache, if o = r then intSetInsert id s.2 else s.2)

/-- `owned_face_indices` as computed by `compute_owned_face_indices`,
src/cartesian_mesh/cartesian_h_mesh.cpp:281-333. -/
def CartMesh.ownedFaces (m : CartMesh) (cache : FaceCache) (r : Nat) :
    Option (FaceCache × List Int) :=
  if 1 < m.ndim ∧ m.ndim < 4 then
    (m.box r).bind fun b => (m.localFaceTuples b).bind fun tuples =>
    runItems (m.ownedFaceStep r) tuples (cache, [])
  else none

/-- The entry of `map_faces_to_geoms` for the face `f`,
src/cartesian_mesh/cartesian_h_mesh.cpp:326-332. -/
def CartMesh.facesToGeoms (m : CartMesh) (owned : List Int) (f : Int) : Option (List Int) :=
  collectM (fun ix => (m.getFaceIdAsTuple ix).bind fun t => (rd t 0).bind fun g =>
    some (if g = f then [ix] else [])) owned

end NP
