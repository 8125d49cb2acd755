import Verif.Containers.ModelSerial

/-!
# Model: cells of a DMPlex as bytes and the mesh of halo cells

Models `src/external_interfaces/petsc/dmplex_cell_serialise.cpp` (all of it but `print` and
`get_depth`), its header, and of `dmplex_helper.hpp/.cpp` the numbering of points for a halo
(`HaloDMIndexMapper`), `dm_from_serialised_cells` and `get_copyable_cell`.

PETSc is not modelled beyond what these functions read and write: a DMPlex is the table of its
points (`Plex`), with points numbered from zero.  `sizeof(PetscInt)` is a parameter (`ki`), as
is `sizeof(PetscScalar)` (`ks`); a scalar is its bytes.  Reads outside of a container, failed
assertions and recursion deeper than the stack allows are `none`.
-/

set_option autoImplicit false

namespace NP

/-- The bytes of a scalar. -/
abbrev Scal := List Byte

/-- A `std::map` from `PetscInt`, as the list of its entries in the order of iteration. -/
abbrev OMap (α : Type) := List (Int × α)

/-- `std::map::at`, `std::map::find`. -/
def omGet {α : Type} (m : OMap α) (k : Int) : Option α := (m.find? (fun e => e.1 == k)).map (·.2)

/-- `map[k] = v`. -/
def omPut {α : Type} : OMap α → Int → α → OMap α
  | [], k, v => [(k, v)]
  | e :: m, k, v =>
    if k < e.1 then (k, v) :: e :: m else if k = e.1 then (k, v) :: m else e :: omPut m k v

/-- The order of a `std::map<PetscInt, std::set<PetscInt>>` seen as the set of its (key, element)
pairs. -/
def pairLt {α : Type} [LT α] [DecidableLT α] (a b : Nat × α) : Bool :=
  decide (a.1 < b.1) || (decide (a.1 = b.1) && decide (a.2 < b.2))

/-- `m[x.1].insert(x.2)`. A map of sets is the list of its (key, element) pairs in the order of
the nested iteration. -/
def psIns {α : Type} [LT α] [DecidableLT α] [DecidableEq α] :
    List (Nat × α) → Nat × α → List (Nat × α)
  | [], x => [x]
  | y :: m, x => if pairLt x y then x :: y :: m else if x = y then y :: m else y :: psIns m x

/-! ## The source mesh -/

/-- What PETSc stores for a point: height, cone, orientations and, for a vertex, the result of
`DMPlexGetCellCoordinates`. -/
structure PlexPoint where
  height : Nat
  cone : List Nat
  ornt : List Int
  coords : List Scal
  deriving DecidableEq

/-- A DMPlex with the chart `[0, points.length)`, and its global point numbers
(`DMPlexCreatePointNumbering`; negative for points owned by another rank). -/
structure Plex where
  depth : Nat
  points : List PlexPoint
  numbers : List Int
  deriving DecidableEq

/-- `signed_global_id_to_global_id`, `dmplex_utility.cpp:212-214`. -/
def unsignedId (c : Int) : Int := if c > -1 then c else c * (-1) - 1

/-- `DMPlexHelper::get_point_global_index(point)`, `dmplex_helper.cpp` with
`internal_get_point_global_index`, `dmplex_helper.hpp:216-223`. -/
def plexGlobal (dm : Plex) (p : Nat) : Option Int := (dm.numbers[p]?).map unsignedId

/-- `map_np_to_petsc` of the constructor, `dmplex_helper.cpp:276-285`: the cells (points of
height zero) that this rank owns. -/
def plexCells (dm : Plex) : List Nat :=
  (List.range dm.points.length).filter fun p =>
    (dm.points[p]?.any fun x => x.height == 0) && (dm.numbers[p]?.any fun g => decide (g > -1))

/-- The map from global to local points made by the constructor, `dmplex_helper.cpp:298-302`. -/
def plexLocalMap (dm : Plex) : OMap Nat :=
  (List.range dm.points.length).foldl (fun m p =>
    match plexGlobal dm p with
    | some g => omPut m g p
    | none => m) []

/-- `get_local_point_from_global_point`, `dmplex_helper.cpp:350-356`: the check is made with the
unsigned id, the look up (`operator[]`, which inserts zero) with the id as given. -/
def localOfGlobal (m : OMap Nat) (g : Int) : Option (Nat × OMap Nat) :=
  if (omGet m (unsignedId g)).isSome then
    match omGet m g with
    | some p => some (p, m)
    | none => some (0, omPut m g 0)
  else none

/-! ## A cell -/

/-- `CellSTDRepresentation`, `dmplex_cell_serialise.hpp`. -/
structure StdCell where
  cones : OMap (List Int)
  ornts : OMap (List Int)
  vertices : OMap (List Scal)
  depthOf : OMap Nat
  deriving DecidableEq

/-- `CellSTDRepresentation()`. -/
def StdCell.new : StdCell := ⟨[], [], [], []⟩

/-- `traverse_cell_specification`, `dmplex_cell_serialise.cpp:7-29`. The first number is the
depth of recursion the stack allows. -/
def traverseCell (dm : Plex) : Nat → Nat → List (Nat × Nat) → Option (List (Nat × Nat))
  | 0, _, _ => none
  | fuel + 1, ix, m =>
    (dm.points[ix]?).bind fun x =>
    if x.height ≤ dm.depth then
      x.cone.foldlM (fun m child => traverseCell dm fuel child m) (psIns m (x.height, ix))
    else none

/-- `v[k].push_back(x)` for all `x` of a list, on a `std::map` of vectors. -/
def omPushAll {α : Type} (m : OMap (List α)) (k : Int) (xs : List α) : OMap (List α) :=
  omPut m k ((omGet m k).getD [] ++ xs)

/-- The loop over the points of the closure, `dmplex_cell_serialise.cpp:42-62`. -/
def repPoint (dm : Plex) (c : StdCell) (hx : Nat × Nat) : Option StdCell :=
  (plexGlobal dm hx.2).bind fun g => (dm.points[hx.2]?).bind fun x =>
  (x.cone.mapM (plexGlobal dm)).bind fun cone =>
  if x.ornt.length = x.cone.length then
    some { c with cones := omPushAll c.cones g cone, ornts := omPushAll c.ornts g x.ornt }
  else none

/-- The loop over the vertices, `dmplex_cell_serialise.cpp:64-79`. -/
def repVertex (dm : Plex) (c : StdCell) (hx : Nat × Nat) : Option StdCell :=
  (plexGlobal dm hx.2).bind fun g => (dm.points[hx.2]?).bind fun x =>
  some { c with vertices := omPushAll c.vertices g x.coords }

/-- The constructor from a mesh, `dmplex_cell_serialise.cpp:31-80`. -/
def repOfPlex (fuel : Nat) (dm : Plex) (ix : Nat) : Option StdCell :=
  (traverseCell dm fuel ix []).bind fun m =>
  (m.foldlM (repPoint dm) StdCell.new).bind fun c =>
  (m.filter fun hx => hx.1 == dm.depth).foldlM (repVertex dm) c

/-- `get_point_depth`, `dmplex_cell_serialise.cpp:82-94`, with its cache. The number is the
depth of recursion the stack allows. -/
def repDepth : Nat → StdCell → Int → Option (Nat × StdCell)
  | 0, _, _ => none
  | fuel + 1, c, p =>
    (omGet c.cones p).bind fun cone =>
    match omGet c.depthOf p with
    | some d => some (d, c)
    | none =>
      match cone with
      | q :: _ => (repDepth fuel c q).bind fun (d, c) =>
        some (d + 1, { c with depthOf := omPut c.depthOf p (d + 1) })
      | [] => some (0, c)

/-! ## Bytes -/

/-- The bytes of a signed integer of `k` bytes (two's complement). -/
def encS (k : Nat) (x : Int) : List Byte := encNat k (x % (256 ^ k : Nat)).toNat

/-- The signed integer with these bytes. -/
def decS (k : Nat) (bs : List Byte) : Int :=
  if 2 * decNat bs < 256 ^ k then decNat bs else (decNat bs : Int) - (256 ^ k : Nat)

/-- The integers pushed for the points, `dmplex_cell_serialise.cpp:129-139`. -/
def pointInts (ornts : OMap (List Int)) : OMap (List Int) → Option (List Int)
  | [] => some []
  | (p, cone) :: m => (omGet ornts p).bind fun o => (pointInts ornts m).bind fun r =>
    some (p :: (cone.length : Int) :: (cone ++ o ++ r))

/-- The integers pushed for the vertices, `dmplex_cell_serialise.cpp:142-149`. -/
def vertexInts (m : OMap (List Scal)) : List Int := m.flatMap fun v => [v.1, (v.2.length : Int)]

/-- The scalars pushed, `dmplex_cell_serialise.cpp:146-148`. -/
def vertexScals (m : OMap (List Scal)) : List Scal := m.flatMap (·.2)

/-- `CellSTDRepresentation::serialise`, `dmplex_cell_serialise.cpp:122-166`. -/
def repSerialise (ki ks : Nat) (c : StdCell) : Option (List Byte) :=
  (pointInts c.ornts c.cones).bind fun pi =>
  let ints := (c.cones.length : Int) :: pi ++ ((c.vertices.length : Int) :: vertexInts c.vertices)
  let scals := vertexScals c.vertices
  some (encNat sizeofSize (ints.length * ki) ++ encNat sizeofSize (scals.length * ks) ++
    ints.flatMap (encS ki) ++ scals.flatten)

/-- `n` values of `k` bytes each. -/
def chunks (k : Nat) : Nat → List Byte → List (List Byte)
  | 0, _ => []
  | n + 1, bs => bs.take k :: chunks k n (bs.drop k)

/-- `n` values read one after the other with `.at(index++)`, after `reserve(n)`: the values and
what is left. -/
def readN {α : Type} (n : Int) (l : List α) : Option (List α × List α) :=
  if 0 ≤ n ∧ n.toNat ≤ l.length then some (l.take n.toNat, l.drop n.toNat) else none

/-- The loop over the points, `dmplex_cell_serialise.cpp:188-208`. The position in the buffer is
kept as the part of it that is left. -/
def readPoints : Nat → StdCell × List Int → Option (StdCell × List Int)
  | 0, s => some s
  | n + 1, (c, p :: size :: l) =>
    (readN size l).bind fun (cone, l) => (readN size l).bind fun (ornt, l) =>
    readPoints n ({ c with cones := omPut c.cones p cone, ornts := omPut c.ornts p ornt }, l)
  | _ + 1, _ => none

/-- The loop over the vertices, `dmplex_cell_serialise.cpp:210-219`. -/
def readVertices : Nat → StdCell × List Int × List Scal → Option (StdCell × List Int × List Scal)
  | 0, s => some s
  | n + 1, (c, p :: size :: l, sc) =>
    (readN size sc).bind fun (coords, sc) =>
    readVertices n ({ c with vertices := omPushAll c.vertices p coords }, l, sc)
  | _ + 1, _ => none

/-- `CellSTDRepresentation::deserialise`, `dmplex_cell_serialise.cpp:168-223`, called on the
object `c`. -/
def repDeserialise (ki ks : Nat) (c : StdCell) (buffer : List Byte) : Option StdCell :=
  (readBytes buffer 0 sizeofSize).bind fun bi =>
  (readBytes buffer sizeofSize sizeofSize).bind fun bs =>
  let numInt := decNat bi / ki
  let numScal := decNat bs / ks
  -- `memcpy` into vectors of these sizes
  if decNat bi ≤ numInt * ki ∧ decNat bs ≤ numScal * ks then
    (readBytes buffer (2 * sizeofSize) (decNat bi)).bind fun rawI =>
    (readBytes buffer (2 * sizeofSize + decNat bi) (decNat bs)).bind fun rawS =>
    match (chunks ki numInt rawI).map (decS ki) with
    | [] => none
    | numPoints :: l =>
      (readPoints numPoints.toNat (c, l)).bind fun (c, l) =>
      match l with
      | [] => none
      | numVertices :: l =>
        (readVertices numVertices.toNat (c, l, chunks ks numScal rawS)).bind fun (c, l, sc) =>
        if l = [] ∧ sc = [] then some c else none
  else none

/-- `DMPlexCellSerialise`, `dmplex_cell_serialise.hpp`. -/
structure PackedCell where
  localId : Int
  globalId : Int
  rank : Int
  type : Int
  rep : List Byte
  deriving DecidableEq

/-- `DMPlexCellSerialise::serialise`, `dmplex_cell_serialise.cpp:225-243`. -/
def PackedCell.serialise (ki : Nat) (c : PackedCell) (n : Nat) : Option (List Byte) :=
  let bytes := encS ki c.localId ++ encS ki c.globalId ++ encS 4 c.rank ++ encS 4 c.type ++ c.rep
  if bytes.length = n then some bytes else none

/-- `DMPlexCellSerialise::deserialise`, `dmplex_cell_serialise.cpp:245-261`. -/
def PackedCell.deserialise (ki : Nat) (bytes : List Byte) (n : Nat) : Option PackedCell :=
  (readBytes bytes 0 ki).bind fun l => (readBytes bytes ki ki).bind fun g =>
  (readBytes bytes (2 * ki) 4).bind fun r => (readBytes bytes (2 * ki + 4) 4).bind fun t =>
  if 2 * ki + 8 ≤ n then
    (readBytes bytes (2 * ki + 8) (n - (2 * ki + 8))).bind fun rep =>
    some ⟨decS ki l, decS ki g, decS 4 r, decS 4 t, rep⟩
  else none

/-- `DMPlexCellSerialise` as a serialisable type; `get_num_bytes`,
`dmplex_cell_serialise.hpp`. -/
def packedCellSerial (ki : Nat) : Serial PackedCell where
  numBytes c := 2 * ki + 2 * 4 + c.rep.length
  serialise := PackedCell.serialise ki
  deserialise := PackedCell.deserialise ki

/-- `DMPlexHelper::get_copyable_cell`, `dmplex_helper.cpp:237-261`, on a rank; `type` is what
PETSc returns for the type of the cell. -/
def getCopyableCell (ki ks fuel : Nat) (dm : Plex) (rank type : Int) (cell : Nat) :
    Option PackedCell :=
  ((plexCells dm)[cell]?).bind fun point =>
  (repOfPlex fuel dm point).bind fun c => (repSerialise ki ks c).bind fun bytes =>
  (plexGlobal dm point).bind fun g => some ⟨cell, g, rank, type, bytes⟩

/-- The halo cells of `create_halos`, `dmplex_interface.cpp:149-163`: the cells of the gathered
mesh hierarchy cells that another rank owns. Nothing is ever inserted into the set of cells
"already collected", hence a cell that is found in several mesh hierarchy cells is taken several
times. -/
def collectHalo (rank : Int) (gathered : List (List PackedCell)) : List PackedCell :=
  gathered.flatMap fun cs => cs.filter fun c => c.rank != rank

/-! ## The numbering of the points of the halo -/

/-- `HaloDMIndexMapper`, `dmplex_helper.hpp:63-70`. -/
structure HaloIndex where
  chartEnd : Nat
  starts : List Nat
  ends : List Nat
  toLocal : OMap Nat
  deriving DecidableEq

/-- The points of the cells with their depths, `dmplex_helper.hpp:113-120`. -/
def haloDepths (fuel : Nat) (cells : List StdCell) : Option (List (Nat × Int)) :=
  cells.foldlM (fun m c =>
    (c.cones.foldlM (fun (s : List (Nat × Int) × StdCell) px =>
      (repDepth fuel s.2 px.1).bind fun (d, c) => some (psIns s.1 (d, px.1), c)) (m, c)).map (·.1)) []

/-- The ranges of the depths `0, …, d`, `dmplex_helper.hpp:131-145`; `at` fails for a depth
without points. -/
def haloStrata (pts : List (Nat × Int)) : Nat → Option (List Nat × List Nat)
  | 0 => let n := pts.countP (fun x => x.1 == 0)
    if n = 0 then none else some ([0], [n])
  | d + 1 => (haloStrata pts d).bind fun (s, e) => (e[d]?).bind fun prev =>
    let n := pts.countP (fun x => x.1 == d + 1)
    if n = 0 then none else some (s ++ [prev], e ++ [prev + n])

/-- The loop that gives a new index to a point, `dmplex_helper.hpp:148-155`: next index of each
depth, map, end of the chart. -/
def haloAssign (s : List Nat × OMap Nat × Nat) (x : Nat × Int) :
    Option (List Nat × OMap Nat × Nat) :=
  (s.1[x.1]?).bind fun loc => some (s.1.set x.1 (loc + 1), omPut s.2.1 x.2 loc, s.2.2 + 1)

/-- Constructor of `HaloDMIndexMapper`, `dmplex_helper.hpp:106-166`. -/
def haloIndex (fuel : Nat) (cells : List StdCell) : Option HaloIndex :=
  if cells.length = 0 then some ⟨0, [], [], []⟩ else
  (haloDepths fuel cells).bind fun pts =>
  let depthMax := (pts.map (·.1)).foldl max 0
  -- `depth_min == 0`
  if pts.any (fun x => x.1 == 0) then
    (haloStrata pts depthMax).bind fun (starts, ends) =>
    (pts.foldlM haloAssign (starts, [], 0)).bind fun (next, toLocal, chartEnd) =>
    if next = ends ∧ ends[depthMax]? = some chartEnd then some ⟨chartEnd, starts, ends, toLocal⟩
    else none
  else none

/-! ## The mesh of the halo -/

/-- The new DMPlex: its chart, for each point size of the cone, cone and orientations, and the
array of the coordinates. -/
structure HaloPlex where
  sizes : List Nat
  cones : List (List Nat)
  ornts : List (List Int)
  coords : List Scal
  deriving DecidableEq

/-- `map_local_lid_remote_lid`: owning rank, local id there, global id. -/
abbrev LidMap := OMap (Int × Int × Int)

/-- The loop over the serialised cells, `dmplex_helper.cpp:136-145`. -/
def haloLids (ix : HaloIndex) (cells : List PackedCell) (m : LidMap) : Option LidMap :=
  cells.foldlM (fun m c => (omGet ix.toLocal c.globalId).bind fun l =>
    some (omPut m l (c.rank, c.localId, c.globalId))) m

/-- The first loop over the points, `dmplex_helper.cpp:163-176`: points seen and sizes. -/
def haloSize (ix : HaloIndex) (s : List Int × List Nat) (x : Int × List Int) :
    Option (List Int × List Nat) :=
  if x.1 ∈ s.1 then some s else
  (omGet ix.toLocal x.1).bind fun l => (st s.2 l x.2.length).bind fun sizes =>
  some (x.1 :: s.1, sizes)

/-- State of the second loop over the points: points seen, cones, orientations, map. -/
structure HaloConeState where
  seen : List Int
  cones : List (List Nat)
  ornts : List (List Int)
  lids : LidMap

/-- `DMPlexSetCone` and `DMPlexSetConeOrientation`: as many entries as the size that was set are
copied; the points have to be in the chart. -/
def copyCone {α : Type} (sizes : List Nat) (table : List (List α)) (p : Nat) (src : List α) :
    Option (List (List α)) :=
  (sizes[p]?).bind fun n => if n ≤ src.length then st table p (src.take n) else none

/-- The second loop over the points, `dmplex_helper.cpp:181-203`. -/
def haloCone (ix : HaloIndex) (sizes : List Nat) (ornts : OMap (List Int)) (s : HaloConeState)
    (x : Int × List Int) : Option HaloConeState :=
  if x.1 ∈ s.seen then some s else
  (omGet ix.toLocal x.1).bind fun l => (x.2.mapM (omGet ix.toLocal)).bind fun cone =>
  if cone.all (fun q => decide (q < ix.chartEnd)) then
    (copyCone sizes s.cones l cone).bind fun cones =>
    (omGet ornts x.1).bind fun o => (copyCone sizes s.ornts l o).bind fun orn =>
    some ⟨x.1 :: s.seen, cones, orn,
      if (omGet s.lids l).isSome then s.lids else omPut s.lids l (-1, -1, x.1)⟩
  else none

/-- The writes of the coordinates of a vertex, `dmplex_helper.cpp:217-229`. -/
def haloCoord (ix : HaloIndex) (ndim start : Nat) (coords : List Scal) (v : Int × List Scal) :
    Option (List Scal) :=
  (omGet ix.toLocal v.1).bind fun l =>
  if start ≤ l then
    forLoop 0 ndim (fun d coords => (v.2[d]?).bind fun x => st coords ((l - start) * ndim + d) x)
      coords
  else none

/-- `dm_from_serialised_cells`, `dmplex_helper.cpp:120-235`: the new mesh (`none` inside if there
are no cells) and the map. `fresh` is the array of coordinates before it is written. -/
def dmFromCells (ki ks fuel ndim : Nat) (fresh : Fresh Scal) (cells : List PackedCell)
    (lids : LidMap) : Option (Option (HaloIndex × HaloPlex) × LidMap) :=
  (cells.mapM fun c => repDeserialise ki ks StdCell.new c.rep).bind fun reps =>
  (haloIndex fuel reps).bind fun ix =>
  (haloLids ix cells lids).bind fun lids =>
  if cells.length = 0 then some (none, lids) else
  (reps.foldlM (fun s (r : StdCell) => r.cones.foldlM (haloSize ix) s)
    ([], List.replicate ix.chartEnd 0)).bind fun (_, sizes) =>
  (reps.foldlM (fun s (r : StdCell) => r.cones.foldlM (haloCone ix sizes r.ornts) s)
    (⟨[], sizes.map (fun n => List.replicate n 0), sizes.map (fun n => List.replicate n 0), lids⟩ :
      HaloConeState)).bind fun s =>
  (ix.starts[0]?).bind fun vs => (ix.ends[0]?).bind fun ve =>
  (reps.foldlM (fun coords (r : StdCell) => r.vertices.foldlM (haloCoord ix ndim vs) coords)
    (fresh ((ve - vs) * ndim)).1).bind fun coords =>
  some (some (ix, ⟨sizes, s.cones, s.ornts, coords⟩), s.lids)

end NP
