import Verif.Containers.ModelSerial

/-!
# Model: mesh hierarchy container

Models `include/neso_particles/mesh_hierarchy_data/mesh_hierarchy_container.hpp`.  The
collective calls are modelled for all ranks together.  The exchange of messages
(`CommunicationEdgesCounter`) is modelled by its result: the bytes a rank addresses to
another rank arrive there unchanged.  The order in which they arrive does not matter, as
they are put in a `std::map` with the rank as key, which is iterated in the order of ranks.
-/

set_option autoImplicit false

namespace NP

/-- Conversion of an `INT` (64 bits) to `int` (32 bits). -/
def toInt32 (x : Int) : Int :=
  let n := x % 2 ^ 32
  if n < 2 ^ 31 then n else n - 2 ^ 32

/-- `std::set::insert`; the list is in the order of iteration. -/
def setInsert : List Int → Int → List Int
  | [], x => [x]
  | y :: ys, x => if x < y then x :: y :: ys else if x = y then y :: ys else y :: setInsert ys x

/-- The members of a `MeshHierarchyContainer` on one rank,
`mesh_hierarchy_container.hpp:98-102`; the key of the map is an `int`. -/
structure MHCRank where
  buffers : Int → Option (List Byte)
  gathered : List Int
  noOwner : List Int

/-- Before the constructor. -/
def MHCRank.empty : MHCRank := ⟨fun _ => none, [], []⟩

/-- Body of the inner loop of `generic_unpack`, `mesh_hierarchy_container.hpp:111-119`. -/
def unpackCell (s : MHCRank) (m : CellBuffer) : MHCRank where
  buffers := fun k => if k = toInt32 m.cell then
      some (serialAppend ((s.buffers k).getD []) m.buffer) else s.buffers k
  gathered := setInsert s.gathered m.cell
  noOwner := s.noOwner

/-- `generic_unpack`, `mesh_hierarchy_container.hpp:104-121`; the buffers in the order of the
ranks they came from. -/
def genericUnpack (default : CellBuffer) : List (List Byte) → MHCRank → Option MHCRank
  | [], s => some s
  | b :: bs, s => (serialGet cellBufferSerial default b).bind fun tmp =>
      genericUnpack default bs (tmp.foldl unpackCell s)

/-- `get`, `mesh_hierarchy_container.hpp:135-145`. `none`: not gathered. -/
def MHCRank.get {T : Type} (I : Serial T) (default : T) (s : MHCRank) (cell : Int) :
    Option (List T) :=
  if cell ∈ s.gathered ∨ cell ∈ s.noOwner then
    if cell ∈ s.gathered then (s.buffers (toInt32 cell)).bind fun b => serialGet I default b
    else some []
  else none

/-- The same computation on every rank; `none` if it fails on one. -/
def allRanks (n : Nat) (f : Nat → Option MHCRank) : Option (Nat → MHCRank) :=
  if ∀ r, r < n → (f r).isSome then some fun r => (f r).getD MHCRank.empty else none

/-- The first loop of the constructor, `mesh_hierarchy_container.hpp:288-305`:
`map_rank_buffers`. -/
def ctorPack {T : Type} (I : Serial T) (n : Nat) (owner : Int → Int) :
    List (Int × List T) → (Int → Option (List Byte)) → Option (Int → Option (List Byte))
  | [], m => some m
  | (cell, ts) :: rest, m =>
    let rank := owner cell
    if -1 < rank ∧ rank < n then
      (serialCreate I ts).bind fun contents =>
      (serialCreate cellBufferSerial [⟨cell, contents⟩]).bind fun packed =>
      ctorPack I n owner rest
        (fun k => if k = rank then some (serialAppend ((m k).getD []) packed) else m k)
    else ctorPack I n owner rest m

/-- Constructor, `mesh_hierarchy_container.hpp:278-347`. `data r` is the map passed on rank
`r`, in the order of the cells. -/
def mhcCreate {T : Type} (I : Serial T) (default : CellBuffer) (n : Nat) (owner : Int → Int)
    (data : Nat → List (Int × List T)) : Option (Nat → MHCRank) :=
  allRanks n fun q =>
    (collectM (fun (r : Nat) => (ctorPack I n owner (data r) (fun _ => none)).map
      fun m => (m q).toList) (List.range n)).bind fun incoming =>
    genericUnpack default incoming MHCRank.empty

/-- The cells to request, `mesh_hierarchy_container.hpp:158-163`. -/
def cellsSet (s : MHCRank) (cells : List Int) : List Int :=
  cells.foldl (fun set cell => if cell ∈ s.gathered then set else setInsert set cell) []

/-- `map_send_ranks_cells[q]`, `mesh_hierarchy_container.hpp:175-183`. -/
def requests (n : Nat) (owner : Int → Int) (set : List Int) (q : Int) : List Int :=
  set.filter fun cell => -1 < owner cell ∧ owner cell < n ∧ owner cell = q

/-- What is packed on a rank for the cells requested by another,
`mesh_hierarchy_container.hpp:229-245`. -/
def gatherPack (s : MHCRank) (cells : List Int) : Option (List Byte) :=
  collectM (fun cell => serialCreate cellBufferSerial [⟨cell, (s.buffers (toInt32 cell)).getD []⟩])
    cells

/-- Access with `operator[]` makes an empty entry, `mesh_hierarchy_container.hpp:233`. -/
def touchCells (s : MHCRank) (cells : List Int) : MHCRank :=
  cells.foldl (fun s cell => { s with
    buffers := fun k => if k = toInt32 cell then some ((s.buffers k).getD []) else s.buffers k }) s

/-- `gather`, `mesh_hierarchy_container.hpp:154-267`, called on all ranks; `cells r` is the
argument on rank `r`. -/
def mhcGather (default : CellBuffer) (n : Nat) (owner : Int → Int) (w : Nat → MHCRank)
    (cells : Nat → List Int) : Option (Nat → MHCRank) :=
  if ∀ r, r < n → (cellsSet (w r) (cells r)).length = 0 then some w else
  allRanks n fun r =>
    let set := cellsSet (w r) (cells r)
    let noOwner := (set.filter fun cell => ¬ (-1 < owner cell ∧ owner cell < n)).foldl setInsert
      (w r).noOwner
    let s := touchCells { w r with noOwner := noOwner }
      ((List.range n).flatMap fun p => requests n owner (cellsSet (w p) (cells p)) r)
    (collectM (fun (q : Nat) =>
      if (requests n owner set q).length = 0 then some []
      else (gatherPack (w q) (requests n owner set q)).map fun b => [b]) (List.range n)).bind
      fun incoming => genericUnpack default incoming s

end NP
