import Verif.Group.Model

/-!
# Model: `CellDat` with its flat buffers

Models `include/neso_particles/containers/cell_dat.hpp`: the buffer of each cell is one
allocation, column `col` begins at `col * nrow_alloc`.  The events of `set_nrow` are taken
as completed (`wait_set_nrow`) before the next call.
-/

set_option autoImplicit false

namespace NP

variable {α : Type}

/-- One cell: reported rows, allocated rows and the buffer (column major). -/
structure FlatCell (α : Type) where
  nrow : Nat
  alloc : Nat
  buf : List α
deriving Repr

/-- A `CellDat`: `ncol`, the cells, and the cached extrema `nrow_max`, `nrow_min`. -/
structure FlatDat (α : Type) where
  ncol : Nat
  cells : List (FlatCell α)
  nrowMax : Int
  nrowMin : Int
deriving Repr

/-- Constructor, `containers/cell_dat.hpp:380-385` and `create`, `302-335`. -/
def FlatDat.create (ncells ncol : Nat) : FlatDat α :=
  ⟨ncol, List.replicate ncells ⟨0, 0, []⟩, 0, -1⟩

/-- `memcpy` of `n` elements from `src + so` to `dst + d`; `none` if out of bounds. -/
def memcpy (src : List α) (so : Nat) (dst : List α) (d n : Nat) : Option (List α) :=
  forLoop 0 n (fun i dst => (rd src (so + i)).bind fun v => st dst (d + i) v) dst

/-- `CellDat::set_nrow_inner`, `containers/cell_dat.hpp:160-202`, for one cell.  `over` is
the rounded `1.2 * nrow_required` or `1.1 * nrow_required`, `fresh` gives the contents of
new memory. -/
def FlatCell.setNrow (fresh : Fresh α) (ncol over req : Nat) (c : FlatCell α) :
    Option (FlatCell α) :=
  if req = c.nrow then some c
  else if req < c.nrow then some { c with nrow := req }
  else if req > c.alloc then
    let na := max req over
    (forLoop 0 ncol (fun colx buf =>
        if c.alloc > 0 then memcpy c.buf (colx * c.alloc) buf (colx * na) c.nrow else some buf)
      (fresh (na * ncol)).1).bind fun buf => some ⟨req, na, buf⟩
  else some { c with nrow := req }

/-- `CellDat::set_nrow`, `containers/cell_dat.hpp:407-416`.  `none`: bad cell. -/
def FlatDat.setNrow (fresh : Fresh α) (over cell req : Nat) (d : FlatDat α) :
    Option (FlatDat α) :=
  (rd d.cells cell).bind fun c =>
  (c.setNrow fresh d.ncol over req).bind fun c' =>
    some { d with
      cells := d.cells.set cell c'
      nrowMax := if req = c.nrow then d.nrowMax else -1 }

/-- `CellDat::reduce_nrow`, `containers/cell_dat.hpp:391-399`. -/
def FlatDat.reduceNrow (req : List Nat) (d : FlatDat α) : Option (FlatDat α) :=
  (forLoop 0 d.cells.length (fun cx cells => (rd req cx).bind fun n =>
    (rd cells cx).bind fun c => st cells cx { c with nrow := n }) d.cells).bind fun cells =>
    some { d with cells := cells, nrowMax := -1 }

/-- `CellDat::get_value`, `containers/cell_dat.hpp:506-513`. `none`: outside the buffer. -/
def FlatDat.getValue (cell row col : Nat) (d : FlatDat α) : Option α :=
  (rd d.cells cell).bind fun c => rd c.buf (col * c.alloc + row)

/-- `CellDat::set_value`, `containers/cell_dat.hpp:523-529`. -/
def FlatDat.setValue (cell row col : Nat) (v : α) (d : FlatDat α) : Option (FlatDat α) :=
  (rd d.cells cell).bind fun c =>
  (st c.buf (col * c.alloc + row) v).bind fun buf =>
    some { d with cells := d.cells.set cell { c with buf := buf } }

/-- A `CellDataT`, `containers/cell_data.hpp:18-104`: rows, columns, column major data. -/
structure HostCell (α : Type) where
  nrow : Nat
  ncol : Nat
  data : List α
deriving Repr

/-- `CellDataT::at`, `containers/cell_data.hpp:88-90`. -/
def HostCell.at (h : HostCell α) (row col : Nat) : Option α := rd h.data (col * h.nrow + row)

/-- `CellDat::set_cell`, `containers/cell_dat.hpp:568-590`.  `none`: assertions. -/
def FlatDat.setCell (cell : Nat) (h : HostCell α) (d : FlatDat α) : Option (FlatDat α) :=
  (rd d.cells cell).bind fun c =>
  if h.nrow ≥ c.nrow ∧ h.ncol ≥ d.ncol then
    (if c.nrow > 0 then
      forLoop 0 d.ncol (fun colx buf => memcpy h.data (colx * h.nrow) buf (colx * c.alloc) c.nrow)
        c.buf
    else some c.buf).bind fun buf =>
      some { d with cells := d.cells.set cell { c with buf := buf } }
  else none

/-- `CellDat::get_cell`, `containers/cell_dat.hpp:477-496`; the host memory is value
initialised (`zero`). -/
def FlatDat.getCell (zero : α) (cell : Nat) (d : FlatDat α) : Option (HostCell α) :=
  (rd d.cells cell).bind fun c =>
  (if c.nrow > 0 then
    forLoop 0 d.ncol (fun colx out => memcpy c.buf (colx * c.alloc) out (colx * c.nrow) c.nrow)
      (List.replicate (c.nrow * d.ncol) zero)
  else some (List.replicate (c.nrow * d.ncol) zero)).bind fun out => some ⟨c.nrow, d.ncol, out⟩

/-- `*std::max_element`, `*std::min_element`; `none` for an empty range. -/
def listMax : List Nat → Option Nat
  | [] => none
  | x :: xs => some (xs.foldl max x)

/-- See `listMax`. -/
def listMin : List Nat → Option Nat
  | [] => none
  | x :: xs => some (xs.foldl min x)

/-- `CellDat::compute_nrow_max`, `containers/cell_dat.hpp:439-445`. -/
def FlatDat.computeNrowMax (d : FlatDat α) : Option (FlatDat α) :=
  (listMax (d.cells.map (·.nrow))).bind fun mx =>
  (listMin (d.cells.map (·.nrow))).bind fun mn =>
    some { d with nrowMax := (mx : Int), nrowMin := (mn : Int) }

/-- `CellDat::get_nrow_max`, `containers/cell_dat.hpp:452-457`. -/
def FlatDat.getNrowMax (d : FlatDat α) : Option (Int × FlatDat α) :=
  (if d.nrowMax < 0 then d.computeNrowMax else some d).bind fun d => some (d.nrowMax, d)

/-- `CellDat::get_nrow_min`, `containers/cell_dat.hpp:464-469`. -/
def FlatDat.getNrowMin (d : FlatDat α) : Option (Int × FlatDat α) :=
  (if d.nrowMax < 0 then d.computeNrowMax else some d).bind fun d => some (d.nrowMin, d)

/-! ## Fixed size -/

/-- Column pointers (offsets from the single allocation) as computed by the host loop of
`create_fixed_size`, `containers/cell_dat.hpp:283-296`, for `npart_local > 0`. -/
def fixedHostPtrs (ncol : Nat) (npart : List Nat) : Option (List Nat) :=
  (forLoop 0 npart.length (fun cellx (s : List Nat × Nat) => (rd npart cellx).bind fun n =>
    forLoop 0 ncol (fun cx (s : List Nat × Nat) =>
      (st s.1 (cellx * ncol + cx) s.2).bind fun p => some (p, s.2 + n)) s)
    (List.replicate (npart.length * ncol) 0, 0)).bind fun s => some s.1

/-- Column pointer computed by the kernel of `create_fixed_size`,
`containers/cell_dat.hpp:270-281`. -/
def fixedDevicePtr (ncol : Nat) (npart es : List Nat) (cellx cx : Nat) : Option Nat :=
  (rd npart cellx).bind fun n => (rd es cellx).bind fun e => some (e * ncol + cx * n)

end NP
