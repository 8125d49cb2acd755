import Verif.Petsc.ModelMapper
import Verif.Mesh.ModelMap
import Mathlib.Algebra.Field.Defs

/-!
# Model: projection onto and evaluation of piecewise constant functions

Models `DMPlexProjectEvaluateDG`
(`external_interfaces/petsc/project_evaluate/dmplex_project_evaluate_dg.hpp`,
`src/external_interfaces/petsc/project_evaluate/dmplex_project_evaluate_dg.cpp`) on one rank; nothing is
communicated.

Simplifications. Numbers are elements of a field. A `CellDatConst` is a function of cell, row and
column; an access outside of it is undefined. A particle loop runs its kernel once for each particle
in any order (C07), and a reduction adds the values as they come (C67). Tables
of one entry per cell are lists.
-/

set_option autoImplicit false

namespace NP

/-! ## Tables -/

/-- A `CellDatConst`, `containers/cell_dat_const.hpp:583-666`. -/
structure CellTab (K : Type) where
  ncells : Nat
  nrow : Nat
  ncol : Nat
  val : Nat → Nat → Nat → K

section

variable {K : Type}

/-- The constructor, `containers/cell_dat_const.hpp:647-654`, with `fill(value)`, `:631-636`. -/
def CellTab.filled (v : K) (ncells nrow ncol : Nat) : CellTab K := ⟨ncells, nrow, ncol, fun _ _ _ => v⟩

/-- `fill`, `containers/cell_dat_const.hpp:631-636`. -/
def CellTab.fill (t : CellTab K) (v : K) : CellTab K := { t with val := fun _ _ _ => v }

/-- `at` for reading, `containers/cell_dat_const.hpp:52-54, 806-815`. -/
def CellTab.at (t : CellTab K) (c r k : Nat) : Option K :=
  if c < t.ncells ∧ r < t.nrow ∧ k < t.ncol then some (t.val c r k) else none

/-- `at` for writing, `containers/cell_dat_const.hpp:67, 824-833`. -/
def CellTab.put (t : CellTab K) (c r k : Nat) (v : K) : Option (CellTab K) :=
  if c < t.ncells ∧ r < t.nrow ∧ k < t.ncol then
    some { t with val := fun c' r' k' => if c' = c ∧ r' = r ∧ k' = k then v else t.val c' r' k' }
  else none

/-- `combine` with `Kernel::plus`, `containers/cell_dat_const.hpp:131-138`. -/
def CellTab.add [Add K] (t : CellTab K) (c r k : Nat) (v : K) : Option (CellTab K) :=
  (t.at c r k).bind fun x => t.put c r k (x + v)

/-! ## Particle loops -/

/-- A particle loop whose kernel only changes its particle, `loop/particle_loop.hpp`. -/
def loopWrite {P : Type} (s : Sched) (f : Nat → P → Option P) (sel : List (Nat × Nat))
    (cells : List (List P)) : Option (List (List P)) :=
  runItems (fun it cells => (rd2 cells it).bind fun p => (f it.1 p).bind fun p => st2 cells it p)
    (s.order sel) cells

/-- A particle loop whose kernel reads its particle and changes a table, `loop/particle_loop.hpp`. -/
def loopTab {P : Type} (s : Sched) (f : Nat → P → CellTab K → Option (CellTab K))
    (sel : List (Nat × Nat)) (cells : List (List P)) (t : CellTab K) : Option (CellTab K) :=
  runItems (fun it t => (rd2 cells it).bind fun p => f it.1 p t) (s.order sel) t

/-- All particles of a group. -/
def allItems {P : Type} (cells : List (List P)) : List (Nat × Nat) :=
  (List.range cells.length).flatMap fun c =>
    (List.range ((cells[c]?.getD []).length)).map fun l => (c, l)

/-- A quadrature point: component 3 of `ADDING_RANK_INDEX` and the values of the dat with the number
of components in question. -/
structure DgPoint (K : Type) where
  order : Int
  val : List K
deriving DecidableEq

/-! ## The object -/

/-- A `DMPlexProjectEvaluateDG`: `cdc_project`, `cdc_volumes`, and whether there is a mapper. -/
structure DgObj (K : Type) where
  tab : CellTab K
  invVol : List K
  qpm : Bool

/-- `1.0 / volume`; zero does not give a number. -/
def kinv [Field K] [DecidableEq K] (v : K) : Option K := if v = 0 then none else some (1 / v)

/-- The constructors, `dmplex_project_evaluate_dg.cpp:35-79`. -/
def dgNew [Field K] [DecidableEq K] (space : String) (order : Int) (ndim : Nat) (vols : List K)
    (qpm : Bool) : Option (DgObj K) :=
  if space = "DG" ∧ (0 ≤ order ∧ order ≤ 0) ∧ ndim = 2 then
    (vols.mapM kinv).map fun iv => ⟨CellTab.filled 0 vols.length 1 1, iv, qpm⟩
  else none

/-- `check_ncomp`, `dmplex_project_evaluate_dg.cpp:15-21`. -/
def DgObj.checkNcomp [Zero K] (o : DgObj K) (ncomp : Nat) : DgObj K :=
  if o.tab.nrow < ncomp then { o with tab := CellTab.filled 0 o.tab.ncells ncomp 1 } else o

/-- The assertion of `get_sym`, quadrature_point_mapper.cpp:275-276. -/
def symOk (ncomp : Nat) : Bool := decide (0 < ncomp ∧ ncomp < 1000)

/-- Copies the values of a cell to a particle, `dmplex_project_evaluate_dg.hpp:54-60, 94-101`. -/
def dgRead (ncomp : Nat) (t : CellTab K) (c : Nat) (val : List K) : Option (List K) :=
  forLoop 0 ncomp (fun cx val => (t.at c cx 0).bind fun v => st val cx v) val

/-- `project_inner`, `dmplex_project_evaluate_dg.hpp:28-65`: the object, and the values at the
points. `cells` are the values of the particles, `sel` the particles of the group or sub group. -/
def DgObj.project [Field K] (o : DgObj K) (s0 s1 : Sched) (ncomp : Nat) (cells : List (List (List K)))
    (sel : List (Nat × Nat)) (pts : List (List (DgPoint K))) :
    Option (DgObj K × List (List (DgPoint K))) :=
  let o := o.checkNcomp ncomp
  (loopTab s0 (fun c p t => (rd o.invVol c).bind fun iv =>
    forLoop 0 ncomp (fun cx t => (rd p cx).bind fun v => t.add c cx 0 (v * iv)) t)
    sel cells (o.tab.fill 0)).bind fun t =>
  (if o.qpm then
    if symOk ncomp then
      loopWrite s1 (fun c p => (dgRead ncomp t c p.val).map fun v => { p with val := v }) (allItems pts) pts
    else none
  else some pts).map fun pts => ({ o with tab := t }, pts)

/-- `evaluate_inner`, `dmplex_project_evaluate_dg.hpp:67-104`: the object, and the values of the
particles. -/
def DgObj.evaluate [Field K] (o : DgObj K) (s0 s1 : Sched) (ncomp : Nat) (pts : List (List (DgPoint K)))
    (cells : List (List (List K))) (sel : List (Nat × Nat)) : Option (DgObj K × List (List (List K))) :=
  let o := o.checkNcomp ncomp
  (if o.qpm then
    if symOk ncomp then
      loopTab s0 (fun c p t => if p.order = 0 then
        forLoop 0 ncomp (fun cx t => (rd p.val cx).bind fun v => t.put c cx 0 v) t
        else some t) (allItems pts) pts o.tab
    else none
  else some o.tab).bind fun t =>
  (loopWrite s1 (fun c p => dgRead ncomp t c p) sel cells).map fun cells => ({ o with tab := t }, cells)

/-- `get_dofs`, `dmplex_project_evaluate_dg.cpp:105-127`. -/
def DgObj.getDofs (o : DgObj K) (ncomp : Int) : Option (List K) :=
  if ncomp > 0 then
    if ncomp ≤ o.tab.nrow then
      ((List.range o.tab.ncells).mapM fun cx => (List.range ncomp.toNat).mapM fun nx =>
        o.tab.at cx nx 0).map List.flatten
    else none
  else some []

/-- `set_dofs`, `dmplex_project_evaluate_dg.cpp:129-163`. The loops write every entry of the new
table. -/
def DgObj.setDofs [Zero K] (o : DgObj K) (ncomp : Int) (dofs : List K) : Option (DgObj K) :=
  if ncomp > 0 then
    let n := ncomp.toNat
    let o := o.checkNcomp n
    if o.tab.ncells * n ≤ dofs.length then
      (forLoop 0 o.tab.ncells (fun cx t =>
        (forLoop 0 n (fun nx t => (rd dofs (cx * n + nx)).bind fun v => t.put cx nx 0 v) t).bind
          (forLoop n o.tab.nrow fun nx t => t.put cx nx 0 0)) o.tab).map fun t => { o with tab := t }
    else none
  else some o

/-- The values of `get_vtk_data`, `dmplex_project_evaluate_dg.cpp:23-33`. -/
def DgObj.vtk (o : DgObj K) : Option (List K) :=
  (List.range o.tab.ncells).mapM fun c => o.tab.at c 0 0

end

end NP
