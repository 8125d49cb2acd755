import Verif.Petsc.ModelProject
import Verif.Mesh.ModelCoord
import Mathlib.Algebra.BigOperators.Group.Finset.Basic

/-!
# Model: projection onto and evaluation of functions given by their values at the vertices of cells

Models `DMPlexProjectEvaluateBarycentric`
(`external_interfaces/petsc/project_evaluate/dmplex_project_evaluate_barycentric.hpp`,
`src/external_interfaces/petsc/project_evaluate/dmplex_project_evaluate_barycentric.cpp`) and
`invert_matrix` (`external_interfaces/petsc/petsc_utility.hpp`) on one rank; nothing is communicated.

Simplifications. Numbers are real numbers. The weights of a particle are computed where they are
read and not stored in a property in between; those of a point are stored. The LU decomposition and
the solution with it are a parameter `solve N A B` on arrays in column-major format. The argument
`testing` is false.
-/

set_option autoImplicit false

namespace NP

noncomputable section

/-- A point of the quadrature point mapper: component 3 of `ADDING_RANK_INDEX`, the position, the
weights, and the values of the property with the number of components in question. -/
structure BPoint where
  order : Int
  pos : ℝ × ℝ
  w : List ℝ
  val : List ℝ

/-- A particle: its position and the values of the property that is projected or evaluated. -/
structure BPart where
  pos : ℝ × ℝ
  val : List ℝ

/-- The kernel of `compute_barycentric_coordinates`,
`dmplex_project_evaluate_barycentric.hpp:141-158`. -/
def baryW (vs : List (ℝ × ℝ)) (x : ℝ × ℝ) : Option (List ℝ) :=
  match vs with
  | [a, b, c] => (triCartToBary a.1 a.2 b.1 b.2 c.1 c.2 x.1 x.2).map fun l => [l.1, l.2.1, l.2.2]
  | [a, b, c, d] => (quadCartToBary a.1 a.2 b.1 b.2 c.1 c.2 d.1 d.2 x.1 x.2).map fun l =>
      [l.1, l.2.1, l.2.2.1, l.2.2.2]
  | _ => none

/-- `invert_matrix`, `petsc_utility.hpp:17-54`. -/
def invertMatrix (solve : Nat → List ℝ → List ℝ → Option (List ℝ)) (N : Nat) (A : List ℝ) :
    Option (List ℝ) :=
  ((List.range N).mapM fun rx => (List.range N).mapM fun cx => rd A (cx * N + rx)).bind fun hA =>
  let hB := (List.range N).flatMap fun rx => (List.range N).map fun cx => if rx = cx then (1 : ℝ) else 0
  (solve N hA.flatten hB).bind fun X =>
  ((List.range N).mapM fun rx => (List.range N).mapM fun cx => rd X (cx * N + rx)).map List.flatten

/-- A `DMPlexProjectEvaluateBarycentric`: `cdc_project`, `cdc_vertices` with `cdc_num_vertices`,
`cdc_volumes`, `cdc_matrices`. -/
structure BaryObj where
  tab : CellTab ℝ
  verts : List (List (ℝ × ℝ))
  scale : List ℝ
  mats : CellTab ℝ

/-- The condition on `quad_index`, `dmplex_project_evaluate_barycentric.hpp:50, 86, 218, 299`. -/
def numbered (n : Nat) (q : Int) : Bool := decide (-1 < q ∧ q < n)

/-- The table that counts the points, `dmplex_project_evaluate_barycentric.hpp:39-58`. -/
def baryCount (s : Sched) (verts : List (List (ℝ × ℝ))) (pts : List (List BPoint)) :
    Option (CellTab Int) :=
  loopTab s (fun c p t => (rd verts c).bind fun vs =>
    if numbered vs.length p.order then
      (t.add c 0 0 1).bind fun t => t.add c (p.order + 1).toNat 0 1
    else some t) (allItems pts) pts (CellTab.filled 0 verts.length 5 1)

/-- The assertions on the counts, `dmplex_project_evaluate_barycentric.hpp:60-72`. -/
def baryCheck (verts : List (List (ℝ × ℝ))) (t : CellTab Int) : Option Unit :=
  forLoop 0 verts.length (fun c _ => (rd verts c).bind fun vs =>
    (t.at c 0 0).bind fun n =>
    if n = (vs.length : Int) then
      forLoop 0 vs.length (fun vx _ => (t.at c (vx + 1) 0).bind fun m =>
        if m = 1 then some () else none) ()
    else none) ()

/-- The weights of the points, `dmplex_project_evaluate_barycentric.hpp:74`. -/
def baryPoints (s : Sched) (verts : List (List (ℝ × ℝ))) (pts : List (List BPoint)) :
    Option (List (List BPoint)) :=
  loopWrite s (fun c p => (rd verts c).bind fun vs => (baryW vs p.pos).map fun w =>
    ({ p with w := w } : BPoint)) (allItems pts) pts

/-- The matrices of weights, `dmplex_project_evaluate_barycentric.hpp:76-98`. -/
def baryFill (s : Sched) (verts : List (List (ℝ × ℝ))) (pts : List (List BPoint)) :
    Option (CellTab ℝ) :=
  loopTab s (fun c p t => (rd verts c).bind fun vs =>
    if numbered vs.length p.order then
      forLoop 0 vs.length (fun vx t => (rd p.w vx).bind fun lx => t.put c p.order.toNat vx lx) t
    else some t) (allItems pts) pts (CellTab.filled (-100) verts.length 4 4)

/-- The inverse matrices, `dmplex_project_evaluate_barycentric.hpp:100-124`. -/
def baryInvert (solve : Nat → List ℝ → List ℝ → Option (List ℝ)) (verts : List (List (ℝ × ℝ)))
    (t : CellTab ℝ) : Option (CellTab ℝ) :=
  forLoop 0 verts.length (fun c t => (rd verts c).bind fun vs =>
    let n := vs.length
    ((List.range n).mapM fun rx => (List.range n).mapM fun cx => (t.at c rx cx).bind fun v =>
      if v ≠ -100 then some (max 0 (min 1 v)) else none).bind fun L =>
    (invertMatrix solve n L.flatten).bind fun M =>
    forLoop 0 n (fun rx t => forLoop 0 n (fun cx t => (rd M (rx * n + cx)).bind fun v =>
      t.put c rx cx v) t) t) t

/-- The constructor, `dmplex_project_evaluate_barycentric.cpp:28-91` with `setup_matrices`,
`dmplex_project_evaluate_barycentric.hpp:35-126`: the object, and the points with their weights.
`verts` are the vertices of the cells and `added` is `points_added()`. -/
def baryNew (solve : Nat → List ℝ → List ℝ → Option (List ℝ)) (s0 s1 s2 : Sched) (space : String)
    (order : Int) (ndim : Nat) (verts : List (List (ℝ × ℝ))) (vols : List ℝ) (added : Bool)
    (pts : List (List BPoint)) : Option (BaryObj × List (List BPoint)) :=
  if space = "Barycentric" ∧ (1 ≤ order ∧ order ≤ 1) ∧ ndim = 2 ∧
      (∀ vs ∈ verts, 2 < vs.length ∧ vs.length < 5) then
    ((List.range verts.length).mapM fun c => (rd verts c).bind fun vs => (rd vols c).bind fun v =>
      fdiv vs.length v).bind fun scale =>
    if added then
      (baryCount s0 verts pts).bind fun cnt =>
      (baryCheck verts cnt).bind fun _ =>
      (baryPoints s1 verts pts).bind fun pts =>
      (baryFill s2 verts pts).bind fun t =>
      (baryInvert solve verts t).map fun mats =>
        (⟨CellTab.filled 0 verts.length 1 4, verts, scale, mats⟩, pts)
    else none
  else none

/-- `check_ncomp`, `dmplex_project_evaluate_barycentric.hpp:27-33`. -/
def BaryObj.checkNcomp (o : BaryObj) (ncomp : Nat) : BaryObj :=
  if o.tab.nrow < ncomp then { o with tab := CellTab.filled 0 o.verts.length ncomp 4 } else o

/-- The sum over the vertices, `dmplex_project_evaluate_barycentric.hpp:241-245, 302-305`. -/
def barySum (n : Nat) (b : List ℝ) (t : CellTab ℝ) (c cx : Nat) : Option ℝ :=
  forLoop 0 n (fun vx tmp => (rd b vx).bind fun l => (t.at c cx vx).map fun v => tmp + l * v) 0

/-- `project_inner`, `dmplex_project_evaluate_barycentric.hpp:256-317`: the object and the points. -/
def BaryObj.project (o : BaryObj) (s0 s1 : Sched) (ncomp : Nat) (cells : List (List BPart))
    (sel : List (Nat × Nat)) (pts : List (List BPoint)) : Option (BaryObj × List (List BPoint)) :=
  let o := o.checkNcomp ncomp
  if symOk ncomp then
    (loopTab s0 (fun c p t => (rd o.verts c).bind fun vs => (baryW vs p.pos).bind fun b =>
      forLoop 0 vs.length (fun vx t => forLoop 0 ncomp (fun cx t => (rd b vx).bind fun lx =>
        (rd p.val cx).bind fun v => t.add c cx vx (lx * v)) t) t) sel cells (o.tab.fill 0)).bind fun t =>
    (loopWrite s1 (fun c p => (rd o.verts c).bind fun vs =>
      if numbered vs.length p.order then (rd o.scale c).bind fun iv =>
        (forLoop 0 ncomp (fun cx val => (barySum vs.length p.w t c cx).bind fun x => st val cx (iv * x))
          p.val).map fun val => ({ p with val := val } : BPoint)
      else some p) (allItems pts) pts).map fun pts => ({ o with tab := t }, pts)
  else none

/-- `evaluate_inner`, `dmplex_project_evaluate_barycentric.hpp:163-254`: the object and the particles. -/
def BaryObj.evaluate (o : BaryObj) (s0 s1 : Sched) (ncomp : Nat) (pts : List (List BPoint))
    (cells : List (List BPart)) (sel : List (Nat × Nat)) : Option (BaryObj × List (List BPart)) :=
  let o := o.checkNcomp ncomp
  if symOk ncomp then
    (loopTab s0 (fun c p t => (rd o.verts c).bind fun vs =>
      if numbered vs.length p.order then
        forLoop 0 vs.length (fun vx t => forLoop 0 ncomp (fun cx t => (rd p.val cx).bind fun value =>
          (o.mats.at c vx p.order.toNat).bind fun m => t.add c cx vx (m * value)) t) t
      else some t) (allItems pts) pts (o.tab.fill 0)).bind fun t =>
    (loopWrite s1 (fun c p => (rd o.verts c).bind fun vs => (baryW vs p.pos).bind fun b =>
      (forLoop 0 ncomp (fun cx val => (barySum vs.length b t c cx).bind fun x => st val cx x)
        p.val).map fun val => ({ p with val := val } : BPart)) sel cells).map fun cells =>
      ({ o with tab := t }, cells)
  else none

/-- The values of `get_vtk_data`, `dmplex_project_evaluate_barycentric.cpp:7-26`, cell by cell. -/
def BaryObj.vtk (o : BaryObj) : Option (List (List ℝ)) :=
  (List.range o.verts.length).mapM fun c => (rd o.scale c).bind fun iv => (rd o.verts c).bind fun vs =>
    if 3 ≤ vs.length ∧ vs.length ≤ 4 then
      (List.range vs.length).mapM fun vx => (o.tab.at c 0 vx).map fun v => v * iv
    else none

end

end NP
