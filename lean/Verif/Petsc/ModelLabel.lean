import Verif.Petsc.ModelHalo

/-!
# Model: labels for edges that are given by their vertices

Models `label_dmplex_edges`, `src/external_interfaces/petsc/dmplex_utility.cpp:216-358`, called on all
ranks.

Simplifications. Integers are unbounded. What PETSc knows of the part of the mesh on a rank is a
`LabelRank`. A label is the set of its (point, value) pairs. `MPI_Exscan` leaves the zero on rank 0.
-/

set_option autoImplicit false

namespace NP

/-- The mesh on a rank: first vertex, (signed) global numbers of the vertices, supports of the points. -/
structure LabelRank where
  vstart : Nat
  numbers : List Int
  support : Nat → Option (List Int)

/-- `MPI_Allgatherv` into a vector of `total` zeros; each rank sends as many entries as the counts say. -/
def allgatherv (total : Nat) (counts displs : List Nat) (sends : List (List Int)) : Option (List Int) :=
  runItems (fun r buf => (rd sends r).bind fun vs => (rd counts r).bind fun n => (rd displs r).bind fun d =>
    if vs.length = n then stRange buf d vs else none) (List.range sends.length) (List.replicate total 0)

/-- `MPI_Exscan` with `MPI_SUM` of the numbers of all ranks, line 237. -/
def exscanSums (ns : List Nat) : List Nat := (List.range ns.length).map fun r => (ns.take r).sum

/-- `map_vertex_index_global_to_local`, lines 279-291. -/
def labelVertexMap (m : LabelRank) : OMap Nat :=
  m.numbers.zipIdx.foldl (fun o ci => omPut o (unsignedId ci.1) (m.vstart + ci.2)) []

/-- `std::set_intersection`: both ranges are passed through once. -/
def stdSetIntersection : List Int → List Int → List Int
  | a :: as, b :: bs =>
    if a < b then stdSetIntersection as (b :: bs)
    else if b < a then stdSetIntersection (a :: as) bs
    else a :: stdSetIntersection as bs
  | _, _ => []
termination_by a b => a.length + b.length

/-- `DMSetLabelValue`. -/
def setLabelValue (label : List (Int × Int)) (pv : Int × Int) : List (Int × Int) :=
  if pv ∈ label then label else label ++ [pv]

/-- The body of the loop over all edges, lines 300-347: label and `edge_labelled`. -/
def labelStep (m : LabelRank) (starts ends labels : List Int) (ix : Nat)
    (s : List (Int × Int) × List Int) : Option (List (Int × Int) × List Int) :=
  (rd starts ix).bind fun vs => (rd ends ix).bind fun ve => (rd labels ix).bind fun ll =>
  match omGet (labelVertexMap m) vs, omGet (labelVertexMap m) ve with
  | some ls, some le => (m.support ls).bind fun ss => (m.support le).bind fun se =>
    let both := stdSetIntersection ss se
    (if both.length ≠ 0 then st s.2 ix 1 else some s.2).map fun flags =>
      (both.foldl (fun l p => setLabelValue l (p, ll)) s.1, flags)
  | _, _ => some s

/-- `label_dmplex_edges` on `n` ranks: the label on each rank. The arguments are lists over the ranks;
`ki` is the size of a `PetscInt`, which is the size that the last `MPI_Allreduce` assumes for the
entries of a vector of `int` (4 bytes each): more bytes than there are is undefined. -/
def labelEdges (ki : Nat) (ranks : List LabelRank) (starts ends labels : List (List Int))
    (before : List (List (Int × Int))) : Option (List (List (Int × Int))) :=
  if (starts.map List.length = ends.map List.length) ∧ (starts.map List.length = labels.map List.length) then
    let counts := starts.map List.length
    let total := counts.sum
    let displs := exscanSums counts
    (allgatherv total counts displs starts).bind fun allStarts =>
    (allgatherv total counts displs ends).bind fun allEnds =>
    (allgatherv total counts displs labels).bind fun allLabels =>
    ((ranks.zip before).mapM fun mb => forLoop 0 total (labelStep mb.1 allStarts allEnds allLabels)
      (mb.2, List.replicate total 0)).bind fun out =>
    if total * ki ≤ total * 4 then
      (forLoop 0 total (fun ix (_ : Unit) => (out.mapM fun lf => rd lf.2 ix).bind fun fs =>
        if fs.sum ≥ 1 then some () else none) ()).map fun _ => out.map (·.1)
    else none
  else none

end NP
