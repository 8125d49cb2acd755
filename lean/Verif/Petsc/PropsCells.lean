import Verif.Petsc.LemmasCells2
import Verif.Io.PropsVtk
import Mathlib.Algebra.Order.BigOperators.Group.List

/-!
# C104: what an unstructured mesh reports about its cells is what PETSc holds
-/

set_option autoImplicit false

namespace NP
open NP.Spec

/-- **C104** `get_cell_vertices` gives for every local cell the vertices that PETSc holds for it, in that order, and
there is only one such list; an index which is not that of a local cell is rejected. -/
theorem C104_vertices {α : Type} [Zero α] (m : PlexCells α) (hm : PlexCellsOk m) (c : Nat) :
    (c < m.toPetsc.length → ∃ vs, m.vertices c = some vs ∧ IsVertices m c vs ∧
      ∀ vs', IsVertices m c vs' → vs' = vs) ∧
    (m.toPetsc.length ≤ c → m.vertices c = none) := by
  constructor
  · intro hc
    obtain ⟨vs, h1, h2, -⟩ := plexVertices_ok hm hc
    exact ⟨vs, h1, h2, fun vs' h => isVertices_unique hm.dim h h2⟩
  · intro hc
    unfold PlexCells.vertices
    rw [show rd m.toPetsc c = none from List.getElem?_eq_none hc]; rfl

/-- **C104** `get_cell_vertex_average` gives the mean of the vertices whatever the argument held before, and rejects an
argument of the wrong size. -/
theorem C104_average (m : PlexCells ℚ) (hm : PlexCellsOk m) (c : Nat) (hc : c < m.toPetsc.length) :
    ∃ vs a, IsVertices m c vs ∧ IsMean m.ndim vs a ∧
      ∀ avg : List ℚ, m.average c avg = if avg.length = m.ndim then some a else none := by
  obtain ⟨V, A, h⟩ := plexCells_choose hm
  obtain ⟨h1, h2, h3⟩ := h c hc
  refine ⟨V c, A c, h1, h2, fun avg => ?_⟩
  split
  · rename_i ha
    exact h3 avg ha
  · rename_i ha
    unfold PlexCells.average
    rw [if_neg ha]

/-- **C104** `get_cell_vertices_cdc` holds for every cell the number of its vertices and, in the rows below that number,
the vertices in order. -/
theorem C104_table {α : Type} [Zero α] (m : PlexCells α) (hm : PlexCellsOk m) :
    ∃ t, m.verticesCdc = some t ∧ t.num.length = m.toPetsc.length ∧ t.rows.length = m.toPetsc.length ∧
      ∀ c < m.toPetsc.length, ∃ vs tab, IsVertices m c vs ∧ t.num[c]? = some (some vs.length) ∧
        t.rows[c]? = some tab ∧ ∀ (r : Nat) w, vs[r]? = some w → tab[r]? = some (w.map some) :=
  verticesCdc_ok hm

/-- **C104** `get_face_sets` gives for each label exactly the faces with that label, each once and in increasing order;
there is no entry for a label that no face has. -/
theorem C104_face_sets (value : Nat → Int) (start stop : Nat) (h : start ≤ stop) :
    ∃ m, faceSetsOf value start stop = some m ∧
      (∀ v l, omGet m v = some l → l ≠ [] ∧ l.Pairwise (· < ·) ∧
        ∀ px, px ∈ l ↔ (start ≤ px ∧ px < stop ∧ value px = v)) ∧
      ∀ px, start ≤ px → px < stop → ∃ l, omGet m (value px) = some l ∧ px ∈ l := by
  obtain ⟨m, m1, -, m3⟩ := faceSetsOf_ok value h
  have hmem : ∀ v px, px ∈ (omGet m v).getD [] ↔ (start ≤ px ∧ px < stop ∧ value px = v) := by
    intro v px
    rw [(m3 v).1, List.mem_filter, List.mem_range'_1, decide_eq_true_eq]
    omega
  refine ⟨m, m1, ?_, ?_⟩
  · intro v l hl
    have hg := hmem v
    have hp := (m3 v).1
    rw [hl, Option.getD_some] at hp
    refine ⟨?_, ?_, fun px => by simpa [hl] using hg px⟩
    · rintro rfl
      exact (m3 v).2 hl
    · rw [hp]
      exact List.Pairwise.filter _ List.pairwise_lt_range'
  · intro px h1 h2
    have := (hmem (value px) px).mpr ⟨h1, h2, rfl⟩
    cases hg : omGet m (value px) with
    | none => rw [hg] at this; simp at this
    | some l => rw [hg] at this; exact ⟨l, rfl, this⟩

/-- **C104** Every call of `get_volume` gives on every rank the sum of the volumes of the cells of all ranks, however
many calls there were before. -/
theorem C104_volume (vols : List (List ℚ)) (h : ∀ l ∈ vols, ∀ v ∈ l, 0 ≤ v) (n : Nat) :
    plexVolumeCalls vols (n + 1) = some (List.replicate vols.length vols.flatten.sum) := by
  have hs : 0 ≤ vols.flatten.sum := List.sum_nonneg fun v hv => by
    obtain ⟨l, hl, hv⟩ := List.mem_flatten.mp hv
    exact h l hl v hv
  induction n with
  | zero =>
    unfold plexVolumeCalls plexVolumeCalls
    rw [Option.bind_some]
    unfold plexVolume
    rw [if_pos (by intro v hv; obtain ⟨_, _, rfl⟩ := List.mem_map.mp hv; norm_num),
      mapM_of_forall fun x _ => plexLocalVolume_ok x, Option.bind_some, List.sum_flatten]
    congr 1
    rw [List.map_map]
    exact List.map_const' ..
  | succ n ih =>
    rw [plexVolumeCalls, ih, Option.bind_some]
    unfold plexVolume
    by_cases h0 : vols = []
    · subst h0; rfl
    · have hl : 0 < vols.length := List.length_pos_iff.mpr h0
      rw [if_neg (by
        intro hx
        have := hx vols.flatten.sum (List.mem_replicate.mpr ⟨by omega, rfl⟩)
        exact absurd this (not_lt.mpr hs)), if_pos (by
        intro v hv
        rw [(List.mem_replicate.mp hv).2]
        exact not_lt.mpr hs)]

/-- **C104** In two dimensions `get_vtk_cell_data` gives one cell of an unstructured grid for each local cell, in order,
with its vertices; in other dimensions it is rejected. -/
theorem C104_vtk_cells (m : PlexCells Int) (hm : PlexCellsOk m) :
    (m.ndim = 2 → ∃ out, m.vtkCells = some out ∧ out.length = m.toPetsc.length ∧
      ∀ c < m.toPetsc.length, ∃ vs v, IsVertices m c vs ∧ out[c]? = some v ∧ IsVtkOfVertices vs v) ∧
    (m.ndim ≠ 2 → m.vtkCells = none) := by
  constructor
  · intro hd
    unfold PlexCells.vtkCells
    rw [if_pos hd]
    obtain ⟨out, o1, o2, o3⟩ := mapM_range_exists (n := m.toPetsc.length)
      (f := fun cellx => (m.vertices cellx).bind fun vs =>
        (forLoop 0 vs.length (fun vx pts =>
          (forLoop 0 m.ndim (fun dx pts => (rd vs vx).bind fun v => (rd v dx).bind fun x =>
            some (pts ++ [x])) pts).bind fun pts =>
          forLoop m.ndim 3 (fun _ pts => some (pts ++ [0])) pts) []).bind fun pts =>
        some (⟨vs.length, pts, if vs.length = 3 then 5 else 9, [], []⟩ : VtkCell))
      (R := fun c v => ∃ vs, IsVertices m c vs ∧ IsVtkOfVertices vs v) (fun c hc => by
        obtain ⟨vs, h1, h2, -⟩ := plexVertices_ok hm hc
        have hl := isVertices_length h2
        rw [hd] at hl
        refine ⟨_, by rw [h1, Option.bind_some, hd, vtkPoints_ok hl]; rfl, vs, h2, rfl, rfl, ?_, ?_, rfl, rfl⟩
        · intro h; simp [h]
        · intro h; simp [h])
    refine ⟨out, o1, o2, fun c hc => ?_⟩
    obtain ⟨v, h1, vs, h2, h3⟩ := o3 c hc
    exact ⟨vs, v, h2, h1, h3⟩
  · intro hd
    unfold PlexCells.vtkCells
    rw [if_neg hd]

/-- **C104** A file that all ranks write with the result of `get_vtk_cell_data` holds in the partition of each rank the
cells of that rank with their vertices, and nothing else. -/
theorem C104_vtk_file (ms : List (PlexCells Int)) (hne : ms ≠ []) (hm : ∀ m ∈ ms, PlexCellsOk m ∧ m.ndim = 2)
    (sch : Sched) :
    ∃ cells f, ms.mapM (fun m => m.vtkCells) = some cells ∧
      VtkWriter.write sch ⟨true, none⟩ (cells.map fun l => ⟨l, [], []⟩) = some ⟨true, some f⟩ ∧
      ∀ (p : Nat) m, ms[p]? = some m →
        (∀ c < m.toPetsc.length, ∃ vs v, IsVertices m c vs ∧ readVtkCell f p c = some v ∧ IsVtkOfVertices vs v) ∧
        ∀ c, m.toPetsc.length ≤ c → readVtkCell f p c = none := by
  have hex : ∀ m ∈ ms, m.vtkCells = some ((m.vtkCells).getD []) := by
    intro m h
    obtain ⟨out, h1, -⟩ := (C104_vtk_cells m (hm m h).1).1 (hm m h).2
    rw [h1]; rfl
  have hmap := mapM_of_forall hex
  obtain ⟨f, f1, f2⟩ := C98_read (P := []) (C := []) List.Pairwise.nil List.Pairwise.nil sch
    (ranks := (ms.map fun m => (m.vtkCells).getD []).map fun l => ⟨l, [], []⟩) (by simpa using hne) (by
      intro r hr
      obtain ⟨l, hl, rfl⟩ := List.mem_map.mp hr
      obtain ⟨m, h, rfl⟩ := List.mem_map.mp hl
      obtain ⟨out, h1, h2, h3⟩ := (C104_vtk_cells m (hm m h).1).1 (hm m h).2
      rw [h1]
      refine ⟨?_, by simp, by simp, by simp, by simp⟩
      intro v hv
      obtain ⟨c, hc, rfl⟩ := List.mem_iff_getElem.mp hv
      change c < out.length at hc
      obtain ⟨vs, v', g1, g2, g3⟩ := h3 c (by omega)
      have hvv : out[c] = v' := by
        rw [List.getElem?_eq_getElem (by simpa using hc), Option.some.injEq] at g2; exact g2
      have hlen := isVertices_length g1
      rw [(hm m h).2] at hlen
      simp only [Option.getD_some] at *
      rw [hvv]
      refine ⟨?_, by simp [g3.data.2], by simp [g3.data.1], by simp [g3.data.2]⟩
      rw [g3.points, g3.num]
      clear g1 g2 g3
      induction vs with
      | nil => rfl
      | cons x vs ih =>
        rw [List.flatMap_cons, List.length_append, ih fun v hv => hlen v (by simp [hv]), List.length_append,
          hlen x (by simp)]
        simp only [List.length_cons, List.length_nil]
        omega)
  refine ⟨_, f, hmap, f1, fun p m hp => ?_⟩
  have h := List.mem_of_getElem? hp
  obtain ⟨out, h1, h2, h3⟩ := (C104_vtk_cells m (hm m h).1).1 (hm m h).2
  have hr : ∀ c, readVtkCell f p c = out[c]? := by
    intro c
    rw [f2, List.getElem?_map, List.getElem?_map, hp]
    simp [h1]
  refine ⟨fun c hc => ?_, fun c hc => ?_⟩
  · obtain ⟨vs, v, g1, g2, g3⟩ := h3 c hc
    exact ⟨vs, v, g1, by rw [hr, g2], g3⟩
  · rw [hr, List.getElem?_eq_none (by omega)]

/-- **C104** If the mean of the vertices of every cell is in that cell, then
`make_quadrature_point_mapper_vertex` has in each cell one point at each vertex of the cell, in order, however
the points that were added are ordered in the cells. -/
theorem C104_mapper_vertex (m : PlexCells ℚ) (hm : PlexCellsOk m) :
    ∃ t pts, m.verticesCdc = some t ∧ m.mapperPoints t = some pts ∧
      ∀ (locate : List ℚ → Nat) (occ : List (List (List ℚ))),
        (∀ c < m.toPetsc.length, ∀ vs a, IsVertices m c vs → IsMean m.ndim vs a → locate a = c) →
        occ.length = m.toPetsc.length → Placed locate pts occ →
        ∃ occ', moveToVertices m.ndim t occ = some occ' ∧ occ'.length = m.toPetsc.length ∧
          ∀ c < m.toPetsc.length, ∃ vs, occ'[c]? = some vs ∧ IsVertices m c vs := by
  obtain ⟨t, t1, -, -, t4⟩ := verticesCdc_ok hm
  obtain ⟨V, A, hVA⟩ := plexCells_choose hm
  have ht : ∀ c < m.toPetsc.length, t.num[c]? = some (some (V c).length) ∧
      ∃ tab, t.rows[c]? = some tab ∧ ∀ (r : Nat) w, (V c)[r]? = some w → tab[r]? = some (w.map some) := by
    intro c hc
    obtain ⟨vs, tab, g1, g2, g3, g4⟩ := t4 c hc
    rw [isVertices_unique hm.dim (hVA c hc).1 g1]
    exact ⟨g2, tab, g3, g4⟩
  have hpts := mapperPoints_ok (m := m) (V := V) (A := A) (fun c hc => (hVA c hc).2) (t := t) fun c hc => (ht c hc).1
  refine ⟨t, _, t1, hpts, fun locate occ hloc hocc hpl => ?_⟩
  obtain ⟨hperm, hin⟩ := hpl
  have hout : ∀ (c : Nat) ps, occ[c]? = some ps → ps.length = (V c).length ∧ ∀ x ∈ ps, x.length = m.ndim := by
    intro c ps hps
    have hc : c < m.toPetsc.length := by
      obtain ⟨h, -⟩ := List.getElem?_eq_some_iff.mp hps
      omega
    constructor
    · have e1 := placed_filter locate occ 0 (fun c ps h x hx => by rw [hin c ps h x hx]; omega) c
      have e2 := placed_filter locate
        ((List.range m.toPetsc.length).map fun c => List.replicate (V c).length (A c)) 0 (by
          intro c ps h x hx
          rw [List.getElem?_map] at h
          by_cases hc : c < m.toPetsc.length
          · rw [List.getElem?_range hc, Option.map_some, Option.some.injEq] at h
            subst h
            rw [(List.mem_replicate.mp hx).2, hloc c hc _ _ (hVA c hc).1 (hVA c hc).2.1]; omega
          · rw [List.getElem?_eq_none (by simpa using hc)] at h
            cases h) c
      have e3 := (hperm.filter fun x => locate x = c).length_eq
      rw [e1, e2, if_pos (Nat.zero_le _), if_pos (Nat.zero_le _), Nat.sub_zero, hps, List.getElem?_map,
        List.getElem?_range hc] at e3
      simpa using e3
    · intro x hx
      have hxp := hperm.mem_iff.mp (List.mem_flatten.mpr ⟨ps, List.mem_of_getElem? hps, hx⟩)
      obtain ⟨l, hl, hxl⟩ := List.mem_flatten.mp hxp
      obtain ⟨c', hc', rfl⟩ := List.mem_map.mp hl
      rw [(List.mem_replicate.mp hxl).2]
      exact (hVA c' (List.mem_range.mp hc')).2.1.1
  refine ⟨_, moveToVertices_ok hocc (fun c hc => isVertices_length (hVA c hc).1) (fun c hc => (ht c hc).2) hout,
    by simp, fun c hc => ⟨V c, ?_, (hVA c hc).1⟩⟩
  rw [List.getElem?_map, List.getElem?_range hc]; rfl

/-- **C104** `make_quadrature_point_mapper_average` adds one point per cell, in order: the mean of its vertices. -/
theorem C104_mapper_average (m : PlexCells ℚ) (hm : PlexCellsOk m) :
    ∃ pts, m.averagePoints = some pts ∧ pts.length = m.toPetsc.length ∧
      ∀ c < m.toPetsc.length, ∃ vs a, pts[c]? = some a ∧ IsVertices m c vs ∧ IsMean m.ndim vs a := by
  obtain ⟨V, A, hVA⟩ := plexCells_choose hm
  refine ⟨_, averagePoints_ok fun c hc => ⟨(hVA c hc).2.1.1, (hVA c hc).2.2⟩, by simp, fun c hc =>
    ⟨V c, A c, ?_, (hVA c hc).1, (hVA c hc).2.1⟩⟩
  rw [List.getElem?_map, List.getElem?_range hc]; rfl

namespace Ex

/-- The triangle below a chevron, and the chevron: all points with `y` between `-4` and `0` below the chevron are in the
triangle. The mean of the vertices of the chevron is below it. -/
def chevronMesh : PlexCells ℚ :=
  { ndim := 2, toPetsc := [0, 1], coords := [[-4, -4, 0, 0, 4, -4, 0, 1], [-4, -4, 4, -4, 0, 0]] }

/-- A triangle and a quadrilateral; the PETSc cell 1 is in the halo. -/
def twoCellMesh : PlexCells ℚ :=
  { ndim := 2, toPetsc := [0, 2], coords := [[0, 0, 3, 0, 0, 3], [7, 7, 8, 7, 8, 8], [3, 0, 5, 0, 5, 2, 3, 2]] }

/-- The same mesh for output. -/
def twoCellMeshOut : PlexCells Int :=
  { ndim := 2, toPetsc := [0, 2], coords := [[0, 0, 3, 0, 0, 3], [7, 7, 8, 7, 8, 8], [3, 0, 5, 0, 5, 2, 3, 2]] }

end Ex

/-- The full claim for `make_quadrature_point_mapper_vertex` fails for cells which are not convex: the mean of the
vertices of a chevron can be in the cell next to it. Then there are more points in that cell than it has vertices, and
the loop reads past the end of its table. -/
theorem C104_mapper_concave :
    ∃ (m : PlexCells ℚ) (t : VertexTable ℚ) (pts : List (List ℚ)) (locate : List ℚ → Nat)
      (occ : List (List (List ℚ))),
      PlexCellsOk m ∧ m.verticesCdc = some t ∧ m.mapperPoints t = some pts ∧ occ.length = m.toPetsc.length ∧
      Placed locate pts occ ∧ moveToVertices m.ndim t occ = none := by
  refine ⟨Ex.chevronMesh, (Ex.chevronMesh.verticesCdc).getD ⟨[], []⟩,
    List.replicate 4 [0, -7/4] ++ List.replicate 3 [0, -8/3], fun _ => 1,
    [[], List.replicate 4 [0, -7/4] ++ List.replicate 3 [0, -8/3]], ⟨by decide, ?_⟩, ?_, ?_, rfl, ⟨?_, ?_⟩, ?_⟩
  · intro p hp
    simp only [Ex.chevronMesh, List.mem_cons, List.not_mem_nil, or_false] at hp
    rcases hp with rfl | rfl
    · exact ⟨_, rfl, by decide, by decide⟩
    · exact ⟨_, rfl, by decide, by decide⟩
  · have : (Ex.chevronMesh.verticesCdc).isSome = true := by decide +kernel
    obtain ⟨t, ht⟩ := Option.isSome_iff_exists.mp this
    rw [ht]; rfl
  · decide +kernel
  · simp
  · intro c ps h x hx
    match c, h with
    | 0, h => simp at h; subst h; simp at hx
    | 1, _ => rfl
    | c + 2, h => simp at h
  · decide +kernel

namespace Ex

theorem twoCellMesh_ok : PlexCellsOk twoCellMesh := by
  refine ⟨by decide, fun p hp => ?_⟩
  simp only [twoCellMesh, List.mem_cons, List.not_mem_nil, or_false] at hp
  rcases hp with rfl | rfl
  · exact ⟨_, rfl, by decide, by decide⟩
  · exact ⟨_, rfl, by decide, by decide⟩

theorem twoCellMeshOut_ok : PlexCellsOk twoCellMeshOut ∧ twoCellMeshOut.ndim = 2 := by
  refine ⟨⟨by decide, fun p hp => ?_⟩, rfl⟩
  simp only [twoCellMeshOut, List.mem_cons, List.not_mem_nil, or_false] at hp
  rcases hp with rfl | rfl
  · exact ⟨_, rfl, by decide, by decide⟩
  · exact ⟨_, rfl, by decide, by decide⟩

example : twoCellMesh.vertices 1 = some [[3, 0], [5, 0], [5, 2], [3, 2]] := by decide +kernel

example : twoCellMesh.average 1 [9, 9] = some [4, 1] ∧ twoCellMesh.average 0 [9] = none := by decide +kernel

example := C104_vertices twoCellMesh twoCellMesh_ok 1

example := C104_table twoCellMesh twoCellMesh_ok

example : (twoCellMeshOut.vtkCells).map (·.map (·.points)) =
    some [[0, 0, 0, 3, 0, 0, 0, 3, 0], [3, 0, 0, 5, 0, 0, 5, 2, 0, 3, 2, 0]] := by decide +kernel

example (sch : Sched) := C104_vtk_file [twoCellMeshOut, twoCellMeshOut] (by simp)
  (by simpa using twoCellMeshOut_ok) sch

example : faceSetsOf (fun px => if px = 6 then 100 else if px = 8 then 100 else -1) 5 9 =
    some [(-1, [5, 7]), (100, [6, 8])] := by decide +kernel

example : plexVolumeCalls [[9/2], [4, 1/2], []] 3 = some [9, 9, 9] := by decide +kernel

/-- The points in another order than they were added. -/
example : (do
    let t ← twoCellMesh.verticesCdc
    moveToVertices 2 t [List.replicate 3 [1, 1], List.replicate 4 [4, 1]]) =
    some [[[0, 0], [3, 0], [0, 3]], [[3, 0], [5, 0], [5, 2], [3, 2]]] := by decide +kernel

example : ∃ t pts, twoCellMesh.verticesCdc = some t ∧ twoCellMesh.mapperPoints t = some pts ∧
    Placed (fun x => if x = [1, 1] then 0 else 1) pts [List.replicate 3 [1, 1], List.replicate 4 [4, 1]] := by
  refine ⟨(twoCellMesh.verticesCdc).getD ⟨[], []⟩, List.replicate 3 [1, 1] ++ List.replicate 4 [4, 1], ?_, ?_, ?_, ?_⟩
  · have : (twoCellMesh.verticesCdc).isSome = true := by decide +kernel
    obtain ⟨t, ht⟩ := Option.isSome_iff_exists.mp this
    rw [ht]; rfl
  · decide +kernel
  · simp
  · intro c ps h x hx
    match c, h with
    | 0, h => simp at h; subst h; simp at hx; simp [hx]
    | 1, h => simp at h; subst h; simp at hx; simp [hx]
    | c + 2, h => simp at h

end Ex

end NP
