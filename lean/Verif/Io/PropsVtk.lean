import Verif.Io.LemmasVtk2

/-!
# Properties: VTKHDF files of unstructured grids

`C98`.
-/

set_option autoImplicit false

namespace NP

open Spec

/-- If all cells have the same quantities and ranks without cells name them, then a new file is written, in any
order of the writes of the ranks, and cell `i` of partition `p` read from it is cell `i` of rank `p`, with its
points, type and quantities; there are no other cells. -/
theorem C98_read {P C : List Int} (hP : P.Pairwise (· < ·)) (hC : C.Pairwise (· < ·)) (sch : Sched)
    {ranks : List VtkRank} (hne : ranks ≠ []) (hr : ∀ r ∈ ranks, VtkRankOk P C r) :
    ∃ f, VtkWriter.write sch ⟨true, none⟩ ranks = some ⟨true, some f⟩ ∧
      ∀ p i, readVtkCell f p i = (ranks[p]?).bind fun r => r.cells[i]? := by
  refine ⟨_, vtkWrite_spec hP hC sch hne hr, fun p i => ?_⟩
  cases hp : ranks[p]? with
  | none => exact readVtk_none fun cells h => by rw [List.getElem?_map, hp] at h; cases h
  | some r =>
    have hp' : (ranks.map (·.cells))[p]? = some r.cells := by rw [List.getElem?_map, hp]; rfl
    rw [Option.bind_some]
    cases hi : r.cells[i]? with
    | none =>
      refine readVtk_none fun cells h => ?_
      rw [hp', Option.some.injEq] at h
      subst h
      exact List.getElem?_eq_none_iff.mp hi
    | some c =>
      refine readVtk_spec hP hC ?_ hp' hi
      intro cells hc x hx
      obtain ⟨r', h, rfl⟩ := List.mem_map.mp hc
      exact (hr r' h).cells x hx

/-- Every entry of the datasets is written, and the datasets have the sizes that the counts of the partitions say:
three coordinates per point, an offset more than cells per partition, one value per point or cell. -/
theorem C98_sizes {P C : List Int} (hP : P.Pairwise (· < ·)) (hC : C.Pairwise (· < ·)) (sch : Sched)
    {ranks : List VtkRank} (hne : ranks ≠ []) (hr : ∀ r ∈ ranks, VtkRankOk P C r) {f : VtkFile}
    (h : VtkWriter.write sch ⟨true, none⟩ ranks = some ⟨true, some f⟩) :
    let npoint := (ranks.map fun r => (r.cells.map (·.numPoints)).sum).sum
    let ncell := (ranks.map fun r => r.cells.length).sum
    (f.points.length = 3 * npoint ∧ none ∉ f.points) ∧ (f.types.length = ncell ∧ none ∉ f.types) ∧
    (f.connectivity.length = npoint ∧ none ∉ f.connectivity) ∧
    (f.offsets.length = ncell + ranks.length ∧ none ∉ f.offsets) ∧
    f.numberOfPoints.length = ranks.length ∧ f.numberOfCells.length = ranks.length ∧
    f.numberOfConnectivityIds.length = ranks.length ∧
    f.pointData.map (·.1) = P ∧ f.cellData.map (·.1) = C ∧
    (∀ e ∈ f.pointData, e.2.length = npoint ∧ none ∉ e.2) ∧ (∀ e ∈ f.cellData, e.2.length = ncell ∧ none ∉ e.2) := by
  rw [vtkWrite_spec hP hC sch hne hr] at h
  have hf := congrArg (fun w => w.bind VtkWriter.file) h
  simp only [Option.bind_some, Option.some.injEq] at hf
  subst hf
  have hcell : ∀ c ∈ ranks.map (·.cells), ∀ x ∈ c, VtkCellOk P C x := by
    intro c hc x hx
    obtain ⟨r, h, rfl⟩ := List.mem_map.mp hc
    exact (hr r h).cells x hx
  have hnone : ∀ {α : Type} (l : List α), none ∉ l.map some := by intro α l h; simp at h
  have hlen : ∀ {α : Type} (g : List VtkCell → List α) (n : List VtkCell → Nat),
      (∀ c ∈ ranks.map (·.cells), (g c).length = n c) →
      (((ranks.map (·.cells)).map g).flatten.map some).length = (ranks.map fun r => n r.cells).sum := by
    intro α g n hg
    rw [List.length_map, List.length_flatten]
    congr 1
    rw [List.map_map, List.map_map]
    exact List.map_congr_left fun r hr' => hg _ (List.mem_map.mpr ⟨r, hr', rfl⟩)
  intro npoint ncell
  refine ⟨⟨?_, hnone _⟩, ⟨?_, hnone _⟩, ⟨?_, hnone _⟩, ⟨?_, hnone _⟩, ?_, ?_, ?_, ?_, ?_, ?_, ?_⟩
  · refine (hlen _ (fun c => (nps c).sum * 3) fun c hc => length_flatMap_of _ 3 c fun x hx => (hcell c hc x hx).points).trans ?_
    have := sum_map_mul (ranks.map fun r => (r.cells.map (·.numPoints)).sum) 3
    rw [List.map_map] at this
    rw [Nat.mul_comm]
    exact this
  · exact hlen _ (fun c => c.length) fun c _ => by simp
  · exact hlen _ (fun c => (nps c).sum) fun c _ => by simp
  · refine (hlen _ (fun c => c.length + 1) fun c _ => length_offsetsOf c).trans ?_
    have := before_plus_one (ranks.map (·.cells)) ranks.length (by simp)
    rw [before_full _ (by simp), before_full _ (by simp), List.map_map, List.map_map] at this
    exact this
  · show ((ranks.map _).map _).length = _
    simp
  · show ((ranks.map _).map _).length = _
    simp
  · show ((ranks.map _).map _).length = _
    simp
  · show (P.map _).map _ = P
    rw [List.map_map]; exact List.map_id P
  · show (C.map _).map _ = C
    rw [List.map_map]; exact List.map_id C
  · intro e he
    obtain ⟨k, hk, rfl⟩ := List.mem_map.mp he
    refine ⟨hlen _ (fun c => (nps c).sum) fun c hc => ?_, hnone _⟩
    have := length_flatMap_of (pointVal k) 1 c fun x hx => by
      rw [length_pointVal hP (hcell c hc x hx) hk, Nat.mul_one]
    rwa [Nat.mul_one] at this
  · intro e he
    obtain ⟨k, hk, rfl⟩ := List.mem_map.mp he
    exact ⟨hlen _ (fun c => c.length) fun c _ => by simp, hnone _⟩

/-- A file takes one grid: a second `write` fails, and so does writing to a file of another type. -/
theorem C98_once (sch : Sched) (w : VtkWriter) (h : w.isGrid = false ∨ w.file ≠ none) (ranks : List VtkRank) :
    w.write sch ranks = none := by
  unfold VtkWriter.write
  rw [if_neg]
  rintro ⟨h1, h2⟩
  rcases h with h | h
  · rw [h] at h1; cases h1
  · exact h h2

namespace Ex

/-- A triangle, a line and a quadrilateral with one quantity on points and one on cells. -/
def vtkTri : VtkCell := ⟨3, [0, 0, 0, 1, 0, 0, 0, 1, 0], 5, [(7, 70)], [(4, [41, 42, 43])]⟩
def vtkLine : VtkCell := ⟨2, [5, 5, 5, 6, 6, 6], 3, [(7, 71)], [(4, [44, 45])]⟩
def vtkQuad : VtkCell := ⟨4, [0, 0, 1, 1, 0, 1, 1, 1, 1, 0, 1, 1], 9, [(7, 72)], [(4, [46, 47, 48, 49])]⟩

/-- Three ranks, the second without cells, which therefore has to name the quantities. -/
def vtkRanks : List VtkRank := [⟨[vtkTri, vtkLine], [], []⟩, ⟨[], [4], [7]⟩, ⟨[vtkQuad], [4], []⟩]

theorem vtkRanks_ok : ∀ r ∈ vtkRanks, VtkRankOk [4] [7] r := by
  have h1 : VtkCellOk [4] [7] vtkTri := ⟨rfl, rfl, rfl, by decide⟩
  have h2 : VtkCellOk [4] [7] vtkLine := ⟨rfl, rfl, rfl, by decide⟩
  have h3 : VtkCellOk [4] [7] vtkQuad := ⟨rfl, rfl, rfl, by decide⟩
  intro r hr
  simp only [vtkRanks, List.mem_cons, List.not_mem_nil, or_false] at hr
  rcases hr with rfl | rfl | rfl
  · exact ⟨by simp [h1, h2], by simp, by simp, by simp, by simp⟩
  · exact ⟨by simp, by simp, by simp, by simp, by simp⟩
  · exact ⟨by simp [h3], by simp, by simp, by simp, by simp⟩

/-- The theorem applies to them: the cell of the third rank is read back. -/
example : ∃ f, VtkWriter.write Sched.reversed ⟨true, none⟩ vtkRanks = some ⟨true, some f⟩ ∧
    readVtkCell f 2 0 = some vtkQuad ∧ readVtkCell f 0 1 = some vtkLine ∧ readVtkCell f 1 0 = none := by
  obtain ⟨f, h1, h2⟩ := C98_read (P := [4]) (C := [7]) (by decide) (by decide) Sched.reversed (by simp [vtkRanks])
    vtkRanks_ok
  exact ⟨f, h1, by rw [h2]; rfl, by rw [h2]; rfl, by rw [h2]; rfl⟩

/-- The offsets of the file count from the start of each partition. -/
example : ((VtkWriter.write Sched.inOrder ⟨true, none⟩ vtkRanks).bind (·.file)).map (·.offsets) =
    some ([0, 3, 5, 0, 0, 4].map some) := by decide +kernel

/-- If the rank without cells does not name the quantities, the ranks do not make the same calls. -/
example : VtkWriter.write Sched.inOrder ⟨true, none⟩ [⟨[vtkTri], [], []⟩, ⟨[], [], []⟩] = none := by decide +kernel

end Ex

/-- A cell without a quantity that the other cells of the rank have: the file is written without an error, the
values of the following cells are those of the cells after them and the last value is missing. -/
theorem C98_missing_quantity : ∃ (cells : List VtkCell) (f : VtkFile),
    VtkWriter.write Sched.inOrder ⟨true, none⟩ [⟨cells, [], []⟩] = some ⟨true, some f⟩ ∧
    cells.map (fun c => omGet c.cellData 7) = [some 70, none, some 72] ∧
    f.cellData = [(7, [some 70, some 72, none])] :=
  ⟨[Ex.vtkTri, { Ex.vtkLine with cellData := [] }, Ex.vtkQuad], _, rfl, rfl, rfl⟩

end NP
