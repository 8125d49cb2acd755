import Verif.Mesh.LemmasUniform
import Verif.Mesh.ExamplesCart

/-!
# C110: uniform positions in the cells of a Cartesian mesh
-/

set_option autoImplicit false

namespace NP

/-- **C110** On every rank, `uniform_within_cartesian_cells` gives the asked for number of positions in each cell of the rank, one
cell after the other. Each position is in its cell, and the cell that is returned with it is the one that `CartesianCellBin` gives
to this position (or zero for meshes in single cell mode). -/
theorem C110_positions (m : CartMesh) (hv : Spec.ValidCartMesh m) (extent : ℚ) (he : 0 < extent) (gen : Nat → ℚ)
    (hg : ∀ k, 0 ≤ gen k ∧ gen k < 1) (single : Bool) (r n : Nat) (hr : r < m.comm.dims.prod) :
    ∃ (b : List (Int × Int)) (cells : List (List Int)) (blocks : List (List (Int × List ℚ))),
      m.box r = some b ∧ getOwnedCells b = some cells ∧
      m.uniformWithinCells extent gen single r n = some blocks.flatten ∧ blocks.length = cells.length ∧
      ∀ (j : Nat) blk, blocks[j]? = some blk → blk.length = n ∧
        ∃ t, cells[j]? = some (Spec.pad3 t) ∧ Spec.IsMeshCell m t ∧ ∀ q ∈ blk,
          Spec.InMeshCell m extent t q.2 ∧ m.cellBin extent b q.2 = some (j : Int) ∧
          q.1 = if single then 0 else (j : Int) := by
  obtain ⟨b, cells, h1, h2, h3, h4⟩ := (C39_partition m hv).1 r hr
  have hlen : ∀ t, Spec.IsMeshCell m t → t.length = m.ndim := fun t ht => by
    have := ht.length
    simpa [CartMesh.ndim, MeshHierarchy.ndim] using this
  have hw : 0 < extent / 2 ^ m.mh.order := by positivity
  obtain ⟨blocks, b1, b2, b3⟩ := placeInCells_spec gen (extent / 2 ^ m.mh.order) m.ndim n single cells
    (fun c hc => by
      obtain ⟨t, e, ht⟩ := h4 c hc
      exact ⟨t, _, e, hlen t ht⟩) 0 0
  refine ⟨b, cells, blocks, h1, h2, by simp [CartMesh.uniformWithinCells, h1, h2, b1], b2, fun j blk hj => ?_⟩
  obtain ⟨c1, c2⟩ := b3 j blk hj
  have hjlt : j < cells.length := by
    rw [← b2]
    exact (List.getElem?_eq_some_iff.mp hj).1
  obtain ⟨t, e, ht⟩ := h4 cells[j] (List.getElem_mem hjlt)
  have hcell : cells[j]? = some (Spec.pad3 t) := by rw [List.getElem?_eq_getElem hjlt, e]
  refine ⟨c1, t, hcell, ht, fun q hq => ?_⟩
  obtain ⟨i, hi⟩ := List.mem_iff_getElem?.mp hq
  obtain ⟨d1, d2⟩ := c2 i q hi
  obtain ⟨d3, d4⟩ := d2 t _ hcell (hlen t ht)
  have hin : Spec.InMeshCell m extent t q.2 := by
    refine forall2_of_getElem? t q.2 (by rw [d3, hlen t ht]) fun d c hd => ⟨_, d4 d c hd, ?_, ?_⟩
    · have := mul_nonneg hw.le (hg (0 + (j * m.ndim + d) * n + i)).1
      linarith
    · have := mul_lt_mul_of_pos_left (hg (0 + (j * m.ndim + d) * n + i)).2 hw
      linarith
  refine ⟨hin, ?_, by simpa using d1⟩
  obtain ⟨b', x, e1, e2, e3⟩ := C37_cell m hv extent he r hr t ht
    ⟨b, cells, h1, h2, e ▸ List.getElem_mem hjlt⟩ q.2 hin []
  rw [h1, Option.some.injEq] at e1
  subst e1
  rw [List.append_nil] at e2
  rw [C39_local_index m hv r hr b cells h1 h2 x] at e3
  split at e3
  · rename_i hx
    have hxl := (List.getElem?_eq_some_iff.mp e3).1
    have := (List.getElem?_inj hxl h3).mp (e3.trans hcell.symm)
    rw [e2, ← this, Int.toNat_of_nonneg hx]
  · cases e3

/-- **C110** Every coordinate uses its own sample of the generator: coordinate `d` of position `i` in the `j`-th cell is the lower side
of the cell plus its width times sample `(j * ndim + d) * n + i`. -/
theorem C110_samples (m : CartMesh) (hv : Spec.ValidCartMesh m) (extent : ℚ) (gen : Nat → ℚ)
    (single : Bool) (r n : Nat) (hr : r < m.comm.dims.prod) :
    (∃ (b : List (Int × Int)) (cells : List (List Int)) (blocks : List (List (Int × List ℚ))),
      m.box r = some b ∧ getOwnedCells b = some cells ∧
      m.uniformWithinCells extent gen single r n = some blocks.flatten ∧ blocks.length = cells.length ∧
      ∀ (j : Nat) blk (i : Nat) q cell (d : Nat) (c : Int), blocks[j]? = some blk → blk[i]? = some q → cells[j]? = some cell → d < m.ndim →
        cell[d]? = some c →
        q.2[d]? = some (c * (extent / 2 ^ m.mh.order) + extent / 2 ^ m.mh.order * gen ((j * m.ndim + d) * n + i))) ∧
    ∀ j d i j' d' i', d < m.ndim → d' < m.ndim → i < n → i' < n →
      (j * m.ndim + d) * n + i = (j' * m.ndim + d') * n + i' → j = j' ∧ d = d' ∧ i = i' := by
  constructor
  · obtain ⟨b, cells, h1, h2, h3, h4⟩ := (C39_partition m hv).1 r hr
    have hlen : ∀ t, Spec.IsMeshCell m t → t.length = m.ndim := fun t ht => by
      have := ht.length
      simpa [CartMesh.ndim, MeshHierarchy.ndim] using this
    obtain ⟨blocks, b1, b2, b3⟩ := placeInCells_spec gen (extent / 2 ^ m.mh.order) m.ndim n single cells
      (fun c hc => by
        obtain ⟨t, e, ht⟩ := h4 c hc
        exact ⟨t, _, e, hlen t ht⟩) 0 0
    refine ⟨b, cells, blocks, h1, h2, by simp [CartMesh.uniformWithinCells, h1, h2, b1], b2, ?_⟩
    intro j blk i q cell d c hj hi hcell hd hc
    obtain ⟨t, rfl, ht⟩ := h4 cell (List.mem_of_getElem? hcell)
    have := (((b3 j blk hj).2 i q hi).2 t _ hcell (hlen t ht)).2 d c
      (by rwa [Spec.pad3, List.getElem?_append_left (by rw [hlen t ht]; exact hd)] at hc)
    simpa using this
  · have key : ∀ n a i a' i' : Nat, i < n → i' < n → a * n + i = a' * n + i' → a = a' ∧ i = i' := by
      intro n a i a' i' hi hi' e
      have h1 := congrArg (· / n) e
      have h2 := congrArg (· % n) e
      have hn : 0 < n := by omega
      simp only [Nat.add_comm (a * n), Nat.add_comm (a' * n), Nat.add_mul_div_right _ _ hn, Nat.div_eq_of_lt hi,
        Nat.div_eq_of_lt hi', Nat.add_mul_mod_self_right, Nat.mod_eq_of_lt hi, Nat.mod_eq_of_lt hi'] at h1 h2
      exact ⟨by omega, h2⟩
    intro j d i j' d' i' hd hd' hi hi' e
    obtain ⟨e1, e2⟩ := key _ _ _ _ _ hi hi' e
    obtain ⟨e3, e4⟩ := key _ _ _ _ _ hd hd' e1
    exact ⟨e3, e4, e2⟩

namespace Ex

/-- Rank 1 of a mesh of 4 by 6 cells owns six cells; one position in each. -/
example : cartMesh.uniformWithinCells 1 (fun k => if k % 2 = 0 then 1 / 4 else 1 / 2) false 1 1 =
    some [(0, [1/8, 7/4]), (1, [5/8, 7/4]), (2, [1/8, 9/4]), (3, [5/8, 9/4]), (4, [1/8, 11/4]), (5, [5/8, 11/4])] := by
  decide +kernel

/-- The hypotheses. -/
example : Spec.ValidCartMesh cartMesh ∧ 1 < cartMesh.comm.dims.prod ∧
    ∀ k : Nat, 0 ≤ (if k % 2 = 0 then 1 / 4 else 1 / 2 : ℚ) ∧ (if k % 2 = 0 then 1 / 4 else 1 / 2 : ℚ) < 1 := by
  refine ⟨cartMesh_valid, by decide, fun k => ?_⟩
  split <;> norm_num

end Ex

end NP
