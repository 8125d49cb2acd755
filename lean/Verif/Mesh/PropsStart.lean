import Verif.Mesh.LemmasStart
import Verif.Mesh.ExamplesCart

/-!
# C64: the point from which particles start in parallel advection
-/

set_option autoImplicit false

namespace NP

/-- **C64** On every rank of a Cartesian mesh, the point from which the particles start is in a cell that the rank owns, and
`CartesianCellBin` gives the index of this cell on the rank. -/
theorem C64_start (m : CartMesh) (hv : Spec.ValidCartMesh m) (extent : ℚ) (he : 0 < extent) (r : Nat)
    (hr : r < m.comm.dims.prod) :
    ∃ p t, m.pointInSubdomain extent r = some p ∧ Spec.IsMeshCell m t ∧ Spec.Owns m r t ∧ Spec.InMeshCell m extent t p ∧
      ∃ b i, m.box r = some b ∧ m.cellBin extent b p = some i ∧ getGlobalCellTupleIndex b i = some (Spec.pad3 t) := by
  obtain ⟨b, h1, h2, h3, h4, -⟩ := box_spec hv hr
  have hw : 0 < extent / 2 ^ m.mh.order := by positivity
  obtain ⟨t, t1, t2⟩ := middle_cell _ hw b h3
  have hb3 : b.length ≤ 3 := by rw [h2]; exact hv.ndim
  have hown : Spec.Owns m r t := ⟨b, _, h1, getOwnedCells_eq hb3, (mem_ownedCells t1.length_eq.symm).mpr t1⟩
  refine ⟨_, t, by rw [CartMesh.pointInSubdomain, h1]; rfl, h4 t t1, hown, t2, ?_⟩
  obtain ⟨b', i, e1, e2, e3⟩ := C37_cell m hv extent he r hr t (h4 t t1) hown _ t2 []
  rw [List.append_nil] at e2
  exact ⟨b', i, e1, e2, e3⟩

namespace Ex

/-- The middle of the box with corners `(0, 3)` and `(2, 6)`, in cells of width one half. -/
example : cartMesh.pointInSubdomain 1 1 = some [1 / 2, 9 / 4] := by decide +kernel

example : Spec.ValidCartMesh cartMesh ∧ 1 < cartMesh.comm.dims.prod := ⟨cartMesh_valid, by decide⟩

end Ex

end NP
