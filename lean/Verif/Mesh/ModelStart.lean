import Verif.Mesh.ModelCart

/-!
# Model: the point from which particles start in parallel advection

Models `CartesianHMesh::get_point_in_subdomain`, `src/cartesian_mesh/cartesian_h_mesh.cpp:395-401`, which
`get_point_in_local_domain`, `src/parallel_initialisation.cpp:15-18`, calls. REAL is the rational numbers.
-/

set_option autoImplicit false

namespace NP

/-- `get_point_in_subdomain` on rank `r`, src/cartesian_mesh/cartesian_h_mesh.cpp:395-401. -/
def CartMesh.pointInSubdomain (m : CartMesh) (extent : ℚ) (r : Nat) : Option (List ℚ) :=
  (m.box r).bind fun b => some (b.map fun p =>
    let start : ℚ := p.1 * (extent / 2 ^ m.mh.order)
    let stop : ℚ := p.2 * (extent / 2 ^ m.mh.order)
    (1 / 2) * (start + stop))

end NP
