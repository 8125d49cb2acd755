import Verif.Mesh.SpecCart
import Verif.Mesh.ModelFace

/-!
# What the face properties say
-/

set_option autoImplicit false

namespace NP.Spec

/-- The sides of the domain: 0 is the lower and 2 the upper end of the second dimension, 3 the
lower and 1 the upper end of the first dimension, 4 the lower and 5 the upper end of the third
dimension. The dimension and whether it is the upper end. -/
def sideOf : Nat → Option (Nat × Bool)
  | 0 => some (1, false)
  | 1 => some (0, true)
  | 2 => some (1, true)
  | 3 => some (0, false)
  | 4 => some (2, false)
  | 5 => some (2, true)
  | _ => none

/-- The cell with coordinates `t` has a face on the side `f` of the domain. -/
def OnSide (m : CartMesh) (f : Nat) (t : List Int) : Prop :=
  IsMeshCell m t ∧ ∃ d up c, sideOf f = some (d, up) ∧
    (m.mh.dims.map (· * 2 ^ m.mh.order))[d]? = some c ∧
    t[d]? = some (if up then c - 1 else 0)

/-- The face with index `id` is the face of the cell with coordinates `t` on side `f`. -/
def IsFace (m : CartMesh) (id : Int) (f : Nat) (t : List Int) : Prop :=
  ∃ l0 l1, m.getFaceIdAsTuple id = some [(f : Int), l0, l1] ∧
    m.meshTupleOwningFace [(f : Int), l0, l1] [0, 0, 0] = some (pad3 t) ∧ t.length = m.mh.dims.length

end NP.Spec
