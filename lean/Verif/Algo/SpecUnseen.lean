import Verif.Algo.ModelUnseen
import Verif.Sub.SpecBuilt
import Verif.Containers.SpecTree

/-! Specification of the extraction of unseen values. -/

set_option autoImplicit false

namespace NP.Spec

/-- A particle of the group or sub group of the call has the value `v`. -/
def HasValue (x : UnseenCall) (v : Int) : Prop := ∃ c l, InParent x.npart x.par c l ∧ x.val c l = v

/-- The call is on a group or on a sub group made from it, on a device. -/
structure UnseenOk (w : Nat) (x : UnseenCall) : Prop where
  built : Built x.npart x.par
  localSize : 0 < x.P.localSize
  localSizeInt : x.P.localSize < 2 ^ 31
  nbin : 0 < x.P.nbin
  counts : ∀ n ∈ x.npart, n < 2 ^ 31
  nodes : ∀ i, NodeSized w (x.garbage i)

end NP.Spec
