import Verif.Containers.ModelResMap

/-!
# Specification: histories of temporary resources

In a history, every resource is restored with the key and the type that it was requested with.
-/

set_option autoImplicit false

namespace NP.Spec

/-- The states after histories in which every resource is restored with the key and type of its request. -/
inductive ResReach : ResMap → Prop
  | init : ResReach ResMap.init
  | get {s s' : ResMap} {key ty iface r : Nat} : ResReach s → s.get key ty iface = some (r, s') → ResReach s'
  | restore {s s' : ResMap} {key ty iface r : Nat} : ResReach s → s.info[r]? = some (key, ty, iface) →
      s.restore key ty r = some s' → ResReach s'
  | free {s s' : ResMap} {order : List Nat} : ResReach s → order.Perm s.keys → s.free order = some s' → ResReach s'

end NP.Spec
