import Verif.Sub.ModelVersion

/-! # What it means that a sub group is up to date -/

set_option autoImplicit false

namespace NP.Spec

variable {D S X : Type}

/-- `x` is a selection which the selector of sub group `i` computes from the present particle
data: its kernel applied to the present data and to such selections of its parents. A static
sub group keeps the selection it has. -/
inductive Recomputed (w : GroupWorld D S X) : Nat → X → Prop
  | static {i : Nat} {n : SubNode D S X} {x : X} (h : w.subs[i]? = some n)
      (hs : n.static = true) (hx : n.sel = some x) : Recomputed w i x
  | made {i : Nat} {n : SubNode D S X} (run : Nat) (xs : List X) (h : w.subs[i]? = some n)
      (hs : n.static = false) (hl : xs.length = n.parents.length)
      (hp : ∀ (k p : Nat) (x : X), n.parents[k]? = some p → xs[k]? = some x → Recomputed w p x) :
      Recomputed w i (n.make run xs w.data w.cells)

/-- The properties for which a device pointer was taken and which were not written through the
API since, after one more operation. -/
def livePointers (live : Nat → Bool) : SubOp D S X → Nat → Bool
  | .write s _ => fun t => if t = s then false else live t
  | .takePointer s => fun t => if t = s then true else live t
  | .replace s _ => fun t => if t = s then false else live t
  | _ => live

/-- The operations of a history: selectors read only the particle properties they declare,
writes without a callback happen only through a pointer taken after the last write through the
API, a property is not removed and added again if a sub group depends on it, and a sub group that
has sub groups of its own stays static once it is. -/
def OpAllowed (live : Nat → Bool) (w : GroupWorld D S X) : SubOp D S X → Prop
  | .add _ own make => ∀ (run : Nat) (xs : List X) (d d' : Nat → D) (c : S),
      (∀ s ∈ own, d s = d' s) → make run xs d c = make run xs d' c
  | .poke s _ => live s = true
  | .replace s _ => ∀ n ∈ w.subs, s ∉ n.tracker.map Prod.fst
  | .setStatic i false => ∀ n ∈ w.subs, i ∉ n.parents
  | _ => True

/-- The states that histories of such operations lead to, with the pointers in use. -/
inductive SubRun : (Nat → Bool) → GroupWorld D S X → Prop
  | init (data : Nat → D) (cells : S) : SubRun (fun _ => false) (GroupWorld.init data cells)
  | step {live : Nat → Bool} {w w' : GroupWorld D S X} (op : SubOp D S X) (h : SubRun live w)
      (ha : OpAllowed live w op) (hs : stepSub op w = some w') : SubRun (livePointers live op) w'

/-- The states that histories of such operations lead to. -/
def SubHistory (w : GroupWorld D S X) : Prop := ∃ live, SubRun live w

end NP.Spec
