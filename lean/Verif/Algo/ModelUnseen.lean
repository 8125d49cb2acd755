import Verif.Sub.Model
import Verif.Containers.ModelTree

/-!
# Model: `UnseenValueExtractor`

Models `include/neso_particles/algorithms/unseen_value_extractor.hpp` and
`src/algorithms/unseen_value_extractor.cpp`. The property and component are given as the function
`val cell layer`; the property is a `ParticleDat` or an `EphemeralDat` (the two kernels are the
same). Counters do not overflow.
-/

set_option autoImplicit false

namespace NP

/-- The kernel, unseen_value_extractor.hpp:76-91 and 98-113, for loop layer `it.2` of cell `it.1`. The
state is the counter and the buffer. An empty tree has no root, and then nothing is in the tree. -/
def unseenStep (w : Nat) (t : BlockedTree Int) (par : Parent) (val : Nat → Nat → Int) (it : Nat × Nat)
    (s : Nat × List Int) : Option (Nat × List Int) :=
  (par.layerAt it.1 it.2).bind fun layer =>
  (t.hostGet w (val it.1 layer)).bind fun found =>
  match found with
  | some _ => some s
  | none => (st s.2 s.1 (val it.1 layer)).bind fun b => some (s.1 + 1, b)

/-- `std::set<INT>::insert`: an ordered list without repetitions. -/
def valueSetInsert (v : Int) : List Int → List Int
  | [] => [v]
  | x :: xs => if v < x then v :: x :: xs else if v = x then x :: xs else x :: valueSetInsert v xs

/-- The loop that adds values to the tree, unseen_value_extractor.hpp:140-142. `garbage` are the
contents of newly allocated nodes. -/
def unseenAdd (w : Nat) : List Int → List (TreeNode Int) → BlockedTree Int → Option (BlockedTree Int)
  | [], _, t => some t
  | _ :: _, [], _ => none
  | v :: vs, g :: gs, t => (t.add w g v v).bind fun t => unseenAdd w vs gs t

/-- What one call of `extract` depends on: loop parameters, the order of the kernel calls, the
contents of the buffer and of new nodes; the group or sub group and the property. -/
structure UnseenCall where
  P : LoopParams
  order : Sched
  fresh : Fresh Int
  over : Nat
  garbage : Nat → TreeNode Int
  npart : List Nat
  par : Parent
  val : Nat → Nat → Int

/-- `UnseenValueExtractor::extract`, unseen_value_extractor.hpp:51-145: the values returned and the tree
after the call. -/
def unseenExtract (w : Nat) (x : UnseenCall) (t : BlockedTree Int) :
    Option (List Int × BlockedTree Int) :=
  (parentVisits x.P x.npart x.par).bind fun visits =>
  (runItems (unseenStep w t x.par x.val) (x.order.order visits)
    (0, (x.fresh (x.par.total x.npart + x.over)).1)).bind fun s =>
  (slice s.2 0 s.1).bind fun h =>
  let out := h.foldl (fun o v => valueSetInsert v o) []
  (unseenAdd w out ((List.range out.length).map x.garbage) t).bind fun t => some (out, t)

/-- A sequence of calls on one extractor, created by unseen_value_extractor.cpp:5-11. -/
def unseenCalls (w : Nat) : List UnseenCall → BlockedTree Int → Option (List (List Int))
  | [], _ => some []
  | x :: xs, t => (unseenExtract w x t).bind fun r => (unseenCalls w xs r.2).bind fun outs =>
      some (r.1 :: outs)

end NP
