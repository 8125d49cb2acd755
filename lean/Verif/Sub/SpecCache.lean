import Verif.Sub.ModelCache

/-! # Which particle data a name means, and histories of a particle group -/

set_option autoImplicit false

namespace NP.Spec

/-- The particle dat that a name means in a loop over the particle group. -/
def groupName (w : DatWorld) (s : Nat) : Option Nat := (w.base s).map DatRef.id

/-- The particle dat that a name means in a loop over sub group `i`: the ephemeral dat of that
name if there is one, otherwise the particle dat of the group. -/
def subName (w : DatWorld) (i s : Nat) : Option Nat :=
  match (w.subs i).eph s with
  | some d => some d.id
  | none => groupName w s

/-- The states of programs. -/
inductive DatReach : DatWorld → Prop
  | new (whole : Nat → Bool) (counts : Nat → List Nat) : DatReach (.new whole counts)
  | step {w w' : DatWorld} (op : DatOp) (h : DatReach w) (hs : stepDat op w = some w') :
      DatReach w'

/-- The names that were ever those of a property of the group, after one more operation. -/
def everDat (ever : Nat → Bool) : DatOp → Nat → Bool
  | .addDat s _ => fun t => if t = s then true else ever t
  | _ => ever

/-- The ephemeral dats removed by name since the sub group was last made, after an operation that
leads from `w` to `w'`. -/
def removedEph (gone : Nat → Nat → Bool) (w w' : DatWorld) (op : DatOp) : Nat → Nat → Bool :=
  fun i t =>
    if (w'.subs i).version = (w.subs i).version then
      match op with
      | .removeEph j s => if j = i ∧ s = t then true else gone i t
      | _ => gone i t
    else false

/-- A name is not used for a second particle dat: a property is not added again after it was
removed, an ephemeral dat is not added again after it was removed unless the sub group was made
anew, and an ephemeral dat does not get the name of a property. -/
def NameAllowed (ever : Nat → Bool) (gone : Nat → Nat → Bool) (w : DatWorld) : DatOp → Prop
  | .addDat s _ => w.base s = none → ever s = false ∧ ∀ i, gone i s = false
  | .addEph i s n => ever s = false ∧ (gone i s = true →
      ∀ w', stepDat (.addEph i s n) w = some w' → (w'.subs i).version ≠ (w.subs i).version)
  | .removeEph _ s => w.base s = none
  | _ => True

/-- The states of programs that use every name for one particle dat only. -/
inductive NameRun : (Nat → Bool) → (Nat → Nat → Bool) → DatWorld → Prop
  | new (whole : Nat → Bool) (counts : Nat → List Nat) :
      NameRun (fun _ => false) (fun _ _ => false) (.new whole counts)
  | step {ever : Nat → Bool} {gone : Nat → Nat → Bool} {w w' : DatWorld} (op : DatOp)
      (h : NameRun ever gone w) (ha : NameAllowed ever gone w op) (hs : stepDat op w = some w') :
      NameRun (everDat ever op) (removedEph gone w w' op) w'

/-- The states of such programs. -/
def NameHistory (w : DatWorld) : Prop := ∃ ever gone, NameRun ever gone w

end NP.Spec
