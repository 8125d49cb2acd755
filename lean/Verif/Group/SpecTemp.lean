import Verif.Group.ModelTemp
import Verif.Containers.Spec

/-! # Specification of temporary particle groups -/

set_option autoImplicit false

namespace NP.Spec

/-- What a program does with a source group and its temporary groups. -/
inductive TempCall
  /-- Add a property to the source. -/
  | srcAdd (k : PropKind) (sym ncomp : Nat)
  | srcRemove (k : PropKind) (sym : Nat)
  /-- Change the particles of the source. -/
  | srcFill (npart : List Nat)
  | get
  | restore (r : Nat)
  /-- Change the properties or the particles of a temporary group. -/
  | tmpAdd (r : Nat) (k : PropKind) (sym ncomp : Nat)
  | tmpRemove (r : Nat) (k : PropKind) (sym : Nat)
  | tmpFill (r : Nat) (npart : List Nat)
  /-- Copy and drop pointers to temporary groups. -/
  | copy (r : Nat)
  | drop (r : Nat)

/-- One call and, for `get`, its result. Properties are added with a name and a number of
components, `add_particle_dat(sym, ncomp)`. -/
def tempCall (w : TempWorld) : TempCall → Option (StackEvent × TempWorld)
  | .srcAdd k sym ncomp => (w.source.add k ⟨sym, ncomp, false⟩).map fun g =>
      (.other, { w with source := g })
  | .srcRemove k sym => (w.source.remove k sym).map fun g => (.other, { w with source := g })
  | .srcFill npart => (w.source.fill npart).map fun g => (.other, { w with source := g })
  | .get => w.get.map fun x => (.got x.1, x.2)
  | .restore r => (w.restore r).map fun w => (.restored r, w)
  | .tmpAdd r k sym ncomp => (w.modify r fun t => t.add k ⟨sym, ncomp, false⟩).map fun w => (.other, w)
  | .tmpRemove r k sym => (w.modify r fun t => t.remove k sym).map fun w => (.other, w)
  | .tmpFill r npart => (w.modify r fun t => t.fill npart).map fun w => (.other, w)
  | .copy r => w.stack.bind fun s => (s.copyRef r).map fun s => (.other, { w with stack := some s })
  | .drop r => w.stack.bind fun s => (s.dropRef r).map fun s => (.other, { w with stack := some s })

/-- A history of calls. -/
def tempCalls (w : TempWorld) : List TempCall → Option (List StackEvent × TempWorld)
  | [] => some ([], w)
  | c :: cs => (tempCall w c).bind fun x => (tempCalls x.2 cs).bind fun y => some (x.1 :: y.1, y.2)

/-- A group that was just made from a specification. -/
def TempWorld.start (g : TGroup) : TempWorld := ⟨g, none, fun _ => none⟩

/-- The number of components of a property of a group, if it has this property. -/
def compsOf (g : TGroup) (k : PropKind) (sym : Nat) : Option Nat :=
  (g.find k sym).map fun d => d.prop.ncomp

/-- A specification with exactly one property for positions and one for cells, where the latter is
not the property for ranks. -/
def SpecialOnce (spec : PropKind → List TProp) (special : PropKind → Nat) : Prop :=
  special .int ≠ tempRankSym ∧
  ∀ k, (∃ p ∈ spec k, p.sym = special k) ∧ ∀ p ∈ spec k, p.positions = true ↔ p.sym = special k

/-- A group without particles, in all its dats. -/
def NoParticles (ncell : Nat) (g : TGroup) : Prop :=
  g.npart = List.replicate ncell 0 ∧ ∀ k, ∀ d ∈ g.dats k, d.npart = List.replicate ncell 0

end NP.Spec
