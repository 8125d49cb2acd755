import Verif.Group.ModelPtrMap
import Verif.Petsc.SpecHalo

/-!
# Specification: the pointer map of a particle group
-/

set_option autoImplicit false

namespace NP.Spec

/-- Components of the first `i` dats. -/
def compsBefore (dats : OMap MapDat) (i : Nat) : Nat := ((dats.take i).map (·.2.ncomp)).sum

/-- The tables describe the dats: number, names in both directions, sum of components, and for each dat its
pointer, its number of components, the components before it, and the entries for its components in the
flattened tables. -/
def TableDescribes (dats : OMap MapDat) (t : MapTable) : Prop :=
  t.ndat = dats.length ∧ t.symOf = dats.map (·.1) ∧ t.total = compsBefore dats dats.length ∧
  (∀ (s : Int) (i : Nat), omGet t.indexOf s = some i ↔ ∃ d, dats[i]? = some (s, d)) ∧
  ∀ (i : Nat) (s : Int) (d : MapDat), dats[i]? = some (s, d) →
    t.ptr[i]? = some d.id ∧ t.ncomp[i]? = some d.ncomp ∧ t.exscan[i]? = some (compsBefore dats i) ∧
    ∀ j < d.ncomp, t.flatDat[compsBefore dats i + j]? = some i ∧ t.flatComp[compsBefore dats i + j]? = some j

/-- The allocations of the dats of a group, REAL before INT. -/
def datIds (w : MapWorld) : List Nat := w.reals.map (·.2.id) ++ w.ints.map (·.2.id)

/-- The map describes the dats that the group has now. -/
def MapDescribes (w : MapWorld) : Prop :=
  TableDescribes w.reals w.map.tReal ∧ TableDescribes w.ints w.map.tInt ∧
  w.map.cellCount = w.ncell ∧
  w.map.bytes = 8 * (compsBefore w.reals w.reals.length + compsBefore w.ints w.ints.length) ∧
  w.map.bytesReal = 8 * compsBefore w.reals w.reals.length ∧
  w.map.bytesInt = 8 * compsBefore w.ints w.ints.length

/-- The pointers for writing are those of the dats that the group has now. -/
def WriteDescribes (w : MapWorld) : Prop :=
  (∀ (i : Nat) (s : Int) (d : MapDat), w.reals[i]? = some (s, d) → w.map.wptrReal[i]? = some d.id) ∧
  (∀ (i : Nat) (s : Int) (d : MapDat), w.ints[i]? = some (s, d) → w.map.wptrInt[i]? = some d.id)

/-- The properties of the group and their memory are the same. -/
def SameDats (w w' : MapWorld) : Prop :=
  w'.reals = w.reals ∧ w'.ints = w.ints ∧ w'.ncell = w.ncell ∧ w'.posSym = w.posSym ∧
  w'.fixedSyms = w.fixedSyms ∧ w'.next = w.next

end NP.Spec
