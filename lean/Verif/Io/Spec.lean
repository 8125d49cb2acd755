import Verif.Io.Model
import Verif.Group.SpecGet
import Verif.Basics.Spec
import Mathlib.Data.List.Forall2

/-! # Specifications for H5Part -/

set_option autoImplicit false

namespace NP.Spec

/-- The particles of a listing by cells, in order: first those of cell 0. -/
def inOrder (L : List (List Nat)) : List (Nat × Nat) :=
  (L.mapIdx fun c row => row.map fun k => (c, k)).flatten

/-- A rank that may call `write`: the group is consistent, the iteration set is the group or a
sub group made by any nesting of selectors, the loop parameters are sane. -/
structure IoOk (r : IoRank) : Prop where
  group : Consistent r.g
  built : Built r.g.hNpart r.par
  small : SmallCounts r.g
  localSize_pos : 0 < r.P.localSize
  localSize_int : r.P.localSize < 2 ^ 31
  nbin_pos : 0 < r.P.nbin

/-- `L` lists the particles that the rank writes, by cell. -/
def Writes (r : IoRank) (L : List (List Nat)) : Prop := ParentLists r.g.hNpart r.par L

/-- The particles that the ranks write, in the order of ranks, cells and listings. -/
def writtenOrder (ranks : List IoRank) (Ls : List (List (List Nat))) :
    List (IoRank × Nat × Nat) :=
  (ranks.zip Ls).flatMap fun x => (inOrder x.2).map fun p => (x.1, p.1, p.2)

/-- Component `j` of property `s` of all particles that are written. -/
def column (ranks : List IoRank) (Ls : List (List (List Nat))) (s j : Nat) : List (Option Int) :=
  (writtenOrder ranks Ls).map fun x => x.1.g.mem ⟨s, x.2.1, j, x.2.2⟩

/-- The datasets of one property. -/
def entries (ranks : List IoRank) (Ls : List (List (List Nat))) (isReal : Bool)
    (name : Nat → List Char) (s ncomp : Nat) : StepData :=
  (List.range ncomp).map fun j => (name j, ⟨isReal, column ranks Ls s j⟩)

/-- The names of the datasets of the positions. -/
def xyz (j : Nat) : List Char := if j = 0 then ['x'] else if j = 1 then ['y'] else ['z']

/-- The datasets of a step: the positions as `x`, `y`, `z`, then the properties. -/
def stepEntries (h : H5Part) (ranks : List IoRank) (Ls : List (List (List Nat)))
    (pos : Nat) (ncomp : Nat → Nat) : StepData :=
  entries ranks Ls true xyz pos (ncomp pos) ++
  h.reals.flatMap (fun s => entries ranks Ls true (compName (h.names s)) s (ncomp s)) ++
  h.ints.flatMap (fun s => entries ranks Ls false (compName (h.names s)) s (ncomp s))

/-- All ranks have the same position property and the same numbers of components, given by
`ncomp`. -/
def SameProps (ranks : List IoRank) (pos : Nat) (ncomp : Nat → Nat) : Prop :=
  ∀ r ∈ ranks, r.g.posSym = pos ∧ ∀ d ∈ r.g.dats, d.ncomp = ncomp d.sym

/-- The property that `read` puts into property `p`. -/
def sourceSym (pos : Nat) (useXyz : Bool) (p : ReadProp) : Nat :=
  if p.isReal = true ∧ p.positions = true ∧ useXyz = true then pos else p.sym

/-- A step of a file as `write` makes it, from at least one particle. -/
structure WrittenStep (h : H5Part) (ranks : List IoRank) (Ls : List (List (List Nat)))
    (pos : Nat) (ncomp : Nat → Nat) (step : Int) (file : List (Int × StepData)) : Prop where
  ok : ∀ r ∈ ranks, IoOk r
  lists : List.Forall₂ Writes ranks Ls
  same : SameProps ranks pos ncomp
  dims : 1 ≤ ncomp pos ∧ ncomp pos ≤ 3
  syms : ∀ r ∈ ranks, ∀ s ∈ pos :: h.reals ++ h.ints, (r.g.dat? s).isSome = true
  names : ((h.reals ++ h.ints).map h.names).Nodup
  nonempty : writtenOrder ranks Ls ≠ []
  found : (file.find? (fun x => x.1 == step)).map (·.2) = some (stepEntries h ranks Ls pos ncomp)

end NP.Spec

namespace NP

/-- A sequence of calls of `write`. -/
def H5Part.writes (h : H5Part) : List (Sched × List IoRank × Int) → Option H5Part
  | [] => some h
  | x :: xs => (h.write x.1 x.2.1 x.2.2).bind fun h => h.writes xs

end NP
