import Verif.Dsmc.ModelPartition
import Verif.Sub.Spec

/-! Specification of the partition of particles into collision cells. -/

set_option autoImplicit false

namespace NP.Spec

/-- Parameters a device and its settings can have: positive sizes, and new tree nodes with
arbitrary contents. -/
structure CollEnvOk (e : CollEnv) (npart : List Nat) : Prop where
  loopLocal : 0 < e.P.localSize
  loopLocalInt : e.P.localSize < 2 ^ 31
  nbin : 0 < e.P.nbin
  counts : ∀ n ∈ npart, n < 2 ^ 31
  scanLocal : 0 < e.scanLocal
  width : 0 < e.width
  garbage : ∀ i, NodeSized e.width (e.garbage i)

/-- The partition objects of a program: made for `ncell` cells and the species `ids`, with `n`
the node width of the tree, and constructed any number of times, for any particles. -/
inductive PartitionReachable (n ncell : Nat) (ids : List Int) : CollPart → Prop
  | create {e : CollEnv} {p : CollPart} (hn : e.width = n) (hw : 0 < n)
      (hg : ∀ i, NodeSized n (e.garbage i))
      (h : collPartCreate e ncell ids = some p) : PartitionReachable n ncell ids p
  | construct {e : CollEnv} {p p' : CollPart} {npart : List Nat} {par : Parent}
      {ccCounts : List Nat} {sp cc : Nat → Nat → Int} (hn : e.width = n)
      (hp : PartitionReachable n ncell ids p)
      (h : p.construct e npart par ccCounts sp cc = some p') : PartitionReachable n ncell ids p'

/-- The entries a kernel finds for collision cell `q` of mesh cell `c` and linear species index
`lin` are `ls`. -/
def CellEntries (p : CollPart) (c q lin : Nat) (ls : List Nat) : Prop :=
  p.numParticles c q lin = some (ls.length : Int) ∧
  ∀ i, i < ls.length → p.particleLayer c q lin i = ls[i]?

/-- `ls` lists the particles of the sub group `par` in mesh cell `c` with species `s` and
collision cell `q`, each once. -/
def ListsLabelled (npart : List Nat) (par : Parent) (sp cc : Nat → Nat → Int) (c : Nat) (s q : Int)
    (ls : List Nat) : Prop :=
  ls.Nodup ∧ ∀ l, l ∈ ls ↔ InParent npart par c l ∧ sp c l = s ∧ cc c l = q

/-- The collision cell of every particle of a registered species is one of the collision cells
of its mesh cell. -/
def CollLabelsOk (npart : List Nat) (par : Parent) (ids : List Int) (ccCounts : List Nat)
    (sp cc : Nat → Nat → Int) : Prop :=
  ∀ c l, InParent npart par c l → sp c l ∈ ids →
    ∃ n, ccCounts[c]? = some n ∧ 0 ≤ cc c l ∧ cc c l < n

/-- Number of pairs that can be formed from `na` and `nb` particles: any number with
replacement if there are two particles to choose, without replacement as many as there are
disjoint pairs. -/
def pairsPossible (replacement same : Bool) (na nb : Nat) : Int :=
  match replacement, same with
  | true, true => if 2 ≤ na then maxInt else 0
  | true, false => if 1 ≤ na ∧ 1 ≤ nb then maxInt else 0
  | false, true => (na / 2 : Nat)
  | false, false => (min na nb : Nat)

end NP.Spec
