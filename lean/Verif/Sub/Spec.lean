import Verif.Sub.Model
import Verif.Sub.ModelPartition

/-!
# What the properties of sub groups say

The contents of a sub group are written as a list `L` with, for each cell, the list of the
layers of its particles, in the order of the sub group's loop layers.
-/

set_option autoImplicit false

namespace NP.Spec

/-- The selection describes exactly the particles `L`: the counts of the cells on host and
device, their exclusive sum, the total, and the particle at each loop layer. -/
structure Lists (s : Selection) (L : List (List Nat)) : Prop where
  hostCounts : s.hNpart = L.map List.length
  deviceCounts : s.dNpart = L.map List.length
  sumsLength : s.dEs.length = L.length
  sums : ∀ c, c < L.length → s.dEs[c]? = some ((L.take c).map List.length).sum
  total : s.npartLocal = (L.map List.length).sum
  layer : ∀ (c : Nat) (row : List Nat) (k : Nat), L[c]? = some row → k < row.length →
    s.layerAt c k = row[k]?

/-- The particles of a parent: all particles of the group, or those of a sub group. -/
def ParentLists (npart : List Nat) : Parent → List (List Nat) → Prop
  | .whole, L => L = npart.map List.range
  | .sub s, L => Lists s L

/-- `L` lists particles of the group with `npart` particles in its cells, none twice. -/
def SoundListing (npart : List Nat) (L : List (List Nat)) : Prop :=
  L.length = npart.length ∧ ∀ (c : Nat) (row : List Nat) (n : Nat), L[c]? = some row →
    npart[c]? = some n → row.Nodup ∧ ∀ l ∈ row, l < n

/-- In every cell the listing `L'` is related to the listing `L`. -/
def Cellwise (R : Nat → List Nat → List Nat → Prop) (L L' : List (List Nat)) : Prop :=
  L'.length = L.length ∧ ∀ (c : Nat) (row row' : List Nat), L[c]? = some row →
    L'[c]? = some row' → R c row row'

/-- The memory and loop parameters a selector runs with: buffers of the sizes given to them
when the selector was made (their contents are arbitrary), positive sizes, and cells with
fewer than `2 ^ 31` particles. -/
structure SelOk (e : SelEnv) (npart : List Nat) : Prop where
  starts : e.map.starts.length = npart.length
  h0 : e.h0.length = npart.length + npart.length * e.pad
  d0 : e.d0.length = npart.length + npart.length * e.pad
  es0 : e.es0.length = npart.length
  pad : 0 < e.pad
  localSize : 0 < e.localSize
  loopLocal : 0 < e.P.localSize
  loopLocalInt : e.P.localSize < 2 ^ 31
  nbin : 0 < e.P.nbin
  counts : ∀ n ∈ npart, n < 2 ^ 31

end NP.Spec

namespace NP.Spec

/-- The particle `(c, l)` is in the parent of a sub group. -/
def InParent (npart : List Nat) : Parent → Nat → Nat → Prop
  | .whole, c, l => ∃ n, npart[c]? = some n ∧ l < n
  | .sub s, c, l => ∃ n k, s.hNpart[c]? = some n ∧ k < n ∧ s.layerAt c k = some l

/-- No particle appears at two loop layers of the selection. -/
def NoRepeats (s : Selection) : Prop :=
  ∀ (c n k k' : Nat), s.hNpart[c]? = some n → k < n → k' < n → s.layerAt c k = s.layerAt c k' →
    k = k'

/-- The listing of the particles of `L` in the cells from `cs` up to but not including `ce`. -/
def inCells (cs ce : Nat) (L : List (List Nat)) : List (List Nat) :=
  L.mapIdx fun c row => if cs ≤ c ∧ c < ce then row else []

/-- The listings `Ls` joined cell by cell. -/
def joined (ncell : Nat) (Ls : List (List (List Nat))) : List (List Nat) :=
  (List.range ncell).map fun c => (Ls.map fun L => (L[c]?).getD []).flatten

/-- The buffers of the selector of one partition have the sizes given to them when it was
made. -/
structure PartSizes (ncell : Nat) (b : PartBuf) : Prop where
  starts : b.map.starts.length = ncell
  h0 : ncell ≤ b.h0.length
  d0 : ncell ≤ b.d0.length
  es0 : b.es0.length = ncell

end NP.Spec
