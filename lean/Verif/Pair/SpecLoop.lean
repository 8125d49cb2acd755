import Verif.Pair.ModelLoop

/-! # Specification of pair loops -/

set_option autoImplicit false

namespace NP.Spec

/-- The pairs of a pair list: for every cell the waves, for every wave the pairs. -/
abbrev WaveList := Nat → List (List (Int × Int))

/-- The number of pairs in the first `ncell` cells. -/
def numPairs (ncell : Nat) (L : WaveList) : Nat :=
  ((List.range ncell).flatMap fun c => (L c).flatten).length

/-- The device structure describes the pairs `L`. -/
structure ViewOk (v : PairView) (ncell : Nat) (L : WaveList) : Prop where
  cells : v.cellCount = ncell
  waves : ∀ c, c < ncell → v.waveCount[c]? = some (L c).length
  counts : ∀ (c w : Nat) (ps : List (Int × Int)), c < ncell → (L c)[w]? = some ps →
    v.pairCounts[w * ncell + c]? = some ps.length
  pairs : ∀ (c w : Nat) (ps : List (Int × Int)) (k : Nat) (a b : Int), c < ncell → (L c)[w]? = some ps → ps[k]? = some (a, b) →
    ∃ o, v.waveOffsets[w * ncell + c]? = some o ∧
      v.mem ⟨v.sym, c, 0, o + k⟩ = some a ∧ v.mem ⟨v.sym, c, 1, o + k⟩ = some b
  /-- The pairs are numbered, with distinct numbers below the number of pairs. -/
  numbers : ∃ number : Nat → Nat → Nat → Nat,
    (∀ (c w : Nat) (ps : List (Int × Int)) (k : Nat), c < ncell → (L c)[w]? = some ps →
      k < ps.length → ∃ e : Int, v.pairCountsEs[w * ncell + c]? = some e ∧ e + k = number c w k ∧
        number c w k < numPairs ncell L) ∧
    (∀ (c w : Nat) (ps : List (Int × Int)) (k c' w' : Nat) (ps' : List (Int × Int)) (k' : Nat),
      c < ncell → (L c)[w]? = some ps → k < ps.length →
      c' < ncell → (L c')[w']? = some ps' → k' < ps'.length →
      number c w k = number c' w' k' → c = c' ∧ w = w' ∧ k = k')
  maxWave : ∀ c, c < ncell → L c ≠ [] → ((L c).length : Int) ≤ v.maxWaveCount
  maxPair : ∀ (c w : Nat) (ps : List (Int × Int)), c < ncell → (L c)[w]? = some ps → ps ≠ [] → 0 < v.maxPairCount

/-- What a call does not share with other calls for the same pair list: the list, the cell, the
block, the wave, the position in the wave and the two particles. -/
def callPair (x : PairCall) : (Nat × Nat × Nat × Nat × Nat) × Int × Int :=
  ((x.list, x.cell, x.block, x.wave, x.pos), x.a, x.b)

/-- The calls that a loop over the pair lists `Ls` and the cells `start`, ..., `stop - 1` has to
make. -/
def loopPairs (Ls : List WaveList) (start stop : Nat) :
    List ((Nat × Nat × Nat × Nat × Nat) × Int × Int) :=
  (List.range' start (stop - start)).flatMap fun c => Ls.zipIdx.flatMap fun L =>
    ((L.1 c).zipIdx).flatMap fun ps => ps.1.zipIdx.map fun p => ((L.2, c, 0, ps.2, p.2), p.1)

/-- Calls for the same list and cell are in the order of the blocks and waves. -/
def InWaveOrder (t : List PairCall) : Prop :=
  t.Pairwise fun x y => x.list = y.list → x.cell = y.cell →
    x.block < y.block ∨ x.block = y.block ∧ x.wave ≤ y.wave

/-- The pairs of a list of blocks: for every cell the pairs with their waves. -/
abbrev BlockList := Nat → List ((Int × Int) × Nat)

/-- The number of pairs in the first `ncell` cells. -/
def numBlockPairs (ncell : Nat) (L : BlockList) : Nat :=
  ((List.range ncell).flatMap fun c => L c).length

/-- The device structure describes the pairs `L`, in blocks of size `bs`. -/
structure BlockOk (v : BlockView) (ncell bs : Nat) (L : BlockList) : Prop where
  cells : v.cellCount = ncell
  blockSize : v.blockSize = bs
  pairCount : v.pairCount = numBlockPairs ncell L
  counts : ∀ c, c < ncell → v.pairCounts[c]? = some (L c).length
  offsets : ∀ c, c < ncell → v.pairCountsEs[c]? = some (numBlockPairs c L)
  pairs : ∀ (c k : Nat) (i j : Int) (w : Nat), c < ncell → (L c)[k]? = some ((i, j), w) →
    v.pairList[numBlockPairs c L + k]? = some i ∧
    v.pairList[numBlockPairs ncell L + (numBlockPairs c L + k)]? = some j ∧
    v.pairList[numBlockPairs ncell L * 2 + (numBlockPairs c L + k)]? = some (w : Int)
  /-- The number of waves of a block is larger than the wave of each of its pairs, and the maximum
  number of waves is not smaller. -/
  waves : ∀ c block, c < ncell → block * bs < (L c).length →
    ∃ nw, v.waveCounts[block * ncell + c]? = some nw ∧ nw ≤ v.maxWaveCount ∧
      ∀ (k : Nat) (p : Int × Int) (w : Nat), (L c)[k]? = some (p, w) → k / bs = block → w < nw

/-- The calls that a loop over lists of blocks has to make. -/
def loopBlockPairs (bs : Nat) (Ls : List BlockList) (start stop : Nat) :
    List ((Nat × Nat × Nat × Nat × Nat) × Int × Int) :=
  (List.range' start (stop - start)).flatMap fun c => Ls.zipIdx.flatMap fun L =>
    (L.1 c).zipIdx.map fun p => ((L.2, c, p.2 / bs, p.1.2, p.2), p.1.1)

end NP.Spec
