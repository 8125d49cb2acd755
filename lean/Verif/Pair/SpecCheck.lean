import Verif.Pair.ModelCheck
import Verif.Pair.SpecLoop

/-! # Specification of checks of lists of blocks -/

set_option autoImplicit false

namespace NP.Spec

/-- The pairs of one cell can be executed block by block and wave by wave: no pair has the same
particle twice, and two pairs in the same wave of the same block have no particle in common. -/
def RaceFree (bs : Nat) (l : List ((Int × Int) × Nat)) : Prop :=
  (∀ x ∈ l, x.1.1 ≠ x.1.2) ∧
  ∀ (k k' : Nat) (x y : Int × Int) (w : Nat), l[k]? = some (x, w) → l[k']? = some (y, w) →
    k / bs = k' / bs → k ≠ k' → x.1 ≠ y.1 ∧ x.1 ≠ y.2 ∧ x.2 ≠ y.1 ∧ x.2 ≠ y.2

/-- The number of waves of each block is that of its last wave plus one, so that the last wave is
not empty. -/
def WavesTight (v : BlockView) (ncell bs : Nat) (L : BlockList) : Prop :=
  ∀ c block, c < ncell → block * bs < (L c).length →
    ∃ (k : Nat) (p : Int × Int) (w : Nat), (L c)[k]? = some (p, w) ∧ k / bs = block ∧
      v.waveCounts[block * ncell + c]? = some (w + 1)

/-- The number of pairs of wave `w` of block `b`. -/
def waveSize (bs : Nat) (l : List ((Int × Int) × Nat)) (b w : Nat) : Nat :=
  l.zipIdx.countP fun x => x.1.2 == w && x.2 / bs == b

/-- The numbers of pairs of all waves of all blocks of all cells, where a block has as many waves
as the device structure says. -/
def waveSizes (v : BlockView) (ncell bs : Nat) (L : BlockList) : List Nat :=
  (List.range ncell).flatMap fun c =>
    (List.range (((L c).length + (bs - 1)) / bs)).flatMap fun b =>
      (List.range ((v.waveCounts[b * ncell + c]?).getD 0)).map (waveSize bs (L c) b)

end NP.Spec
