import Verif.Common.Kernel

/-!
# Model: host pair list

Models `src/pair_loop/cellwise_pair_list_host.cpp`.
-/

set_option autoImplicit false

namespace NP

/-! ## `std::map` -/

/-- The value of a key of a `std::map`. A map is the list of its entries; nothing here depends on
the order of iteration. -/
def mapGet {κ β : Type} [DecidableEq κ] : List (κ × β) → κ → Option β
  | [], _ => none
  | e :: m, k => if e.1 = k then some e.2 else mapGet m k

/-- `m[k]` as the target of a modification `f`: a value `d` is inserted first if there is none. -/
def mapUpd {κ β : Type} [DecidableEq κ] (d : β) (f : β → β) : List (κ × β) → κ → List (κ × β)
  | [], k => [(k, f d)]
  | e :: m, k => if e.1 = k then (e.1, f e.2) :: m else e :: mapUpd d f m k

/-! ## CellwisePairListHost -/

/-- The `i` particles and the `j` particles of each wave of one cell. -/
abbrev WaveMap := List (Int × (List Int × List Int))

/-- `CellwisePairListHost`, cellwise_pair_list_host.hpp:28-37. -/
structure PairHost where
  cellCount : Int
  nextWave : List ((Int × Int) × Int)
  waves : List (Int × WaveMap)
deriving DecidableEq

/-- The constructor, cellwise_pair_list_host.cpp:5-6. -/
def PairHost.new (cellCount : Int) : PairHost := ⟨cellCount, [], []⟩

/-- `get_next_wave`, cellwise_pair_list_host.cpp:20-27. -/
def PairHost.getNextWave (p : PairHost) (cell layer : Int) : Option Int :=
  if 0 ≤ cell ∧ cell < p.cellCount then
    some (match mapGet p.nextWave (cell, layer) with
      | some w => w
      | none => 0)
  else none

/-- `set_next_wave`, cellwise_pair_list_host.cpp:29-35. `map_wave_to_pairs[cell]` in the assertion
inserts an empty map if there is none. -/
def PairHost.setNextWave (p : PairHost) (cell layer wave : Int) : Option PairHost :=
  if 0 ≤ cell ∧ cell < p.cellCount then
    let waves := mapUpd [] id p.waves cell
    (mapGet waves cell).bind fun m =>
    if 0 ≤ wave ∧ wave ≤ (m.length : Int) then
      some { p with waves := waves, nextWave := mapUpd 0 (fun _ => wave) p.nextWave (cell, layer) }
    else none
  else none

/-- `push_back`, cellwise_pair_list_host.cpp:8-18. -/
def PairHost.pushBack (p : PairHost) (cell i j : Int) : Option PairHost :=
  if 0 ≤ cell ∧ cell < p.cellCount then
    (p.getNextWave cell i).bind fun wi => (p.getNextWave cell j).bind fun wj =>
    let wave := max wi wj
    let oi := if i < j then i else j
    let oj := if i < j then j else i
    let p1 := { p with
      waves := mapUpd [] (fun m => mapUpd ([], []) (fun v => (v.1 ++ [oi], v.2 ++ [oj])) m wave)
        p.waves cell }
    (p1.setNextWave cell i (wave + 1)).bind fun p2 => p2.setNextWave cell j (wave + 1)
  else none

/-- `clear`, cellwise_pair_list_host.cpp:37-40. -/
def PairHost.clear (p : PairHost) : PairHost := { p with nextWave := [], waves := [] }

/-- A sequence of calls of `push_back`. -/
def PairHost.pushAll (p : PairHost) (l : List (Int × Int × Int)) : Option PairHost :=
  runItems (fun x (p : PairHost) => p.pushBack x.1 x.2.1 x.2.2) l p

/-- The pairs of one wave, as the vectors of `get()`, cellwise_pair_list_host.cpp:42-44, describe
them. -/
def PairHost.pairs (p : PairHost) (cell wave : Int) : List (Int × Int) :=
  match mapGet p.waves cell with
  | none => []
  | some m => match mapGet m wave with
    | none => []
    | some v => v.1.zip v.2

/-- The number of waves of a cell in `get()`. -/
def PairHost.numWaves (p : PairHost) (cell : Int) : Nat :=
  match mapGet p.waves cell with
  | none => 0
  | some m => m.length

end NP
