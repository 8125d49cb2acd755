import Mathlib.Data.Rat.Defs
import Mathlib.Data.List.Perm.Basic

/-!
# Model: profiling

Models `ProfileMap` and `ProfileRegion`, `include/neso_particles/profiling.hpp:44-295`.

Simplifications. Keys of entries, events and regions are numbers, except in the lines of the JSON file, where they are lists
of characters. Times are integers read from the clock, which is an argument of each call. REAL values are rational. Regions that
users started are kept in a list, and a call that ends one names its position.
-/

set_option autoImplicit false

namespace NP

/-- `ProfileRegion`, profiling.hpp:54-83, without the numbers of bytes and operations. -/
structure ProfRegion where
  tStart : Int
  tEnd : Int
  key1 : Nat
  key2 : Nat
  level : Int

/-- `ProfileMap`, profiling.hpp:89-107. An entry that is not in the map has the values zero, profiling.hpp:44-49. -/
structure Prof where
  t0 : Int
  ints : Nat → Nat → Int
  reals : Nat → Nat → ℚ
  events : List (Nat × Nat × Int)
  regions : List ProfRegion
  enabled : Bool

/-- The values of one key replaced. -/
def Prof.putEntry (p : Prof) (k1 k2 : Nat) (v : Int) (r : ℚ) : Prof :=
  { p with
    ints := fun a b => if a = k1 ∧ b = k2 then v else p.ints a b
    reals := fun a b => if a = k1 ∧ b = k2 then r else p.reals a b }

/-- `set`, profiling.hpp:134-141. -/
def Prof.set (p : Prof) (k1 k2 : Nat) (v : Int) (r : ℚ) : Prof :=
  if p.enabled then p.putEntry k1 k2 v r else p

/-- `inc`, profiling.hpp:152-159. -/
def Prof.inc (p : Prof) (k1 k2 : Nat) (v : Int) (r : ℚ) : Prof :=
  if p.enabled then p.putEntry k1 k2 (p.ints k1 k2 + v) (p.reals k1 k2 + r) else p

/-- `reset`, profiling.hpp:164-168. -/
def Prof.reset (p : Prof) (t : Int) : Prof :=
  { p with ints := fun _ _ => 0, reals := fun _ _ => 0, regions := [], t0 := t }

/-- The constructor, profiling.hpp:123 and 106. -/
def Prof.init (t : Int) : Prof := Prof.reset ⟨0, fun _ _ => 0, fun _ _ => 0, [], [], false⟩ t

/-- `event`, profiling.hpp:189-194. -/
def Prof.event (p : Prof) (k1 k2 : Nat) (t : Int) : Prof :=
  if p.enabled then { p with events := p.events ++ [(k1, k2, t)] } else p

/-- `start_region`, profiling.hpp:214-222; `time_end` is not set. -/
def Prof.startRegion (p : Prof) (k1 k2 : Nat) (level t : Int) : Option ProfRegion :=
  if p.enabled then some ⟨t, 0, k1, k2, level⟩ else none

/-- `end_region`, profiling.hpp:231-236; `none` if `value()` throws. -/
def Prof.endRegion (p : Prof) (r : Option ProfRegion) (t : Int) : Option (Prof × Option ProfRegion) :=
  if p.enabled then
    r.bind fun r =>
    let r := { r with tEnd := t }
    some ({ p with regions := p.regions ++ [r] }, some r)
  else some (p, r)

/-- The calls. -/
inductive ProfOp
  | enable
  | disable
  | set (k1 k2 : Nat) (v : Int) (r : ℚ)
  | inc (k1 k2 : Nat) (v : Int) (r : ℚ)
  | reset
  | event (k1 k2 : Nat)
  | start (k1 k2 : Nat) (level : Int)
  | stop (idx : Nat)

/-- The profile and the regions that users started. -/
structure ProfUse where
  prof : Prof
  opened : List (Option ProfRegion)

/-- One call at a time of the clock; `enable` and `disable` are profiling.hpp:112 and 117. Ending a region that was never
started is `none`. -/
def ProfUse.step (s : ProfUse) (t : Int) : ProfOp → Option ProfUse
  | .enable => some { s with prof := { s.prof with enabled := true } }
  | .disable => some { s with prof := { s.prof with enabled := false } }
  | .set k1 k2 v r => some { s with prof := s.prof.set k1 k2 v r }
  | .inc k1 k2 v r => some { s with prof := s.prof.inc k1 k2 v r }
  | .reset => some { s with prof := s.prof.reset t }
  | .event k1 k2 => some { s with prof := s.prof.event k1 k2 t }
  | .start k1 k2 level => some { s with opened := s.opened ++ [s.prof.startRegion k1 k2 level t] }
  | .stop idx => s.opened[idx]?.bind fun r => (s.prof.endRegion r t).bind fun (p, r) =>
      some ⟨p, s.opened.set idx r⟩

/-- A history of calls with their times. -/
def ProfUse.run (s : ProfUse) : List (Int × ProfOp) → Option ProfUse
  | [] => some s
  | (t, o) :: os => (s.step t o).bind fun s => s.run os

/-- The loop that writes the lines of a list, profiling.hpp:261-268 and 274-288; `i` is `ei` or `ri`. -/
def writeLines (n : Nat) : Nat → List (List Char) → List Char
  | _, [] => []
  | i, l :: ls => l ++ (if i + 1 < n then ",\n".toList else "\n".toList) ++ writeLines n (i + 1) ls

/-- The line of an event, profiling.hpp:265; `time` is what the stream makes of the elapsed time. -/
def eventLine (key1 key2 time : List Char) : List Char :=
  "[\"".toList ++ key1 ++ "\",\"".toList ++ key2 ++ "\",".toList ++ time ++ "]".toList

end NP
