import Verif.Boundary.Model
import Mathlib.Data.Rat.Defs

/-!
# Model: `parallel_advection_initialisation`

Models `src/parallel_initialisation.cpp`. `REAL` is the exact rational numbers; a division by zero is
`none`. The loops over the components of the position are written with lists. The state of all ranks
is a list with, per rank, per cell and per layer, the properties of a particle.
-/

set_option autoImplicit false

namespace NP

/-- The properties of a particle: the position, `NESO_ORIG_POS` (empty when the property does not
exist) and all other properties. -/
structure AdvRow where
  pos : List ℚ
  orig : List ℚ
  others : Nat
deriving DecidableEq

/-- All ranks, cells and layers. -/
abbrev AdvWorld := List (List (List AdvRow))

/-- `parallel_advection_store`, parallel_initialisation.cpp:26-49. -/
def advStore (P : LoopParams) (order : Sched) (point : List ℚ) (rows : List (List AdvRow)) :
    Option (List (List AdvRow)) :=
  rowLoop P order (rows.map List.length) .whole
    (fun _ _ r => (slice point 0 r.pos.length).bind fun q => some { r with pos := q, orig := r.pos }) rows

/-- `parallel_advection_step`, parallel_initialisation.cpp:100-119. -/
def advStep (P : LoopParams) (order : Sched) (numSteps step : Nat) (rows : List (List AdvRow)) :
    Option (List (List AdvRow)) :=
  let left : ℚ := (numSteps : ℚ) - (step : ℚ)
  if left = 0 then none
  else
    let inverse := 1 / left
    rowLoop P order (rows.map List.length) .whole
      (fun _ _ r => some { r with
        pos := List.zipWith (fun p o => let offset := o - p; p + inverse * offset) r.pos r.orig }) rows

/-- The assertion of the kernel for one component, parallel_initialisation.cpp:70-80. -/
def advValid (original current : ℚ) : Bool :=
  let errorAbs := |original - current|
  let positionAbs := |original|
  let errorRel := if positionAbs = 0 then 0 else errorAbs / positionAbs
  decide (errorAbs < 1 / 1000000) || decide (errorRel < 1 / 1000000)

/-- `parallel_advection_restore`, parallel_initialisation.cpp:58-90. A kernel call with a failed
assertion sets a flag that is tested after the loop. -/
def advRestore (P : LoopParams) (order : Sched) (rows : List (List AdvRow)) :
    Option (List (List AdvRow)) :=
  if rows.flatten.all fun r => (List.zipWith advValid r.orig r.pos).all id then
    rowLoop P order (rows.map List.length) .whole
      (fun _ _ r => some { r with pos := r.orig, orig := [] }) rows
  else none

/-- A function of each rank's particles on all ranks; `f r` is run by rank `r`. -/
def onRanks (f : Nat → List (List AdvRow) → Option (List (List AdvRow))) (w : AdvWorld) : Option AdvWorld :=
  w.zipIdx.mapM fun x => f x.2 x.1

/-- What the call depends on: loop parameters and orders of kernel calls per rank and step, the point
in the subdomain of each rank, and `hybrid_move` after each step. -/
structure AdvEnv where
  P : Nat → LoopParams
  order : Nat → Nat → Sched
  point : Nat → List ℚ
  move : Nat → AdvWorld → Option AdvWorld

/-- The loop of parallel_initialisation.cpp:146-149, the first `k` of `numSteps` iterations. -/
def advSteps (e : AdvEnv) (numSteps k : Nat) (w : AdvWorld) : Option AdvWorld :=
  forLoop 0 k (fun stepx w =>
    (onRanks (fun r => advStep (e.P r) (e.order r stepx) numSteps stepx) w).bind (e.move stepx)) w

/-- `parallel_advection_initialisation`, parallel_initialisation.cpp:142-152. -/
def advInit (e : AdvEnv) (numSteps : Nat) (w : AdvWorld) : Option AdvWorld :=
  (onRanks (fun r => advStore (e.P r) (e.order r 0) (e.point r)) w).bind fun w =>
  (advSteps e numSteps numSteps w).bind fun w =>
  (onRanks (fun r => advRestore (e.P r) (e.order r numSteps)) w).bind (e.move numSteps)

end NP
