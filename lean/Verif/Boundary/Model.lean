import Verif.Sub.Model
import Mathlib.Analysis.Real.Sqrt

/-!
# Model: truncation and reflection of trajectories at a boundary

Models `include/neso_particles/boundary/boundary_{truncation,reflection}.hpp`,
`src/boundary/boundary_{truncation,reflection}.cpp` and the test of
`src/boundary/boundary_interaction_specification.cpp`.

`REAL` is the exact real numbers. A division by zero, which gives NaN or an infinity, is `none`. The
loops over the first `ndim` components that only load, compute or store component `dx` in iteration
`dx` are written with lists of `ndim` numbers: `slice` loads, `zipWith` computes, `stRange` stores.
-/

set_option autoImplicit false

namespace NP

noncomputable section

/-- The properties of one particle that the kernels use. -/
structure TrajRow where
  pos : List ℝ
  vel : List ℝ
  tsp : List ℝ
  prev : List ℝ

/-- A kernel called for loop layer `it.2` of cell `it.1` that reads and writes the properties of its
particle (pli_particle_dat.hpp:37-45, `at`) and is given its cell and loop layer to read
`EphemeralDat`s (`at_ephemeral`, pli_particle_dat.hpp:43-45). -/
def rowStep {ρ : Type _} (par : Parent) (kernel : Nat → Nat → ρ → Option ρ) (it : Nat × Nat)
    (rows : List (List ρ)) : Option (List (List ρ)) :=
  (par.layerAt it.1 it.2).bind fun l =>
  (rd rows it.1).bind fun cell =>
  (rd cell l).bind fun r =>
  (kernel it.1 it.2 r).bind fun r' =>
  (st cell l r').bind fun cell' =>
  st rows it.1 cell'

/-- `particle_loop(...)->execute()` with such a kernel over a group or sub group. -/
def rowLoop {ρ : Type _} (P : LoopParams) (order : Sched) (npart : List Nat) (par : Parent)
    (kernel : Nat → Nat → ρ → Option ρ) (rows : List (List ρ)) : Option (List (List ρ)) :=
  (parentVisits P npart par).bind fun visits => runItems (rowStep par kernel) (order.order visits) rows

/-- `Kernel::dot_product`, device_functions.hpp:79-85. -/
def dotProduct (a b : List ℝ) : ℝ := (List.zipWith (· * ·) a b).foldl (· + ·) 0

/-- Division of REALs. -/
def divReal (a b : ℝ) : Option ℝ := if b = 0 then none else some (a / b)

/-- `truncate_trajectory<ndim>`, boundary_truncation.hpp:25-95: the new `P` and `TSP`. -/
def truncKernel (ndim : Nat) (reset : ℝ) (P TSP PP IP : List ℝ) : Option (List ℝ × List ℝ) :=
  (slice P 0 ndim).bind fun p =>
  (slice PP 0 ndim).bind fun pp =>
  (slice IP 0 ndim).bind fun ip =>
  let oo := List.zipWith (· - ·) pp ip
  let oNorm := Real.sqrt (dotProduct oo oo)
  let smallMove : Bool := oNorm < reset * 0.1
  (if smallMove then some reset else divReal reset oNorm).bind fun oInorm =>
  let o := oo.map fun x => x * oInorm
  let np := if smallMove then pp else List.zipWith (· + ·) ip o
  let movedPast : Bool := (List.zipWith (fun d x => decide (d * x < 0)) (List.zipWith (· - ·) pp np) o).any id
  (stRange P 0 (if movedPast then pp else np)).bind fun P' =>
  let f := List.zipWith (· - ·) p pp
  let full := Real.sqrt (dotProduct f f)
  (if full > 1e-16 then divReal oNorm full else some 1).bind fun t0 =>
  let t1 := if t0 < 0 then 0 else t0
  let t2 := if t1 > 1 then 1 else t1
  (rd TSP 0).bind fun time =>
  (rd TSP 1).bind fun lastDt =>
  let correct := lastDt * t2
  (st TSP 0 (time - lastDt + correct)).bind fun T =>
  (st T 1 correct).bind fun T => some (P', T)

/-- `reflect_trajectory<ndim>`, boundary_reflection.hpp:20-39: the new `V`. -/
def reflectKernel (ndim : Nat) (V N : List ℝ) : Option (List ℝ) :=
  (slice N 0 ndim).bind fun n =>
  (slice V 0 ndim).bind fun v =>
  let d := dotProduct n v
  stRange V 0 (List.zipWith (fun vx nx => vx - 2 * d * nx) v n)

/-- The kernel of boundary_truncation.cpp:24-31 and its copies for two and three dimensions;
`ip c k` is the `EphemeralDat` with the intersection point. -/
def truncRow (ndim : Nat) (reset : ℝ) (ip : Nat → Nat → List ℝ) (c k : Nat) (r : TrajRow) :
    Option TrajRow :=
  (truncKernel ndim reset r.pos r.tsp r.prev (ip c k)).bind fun x =>
  some { r with pos := x.1, tsp := x.2 }

/-- The kernel of boundary_reflection.cpp:28-36 and its copies; `normal c k` is the `EphemeralDat`
with the normal. -/
def reflectRow (ndim : Nat) (reset : ℝ) (ip normal : Nat → Nat → List ℝ) (c k : Nat) (r : TrajRow) :
    Option TrajRow :=
  (truncKernel ndim reset r.pos r.tsp r.prev (ip c k)).bind fun x =>
  (reflectKernel ndim r.vel (normal c k)).bind fun v =>
  some { r with pos := x.1, tsp := x.2, vel := v }

/-- The component counts of the three `EphemeralDat`s of the sub group, `none` if there is none. -/
structure EphemeralComps where
  point : Option Nat
  normal : Option Nat
  metadata : Option Nat

/-- `contains_boundary_interaction_data(sub_group, ndim)`,
boundary_interaction_specification.cpp:6-32. -/
def containsBoundaryData (e : EphemeralComps) (ndim : Nat) : Bool :=
  e.point == some ndim && e.normal == some ndim && e.metadata == some 2

/-- `BoundaryTruncation(ndim, reset).execute(...)`, boundary_truncation.cpp:5-66. The chain of
conditions selects the kernel for `ndim`. -/
def truncExecute (P : LoopParams) (order : Sched) (npart : List Nat) (par : Parent) (e : EphemeralComps)
    (ndim : Nat) (reset : ℝ) (ip : Nat → Nat → List ℝ) (rows : List (List TrajRow)) :
    Option (List (List TrajRow)) :=
  if 0 < ndim ∧ ndim < 4 then
    if containsBoundaryData e ndim then
      if ndim = 1 then rowLoop P order npart par (truncRow 1 reset ip) rows
      else if ndim = 2 then rowLoop P order npart par (truncRow 2 reset ip) rows
      else rowLoop P order npart par (truncRow 3 reset ip) rows
    else none
  else none

/-- `BoundaryReflection(ndim, reset).execute(...)`, boundary_reflection.cpp:8-75. -/
def reflectExecute (P : LoopParams) (order : Sched) (npart : List Nat) (par : Parent)
    (e : EphemeralComps) (ndim : Nat) (reset : ℝ) (ip normal : Nat → Nat → List ℝ)
    (rows : List (List TrajRow)) : Option (List (List TrajRow)) :=
  if 0 < ndim ∧ ndim < 4 then
    if containsBoundaryData e ndim then
      if ndim = 1 then rowLoop P order npart par (reflectRow 1 reset ip normal) rows
      else if ndim = 2 then rowLoop P order npart par (reflectRow 2 reset ip normal) rows
      else rowLoop P order npart par (reflectRow 3 reset ip normal) rows
    else none
  else none

end

end NP
