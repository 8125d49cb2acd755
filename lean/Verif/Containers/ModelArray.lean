import Verif.Loop.Model
import Mathlib.Algebra.BigOperators.Group.List.Basic

/-!
# Model: `GlobalArray` and `LocalArray` in particle loops

Models `include/neso_particles/containers/global_array.hpp`,
`include/neso_particles/containers/local_array.hpp` and the part of
`ParticleLoop::submit`/`wait` (`include/neso_particles/loop/particle_loop.hpp`) that
uses them.  The entries are elements of any commutative monoid (`REAL` is exact, `INT`
may be read as the integers or as the integers modulo `2^64`).

One value of `List (GaRank α)` is the array on every rank of the communicator.  Loops
are told apart by a number; every call is collective unless said otherwise.

Simplification: a kernel runs when it is submitted, not at some time between `submit`
and `wait`.  Where the code lets go of the stage buffer of a kernel that may still be
running (`gaPreAdd`), what the kernel still writes is lost; that the memory may have
been freed by then is not modelled.
-/

set_option autoImplicit false

namespace NP

variable {α : Type}

/-- `GlobalArray` on one rank, `global_array.hpp:173-175,277-281`, and `loop_running`
of each loop on that rank, `particle_loop_base.hpp`. -/
structure GaRank (α : Type) where
  /-- `size` -/
  size : Nat
  /-- `d_buffer` -/
  buf : List α
  /-- `d_stage_buffer`, `none` is `nullptr` -/
  stage : Option (List α)
  /-- `loop_running` of loop `l` -/
  running : Nat → Bool

/-- What one rank passes to `submit` and finds when it calls it. -/
structure GaLaunch (α : Type) where
  /-- device parameters of the launch -/
  P : LoopParams
  /-- number of particles per cell of the loop bounds -/
  npart : List Nat
  /-- `particle_group_ptr != nullptr` -/
  hasGroup : Bool
  /-- `get_npart_local()` -/
  npartLocal : Nat
  /-- `cell_start` -/
  cs : Option Int
  /-- `cell_end` -/
  ce : Option Int
  /-- the calls `add(component, value)` the kernel makes for the particle in the given
  cell and row -/
  adds : Nat → Nat → List (Int × α)
  /-- the order in which the atomic updates happen -/
  ord : Sched
  /-- a buffer from the resource stack, with any size and contents -/
  res : List α
  /-- contents of newly allocated memory -/
  fresh : Fresh α

/-- What one rank finds when it calls `wait`. -/
structure GaEnv (α : Type) where
  /-- a buffer from the resource stack, with any size and contents -/
  res : List α
  /-- contents of newly allocated memory -/
  fresh : Fresh α
  /-- the order in which the work items of the update kernel run -/
  ord : Sched

/-- `BufferDevice::realloc_no_copy(size)`, `device_buffers.hpp:72-91` (no
`max_size_factor`). -/
def bufRealloc (fresh : Fresh α) (size : Nat) (buf : List α) : List α :=
  if size = 0 then buf else if buf.length < size then (fresh size).1 else buf

/-- `get_resource`, `realloc_no_copy(size)` and `queue.fill(ptr, 0, size)`,
`global_array.hpp:198-207,217-230`. -/
def zeroedBuffer [Zero α] (res : List α) (fresh : Fresh α) (size : Nat) : Option (List α) :=
  stRange (bufRealloc fresh size res) 0 (List.replicate size 0)

/-- `impl_pre_loop_add`, `global_array.hpp:197-208`. -/
def gaPreAdd [Zero α] (res : List α) (fresh : Fresh α) (g : GaRank α) : Option (GaRank α) :=
  (zeroedBuffer res fresh g.size).bind fun b => some { g with stage := some b }

/-- `Access::GlobalArray::Add::add`, `global_array.hpp:53-55`: an atomic addition to
element `component`. -/
def arrayAdd [Add α] (call : Int × α) (m : List α) : Option (List α) :=
  (index call.1).bind fun i => (rd m i).bind fun v => st m i (v + call.2)

/-- `ParticleLoop::submit` on one rank for a loop with add access to the array,
`particle_loop.hpp:151-175,216-286`: the assertion, the pre loop hook, and the kernels.
`impl_get` is `global_array.hpp:181-186`. -/
def gaSubmitRank [Zero α] [Add α] (l : Nat) (L : GaLaunch α) (g : GaRank α) :
    Option (GaRank α) :=
  if g.running l ∧ L.cs = none then none else
  (gaPreAdd L.res L.fresh g).bind fun g =>
  (submitVisits L.P L.npart L.hasGroup L.npartLocal L.cs L.ce).bind fun vs =>
  g.stage.bind fun s =>
  (runItems arrayAdd (L.ord.order (vs.flatMap fun v => L.adds v.1 v.2)) s).bind fun s =>
    some { g with stage := some s, running := fun m => m == l || g.running m }

/-- `MPI_Allreduce` with `MPI_SUM` of the first `count` elements of the buffers `srcs`
(one per rank). -/
def allReduceSum [Zero α] [Add α] (count : Nat) (srcs : List (List α)) : Option (List α) :=
  (List.range count).mapM fun i => (srcs.mapM fun s => rd s i).bind fun vs => some vs.sum

/-- `impl_post_loop_add`, `global_array.hpp:213-266`, on one rank, where `total` is the
result of the reduction.  The paths with and without device aware MPI both end with
`total` in the first `size` elements of `d_acc`. -/
def gaPostAddRank [Zero α] [Add α] (env : GaEnv α) (total : List α) (g : GaRank α) :
    Option (GaRank α) :=
  (zeroedBuffer env.res env.fresh g.size).bind fun acc =>
  (stRange acc 0 total).bind fun acc =>
  (runItems (fun ix dst => (rd dst ix).bind fun d => (rd acc ix).bind fun a => st dst ix (d + a))
    (env.ord.order (List.range g.size)) g.buf).bind fun buf =>
    some { g with buf := buf, stage := none }

/-- `ParticleLoop::wait` on all ranks, `particle_loop.hpp:292-308`, with the post loop
hook `global_array.hpp:213-266`.  `none`: a rank is not running the loop, has no stage
buffer, or the ranks do not agree on the number of elements to reduce. -/
def gaWait [Zero α] [Add α] (l : Nat) (env : Nat → GaEnv α) (w : List (GaRank α)) :
    Option (List (GaRank α)) :=
  if ∃ g ∈ w, g.running l = false then none else
  if ∃ g ∈ w, ∃ g' ∈ w, g.size ≠ g'.size then none else
  (w.mapM GaRank.stage).bind fun srcs =>
  (List.range w.length).mapM fun r =>
    (rd w r).bind fun g =>
    (allReduceSum g.size srcs).bind fun total =>
    (gaPostAddRank (env r) total g).bind fun g =>
      some { g with running := fun m => m != l && g.running m }

/-- `submit` on all ranks. -/
def gaSubmit [Zero α] [Add α] (l : Nat) (on : Nat → GaLaunch α) (w : List (GaRank α)) :
    Option (List (GaRank α)) :=
  (List.range w.length).mapM fun r => (rd w r).bind (gaSubmitRank l (on r))

/-- `GlobalArray::fill`, `global_array.hpp:315-320`, on one rank. -/
def gaFillRank (v : α) (g : GaRank α) : Option (GaRank α) :=
  if 0 < g.size then
    (stRange g.buf 0 (List.replicate g.size v)).bind fun b => some { g with buf := b }
  else some g

/-- `fill` called by rank `r` only (`fill` is not collective). -/
def gaFill (r : Nat) (v : α) (w : List (GaRank α)) : Option (List (GaRank α)) :=
  (rd w r).bind fun g => (gaFillRank v g).bind fun g => st w r g

/-- The constructor, `global_array.hpp:298-308`, on one rank, before a loop was created;
`init` is the initial value (`T()` if none is given). -/
def gaNewRank (fresh : Fresh α) (size : Nat) (init : α) : Option (GaRank α) :=
  gaFillRank init ⟨size, (fresh size).1, none, fun _ => false⟩

/-- The array created on `n` ranks. -/
def gaNew (n : Nat) (fresh : Nat → Fresh α) (size : Nat) (init : α) :
    Option (List (GaRank α)) :=
  (List.range n).mapM fun r => gaNewRank (fresh r) size init

/-- `GlobalArray::get()` on rank `r`, `global_array.hpp:328-361`. -/
def gaGet (r : Nat) (w : List (GaRank α)) : Option (List α) :=
  (rd w r).bind fun g => slice g.buf 0 g.size

/-- The calls made on an array and on the loops with add access to it. -/
inductive GaCall (α : Type) where
  /-- `submit` of loop `l` on all ranks -/
  | submit (l : Nat) (on : Nat → GaLaunch α)
  /-- `wait` of loop `l` on all ranks -/
  | wait (l : Nat) (env : Nat → GaEnv α)
  /-- `fill(v)` on rank `r` -/
  | fill (r : Nat) (v : α)

/-- One call. -/
def gaCall [Zero α] [Add α] (c : GaCall α) (w : List (GaRank α)) : Option (List (GaRank α)) :=
  match c with
  | .submit l on => gaSubmit l on w
  | .wait l env => gaWait l env w
  | .fill r v => gaFill r v w

/-- A history of calls. -/
def gaRun [Zero α] [Add α] (cs : List (GaCall α)) (w : List (GaRank α)) :
    Option (List (GaRank α)) := runItems gaCall cs w

/-! ## `LocalArray` -/

/-- `LocalArray` on one rank, `local_array.hpp:235,252-254`: `buffer`, and `loop_running` of
each loop. -/
structure LaRank (α : Type) where
  /-- `size` -/
  size : Nat
  /-- `buffer` -/
  buf : List α
  /-- `loop_running` of loop `l` -/
  running : Nat → Bool

/-- `Access::LocalArray::Add::fetch_add`, `local_array.hpp:53-55`: adds, and returns the
value before.  The pairs of calls and returned values are collected in order. -/
def arrayFetchAdd [Add α] (call : Int × α) (s : List α × List ((Int × α) × α)) :
    Option (List α × List ((Int × α) × α)) :=
  (index call.1).bind fun i => (rd s.1 i).bind fun v =>
  (st s.1 i (v + call.2)).bind fun m => some (m, s.2 ++ [(call, v)])

/-- `ParticleLoop::submit` on one rank for a loop with add access to a `LocalArray`
(there are no hooks; `impl_get` returns the buffer, `local_array.hpp:241`), with what
the calls of `fetch_add` returned. -/
def laSubmit [Add α] (l : Nat) (L : GaLaunch α) (g : LaRank α) :
    Option (LaRank α × List ((Int × α) × α)) :=
  if g.running l ∧ L.cs = none then none else
  (submitVisits L.P L.npart L.hasGroup L.npartLocal L.cs L.ce).bind fun vs =>
  (runItems arrayFetchAdd (L.ord.order (vs.flatMap fun v => L.adds v.1 v.2))
    (g.buf, [])).bind fun s =>
    some ({ g with buf := s.1, running := fun m => m == l || g.running m }, s.2)

/-- `ParticleLoop::wait` on one rank. -/
def laWait (l : Nat) (g : LaRank α) : Option (LaRank α) :=
  if g.running l = false then none
  else some { g with running := fun m => m != l && g.running m }

/-- `LocalArray::fill`, `local_array.hpp:287-292`. -/
def laFill (v : α) (g : LaRank α) : Option (LaRank α) :=
  if g.size ≠ 0 then
    (stRange g.buf 0 (List.replicate g.size v)).bind fun b => some { g with buf := b }
  else some g

/-- `LocalArray::set`, `local_array.hpp:311-331`. `none`: the size differs. -/
def laSet (data : List α) (g : LaRank α) : Option (LaRank α) :=
  if data.length ≠ g.size then none
  else (stRange g.buf 0 data).bind fun b => some { g with buf := b }

/-- `LocalArray::realloc_no_copy`, `local_array.hpp:378-381`. -/
def laRealloc (fresh : Fresh α) (size : Nat) (g : LaRank α) : LaRank α :=
  { g with size := size, buf := bufRealloc fresh size g.buf }

/-- The constructor, `local_array.hpp:271-280`. -/
def laNew (fresh : Fresh α) (size : Nat) (init : α) : Option (LaRank α) :=
  laFill init ⟨size, (fresh size).1, fun _ => false⟩

/-- `LocalArray::get()`, `local_array.hpp:339-370`. -/
def laGet (g : LaRank α) : Option (List α) := slice g.buf 0 g.size

/-- The calls made on one rank. -/
inductive LaCall (α : Type) where
  /-- `submit` of loop `l` -/
  | submit (l : Nat) (L : GaLaunch α)
  /-- `wait` of loop `l` -/
  | wait (l : Nat)
  /-- `fill(v)` -/
  | fill (v : α)
  /-- `set(data)` -/
  | set (data : List α)
  /-- `realloc_no_copy(size)` -/
  | realloc (size : Nat) (fresh : Fresh α)

/-- One call. -/
def laCall [Add α] (c : LaCall α) (g : LaRank α) : Option (LaRank α) :=
  match c with
  | .submit l L => (laSubmit l L g).bind fun r => some r.1
  | .wait l => laWait l g
  | .fill v => laFill v g
  | .set d => laSet d g
  | .realloc n f => some (laRealloc f n g)

/-- A history of calls on one rank. -/
def laRun [Add α] (cs : List (LaCall α)) (g : LaRank α) : Option (LaRank α) :=
  runItems laCall cs g

end NP
