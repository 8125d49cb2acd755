import Verif.Containers.Model
import Verif.Common.KernelLemmas

/-!
# Model of the block random number generators

`host_rng_common.hpp`, `host_atomic_block_kernel_rng.hpp` and
`host_per_particle_block_rng.hpp` (in `include/neso_particles/containers/rng/`).

The user's generation function is a sequence `gen`: its `i`-th call returns `gen i`.
There is one compute target, so the maps keyed by compute target are `Option`s.  `int`
and `size_t` are unbounded except where a conversion between them is written out.
-/

set_option autoImplicit false

namespace NP

/-! ## Drawing samples -/

/-- A host to device copy that has been submitted and not waited for: which call it is,
the first device element, the host block it reads, and the contents of that block when it
was submitted. -/
structure InFlight (T : Type) where
  call : Nat
  dst : Nat
  fromSecond : Bool
  snapshot : List T

/-- Local state of `draw_random_samples`: device buffer, the two host blocks, which of them
is `ptr_current`, the outstanding event `e`, and the number of copies submitted. -/
structure DrawState (T : Type) where
  dev : List T
  block0 : List T
  block1 : List T
  currentIsSecond : Bool
  event : Option (InFlight T)
  calls : Nat

/-- `e.wait_and_throw()`, `host_rng_common.hpp:122` and `134`: the outstanding copy is
complete afterwards.  `late k i` says whether the `i`-th element of copy `k` is read from
the host block at the time of the wait or at the time of the submission, which the code
does not control. -/
def DrawState.wait {T : Type} (late : Nat → Nat → Bool) (s : DrawState T) :
    Option (DrawState T) :=
  match s.event with
  | none => some s
  | some c =>
    let src := if c.fromSecond then s.block1 else s.block0
    (collectM (fun i => (if late c.call i then rd src i else rd c.snapshot i).bind fun v =>
      some [v]) (List.range c.snapshot.length)).bind fun vs =>
    (stRange s.dev c.dst vs).bind fun dev =>
    some { s with
      dev := dev
      event := none }

/-- The `while` loop of `HostRNGGenerationFunction::draw_random_samples`,
`host_rng_common.hpp:107-132`.  `moved` is `num_numbers_moved`, `dst` is `d_ptr` as an
offset into the buffer, `g` the number of calls made to the generation function so far.
`fuel` bounds the number of iterations; running out of it (which the proofs rule out for a
positive block size) is reported as `none`. -/
def drawLoop {T : Type} (gen : Nat → T) (late : Nat → Nat → Bool) (block n : Nat) :
    Nat → Nat → Nat → Nat → DrawState T → Option (Nat × DrawState T)
  | 0, moved, _, g, s => if moved < n then none else some (g, s)
  | fuel + 1, moved, dst, g, s =>
    if moved < n then
      let m := min block (n - moved)
      let samples := (List.range m).map fun i => gen (g + i)
      (stRange (if s.currentIsSecond then s.block1 else s.block0) 0 samples).bind fun cur =>
      let s1 := if s.currentIsSecond then { s with block1 := cur } else { s with block0 := cur }
      (s1.wait late).bind fun s2 =>
      drawLoop gen late block n fuel (moved + m) (dst + m) (g + m)
        { s2 with
          event := some ⟨s2.calls, dst, s2.currentIsSecond, cur.take m⟩
          calls := s2.calls + 1
          currentIsSecond := !s2.currentIsSecond }
    else some (g, s)

/-- `HostRNGGenerationFunction::draw_random_samples`, `host_rng_common.hpp:90-139`: `n`
samples into a device buffer, starting at element `dst`.  `blk` gives the initial contents
of the host blocks.  Returns the number of calls made to the generation function and the
device buffer. -/
def drawRandomSamples {T : Type} (gen : Nat → T) (late : Nat → Nat → Bool) (blk : Fresh T)
    (block n dst g : Nat) (dev : List T) : Option (Nat × List T) :=
  (drawLoop gen late block n n 0 dst g
    ⟨dev, (blk block).1, (blk block).1, false, none, 0⟩).bind fun (g, s) =>
  (s.wait late).bind fun s => some (g, s.dev)

/-! ## The device buffer -/

/-- The things a loop does not control: contents of new allocations, the value of
uninitialised variables, the times at which copies happen. -/
structure RngEnv (T : Type) where
  freshBuffer : Fresh T
  freshBlock : Fresh T
  freshCounter : Fresh Int
  uninitialisedBool : Bool
  late : Nat → Nat → Bool
  late2 : Nat → Nat → Bool

/-- Parameters of an RNG that are fixed at construction: generation function, number of
components, block size, `max_factor`, and `pad n`, which is `n * 1.1` truncated. -/
structure RngConfig (T : Type) where
  gen : Nat → T
  numComponents : Nat
  blockSize : Nat
  maxFactor : Option (Nat → Nat)
  pad : Nat → Nat
  zero : T

/-- `BlockKernelRNGBase::allocate`, `host_rng_common.hpp:194-218`.  Returns the buffer and
the value of `*reallocated`, which is not written if no memory is required. -/
def rngAllocate {T : Type} (cfg : RngConfig T) (fresh : Fresh T) (buf : Option (Buffer T))
    (required : Nat) (reallocated : Bool) : Option (Option (Buffer T) × Bool) :=
  if required = 0 then some (buf, reallocated) else
  let padded := max required (cfg.pad required)
  match buf with
  | none => some (some (Buffer.create fresh padded), false)
  | some b =>
    if b.size < required then
      (b.realloc fresh padded cfg.maxFactor).bind fun (_, b) => some (some b, false)
    else some (some b, false)

/-- A call `draw_random_samples(sycl_target, d_ptr + dst, n, block_size)` where `d_ptr` is
the pointer of the buffer; drawing into memory that does not exist is `none`. -/
def rngDraw {T : Type} (cfg : RngConfig T) (late : Nat → Nat → Bool) (blk : Fresh T)
    (n dst g : Nat) (buf : Option (Buffer T)) : Option (Nat × Option (Buffer T)) :=
  if n = 0 then some (g, buf) else
  buf.bind fun b => b.ptr.bind fun dev =>
  (drawRandomSamples cfg.gen late blk cfg.blockSize n dst g dev).bind fun (g, dev) =>
  some (g, some { b with ptr := some dev })

/-! ## The atomic block generator -/

/-- State of a `HostAtomicBlockKernelRNG`, `host_atomic_block_kernel_rng.hpp:57-60` and
`100-102`, and the number of samples drawn so far from the generation function. -/
structure AtomicRng (T : Type) where
  buf : Option (Buffer T)
  counter : Option (List Int)
  numValues : Option Int
  internalState : Nat
  valid : Bool
  drawn : Nat

/-- Construction, `host_atomic_block_kernel_rng.hpp:238-249`. -/
def AtomicRng.init {T : Type} : AtomicRng T := ⟨none, none, none, 0, true, 0⟩

/-- `get_num_values`, `host_atomic_block_kernel_rng.hpp:66-72`. -/
def AtomicRng.getNumValues {T : Type} (r : AtomicRng T) : Int := r.numValues.getD 0

/-- `get_counter_ptr`, `host_atomic_block_kernel_rng.hpp:74-84`: the two counters, created
without being initialised if they do not exist. -/
def AtomicRng.getCounterPtr {T : Type} (fresh : Fresh Int) (r : AtomicRng T) :
    List Int × AtomicRng T :=
  match r.counter with
  | some c => (c, r)
  | none => ((fresh 2).1, { r with counter := some (fresh 2).1 })

/-- `get_counter`, `host_atomic_block_kernel_rng.hpp:86-92`: count and poison flag. -/
def AtomicRng.getCounter {T : Type} (fresh : Fresh Int) (r : AtomicRng T) :
    Option (Int × Bool × AtomicRng T) :=
  let (c, r) := r.getCounterPtr fresh
  (rd c 0).bind fun n => (rd c 1).bind fun p => some (n, decide (p ≠ 0), r)

/-- `reset_counter`, `host_atomic_block_kernel_rng.hpp:94-98`. -/
def AtomicRng.resetCounter {T : Type} (fresh : Fresh Int) (r : AtomicRng T) :
    Option (AtomicRng T) :=
  let (c, r) := r.getCounterPtr fresh
  (stRange c 0 [0, 0]).bind fun c => some { r with counter := some c }

/-- `static_cast<std::size_t>(int)`. -/
def intToSize (i : Int) : Nat := (i % 18446744073709551616).toNat

/-- The largest `int`. -/
def intMax : Nat := 2147483647

/-- `num_random_numbers` in `impl_pre_loop_read`,
`host_atomic_block_kernel_rng.hpp:144-148`. -/
def numRandomNumbers (numComponents particles : Nat) (override : Int) : Nat :=
  if override > -1 then override.toNat else particles * numComponents

/-- `HostAtomicBlockKernelRNG::impl_pre_loop_read`,
`host_atomic_block_kernel_rng.hpp:131-196`.  `particles` is the number of particles of the
loop, `override` the value given to `set_num_random_numbers`.  `none`: an assertion fails or
memory that does not exist is used. -/
def AtomicRng.preLoop {T : Type} (cfg : RngConfig T) (env : RngEnv T) (particles : Nat)
    (override : Int) (r : AtomicRng T) : Option (AtomicRng T) :=
  if r.internalState = 0 then
    let r := { r with internalState := 1 }
    if cfg.numComponents > 0 then
      let n := numRandomNumbers cfg.numComponents particles override
      if particles * cfg.numComponents < intMax then
        (rngAllocate cfg env.freshBuffer r.buf n env.uninitialisedBool).bind
          fun (buf, reallocated) =>
        let r := { r with buf := buf }
        (if reallocated then
          (rngDraw cfg env.late env.freshBlock n 0 r.drawn r.buf).bind fun (g, buf) =>
          some { r with
            drawn := g
            buf := buf
            numValues := some (n : Int) }
        else
          (r.getCounter env.freshCounter).bind fun (count, _, r) =>
          let current := intToSize count
          (if current > 0 then
            let required := min n current
            (rngDraw cfg env.late env.freshBlock required 0 r.drawn r.buf).bind
              fun (g, buf) =>
            let r := { r with
              drawn := g
              buf := buf }
            some (if required < current then { r with numValues := some (required : Int) } else r)
          else some r).bind fun r =>
          let diff := (n : Int) - r.getNumValues
          if diff > 0 then
            (index r.getNumValues).bind fun previousEnd =>
            (rngDraw cfg env.late2 env.freshBlock diff.toNat previousEnd r.drawn r.buf).bind
              fun (g, buf) =>
            some { r with
              drawn := g
              buf := buf
              numValues := some (n : Int) }
          else some r).bind fun r =>
        r.resetCounter env.freshCounter
      else none
    else some r
  else none

/-- What a kernel gets from `impl_get_const`: buffer size and buffer; the counter is in the
state. -/
structure AtomicArgs (T : Type) where
  bufferSize : Int
  dptr : Option (List T)

/-- `HostAtomicBlockKernelRNG::impl_get_const`, `host_atomic_block_kernel_rng.hpp:111-125`.
`none`: an assertion fails, or there is no buffer (`get_buffer_ptr`,
`host_rng_common.hpp:220-222`). -/
def AtomicRng.getConst {T : Type} (cfg : RngConfig T) (env : RngEnv T) (r : AtomicRng T) :
    Option (AtomicArgs T × AtomicRng T) :=
  if r.internalState = 1 ∨ r.internalState = 2 then
    let r := { r with internalState := 2 }
    let (_, r) := r.getCounterPtr env.freshCounter
    if cfg.numComponents = 0 then some (⟨0, none⟩, r)
    else r.buf.bind fun b => some (⟨r.getNumValues, b.ptr⟩, r)
  else none

/-- What one call to `at` reported: the thread that made it, `*valid_sample`, and the value
returned. -/
structure AtResult (T : Type) where
  thread : Nat
  valid : Bool
  value : T

/-- State of the kernel: the two counters, the indices held by threads that are between
their two atomic operations, and the results of the completed calls. -/
structure AtState (T : Type) where
  counter : List Int
  pending : List (Nat × Int)
  results : List (AtResult T)

/-- One atomic operation of thread `c` in `AtomicBlockRNG::at`,
`host_atomic_block_kernel_rng.hpp:20-45`: the `fetch_add` on the first counter, or, if the
thread has done that already, the `fetch_max` on the second and the return. -/
def atStep {T : Type} (zero : T) (a : AtomicArgs T) (c : Nat) (s : AtState T) :
    Option (AtState T) :=
  match s.pending.lookup c with
  | none =>
    (rd s.counter 0).bind fun idx =>
    some { s with
      counter := s.counter.set 0 (idx + 1)
      pending := (c, idx) :: s.pending }
  | some idx =>
    let inRange := decide (idx < a.bufferSize) && decide (0 ≤ idx)
    let toPoison : Int := if inRange then 0 else 1
    (rd s.counter 1).bind fun already =>
    let valid := inRange && decide (already = 0)
    (if valid then a.dptr.bind fun d => (index idx).bind fun i => rd d i else some zero).bind
      fun v =>
    some
      { counter := s.counter.set 1 (max already toPoison)
        pending := s.pending.filter fun p => p.1 ≠ c
        results := s.results ++ [⟨c, valid, v⟩] }

/-- `HostAtomicBlockKernelRNG::impl_post_loop_read`,
`host_atomic_block_kernel_rng.hpp:202-220`. -/
def AtomicRng.postLoop {T : Type} (env : RngEnv T) (r : AtomicRng T) : Option (AtomicRng T) :=
  (AtomicRng.getCounter env.freshCounter { r with internalState := 0 }).bind
    fun (readCount, poisoned, r) =>
  some (if readCount > r.getNumValues ∨ poisoned = true then { r with valid := false } else r)

/-- A particle loop that reads from the generator: number of particles, the value of
`num_random_numbers_override`, the number of kernels submitted, and the order in which the
threads do their atomic operations. -/
structure RngLoop (T : Type) where
  particles : Nat
  override : Int
  launches : Nat
  sched : List Nat
  env : RngEnv T

/-- `impl_get_const` is called once for each of the `k` kernels submitted by the loop
(`particle_loop.hpp:227-233`); all kernels get the same arguments. -/
def AtomicRng.getConsts {T : Type} (cfg : RngConfig T) (env : RngEnv T) :
    Nat → AtomicRng T → Option (Option (AtomicArgs T) × AtomicRng T)
  | 0, r => some (none, r)
  | k + 1, r => (AtomicRng.getConsts cfg env k r).bind fun (_, r) =>
      (r.getConst cfg env).bind fun (a, r) => some (some a, r)

/-- A particle loop with the generator as an argument, `particle_loop.hpp:154-308`: pre loop
hook, kernels, post loop hook.  Returns the results of all calls to `at`. -/
def AtomicRng.loop {T : Type} (cfg : RngConfig T) (l : RngLoop T) (r : AtomicRng T) :
    Option (List (AtResult T) × AtomicRng T) :=
  (r.preLoop cfg l.env l.particles l.override).bind fun r =>
  (AtomicRng.getConsts cfg l.env l.launches r).bind fun (a, r) =>
  (match a with
    | none => some ([], r)
    | some a => r.counter.bind fun ctr =>
        (runItems (atStep cfg.zero a) l.sched ⟨ctr, [], []⟩).bind fun s =>
        some (s.results, { r with counter := some s.counter })).bind fun (res, r) =>
  (r.postLoop l.env).bind fun r => some (res, r)

/-- A program run: loops one after the other. -/
def AtomicRng.loops {T : Type} (cfg : RngConfig T) :
    List (RngLoop T) → AtomicRng T → Option (List (AtResult T) × AtomicRng T)
  | [], r => some ([], r)
  | l :: ls, r => (r.loop cfg l).bind fun (res, r) =>
      (AtomicRng.loops cfg ls r).bind fun (rest, r) => some (res ++ rest, r)

/-! ## The per particle generator -/

/-- State of a `HostPerParticleBlockRNG`. -/
structure ParticleRng (T : Type) where
  buf : Option (Buffer T)
  internalState : Nat
  drawn : Nat

/-- `HostPerParticleBlockRNG::impl_pre_loop_read`,
`host_per_particle_block_rng.hpp:158-186`. -/
def ParticleRng.preLoop {T : Type} (cfg : RngConfig T) (env : RngEnv T) (particles : Nat)
    (r : ParticleRng T) : Option (ParticleRng T) :=
  if r.internalState = 0 then
    let r := { r with internalState := 1 }
    if cfg.numComponents > 0 then
      let n := particles * cfg.numComponents
      (rngAllocate cfg env.freshBuffer r.buf n env.uninitialisedBool).bind fun (buf, _) =>
      (rngDraw cfg env.late env.freshBlock n 0 r.drawn buf).bind fun (g, buf) =>
      some { r with
        buf := buf
        drawn := g }
    else some r
  else none

/-- `HostPerParticleBlockRNG::impl_get_const`, `host_per_particle_block_rng.hpp:134-151`:
stride and pointer. -/
def ParticleRng.getConst {T : Type} (cfg : RngConfig T) (particles : Nat) (r : ParticleRng T) :
    Option ((Nat × Option (List T)) × ParticleRng T) :=
  if r.internalState = 1 ∨ r.internalState = 2 then
    let r := { r with internalState := 2 }
    if cfg.numComponents = 0 then some ((0, none), r)
    else if particles < intMax then r.buf.bind fun b => some ((particles, b.ptr), r)
    else none
  else none

/-- `HostPerParticleBlockRNG::impl_post_loop_read`,
`host_per_particle_block_rng.hpp:192-196`. -/
def ParticleRng.postLoop {T : Type} (r : ParticleRng T) : ParticleRng T :=
  { r with internalState := 0 }

/-- The element of the buffer read by `PerParticleBlockRNG::at(row, col)`,
`host_per_particle_block_rng.hpp:37-39`. -/
def perParticleIndex (stride row col : Int) : Int := col * stride + row

/-- `PerParticleBlockRNG::at(particle_index, component)`,
`host_per_particle_block_rng.hpp:50-55`, given the loop linear index of the particle. -/
def perParticleAt {T : Type} (args : Nat × Option (List T)) (loopIndex component : Int) :
    Option T :=
  args.2.bind fun d => (index (perParticleIndex args.1 loopIndex component)).bind fun i => rd d i

/-- A particle loop with a per particle generator as an argument: pre loop hook, the kernel
arguments if the loop has particles, post loop hook. -/
def ParticleRng.loop {T : Type} (cfg : RngConfig T) (env : RngEnv T) (particles : Nat)
    (r : ParticleRng T) : Option (Option (Nat × Option (List T)) × ParticleRng T) :=
  (r.preLoop cfg env particles).bind fun r =>
  if particles = 0 then some (none, r.postLoop) else
  (r.getConst cfg particles).bind fun (a, r) => some (some a, r.postLoop)

/-- A program run: loops one after the other. -/
def ParticleRng.loops {T : Type} (cfg : RngConfig T) :
    List (RngEnv T × Nat) → ParticleRng T → Option (ParticleRng T)
  | [], r => some r
  | (env, n) :: ls, r => (r.loop cfg env n).bind fun (_, r) => ParticleRng.loops cfg ls r

/-- Construction, `host_per_particle_block_rng.hpp:89-99`. -/
def ParticleRng.init {T : Type} : ParticleRng T := ⟨none, 0, 0⟩

end NP
