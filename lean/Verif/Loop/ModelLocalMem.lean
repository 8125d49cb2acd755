import Verif.Loop.Model
import Mathlib.Data.Nat.Log

/-!
# Model: local memory of particle loops

Models `include/neso_particles/containers/local_memory_block.hpp`,
`include/neso_particles/containers/local_memory_interlaced.hpp`,
`SYCLTarget::get_num_local_work_items` (`src/compute_target.cpp`) and
`ParticleLoopArgs::get_local_size_args` (`include/neso_particles/loop/particle_loop_args.hpp`).

The work groups of a launch are those of the iteration set of `Verif.Loop.Model`.  Each
work group has its own copy of every local accessor, with unknown contents at first.
-/

set_option autoImplicit false

namespace NP

/-- An argument of a particle loop: a `LocalMemoryBlock<T>`
(`local_memory_block.hpp:12-34`), a `LocalMemoryInterlaced<T>`
(`local_memory_interlaced.hpp:14-37`), both with the number of elements per particle and
`sizeof(T)`, or anything else. -/
inductive LoopArg where
  | block (size elem : Nat)
  | interlaced (size elem : Nat)
  | other
deriving DecidableEq, Repr

/-- `get_required_local_num_bytes`: `local_memory_block.hpp:107-110`,
`local_memory_interlaced.hpp:123-126` and the default `particle_loop_base.hpp:108-111`.
Reduction arguments (`cell_dat_const.hpp:363-367`) are not modelled here, see C67. -/
def LoopArg.bytes : LoopArg → Nat
  | .block size elem => size * elem
  | .interlaced size elem => size * elem
  | .other => 0

/-- `SYCLTarget::get_num_local_work_items`, `compute_target.cpp:382-409`.  `none`: an
assertion fails, or there is not even memory for one work item (line 393: `log2(0)` is
minus infinity and its conversion to an integer is undefined).  `log2` and `pow` are
exact here; for doubles they are for every amount of memory below `2^48` bytes. -/
def getNumLocalWorkItems (localMem offset numBytes default : Nat) : Option Nat :=
  if numBytes = 0 then some default
  else if localMem < offset then none
  else
    let maxItems := (localMem - offset) / numBytes
    if maxItems = 0 then none
    else
      let n := min default (2 ^ Nat.log 2 maxItems)
      if n = 0 then none
      else if localMem < n * numBytes + offset then none
      else some n

/-- `get_local_size_args`, `particle_loop_args.hpp:356-378`: `groupBytes` and `itemBytes`
are the members `local_nbytes_group` and `local_nbytes_item`, `default` is the parameter
`LOOP_LOCAL_SIZE`. -/
def getLocalSizeArgs (localMem groupBytes itemBytes default : Nat) (args : List LoopArg) :
    Option Nat :=
  getNumLocalWorkItems localMem groupBytes
    (args.foldl (fun n a => n + a.bytes) itemBytes) default

/-- Number of elements of the local accessor made by `create_loop_arg`,
`local_memory_block.hpp:82-92` and `local_memory_interlaced.hpp:97-107`; `localSize` is
`global_info->local_size`. -/
def LoopArg.accessor (localSize : Nat) : LoopArg → Nat
  | .block size _ => size * localSize
  | .interlaced size _ => size * localSize
  | .other => 0

/-- `at(index)` after `create_kernel_arg`: the place in the local accessor;
`local_memory_block.hpp:50,97-102` and
`local_memory_interlaced.hpp:67,113-118`.  There are no checks of `index` in the code.
`none`: the argument has no `at`. -/
def LoopArg.place (localId localRange index : Nat) : LoopArg → Option Nat
  | .block size _ => some (localId * size + index)
  | .interlaced _ _ => some (localId + localRange * index)
  | .other => none

/-- One call of the kernel of a loop: the launch and the work group it is in,
`get_local_id(1)`, `get_local_range(1)` and the particle it is called for. -/
structure KernelCall where
  launch : Nat
  group : Nat × Nat
  localId : Nat
  localRange : Nat
  particle : Nat × Nat
deriving DecidableEq, Repr

/-- The calls made by the work items of one launch, `particle_loop.hpp:225-283` (and
`particle_loop_sub_group.hpp:175-245` with loop layers). -/
def launchCalls (npart : List Nat) (k : Nat) (b : LoopBlock) : Option (List KernelCall) :=
  (blockItems b).bind (collectM fun g => (itemVisit npart b g).bind fun vs =>
    some (vs.map fun v => ⟨k, (g.1, g.2 / b.localSize), g.2 % b.localSize, b.localSize, v⟩))

/-- `submit` of a loop with these arguments, `particle_loop.hpp:216-286`: the local size
and all calls of the kernel.  `local_size` of the global information is
`particle_loop_base.hpp:234`. -/
def submitCalls (localMem groupBytes itemBytes default nbin : Nat) (args : List LoopArg)
    (npartLb : List Nat) (hasGroup : Bool) (npartLocal : Nat) (cellStart cellEnd : Option Int) :
    Option (Nat × List KernelCall) :=
  (getLocalSizeArgs localMem groupBytes itemBytes default args).bind fun localSize =>
  (submitBlocks ⟨localMem, nbin, localSize⟩ npartLb hasGroup npartLocal 1
    cellStart cellEnd).bind fun bs =>
  (collectM (fun p : LoopBlock × Nat => launchCalls npartLb p.2 p.1) bs.zipIdx).bind fun cs =>
  some (localSize, cs)

/-- The local memory of all work groups: by launch, work group, argument and place. -/
abbrev LocalMem (V : Type) := Nat → Nat × Nat → Nat → Nat → V

/-- What a kernel does with local memory: write or read `arg.at(index)`. -/
inductive LocalOp (V : Type) where
  | write (arg index : Nat) (v : V)
  | read (arg index : Nat)

/-- One access by one call of the kernel: the memory afterwards and the value read.
`none`: the access is outside of the local accessor. -/
def localStep {V : Type} (args : List LoopArg) (localSize : Nat) (c : KernelCall)
    (o : LocalOp V) (m : LocalMem V) : Option (LocalMem V × Option V) :=
  match o with
  | .write a i v =>
    (rd args a).bind fun arg => (arg.place c.localId c.localRange i).bind fun e =>
    if e < arg.accessor localSize then
      some (fun l g b p => if l = c.launch ∧ g = c.group ∧ b = a ∧ p = e then v else m l g b p,
        none)
    else none
  | .read a i =>
    (rd args a).bind fun arg => (arg.place c.localId c.localRange i).bind fun e =>
    if e < arg.accessor localSize then some (m, some (m c.launch c.group a e)) else none

/-- Accesses of many calls, in the order in which they happen to reach the memory: what
each of them reads. -/
def localRun {V : Type} (args : List LoopArg) (localSize : Nat) :
    List (KernelCall × LocalOp V) → LocalMem V → Option (List (Option V))
  | [], _ => some []
  | (c, o) :: t, m =>
    (localStep args localSize c o m).bind fun r =>
    (localRun args localSize t r.1).bind fun vs => some (r.2 :: vs)

end NP
