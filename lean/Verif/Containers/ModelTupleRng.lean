import Mathlib.Data.List.Perm.Basic

/-!
# Model: tuples of random number generators in loops

Models `TupleRNG`, `include/neso_particles/containers/rng/tuple_rng.hpp:66-192`, with the checks of the generators in it,
`host_per_particle_block_rng.hpp:126-190`, `host_atomic_block_kernel_rng.hpp:111-212` and `null_kernel_rng.hpp:52-80`, and with
`ParticleLoop::submit` and `wait`, `loop/particle_loop.hpp:151-309`.

Simplifications. A generator is a number. How samples are drawn is in C51 and C52; here `draws i` is how often generator `i`
has drawn samples for a loop, and a kernel is told which generator and which draw it reads. A tuple is a chain of pairs,
as in `TupleBaseRec`, `containers/tuple.hpp:14-25`. The arguments of a loop are such a tuple too. Other arguments are left out.
`none` is a failed assertion.
-/

set_option autoImplicit false

namespace NP

/-- A generator, a `NullKernelRNG`, or a tuple: the empty one, or one with a first component and others. -/
inductive RngArg
  | rng (i : Nat)
  | null
  | unit
  | pair (first rest : RngArg)

/-- The device type: what `impl_get_const` returns. -/
inductive KRng
  | rng (i draw : Nat)
  | null
  | unit
  | pair (first rest : KRng)

/-- `Tuple::get`, `containers/tuple.hpp:35-48`, with `Access::TupleRNG::get` in nested tuples, tuple_rng.hpp:19-37: the
component with these indices, outermost index first. -/
def KRng.at : KRng → List Nat → Option KRng
  | k, [] => some k
  | .pair a _, 0 :: p => a.at p
  | .pair _ b, (i + 1) :: p => b.at (i :: p)
  | _, _ :: _ => none

/-- The `internal_state` of each generator, and how often it has drawn samples. -/
structure RngPool where
  state : Nat → Nat
  draws : Nat → Nat

/-- Generators that were just constructed. -/
def RngPool.init : RngPool := ⟨fun _ => 0, fun _ => 0⟩

/-- A generator gets another state. -/
def RngPool.setState (s : RngPool) (i x : Nat) : RngPool := { s with state := fun j => if j = i then x else s.state j }

/-- A generator draws samples. -/
def RngPool.draw (s : RngPool) (i : Nat) : RngPool :=
  { s with draws := fun j => if j = i then s.draws i + 1 else s.draws j }

/-- `impl_pre_loop_read` of a tuple, tuple_rng.hpp:117-126, and of generators, host_per_particle_block_rng.hpp:158-180 and
host_atomic_block_kernel_rng.hpp:131-196. -/
def RngPool.pre (s : RngPool) : RngArg → Option RngPool
  | .rng i => if s.state i = 0 then some ((s.setState i 1).draw i) else none
  | .null => some s
  | .unit => some s
  | .pair a b => (s.pre a).bind fun s => s.pre b

/-- `impl_get_const` of a tuple, tuple_rng.hpp:86-111, and of generators, host_per_particle_block_rng.hpp:132-151 and
host_atomic_block_kernel_rng.hpp:111-125. -/
def RngPool.getConst (s : RngPool) : RngArg → Option (KRng × RngPool)
  | .rng i => if s.state i = 1 ∨ s.state i = 2 then some (.rng i (s.draws i), s.setState i 2) else none
  | .null => some (.null, s)
  | .unit => some (.unit, s)
  | .pair a b => (s.getConst a).bind fun (x, s) => (s.getConst b).bind fun (y, s) => some (.pair x y, s)

/-- `impl_post_loop_read` of a tuple, tuple_rng.hpp:132-141, and of generators, host_per_particle_block_rng.hpp:186-190. -/
def RngPool.post (s : RngPool) : RngArg → RngPool
  | .rng i => s.setState i 0
  | .null => s
  | .unit => s
  | .pair a b => (s.post a).post b

/-- The submission of the blocks of a loop, particle_loop.hpp:228-288: each creates the arguments. -/
def RngPool.blocks (s : RngPool) (a : RngArg) : Nat → Option (List KRng × RngPool)
  | 0 => some ([], s)
  | n + 1 => (s.getConst a).bind fun (k, s) => (s.blocks a n).bind fun (ks, s) => some (k :: ks, s)

/-- `ParticleLoop::submit`, particle_loop.hpp:216-289, of a loop with arguments `a` whose iteration set has `n` blocks (none if
there are no particles): what the kernel of each block is given. -/
def RngPool.submit (s : RngPool) (a : RngArg) (n : Nat) : Option (List KRng × RngPool) :=
  (s.pre a).bind fun s => s.blocks a n

end NP
