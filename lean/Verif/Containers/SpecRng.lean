import Verif.Containers.ModelRng

/-!
# Specification of the random number generators (C51, C52)
-/

set_option autoImplicit false

namespace NP.Spec

/-- The values of the calls that were told that their sample is valid. -/
def validValues {T : Type} (res : List (AtResult T)) : List T :=
  (res.filter fun r => r.valid).map fun r => r.value

/-- The number of calls of a loop: each call does two atomic operations. -/
def numCalls {T : Type} (l : RngLoop T) : Nat := l.sched.length / 2

/-- A loop that can happen: every thread completes its calls (each of two atomic
operations, in any order relative to those of other threads), there are calls only if
there are kernels, and there are fewer calls than the `int` counter can count. -/
structure PossibleLoop {T : Type} (l : RngLoop T) : Prop where
  complete : ∀ c, l.sched.count c % 2 = 0
  fromKernel : l.launches = 0 → l.sched = []
  fewer : numCalls l ≤ intMax

/-- The number of samples the loop is set up for: what the user asked for with
`set_num_random_numbers`, otherwise the number of components for each particle. -/
def samplesWanted {T : Type} (cfg : RngConfig T) (l : RngLoop T) : Nat :=
  if 0 ≤ l.override then l.override.toNat else cfg.numComponents * l.particles

end NP.Spec
