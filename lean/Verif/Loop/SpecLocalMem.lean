import Verif.Loop.ModelLocalMem

/-! Specification vocabulary for the local memory of particle loops. -/

set_option autoImplicit false

namespace NP.Spec

/-- Bytes of local memory a particle needs for the arguments of the loop. -/
def bytesPerParticle (args : List LoopArg) : Nat := (args.map LoopArg.bytes).sum

/-- Number of elements each particle may use of an argument. -/
def elementsOf : LoopArg → Nat
  | .block size _ => size
  | .interlaced size _ => size
  | .other => 0

/-- `sizeof` the elements of an argument. -/
def elementBytes : LoopArg → Nat
  | .block _ elem => elem
  | .interlaced _ elem => elem
  | .other => 0

/-- Bytes of local memory each work group takes for the arguments of the loop. -/
def bytesPerGroup (localSize : Nat) (args : List LoopArg) : Nat :=
  (args.map fun a => a.accessor localSize * elementBytes a).sum

/-- The kernel uses only elements it asked for. -/
def LocalOpAllowed {V : Type} (args : List LoopArg) : LocalOp V → Prop
  | .write a i _ => ∃ arg, args[a]? = some arg ∧ i < elementsOf arg
  | .read a i => ∃ arg, args[a]? = some arg ∧ i < elementsOf arg

/-- The value that the particle last wrote to element `i` of argument `a`, given what
has happened so far (latest first); nothing if it has not written to it. -/
def lastWritten {V : Type} (p : Nat × Nat) (a i : Nat) :
    List (KernelCall × LocalOp V) → Option V
  | [] => none
  | (c, .write b j v) :: t =>
    if c.particle = p ∧ b = a ∧ j = i then some v else lastWritten p a i t
  | (_, .read _ _) :: t => lastWritten p a i t

end NP.Spec
