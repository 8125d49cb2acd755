import Mathlib.Data.List.Perm.Basic

/-!
# Model: errors in kernels

Models `ErrorPropagate` and `NESO_KERNEL_ASSERT`, `include/neso_particles/error_propagate.hpp:12-121`.

Simplifications. `int` has 32 bits and atomic additions wrap around. Buffers are waited for by the code that copies them,
and kernels are complete when the host looks at the flag.
-/

set_option autoImplicit false

namespace NP

/-- The value of a 32 bit `int` after wrapping around. -/
def wrapInt (x : Int) : Int := (x + 2 ^ 31) % 2 ^ 32 - 2 ^ 31

/-- An `ErrorPropagate`: the elements of `h_buffer` and `d_buffer`, error_propagate.hpp:14-15. -/
structure ErrFlag where
  host : Int
  device : Int

/-- `reset`, error_propagate.hpp:40-43, also called by `clean` of the resource stack, lines 118-121. -/
def ErrFlag.reset (_ : ErrFlag) : ErrFlag :=
  let h := 0
  ⟨h, h⟩

/-- The constructor, error_propagate.hpp:30-33; the buffers hold anything before. -/
def ErrFlag.create (garbage : ErrFlag) : ErrFlag := garbage.reset

/-- `NESO_KERNEL_ASSERT(expr, ep_ptr)`, error_propagate.hpp:85-88. -/
def ErrFlag.kernelAssert (s : ErrFlag) (expr : Bool) : ErrFlag :=
  if !expr then { s with device := wrapInt (s.device + 1) } else s

/-- A kernel: the assertions that its work items make, in the order in which the device executes them. -/
def ErrFlag.kernel (s : ErrFlag) (asserts : List Bool) : ErrFlag := asserts.foldl ErrFlag.kernelAssert s

/-- `get_flag`, error_propagate.hpp:67-70. -/
def ErrFlag.getFlag (s : ErrFlag) : Int × ErrFlag :=
  let s := { s with host := s.device }
  (s.host, s)

/-- `check_and_throw`, error_propagate.hpp:58-60; `none` if it throws. -/
def ErrFlag.check (s : ErrFlag) : Option ErrFlag :=
  let (flag, s) := s.getFlag
  if flag = 0 then some s else none

/-- What a user does with an `ErrorPropagate`. -/
inductive ErrOp
  | reset
  | flag
  | check
  | kernel (asserts : List Bool)

/-- One call. -/
def ErrFlag.step (s : ErrFlag) : ErrOp → Option ErrFlag
  | .reset => some s.reset
  | .flag => some s.getFlag.2
  | .check => s.check
  | .kernel a => some (s.kernel a)

/-- A history; `none` if some `check_and_throw` threw. -/
def ErrFlag.run (s : ErrFlag) : List ErrOp → Option ErrFlag
  | [] => some s
  | o :: os => (s.step o).bind fun s => s.run os

end NP
