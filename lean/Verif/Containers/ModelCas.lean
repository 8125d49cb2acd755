import Verif.Common.Kernel
import Mathlib.Order.Defs.LinearOrder

/-!
# Model: atomic minimum and maximum made of compare-and-exchange

Models `atomic_fetch_max_cas_strong` and `atomic_fetch_min_cas_strong`,
`include/neso_particles/device_functions.hpp:466-507`, that are `atomic_fetch_max` and `atomic_fetch_min`
with some compilers (`device_functions.hpp:552-588`), with calls of them by many work items on the same
address.

The only accesses of these functions to the memory are the `compare_exchange_strong`. With
relaxed memory order all of those on one address happen one after the other in some order, the
modification order of the address, and an execution is any such order. A call that has not made its first
exchange has no effect, so it does not matter when it was made.

Simplifications. The type of the values is any linear order: there are no NaNs and only one zero.
-/

set_option autoImplicit false

namespace NP

/-- A call on the address. `fetchMax start value` is `atomic_fetch_max_cas_strong` (466-481) and `fetchMin
start value` is `atomic_fetch_min_cas_strong` (492-507), where `start` is the number from `numeric_limits`
that `expected` is set to first (472, 498). `native f` is an atomic operation of the hardware that replaces
the number `x` in memory by `f x`, such as `fetch_add` (515-519). -/
inductive CasCall (T : Type)
  | fetchMax (start value : T)
  | fetchMin (start value : T)
  | native (f : T → T)

/-- Where a call is: before the next exchange with the local variable `expected`, or returned. -/
inductive CasState (T : Type)
  | running (expected : T)
  | done (result : T)
  deriving DecidableEq

/-- The number in memory and the states of the calls. -/
structure CasSystem (T : Type) where
  mem : T
  calls : List (CasState T)
  deriving DecidableEq

/-- `sycl::max(x, y)`: `y` if `x < y`, else `x`. -/
def syclMax {T : Type} [LinearOrder T] (x y : T) : T := if x < y then y else x

/-- `sycl::min(x, y)`: `y` if `y < x`, else `x`. -/
def syclMin {T : Type} [LinearOrder T] (x y : T) : T := if y < x then y else x

/-- The state of a call before its first exchange, `device_functions.hpp:472` and `498`. A native operation
has no local variable; `m` stands in for it. -/
def casStart {T : Type} (m : T) : CasCall T → CasState T
  | .fetchMax start _ => .running start
  | .fetchMin start _ => .running start
  | .native _ => .running m

/-- One pass of the loop, `device_functions.hpp:474-478` and `500-504`: the exchange writes `desired` if the
number in memory is `expected`, otherwise it sets `expected` to the number in memory; the condition of the
loop decides whether the call returns `expected` (480, 506). Result: the number in memory and the state
of the call. -/
def casStep {T : Type} [LinearOrder T] (mem expected : T) : CasCall T → T × CasState T
  | .fetchMax _ value =>
    let desired := syclMax value expected
    if mem = expected then (desired, .done expected)
    else if mem < value then (mem, .running mem) else (mem, .done mem)
  | .fetchMin _ value =>
    let desired := syclMin value expected
    if mem = expected then (desired, .done expected)
    else if value < mem then (mem, .running mem) else (mem, .done mem)
  | .native f => (f mem, .done mem)

/-- Call `i` makes its next exchange. `none` if there is no such call or it has returned. -/
def casExec {T : Type} [LinearOrder T] (calls : List (CasCall T)) (i : Nat) (s : CasSystem T) :
    Option (CasSystem T) :=
  (calls[i]?).bind fun c => (s.calls[i]?).bind fun
    | .running expected =>
      let r := casStep s.mem expected c
      some ⟨r.1, s.calls.set i r.2⟩
    | .done _ => none

/-- The calls `calls` on an address that holds `m`, with the exchanges in the order `sched`: entry `k`
is the number of the call that makes the `k`th exchange. -/
def casRun {T : Type} [LinearOrder T] (calls : List (CasCall T)) (m : T) (sched : List Nat) :
    Option (CasSystem T) :=
  runItems (casExec calls) sched ⟨m, calls.map (casStart m)⟩

end NP
