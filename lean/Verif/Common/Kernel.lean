/-!
# Device memory and kernel launches

Conventions shared by all areas of the model (see DESIGN.md, "Modelling
conventions").  Nothing here models one particular function of the code base:
these are the meanings given to "device array", "parallel_for" and "undefined
behaviour".

* A device (or host) array is a `List`.  Reading or writing outside of it is
  undefined behaviour and is the outcome `none`.
* A kernel launch (`sycl::queue::parallel_for`) is a list of work items that are
  run one after the other by `runItems`.  Theorems quantify over every
  permutation of the items, so they hold for every order in which the device may
  run them.
-/

set_option autoImplicit false

namespace NP

/-- Read element `i` of an array, `none` is an out of bounds access. -/
abbrev rd {α : Type _} (m : List α) (i : Nat) : Option α := m[i]?

/-- Store `v` in element `i` of an array, `none` is an out of bounds access. -/
def st {α : Type _} (m : List α) (i : Nat) (v : α) : Option (List α) :=
  if i < m.length then some (m.set i v) else none

/-- Run the work items of a kernel, in the order of the list. `none` means some
work item had undefined behaviour. -/
def runItems {ι σ : Type _} (step : ι → σ → Option σ) : List ι → σ → Option σ
  | [], s => some s
  | i :: is, s => (step i s).bind (runItems step is)

/-- The subarray `[start, stop)` of an array, `none` if it is not inside the
array. -/
def slice {α : Type _} (m : List α) (start stop : Nat) : Option (List α) :=
  if start ≤ stop ∧ stop ≤ m.length then some ((m.drop start).take (stop - start))
  else none

/-- Overwrite the elements starting at `start` with `vs`, `none` if that is not
inside the array. -/
def stRange {α : Type _} (m : List α) (start : Nat) (vs : List α) : Option (List α) :=
  if start + vs.length ≤ m.length then
    some (m.take start ++ vs ++ m.drop (start + vs.length))
  else none

end NP

namespace NP

/-- An arbitrary choice of the order in which the work items of a kernel are run:
a function that permutes every list of work items.  Theorems quantify over all
values of this type, separately for each kernel. -/
structure Sched where
  /-- The order in which the listed items are run. -/
  order : {ι : Type} → List ι → List ι
  /-- Every item is run exactly once. -/
  perm : ∀ {ι : Type} (l : List ι), (order l).Perm l

/-- The schedule that runs items in the listed order. -/
def Sched.inOrder : Sched := ⟨fun l => l, fun l => List.Perm.refl l⟩

/-- The schedule that runs items in reverse order. -/
def Sched.reversed : Sched := ⟨fun l => l.reverse, fun l => l.reverse_perm⟩

/-- Uninitialised memory: for every size an array of that size with arbitrary
contents. -/
abbrev Fresh (α : Type _) := (n : Nat) → {l : List α // l.length = n}

/-- The values of `ix` in `for (ix = start; ix < stop; ix += step)`, i.e. `start`,
`start + step`, ... while less than `stop`.  A step of zero is not meaningful and is
given no iterations. -/
def strided (start stop step : Nat) : List Nat :=
  (List.range ((stop - start + (step - 1)) / step)).map fun k => start + k * step

end NP

namespace NP

/-- Run `f` on every item and concatenate what the items produce; undefined
behaviour of one item is undefined behaviour of the whole. -/
def collectM {ι β : Type _} (f : ι → Option (List β)) : List ι → Option (List β)
  | [] => some []
  | i :: is => (f i).bind fun x => (collectM f is).bind fun xs => some (x ++ xs)

/-- The state after `for (i = a; i < b; i++) step(i)`. -/
def forLoop {σ : Type _} (a b : Nat) (step : Nat → σ → Option σ) (s : σ) : Option σ :=
  runItems step (List.range' a (b - a)) s

end NP

namespace NP

/-- `atomic_ref::fetch_add(1)` on element `i` of an array of counters: the value
before, and the new counters. -/
def fetchAdd (ctr : List Nat) (i : Nat) : Option (Nat × List Nat) :=
  (rd ctr i).bind fun v => some (v, ctr.set i (v + 1))

/-- A non negative array index; a negative one is an out of bounds access. -/
def index (i : Int) : Option Nat := if 0 ≤ i then some i.toNat else none

end NP
