import Verif.Basics.ModelLimits

/-!
# Model: the store of parameters of a compute target

Models `Parameters`, `include/neso_particles/parameters.hpp:15-69`, the parameters that `SYCLTarget` sets, `src/compute_target.cpp:28-42`
and `160-171`, and the hint for the number of particles per cell, `include/neso_particles/particle_group.hpp:443-452`.

Simplifications. Parameters are held by shared pointers, so a pointer is the number of an object in the list of all objects that were
made; objects are not freed. The dynamic type is `SizeTParameter` or some other descendant of `Parameter`. `none`: an assertion
fails, an exception is thrown or behaviour is undefined.
-/

set_option autoImplicit false

namespace NP

/-- An object of type `SizeTParameter` (parameters.hpp:22-27), or of another descendant of `Parameter`. -/
inductive ParObj where
  | size (v : Nat)
  | other
  deriving DecidableEq

/-- `Parameters`, parameters.hpp:32-34, with all objects that were made. -/
structure Params where
  heap : List ParObj
  values : String → Option Nat

/-- A new store, src/compute_target.cpp:162. -/
def Params.empty : Params := ⟨[], fun _ => none⟩

/-- What callers do: make an object, assign to the member `value` through a pointer, call `set`. -/
inductive ParCall where
  | make (o : ParObj)
  | assign (p v : Nat)
  | set (name : String) (p : Option Nat)

/-- `set`, parameters.hpp:54-58: the null pointer is rejected. -/
def Params.set (s : Params) (name : String) (p : Option Nat) : Option Params :=
  match p with
  | none => none
  | some q => if q < s.heap.length then some { s with values := fun n => if n = name then some q else s.values n } else none

/-- `v->value = ...` as in particle_group.hpp:447. -/
def Params.assign (s : Params) (p v : Nat) : Option Params :=
  match s.heap[p]? with
  | some (.size _) => some { s with heap := s.heap.set p (.size v) }
  | _ => none

/-- `std::make_shared`, e.g. compute_target.cpp:163. -/
def Params.make (s : Params) (o : ParObj) : Params := { s with heap := s.heap ++ [o] }

/-- One call. -/
def Params.step (s : Params) : ParCall → Option Params
  | .make o => some (s.make o)
  | .assign p v => s.assign p v
  | .set name p => s.set name p

/-- A history of calls, the first call first. -/
def Params.run (s : Params) : List ParCall → Option Params
  | [] => some s
  | c :: cs => (s.step c).bind fun s' => s'.run cs

/-- `get<SizeTParameter>`, parameters.hpp:42-46: the pointer and the value behind it. -/
def Params.get (s : Params) (name : String) : Option (Nat × Nat) :=
  (s.values name).bind fun p =>
  match s.heap[p]? with
  | some (.size v) => some (p, v)
  | _ => none

/-- `contains`, parameters.hpp:65-67. -/
def Params.contains (s : Params) (name : String) : Bool := (s.values name).isSome

/-- `SYCLTarget::get_local_size`, src/compute_target.cpp:28-42. -/
def targetLocalSize (cpu : Bool) (e : EnvVar) : Option Nat :=
  if !cpu then getEnvSize e 256 else getEnvSize e 32

/-- The setup of the store, src/compute_target.cpp:161-170. -/
def targetParams (cpu : Bool) (eLocal eBin : EnvVar) (units : Nat) : Option Params :=
  (targetLocalSize cpu eLocal).bind fun n => (getEnvSize eBin 4).bind fun b =>
  Params.empty.run [.make (.size n), .set "LOOP_LOCAL_SIZE" (some 0), .make (.size b), .set "LOOP_NBIN" (some 1),
    .make (.size units), .set "MAX_COMPUTE_UNITS" (some 2)]

/-- The member `parameters` after the constructor of `SYCLTarget`, src/compute_target.cpp:107-171: the store is only made in the branch
for `gpu_device == 0`, and otherwise the member stays the null pointer (`some none`). -/
def targetStore (gpuDevice : Int) (cpu : Bool) (eLocal eBin : EnvVar) (units : Nat) : Option (Option Params) :=
  if gpuDevice > 0 then some none
  else if gpuDevice < 0 then some none
  else (targetParams cpu eLocal eBin units).map some

/-- The name of the hint, particle_group.hpp:444. -/
def hintName : String := "NESO_PARTICLES_NPART_CELL_HINT"

/-- The start of the constructor of a group that is not temporary, particle_group.hpp:443-452: the store and the hint. -/
def Params.cellHint (s : Params) (e : EnvVar) : Option (Params × Nat) :=
  (if !s.contains hintName then
    (getEnvSize e 0).bind fun v =>
    s.run [.make (.size 0), .assign s.heap.length v, .set hintName (some s.heap.length)]
  else some s).bind fun s' => (s'.get hintName).bind fun r => some (s', r.2)

end NP
