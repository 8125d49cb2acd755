import Verif.Common.Kernel
import Mathlib.Algebra.Order.Ring.Rat
import Mathlib.Algebra.Order.Ring.Abs
import Mathlib.Algebra.Order.Field.Rat

/-!
# Model: limits of the device and the check of its atomics

Models `DeviceLimits`, `include/neso_particles/device_limits.hpp:38-185` and `src/device_limits.cpp:1-130`,
`get_env_size_t`, `include/neso_particles/typedefs.hpp:364-381`, and the check of the atomics,
`include/neso_particles/device_atomic_sanity_check.hpp:16-100`.

Simplifications. `std::size_t` has 64 bits and `long long` too; the arithmetic on them is modelled with its
wraparound. What SYCL reports about the device is given. REAL is the rational numbers, and the sums of the check of the
atomics do not overflow. The text of an environment variable is given by the integer that `std::stoi` reads from it. The
result of a validation is `some true` (accepted), `some false` (an assertion fails) or `none` (undefined behaviour).
-/

set_option autoImplicit false

namespace NP

/-- An environment variable: not set, set to a text that starts with an integer, or set to another text. -/
inductive EnvVar where
  | unset
  | number (v : Int)
  | other

/-- `get_env_size_t`, typedefs.hpp:364-381. `std::stoi` throws `out_of_range` for numbers that are not of type `int`, which
is caught, and `invalid_argument` for other texts, which ends the program (`none`). -/
def getEnvSize (e : EnvVar) (default : Nat) : Option Nat :=
  match e with
  | .unset => some default
  | .number v => if -2 ^ 31 ≤ v ∧ v < 2 ^ 31 then some (v % 2 ^ 64).toNat else some default
  | .other => none

/-- What SYCL reports about the device. -/
structure DevInfo where
  nvidia : Bool
  hasLocal : Bool
  maxWorkGroup : Nat
  localMem : Nat

/-- The environment variables that `setup_env` reads, device_limits.cpp:5-22. -/
structure LimitEnv where
  s0 : EnvVar
  s1 : EnvVar
  s2 : EnvVar
  mem : EnvVar
  wg : EnvVar

/-- The members `wgl` and `local_mem_size`. -/
structure DevLimits where
  g1 : List Nat
  g2 : List Nat
  g3 : List Nat
  wg : Nat
  localMem : Nat
  deriving DecidableEq

/-- `setup_generic`, device_limits.cpp:24-40. -/
def limitsGeneric (d : DevInfo) : Option DevLimits :=
  if d.hasLocal then
    some ⟨[2 ^ 64 - 1], [2 ^ 64 - 1, 2 ^ 64 - 1], [2 ^ 64 - 1, 2 ^ 64 - 1, 2 ^ 64 - 1], d.maxWorkGroup, d.localMem⟩
  else none

/-- `setup_nvidia`, device_limits.cpp:42-50; the subtraction is one of unsigned integers. -/
def limitsNvidia (d : DevInfo) : Option DevLimits :=
  let mem := (d.localMem + 2 ^ 64 - 1024) % 2 ^ 64
  if mem > 0 then some ⟨[2147483647], [65535, 2147483647], [65535, 65535, 2147483647], 1024, mem⟩ else none

/-- `setup_env`, device_limits.cpp:5-22. -/
def limitsEnv (e : LimitEnv) (l : DevLimits) : Option DevLimits :=
  (rd l.g3 2).bind fun c2 => (getEnvSize e.s0 c2).bind fun m0 =>
  (rd l.g3 1).bind fun c1 => (getEnvSize e.s1 c1).bind fun m1 =>
  (rd l.g3 0).bind fun c0 => (getEnvSize e.s2 c0).bind fun m2 =>
  (getEnvSize e.mem l.localMem).bind fun mem =>
  (getEnvSize e.wg l.wg).bind fun wg =>
  some ⟨[m0], [m1, m0], [m2, m1, m0], wg, mem⟩

/-- The constructor of `DeviceLimits`, device_limits.hpp:52-59. -/
def deviceLimits (d : DevInfo) (e : LimitEnv) : Option DevLimits :=
  (limitsGeneric d).bind fun l => (if d.nvidia then limitsNvidia d else some l).bind fun l => limitsEnv e l

/-- `validate_range_global`, device_limits.hpp:80-95, with the limits for this number of dimensions. -/
def validateGlobal (limit range : List Nat) : Option Bool :=
  forLoop 0 range.length (fun dx ok =>
    if ok then (rd limit dx).bind fun m => (rd range dx).bind fun g =>
      some (if m ≠ 0 then decide (g ≤ m) else true)
    else some false) true

/-- `validate_range_local`, device_limits.hpp:103-124: the flag and `total_size`. -/
def validateLocal (items : List Nat) (wg : Nat) (range : List Nat) : Option Bool :=
  (forLoop 0 range.length (fun dx (s : Bool × Nat) =>
    if s.1 then (rd items dx).bind fun m => (rd range dx).bind fun l =>
      some (if m ≠ 0 then decide (l ≤ m) else true, s.2 * l % 2 ^ 64)
    else some s) (true, 1)).bind fun s => some (s.1 && decide (s.2 ≤ wg))

/-- `static_cast<long long>` of a `std::size_t`. -/
def toLongLong (n : Nat) : Int := if n < 2 ^ 63 then n else n - 2 ^ 64

/-- `validate_nd_range`, device_limits.hpp:132-151. -/
def validateNdRange (limit items : List Nat) (wg : Nat) (global localR : List Nat) : Option Bool :=
  (validateGlobal limit global).bind fun okG => if okG then
    (validateLocal items wg localR).bind fun okL => if okL then
      forLoop 0 global.length (fun dx ok =>
        if ok then (rd global dx).bind fun g => (rd localR dx).bind fun l =>
          if toLongLong l = 0 then none else some (decide ((toLongLong g).tmod (toLongLong l) = 0))
        else some false) true
    else some false
  else some false

/-- `CheckAdd<T>::test` for `int` and `INT`, device_atomic_sanity_check.hpp:26-31: the division is one of integers. -/
def testAddInt (correct toTest : Int) : Bool :=
  let errAbs := |correct - toTest|
  let scaling := |correct|
  let errRel := if scaling > 0 then errAbs.tdiv scaling else errAbs
  decide ((errRel : ℚ) < 1 / 10 ^ 8) || decide ((errAbs : ℚ) < 1 / 10 ^ 8)

/-- `CheckAdd<REAL>::test`, device_atomic_sanity_check.hpp:26-31. -/
def testAddReal (correct toTest : ℚ) : Bool :=
  let errAbs := |correct - toTest|
  let scaling := |correct|
  let errRel := if scaling > 0 then errAbs / scaling else errAbs
  decide (errRel < 1 / 10 ^ 8) || decide (errAbs < 1 / 10 ^ 8)

/-- `CheckMin<T>::test` and `CheckMax<T>::test`, device_atomic_sanity_check.hpp:45-47 and 61-63. -/
def testEqual {T : Type} [DecidableEq T] (correct toTest : T) : Bool := decide (correct = toTest)

/-- `atomic_binop_check`, device_atomic_sanity_check.hpp:66-102: `device start elements` is what the kernel leaves in
`d_result`. -/
def atomicBinopCheck {T : Type} (host : T → T → T) (ident : T) (test : T → T → Bool)
    (device : T → List T → T) (elements : List T) : Bool :=
  test (elements.foldl host ident) (device ident elements)

/-- What concurrent atomic operations of a device give, for each operation and type. -/
structure AtomicDevice where
  addInt : Int → List Int → Int
  addINT : Int → List Int → Int
  addREAL : ℚ → List ℚ → ℚ
  minInt : Int → List Int → Int
  minINT : Int → List Int → Int
  minREAL : ℚ → List ℚ → ℚ
  maxInt : Int → List Int → Int
  maxINT : Int → List Int → Int
  maxREAL : ℚ → List ℚ → ℚ

/-- The random elements of the nine checks. -/
structure AtomicSample where
  addInt : List Int
  addINT : List Int
  addREAL : List ℚ
  minInt : List Int
  minINT : List Int
  minREAL : List ℚ
  maxInt : List Int
  maxINT : List Int
  maxREAL : List ℚ

/-- The nine checks of `check_atomics_sanity`, device_limits.cpp:73-107; `big` is the largest REAL. -/
def atomicChecks (big : ℚ) (d : AtomicDevice) (x : AtomicSample) : List Bool :=
  [atomicBinopCheck (· + ·) 0 testAddInt d.addInt x.addInt,
   atomicBinopCheck (· + ·) 0 testAddInt d.addINT x.addINT,
   atomicBinopCheck (· + ·) 0 testAddReal d.addREAL x.addREAL,
   atomicBinopCheck min (2 ^ 31 - 1) testEqual d.minInt x.minInt,
   atomicBinopCheck min (2 ^ 63 - 1) testEqual d.minINT x.minINT,
   atomicBinopCheck min big testEqual d.minREAL x.minREAL,
   atomicBinopCheck max (-2 ^ 31) testEqual d.maxInt x.maxInt,
   atomicBinopCheck max (-2 ^ 63) testEqual d.maxINT x.maxINT,
   atomicBinopCheck max (-big) testEqual d.maxREAL x.maxREAL]

/-- `check_atomics_sanity`, device_limits.cpp:73-110. -/
def checkAtomics (fatal : Bool) (big : ℚ) (d : AtomicDevice) (x : AtomicSample) : Option Bool :=
  runItems (fun r success => if !fatal || (success && r) then some (success && r) else none)
    (atomicChecks big d x) true

end NP
