import Verif.Basics.LemmasLimits

/-!
# C105: launches are checked against the limits of the device, and its atomics are checked
-/

set_option autoImplicit false

namespace NP
open NP.Spec

/-- **C105** For a device with proper limits in each dimension, `validate_nd_range` accepts a launch exactly if the device
can run it, and otherwise fails an assertion. -/
theorem C105_nd_range (limit items global localR : List Nat) (wg : Nat)
    (h1 : limit.length = global.length) (h2 : items.length = global.length) (h3 : localR.length = global.length)
    (hi : ∀ m ∈ items, m ≠ 0) (hp : items.prod < 2 ^ 63) (hg : ∀ g ∈ global, g < 2 ^ 63)
    (hl : ∀ l ∈ localR, l ≠ 0) :
    ∃ b, validateNdRange limit items wg global localR = some b ∧
      (b = true ↔ LegalLaunch limit items wg global localR) := by
  obtain ⟨b1, g1, g2⟩ := validateGlobal_ok (limit := limit) (range := global) h1
  obtain ⟨b2, l1, l2⟩ := validateLocal_ok (items := items) (range := localR) (wg := wg) (by omega) hi (by omega)
  unfold validateNdRange
  rw [g1, Option.bind_some]
  cases b1 with
  | false =>
    refine ⟨false, rfl, by simp, fun h => ?_⟩
    exact g2.mpr h.globalFits
  | true =>
    rw [if_pos rfl, l1, Option.bind_some]
    cases b2 with
    | false =>
      refine ⟨false, rfl, by simp, fun h => ?_⟩
      exact l2.mpr ⟨h.localFits, h.group⟩
    | true =>
      rw [if_pos rfl]
      obtain ⟨q1, q2⟩ := l2.mp rfl
      obtain ⟨b, b1, b2⟩ := forLoop_decide (n := global.length)
        (f := fun dx ok => if ok then (rd global dx).bind fun g => (rd localR dx).bind fun l =>
          if toLongLong l = 0 then none else some (decide ((toLongLong g).tmod (toLongLong l) = 0)) else some false)
        (C := fun d => (localR[d]?).getD 0 ∣ (global[d]?).getD 0) (by
          intro i hi'
          have e1 : global[i]? = some global[i] := List.getElem?_eq_getElem hi'
          have e2 : localR[i]? = some (localR[i]'(by omega)) := List.getElem?_eq_getElem _
          have e3 : items[i]? = some (items[i]'(by omega)) := List.getElem?_eq_getElem _
          have k1 := hl _ (List.getElem_mem (show i < localR.length by omega))
          have k2 := hg _ (List.getElem_mem hi')
          have k3 := hi _ (List.getElem_mem (show i < items.length by omega))
          have k4 := q1 i _ _ e3 e2 k3
          have k5 : items[i]'(by omega) ≤ items.prod :=
            Nat.le_of_dvd (prod_pos_of_ne hi) (List.dvd_prod (List.getElem_mem _))
          simp only [if_true, rd, e1, e2, Option.bind_some, Option.getD_some]
          rw [toLongLong_small (by omega), toLongLong_small k2, if_neg (by omega)]
          congr 2
          rw [← Int.ofNat_tmod, eq_iff_iff, Nat.dvd_iff_mod_eq_zero]
          omega) (by intro i hi'; simp)
      refine ⟨b, b1, b2.trans ⟨fun h => ⟨g2.mp rfl, q1, q2, ?_⟩, fun h d hd => ?_⟩⟩
      · intro d g l e1 e2
        obtain ⟨hd, -⟩ := List.getElem?_eq_some_iff.mp e1
        have := h d hd
        rw [e1, e2] at this
        exact this
      · have e1 : global[d]? = some global[d] := List.getElem?_eq_getElem hd
        have e2 : localR[d]? = some (localR[d]'(by omega)) := List.getElem?_eq_getElem _
        rw [e1, e2]
        exact h.divides d _ _ e1 e2

/-- The full claim fails for a device that reports no limits for the dimensions of a work group: the size of the work
group is computed with wraparound, and a work group of `2 ^ 64` work items is accepted. -/
theorem C105_group_wraps :
    validateNdRange [2 ^ 64 - 1, 2 ^ 64 - 1] [0, 0] 1024 [2 ^ 32, 2 ^ 32] [2 ^ 32, 2 ^ 32] = some true ∧
      ¬ LegalLaunch [2 ^ 64 - 1, 2 ^ 64 - 1] [0, 0] 1024 [2 ^ 32, 2 ^ 32] [2 ^ 32, 2 ^ 32] := by
  refine ⟨by decide +kernel, fun h => ?_⟩
  have := h.group
  norm_num at this

/-- A local size of zero is not found by the check of the local sizes: the validation then divides by zero, whatever the
limits. -/
theorem C105_zero_local (m it wg g : Nat) (hg : m = 0 ∨ g ≤ m) : validateNdRange [m] [it] wg [g] [0] = none := by
  have e1 : validateGlobal [m] [g] = some true := by
    unfold validateGlobal
    simp only [forLoop, runItems, List.length_cons, List.length_nil, List.range'_succ, List.range'_zero, rd,
      List.getElem?_cons_zero, Option.bind_some, if_true]
    by_cases h : m = 0
    · simp [h]
    · simp [h, show g ≤ m by omega]
  have e2 : validateLocal [it] wg [0] = some true := by
    unfold validateLocal
    simp [forLoop, runItems, List.range'_succ]
  unfold validateNdRange
  rw [e1, Option.bind_some, if_pos rfl, e2, Option.bind_some, if_pos rfl]
  simp [forLoop, runItems, List.range'_succ, toLongLong]

/-- **C105** The limits: the variables S0, S1 and S2 of the environment, or else those of the device, are the limits of the
last, the last but one and the first of three dimensions, in launches of all numbers of dimensions; work group size and
local memory are those of the environment, or else of the device (1024 and 1024 bytes less for NVIDIA). -/
theorem C105_limits (d : DevInfo) (e : LimitEnv) (l : DevLimits) (h : deviceLimits d e = some l) :
    d.hasLocal = true ∧
    ∃ m0 m1 m2, l.g1 = [m0] ∧ l.g2 = [m1, m0] ∧ l.g3 = [m2, m1, m0] ∧
      getEnvSize e.s0 (if d.nvidia then 2147483647 else 2 ^ 64 - 1) = some m0 ∧
      getEnvSize e.s1 (if d.nvidia then 65535 else 2 ^ 64 - 1) = some m1 ∧
      getEnvSize e.s2 (if d.nvidia then 65535 else 2 ^ 64 - 1) = some m2 ∧
      getEnvSize e.wg (if d.nvidia then 1024 else d.maxWorkGroup) = some l.wg ∧
      (1024 ≤ d.localMem → d.localMem < 2 ^ 64 →
        getEnvSize e.mem (if d.nvidia then d.localMem - 1024 else d.localMem) = some l.localMem) := by
  unfold deviceLimits limitsGeneric at h
  cases hh : d.hasLocal with
  | false => rw [hh] at h; simp at h
  | true =>
    refine ⟨rfl, ?_⟩
    rw [hh, if_pos rfl, Option.bind_some] at h
    cases hn : d.nvidia with
    | false =>
      rw [hn] at h
      simp only [Bool.false_eq_true, if_false, Option.bind_some, limitsEnv, rd, List.getElem?_cons_succ,
        List.getElem?_cons_zero, Option.bind_eq_some_iff, Option.some.injEq] at h ⊢
      obtain ⟨m0, a0, m1, a1, m2, a2, mem, a3, wg, a4, rfl⟩ := h
      exact ⟨m0, m1, m2, rfl, rfl, rfl, a0, a1, a2, a4, fun _ _ => a3⟩
    | true =>
      rw [hn] at h
      simp only [if_true, limitsNvidia] at h ⊢
      split at h
      · simp only [Option.bind_some, limitsEnv, rd, List.getElem?_cons_succ,
          List.getElem?_cons_zero, Option.bind_eq_some_iff, Option.some.injEq] at h
        obtain ⟨m0, a0, m1, a1, m2, a2, mem, a3, wg, a4, rfl⟩ := h
        refine ⟨m0, m1, m2, rfl, rfl, rfl, a0, a1, a2, a4, fun k1 k2 => ?_⟩
        rw [show (d.localMem + 2 ^ 64 - 1024) % 2 ^ 64 = d.localMem - 1024 by omega] at a3
        exact a3
      · simp at h

/-- The check that an NVIDIA device has local memory fails for exactly 1024 bytes only: with fewer bytes the limit wraps
around and is larger than the memory by more than `2 ^ 63`. -/
theorem C105_local_memory_wraps (d : DevInfo) (hn : d.nvidia = true) (hl : d.hasLocal = true) (hm : d.localMem < 1024) :
    ∃ l, deviceLimits d ⟨.unset, .unset, .unset, .unset, .unset⟩ = some l ∧ d.localMem + 2 ^ 63 < l.localMem := by
  unfold deviceLimits limitsGeneric
  rw [hl, if_pos rfl, Option.bind_some, if_pos hn]
  unfold limitsNvidia
  simp only
  rw [if_pos (by omega)]
  refine ⟨_, rfl, ?_⟩
  simp only
  omega

/-- **C105** A variable of the environment is used if it is a number of type `int`; a larger number is ignored, a negative
number gives a size of at least `2 ^ 63`. -/
theorem C105_env (v : Int) (dflt : Nat) :
    (0 ≤ v → v < 2 ^ 31 → getEnvSize (.number v) dflt = some v.toNat) ∧
    (2 ^ 31 ≤ v → getEnvSize (.number v) dflt = some dflt) ∧
    (-2 ^ 31 ≤ v → v < 0 → ∃ n, getEnvSize (.number v) dflt = some n ∧ 2 ^ 63 ≤ n) ∧
    getEnvSize .unset dflt = some dflt ∧ getEnvSize .other dflt = none := by
  refine ⟨fun h1 h2 => ?_, fun h => ?_, fun h1 h2 => ?_, rfl, rfl⟩
  · unfold getEnvSize
    simp only
    rw [if_pos ⟨by omega, h2⟩, Int.emod_eq_of_lt h1 (by omega)]
  · unfold getEnvSize
    simp only
    rw [if_neg (by omega)]
  · unfold getEnvSize
    simp only
    rw [if_pos ⟨h1, by omega⟩]
    exact ⟨_, rfl, by omega⟩

/-- **C105** A device whose atomics work passes `check_atomics_sanity`, for all random elements and all orders in which the
device runs the operations. -/
theorem C105_working_device (fatal : Bool) (big : ℚ) (d : AtomicDevice) (x : AtomicSample) (h : WorkingDevice d) :
    checkAtomics fatal big d x = some true := by
  have hadd : ∀ (s : Int) (dev : Int → List Int → Int) (l : List Int), WorkingAtomic (· + ·) dev →
      atomicBinopCheck (· + ·) s testAddInt dev l = true := by
    intro s dev l hw
    obtain ⟨l', p, e⟩ := hw s l
    unfold atomicBinopCheck
    rw [e, foldl_perm_add p, testAddInt_iff]
    exact .inl rfl
  have haddR : ∀ (s : ℚ) (dev : ℚ → List ℚ → ℚ) (l : List ℚ), WorkingAtomic (· + ·) dev →
      atomicBinopCheck (· + ·) s testAddReal dev l = true := by
    intro s dev l hw
    obtain ⟨l', p, e⟩ := hw s l
    unfold atomicBinopCheck
    rw [e, foldl_perm_add p, testAddReal_iff, sub_self, abs_zero]
    positivity
  have hmin : ∀ {T : Type} [LinearOrder T] (s : T) (dev : T → List T → T) (l : List T), WorkingAtomic min dev →
      atomicBinopCheck min s testEqual dev l = true := by
    intro T _ s dev l hw
    obtain ⟨l', p, e⟩ := hw s l
    unfold atomicBinopCheck testEqual
    rw [e, foldl_perm_min p, decide_eq_true_eq]
  have hmax : ∀ {T : Type} [LinearOrder T] (s : T) (dev : T → List T → T) (l : List T), WorkingAtomic max dev →
      atomicBinopCheck max s testEqual dev l = true := by
    intro T _ s dev l hw
    obtain ⟨l', p, e⟩ := hw s l
    unfold atomicBinopCheck testEqual
    rw [e, foldl_perm_max p, decide_eq_true_eq]
  have hall : (atomicChecks big d x).all id = true := by
    unfold atomicChecks
    rw [hadd _ _ _ h.addInt, hadd _ _ _ h.addINT, haddR _ _ _ h.addREAL, hmin _ _ _ h.minInt, hmin _ _ _ h.minINT,
      hmin _ _ _ h.minREAL, hmax _ _ _ h.maxInt, hmax _ _ _ h.maxINT, hmax _ _ _ h.maxREAL]
    rfl
  unfold checkAtomics
  cases fatal with
  | false => rw [runChecks_soft, hall]; rfl
  | true => rw [runChecks_fatal, if_pos hall]

/-- **C105** With `fatal` the check returns only `true`; without it, it always returns, and it returns `true` in the
same cases: exactly if every minimum and maximum is that of the elements and the start, the sum of REAL is that of the
elements up to a relative or absolute error of `1e-8`, and each sum of integers is that of the elements or differs from it
by less than its absolute value. -/
theorem C105_accepted (big : ℚ) (d : AtomicDevice) (x : AtomicSample) :
    (checkAtomics true big d x = some true ∨ checkAtomics true big d x = none) ∧
    (∃ b, checkAtomics false big d x = some b) ∧
    (checkAtomics true big d x = some true ↔ checkAtomics false big d x = some true) ∧
    (checkAtomics false big d x = some true ↔
      (d.addInt 0 x.addInt = x.addInt.foldl (· + ·) 0 ∨
        |x.addInt.foldl (· + ·) 0 - d.addInt 0 x.addInt| < |x.addInt.foldl (· + ·) 0|) ∧
      (d.addINT 0 x.addINT = x.addINT.foldl (· + ·) 0 ∨
        |x.addINT.foldl (· + ·) 0 - d.addINT 0 x.addINT| < |x.addINT.foldl (· + ·) 0|) ∧
      |x.addREAL.foldl (· + ·) 0 - d.addREAL 0 x.addREAL| < 1 / 10 ^ 8 * max 1 |x.addREAL.foldl (· + ·) 0| ∧
      d.minInt (2 ^ 31 - 1) x.minInt = x.minInt.foldl min (2 ^ 31 - 1) ∧
      d.minINT (2 ^ 63 - 1) x.minINT = x.minINT.foldl min (2 ^ 63 - 1) ∧
      d.minREAL big x.minREAL = x.minREAL.foldl min big ∧
      d.maxInt (-2 ^ 31) x.maxInt = x.maxInt.foldl max (-2 ^ 31) ∧
      d.maxINT (-2 ^ 63) x.maxINT = x.maxINT.foldl max (-2 ^ 63) ∧
      d.maxREAL (-big) x.maxREAL = x.maxREAL.foldl max (-big)) := by
  unfold checkAtomics
  rw [runChecks_soft, runChecks_fatal]
  refine ⟨?_, ⟨_, rfl⟩, ?_, ?_⟩
  · split
    · exact .inl rfl
    · exact .inr rfl
  · cases (atomicChecks big d x).all id <;> simp
  · rw [Bool.true_and, Option.some.injEq]
    simp only [atomicChecks, atomicBinopCheck, testEqual, List.all_cons, List.all_nil, id_eq, Bool.and_true,
      Bool.and_eq_true, testAddInt_iff, testAddReal_iff, decide_eq_true_eq]
    simp only [eq_comm]

namespace Ex

/-- A device which runs the operations in the order of the elements. -/
def goodDevice : AtomicDevice :=
  { addInt := fun s l => l.foldl (· + ·) s, addINT := fun s l => l.foldl (· + ·) s
    addREAL := fun s l => l.foldl (· + ·) s, minInt := fun s l => l.foldl min s
    minINT := fun s l => l.foldl min s, minREAL := fun s l => l.foldl min s
    maxInt := fun s l => l.foldl max s, maxINT := fun s l => l.foldl max s
    maxREAL := fun s l => l.foldl max s }

/-- A device whose atomic additions of integers lose all updates but the first 17. -/
def lossyDevice : AtomicDevice :=
  { goodDevice with addInt := fun s l => (l.take 17).foldl (· + ·) s, addINT := fun s l => (l.take 17).foldl (· + ·) s }

/-- Elements between -50 and 50. -/
def onesSample : AtomicSample :=
  { addInt := List.replicate 32 1, addINT := List.replicate 32 1, addREAL := List.replicate 32 1
    minInt := List.replicate 32 1, minINT := List.replicate 32 1, minREAL := List.replicate 32 1
    maxInt := List.replicate 32 1, maxINT := List.replicate 32 1, maxREAL := List.replicate 32 1 }

end Ex

/-- The check does not find every device whose atomics are broken: the relative error of sums of integers is computed with
the division of integers, so that any error smaller than the sum is accepted. A device that loses 15 of 32 additions
of one passes. -/
theorem C105_integer_sums_blind :
    ¬ WorkingDevice Ex.lossyDevice ∧
      Ex.lossyDevice.addInt 0 Ex.onesSample.addInt = 17 ∧ Ex.onesSample.addInt.sum = 32 ∧
      checkAtomics true (10 ^ 308) Ex.lossyDevice Ex.onesSample = some true := by
  refine ⟨fun h => ?_, by decide +kernel, by decide +kernel, by decide +kernel⟩
  obtain ⟨l', p, e⟩ := h.addInt 0 (List.replicate 32 1)
  rw [foldl_perm_add p] at e
  revert e
  decide +kernel

namespace Ex

theorem goodDevice_works : WorkingDevice goodDevice :=
  ⟨fun _ l => ⟨l, .refl _, rfl⟩, fun _ l => ⟨l, .refl _, rfl⟩, fun _ l => ⟨l, .refl _, rfl⟩,
   fun _ l => ⟨l, .refl _, rfl⟩, fun _ l => ⟨l, .refl _, rfl⟩, fun _ l => ⟨l, .refl _, rfl⟩,
   fun _ l => ⟨l, .refl _, rfl⟩, fun _ l => ⟨l, .refl _, rfl⟩, fun _ l => ⟨l, .refl _, rfl⟩⟩

example (x : AtomicSample) := C105_working_device true (10 ^ 308) goodDevice x goodDevice_works

example : checkAtomics true (10 ^ 308) { goodDevice with minREAL := fun s _ => s } onesSample = none ∧
    checkAtomics false (10 ^ 308) { goodDevice with minREAL := fun s _ => s } onesSample = some false := by
  decide +kernel

/-- A launch on an NVIDIA device. -/
example := C105_nd_range [65535, 2147483647] [1024, 1024] [100, 512] [1, 256] 1024 rfl rfl rfl (by simp) (by decide)
  (by simp) (by simp)

example : validateNdRange [65535, 2147483647] [1024, 1024] 1024 [100, 512] [1, 256] = some true ∧
    validateNdRange [65535, 2147483647] [1024, 1024] 1024 [100, 513] [1, 256] = some false ∧
    validateNdRange [65535, 2147483647] [1024, 1024] 1024 [70000, 512] [1, 256] = some false ∧
    validateNdRange [65535, 2147483647] [1024, 1024] 1024 [100, 512] [10, 128] = some false := by decide +kernel

example : deviceLimits ⟨true, true, 2048, 49152⟩ ⟨.number 100, .unset, .number (2 ^ 40), .unset, .number 512⟩ =
    some ⟨[100], [65535, 100], [65535, 65535, 100], 512, 48128⟩ := by decide +kernel

end Ex

end NP
