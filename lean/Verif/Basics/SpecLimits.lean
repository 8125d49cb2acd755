import Verif.Basics.ModelLimits

/-!
# Specification: launches that a device can run, and working atomics
-/

set_option autoImplicit false

namespace NP.Spec

/-- A launch that the device can run: in every dimension the global size is within its limit (a limit of zero is none),
the local size is within that of the device and divides the global size; the work group is not too large. -/
structure LegalLaunch (limit items : List Nat) (wg : Nat) (global localR : List Nat) : Prop where
  globalFits : ∀ d : Nat, ∀ m g, limit[d]? = some m → global[d]? = some g → m ≠ 0 → g ≤ m
  localFits : ∀ d : Nat, ∀ m l, items[d]? = some m → localR[d]? = some l → m ≠ 0 → l ≤ m
  group : localR.prod ≤ wg
  divides : ∀ d : Nat, ∀ g l, global[d]? = some g → localR[d]? = some l → l ∣ g

/-- Atomics that work: the result is that of the operations one after the other, in some order. -/
def WorkingAtomic {T : Type} (op : T → T → T) (device : T → List T → T) : Prop :=
  ∀ (s : T) (l : List T), ∃ l' : List T, l'.Perm l ∧ device s l = l'.foldl op s

/-- All atomics of the device work. -/
structure WorkingDevice (d : AtomicDevice) : Prop where
  addInt : WorkingAtomic (· + ·) d.addInt
  addINT : WorkingAtomic (· + ·) d.addINT
  addREAL : WorkingAtomic (· + ·) d.addREAL
  minInt : WorkingAtomic min d.minInt
  minINT : WorkingAtomic min d.minINT
  minREAL : WorkingAtomic min d.minREAL
  maxInt : WorkingAtomic max d.maxInt
  maxINT : WorkingAtomic max d.maxINT
  maxREAL : WorkingAtomic max d.maxREAL

end NP.Spec
