import Verif.Basics.LemmasParams

/-!
# C111: parameters of the compute target
-/

set_option autoImplicit false

namespace NP

/-- **C111** After any history of calls, `get` returns the pointer of the most recent `set` with the same name, whose value is the
one most recently assigned to it through any pointer; it fails if there is none or if it is of another type. `contains` tells if
there was a `set`. -/
theorem C111_get (h : List ParCall) (s : Params) (hs : Params.empty.run h = some s) (name : String) :
    s.get name = ((Spec.lastParam name h.reverse).bind fun p => (Spec.parValue p h.reverse).bind fun v => some (p, v)) ∧
    (s.contains name = true ↔ ∃ p, Spec.lastParam name h.reverse = some p) := by
  obtain ⟨-, i2, i3, -⟩ := Params.run_inv h s hs
  refine ⟨by rw [Params.get_eq]; simp only [i2, i3], ?_⟩
  rw [Params.contains, i2, Option.isSome_iff_exists]

/-- **C111** A `set` fails exactly for the null pointer and leaves all other names as they are. -/
theorem C111_set (h : List ParCall) (s : Params) (hs : Params.empty.run h = some s) (name : String) :
    s.set name none = none ∧
    ∀ p, p < Spec.parMade h.reverse → ∃ s', s.set name (some p) = some s' ∧ ∀ n, n ≠ name → s'.get n = s.get n := by
  obtain ⟨i1, -, -, -⟩ := Params.run_inv h s hs
  refine ⟨rfl, fun p hp => ⟨_, if_pos (by omega), fun n hn => ?_⟩⟩
  simp [Params.get, hn]

/-- **C111** A new compute target (with `gpu_device == 0`, see `C111_store`) has the sizes of its loops from the environment, or else the defaults. It cannot be made exactly if
one of the variables is not a number. -/
theorem C111_target (cpu : Bool) (eLocal eBin : EnvVar) (units : Nat) :
    (∀ n b, Spec.Setting eLocal (if cpu then 32 else 256) n → Spec.Setting eBin 4 b →
      ∃ s, targetParams cpu eLocal eBin units = some s ∧ (∃ p, s.get "LOOP_LOCAL_SIZE" = some (p, n)) ∧
        (∃ p, s.get "LOOP_NBIN" = some (p, b)) ∧ (∃ p, s.get "MAX_COMPUTE_UNITS" = some (p, units)) ∧
        s.contains hintName = false) ∧
    (targetParams cpu eLocal eBin units = none ↔ eLocal = .other ∨ eBin = .other) := by
  have hrun := fun n b => targetParams_run n b units
  have hloc : ∀ n, Spec.Setting eLocal (if cpu then 32 else 256) n → targetLocalSize cpu eLocal = some n := by
    intro n hn
    cases cpu <;> exact getEnvSize_setting hn
  constructor
  · intro n b hn hb
    obtain ⟨s, s1, s2, s3, s4, s5⟩ := hrun n b
    exact ⟨s, by simp [targetParams, hloc n hn, getEnvSize_setting hb, s1], ⟨_, s2⟩, ⟨_, s3⟩, ⟨_, s4⟩, s5⟩
  · have henv : ∀ e d, getEnvSize e d = none ↔ e = .other := by
      intro e d
      cases e with
      | unset => simp [getEnvSize]
      | number v => unfold getEnvSize; simp only; split_ifs <;> simp
      | other => simp [getEnvSize]
    have hl : targetLocalSize cpu eLocal = none ↔ eLocal = .other := by
      cases cpu <;> exact henv _ _
    unfold targetParams
    rw [← hl, ← henv eBin 4]
    cases targetLocalSize cpu eLocal with
    | none => simp
    | some n =>
      cases getEnvSize eBin 4 with
      | none => simp
      | some b =>
        obtain ⟨s, s1, -⟩ := hrun n b
        simp [s1]

/-- **C111** (finding) A target has a store of parameters exactly if it was made with `gpu_device == 0`: if a GPU or a CPU is asked for,
the member is the null pointer, which all loops dereference. -/
theorem C111_store (gpuDevice : Int) (cpu : Bool) (eLocal eBin : EnvVar) (units : Nat) :
    (gpuDevice = 0 → targetStore gpuDevice cpu eLocal eBin units = (targetParams cpu eLocal eBin units).map some) ∧
    (gpuDevice ≠ 0 → targetStore gpuDevice cpu eLocal eBin units = some none) := by
  constructor
  · rintro rfl
    rfl
  · intro h
    unfold targetStore
    split_ifs with h1 h2
    · rfl
    · rfl
    · omega

/-- **C111** (finding) Negative numbers are not rejected: minus one gives loops work groups of `2 ^ 64 - 1` items. -/
theorem C111_negative (cpu : Bool) (units : Nat) :
    ∃ s p, targetParams cpu (.number (-1)) .unset units = some s ∧ s.get "LOOP_LOCAL_SIZE" = some (p, 2 ^ 64 - 1) := by
  have : targetLocalSize cpu (.number (-1)) = some (2 ^ 64 - 1) := by cases cpu <;> decide +kernel
  obtain ⟨s, h1, h2, -⟩ := targetParams_run (2 ^ 64 - 1) 4 units
  exact ⟨s, 0, by simp only [targetParams, this, getEnvSize, Option.bind_some, h1], h2⟩

/-- **C111** The first group on a compute target whose hint is not set takes it from the environment, or else zero. Every later group
has the same hint, whatever the environment is by then. Other parameters are as before. -/
theorem C111_hint (h : List ParCall) (s : Params) (hs : Params.empty.run h = some s) (e : EnvVar) (v : Nat)
    (he : Spec.Setting e 0 v) (hc : s.contains hintName = false) :
    ∃ s', s.cellHint e = some (s', v) ∧ (∀ e', s'.cellHint e' = some (s', v)) ∧
      ∀ n, n ≠ hintName → s'.get n = s.get n := by
  obtain ⟨-, -, -, i4⟩ := Params.run_inv h s hs
  let s' : Params := ⟨s.heap ++ [.size v], fun n => if n = hintName then some s.heap.length else s.values n⟩
  have hrun : s.run [.make (.size 0), .assign s.heap.length v, .set hintName (some s.heap.length)] = some s' := by
    simp [Params.run, Params.step, Params.make, Params.assign, Params.set, s']
  have hget : s'.get hintName = some (s.heap.length, v) := by simp [Params.get, s']
  have hcon : s'.contains hintName = true := by simp [Params.contains, s']
  refine ⟨s', ?_, fun e' => ?_, fun n hn => ?_⟩
  · simp [Params.cellHint, hc, getEnvSize_setting he, hrun, hget]
  · simp [Params.cellHint, hcon, hget]
  · simp only [Params.get, s', if_neg hn]
    cases hv : s.values n with
    | none => rfl
    | some p =>
      simp only [Option.bind_some]
      rw [List.getElem?_append_left (i4 n p hv)]

/-- **C111** A hint that the user has set is used by all groups, and not changed. -/
theorem C111_hint_set (s : Params) (p v : Nat) (hg : s.get hintName = some (p, v)) (e : EnvVar) :
    s.cellHint e = some (s, v) := by
  have hc : s.contains hintName = true := by
    unfold Params.get at hg
    unfold Params.contains
    cases h : s.values hintName with
    | none => simp [h] at hg
    | some _ => rfl
  simp [Params.cellHint, hc, hg]

namespace Ex

/-- A value that is assigned after `set` is seen, a name that is set again has the new object, and another type is not returned. -/
example : ((Params.empty.run [.make (.size 3), .set "a" (some 0), .set "b" (some 0), .assign 0 5, .make .other,
    .set "c" (some 1), .make (.size 8), .set "b" (some 2)]).map fun s => (s.get "a", s.get "b", s.get "c", s.get "d")) =
    some (some (0, 5), some (2, 8), none, none) := by
  decide +kernel

/-- A target on a GPU with bins from the environment, and the hint of its groups. -/
example : (((targetParams false .unset (.number 8) 64).bind fun s => s.cellHint (.number 100)).map fun r =>
    (r.1.get "LOOP_LOCAL_SIZE", r.1.get "LOOP_NBIN", r.1.get hintName, r.2)) =
    some (some (0, 256), some (1, 8), some (3, 100), 100) := by
  decide +kernel

/-- The hypotheses. -/
example : Spec.Setting .unset 256 256 ∧ Spec.Setting (.number 8) 4 8 := ⟨.inl ⟨rfl, rfl⟩, .inr ⟨rfl, by decide⟩⟩

end Ex

end NP
