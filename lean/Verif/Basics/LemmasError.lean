import Verif.Basics.SpecError
import Mathlib.Tactic.Ring

/-!
# Lemmas on errors in kernels
-/

set_option autoImplicit false

namespace NP
open NP.Spec

theorem wrapInt_add (x : Int) (k : Nat) : wrapInt (wrapInt x + k) = wrapInt (x + k) := by
  unfold wrapInt; omega

theorem wrapInt_eq_zero (n : Nat) : wrapInt n = 0 ↔ 2 ^ 32 ∣ n := by
  unfold wrapInt; omega

theorem errKernel_device (a : List Bool) (s : ErrFlag) (x : Int) (h : s.device = wrapInt x) :
    (s.kernel a).device = wrapInt (x + (a.count false : Nat)) := by
  induction a generalizing s x with
  | nil => simpa [ErrFlag.kernel] using h
  | cons b a ih =>
    change ((s.kernelAssert b).kernel a).device = _
    cases b
    · rw [ih (s.kernelAssert false) (x + 1) ?_]
      · simp only [List.count_cons_self, Nat.cast_add, Nat.cast_one]
        congr 1; ring
      · have := wrapInt_add x 1
        simpa [ErrFlag.kernelAssert, h] using this
    · rw [ih (s.kernelAssert true) x (by simpa [ErrFlag.kernelAssert] using h)]
      simp

theorem failuresSince_append (ops : List ErrOp) (o : ErrOp) :
    failuresSince (ops ++ [o]) = if isReset o then 0 else opFailures o + failuresSince ops := by
  unfold failuresSince
  rw [List.reverse_append, List.reverse_singleton, List.singleton_append, List.takeWhile_cons]
  cases h : isReset o <;> simp

theorem errStep_device (ops : List ErrOp) (s : ErrFlag) (o : ErrOp) (h : s.device = wrapInt (failuresSince ops)) :
    (s.step o = none ↔ o = .check ∧ ¬ 2 ^ 32 ∣ failuresSince ops) ∧
    ∀ s', s.step o = some s' → s'.device = wrapInt (failuresSince (ops ++ [o])) := by
  rw [failuresSince_append]
  cases o with
  | reset => simp [ErrFlag.step, isReset, ErrFlag.reset, wrapInt]
  | flag => simp [ErrFlag.step, isReset, opFailures, ErrFlag.getFlag, h]
  | check =>
    have := wrapInt_eq_zero (failuresSince ops)
    simp only [ErrFlag.step, ErrFlag.check, ErrFlag.getFlag, h, isReset, opFailures]
    by_cases hz : wrapInt (failuresSince ops) = 0
    · simp only [hz]; simpa [hz] using this.mp hz
    · simp only [hz]; simpa using mt this.mpr hz
  | kernel a =>
    have := errKernel_device a s _ h
    simp only [ErrFlag.step, isReset, opFailures]
    refine ⟨by simp, ?_⟩
    rintro s' hs
    rw [Option.some.injEq] at hs
    subst hs
    rw [this]
    simp [add_comm]

theorem errRun_spec (ops done : List ErrOp) (s : ErrFlag) (h : s.device = wrapInt (failuresSince done)) :
    (s.run ops = none ↔ ∃ pre post, ops = pre ++ .check :: post ∧ ¬ 2 ^ 32 ∣ failuresSince (done ++ pre)) ∧
    ∀ s', s.run ops = some s' → s'.device = wrapInt (failuresSince (done ++ ops)) := by
  induction ops generalizing s done with
  | nil => simpa [ErrFlag.run] using h
  | cons o os ih =>
    obtain ⟨h1, h2⟩ := errStep_device done s o h
    unfold ErrFlag.run
    cases hs : s.step o with
    | none =>
      obtain ⟨ho, hd⟩ := h1.mp hs
      refine ⟨iff_of_true rfl ⟨[], os, by simp [ho], by simpa using hd⟩, by simp⟩
    | some t =>
      obtain ⟨i1, i2⟩ := ih (done ++ [o]) t (h2 t hs)
      simp only [Option.bind_some]
      refine ⟨i1.trans ⟨?_, ?_⟩, fun s' h' => by simpa using i2 s' h'⟩
      · rintro ⟨pre, post, e, hd⟩
        exact ⟨o :: pre, post, by simp [e], by simpa using hd⟩
      · rintro ⟨pre, post, e, hd⟩
        cases pre with
        | nil =>
          simp only [List.nil_append, List.cons.injEq] at e
          exact absurd (h1.mpr ⟨e.1, by simpa using hd⟩) (by simp [hs])
        | cons p pre =>
          simp only [List.cons_append, List.cons.injEq] at e
          exact ⟨pre, post, e.2, by simpa [e.1] using hd⟩

theorem failuresSince_replicate (n : Nat) : failuresSince [.kernel (List.replicate n false)] = n := by
  simp [failuresSince, isReset, opFailures]

end NP
