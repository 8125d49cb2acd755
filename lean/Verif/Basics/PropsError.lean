import Verif.Basics.LemmasError

/-!
# C107: failed assertions in kernels are reported on the host
-/

set_option autoImplicit false

namespace NP
open NP.Spec

/-- **C107** For all histories, whatever the buffers held before: `check_and_throw` throws exactly if the number of
assertions that failed since the last reset (or construction) is not a multiple of `2 ^ 32`. -/
theorem C107_reported (garbage : ErrFlag) (ops : List ErrOp) :
    (ErrFlag.create garbage).run ops = none ↔
    ∃ pre post, ops = pre ++ .check :: post ∧ ¬ 2 ^ 32 ∣ failuresSince pre := by
  have := (errRun_spec ops [] (ErrFlag.create garbage) (by simp [ErrFlag.create, ErrFlag.reset, failuresSince, wrapInt])).1
  simpa using this

/-- **C107** So with fewer than `2 ^ 32` failures between resets, a check throws exactly if some assertion failed. -/
theorem C107_below (garbage s : ErrFlag) (ops : List ErrOp) (h : (ErrFlag.create garbage).run ops = some s)
    (hn : failuresSince ops < 2 ^ 32) : s.check = none ↔ 0 < failuresSince ops := by
  have hd := (errRun_spec ops [] (ErrFlag.create garbage)
    (by simp [ErrFlag.create, ErrFlag.reset, failuresSince, wrapInt])).2 s h
  have := (errStep_device ops s .check (by simpa using hd)).1
  simp only [ErrFlag.step, true_and] at this
  rw [this]
  omega

/-- **C107** With fewer than `2 ^ 31` failures `get_flag` is their number. -/
theorem C107_flag (garbage s : ErrFlag) (ops : List ErrOp) (h : (ErrFlag.create garbage).run ops = some s)
    (hn : failuresSince ops < 2 ^ 31) : s.getFlag.1 = failuresSince ops := by
  have hd := (errRun_spec ops [] (ErrFlag.create garbage)
    (by simp [ErrFlag.create, ErrFlag.reset, failuresSince, wrapInt])).2 s h
  simp only [List.nil_append] at hd
  simp only [ErrFlag.getFlag, hd, wrapInt]
  omega

/-- **C107** The order in which the device executes the assertions of the work items makes no difference. -/
theorem C107_order (garbage s : ErrFlag) (ops : List ErrOp) (h : (ErrFlag.create garbage).run ops = some s)
    (items : List (List Bool)) (order : List Bool) (ho : order.Perm items.flatten) :
    (s.kernel order).device = (s.kernel items.flatten).device := by
  have hd := (errRun_spec ops [] (ErrFlag.create garbage)
    (by simp [ErrFlag.create, ErrFlag.reset, failuresSince, wrapInt])).2 s h
  rw [errKernel_device order s _ hd, errKernel_device items.flatten s _ hd, ho.count_eq]

/-- The bound is needed: if a multiple of `2 ^ 32` assertions fail, nothing is thrown. -/
theorem C107_wraps (garbage : ErrFlag) (n : Nat) (hn : 2 ^ 32 ∣ n) :
    failuresSince [.kernel (List.replicate n false)] = n ∧
    (ErrFlag.create garbage).run [.kernel (List.replicate n false), .check] ≠ none := by
  refine ⟨failuresSince_replicate n, ?_⟩
  rw [Ne, C107_reported]
  rintro ⟨pre, post, e, hd⟩
  match pre with
  | [] => simp at e
  | [p] =>
    simp only [List.cons_append, List.nil_append, List.cons.injEq] at e
    rw [← e.1, failuresSince_replicate] at hd
    exact hd hn
  | p :: q :: r =>
    have := congrArg List.length e
    simp at this

namespace Ex

/-- Failures before a reset are forgotten, later ones are found, and stay until the next reset. -/
example : ((ErrFlag.create ⟨5, -3⟩).run [.kernel [true, false], .reset, .check, .kernel [true], .check]).isSome ∧
    ((ErrFlag.create ⟨5, -3⟩).run [.kernel [true, false, true], .kernel [true], .check]).isNone ∧
    ((ErrFlag.create ⟨5, -3⟩).run [.kernel [true, false, false], .flag]).map (·.host) = some 2 := by decide +kernel

example : failuresSince [.kernel [false], .reset, .kernel [true, false], .flag, .kernel [false]] = 2 := by decide +kernel

/-- The hypotheses of `C107_below`, `C107_flag` and `C107_order`. -/
example : ∃ s, (ErrFlag.create ⟨5, -3⟩).run [.check, .kernel [true, false]] = some s ∧
    failuresSince [.check, .kernel [true, false]] = 1 := ⟨_, rfl, by decide +kernel⟩

/-- The hypothesis of `C107_wraps`, for failures that did happen. -/
example : ∃ n, 0 < n ∧ 2 ^ 32 ∣ n := ⟨2 ^ 32, by omega, dvd_refl _⟩

example : [false, true, true].Perm ([[true], [true, false]] : List (List Bool)).flatten := by decide +kernel

end Ex

end NP
