import Verif.Basics.SpecParams
import Mathlib.Data.List.Induction

/-!
# Lemmas: parameters
-/

set_option autoImplicit false

namespace NP

theorem Params.run_append (s : Params) (a b : List ParCall) :
    s.run (a ++ b) = (s.run a).bind fun s' => s'.run b := by
  induction a generalizing s with
  | nil => rfl
  | cons c a ih =>
    simp only [List.cons_append, Params.run]
    cases s.step c with
    | none => rfl
    | some s' => simpa using ih s'

/-- The value of an object. -/
def Params.val (s : Params) (p : Nat) : Option Nat :=
  match s.heap[p]? with
  | some (.size v) => some v
  | _ => none

theorem Params.get_eq (s : Params) (name : String) :
    s.get name = (s.values name).bind fun p => (s.val p).bind fun v => some (p, v) := by
  unfold Params.get Params.val
  cases s.values name with
  | none => rfl
  | some p =>
    simp only [Option.bind_some]
    cases s.heap[p]? with
    | none => rfl
    | some o => cases o <;> rfl

theorem Params.run_inv (h : List ParCall) (s : Params) (hs : Params.empty.run h = some s) :
    s.heap.length = Spec.parMade h.reverse ∧ (∀ name, s.values name = Spec.lastParam name h.reverse) ∧
      (∀ p, s.val p = Spec.parValue p h.reverse) ∧ ∀ name p, s.values name = some p → p < s.heap.length := by
  induction h using List.reverseRecOn generalizing s with
  | nil =>
    simp only [Params.run, Option.some.injEq] at hs
    subst hs
    exact ⟨rfl, fun _ => rfl, fun _ => by simp [Params.val, Params.empty, Spec.parValue], fun _ _ h => by
      simp [Params.empty] at h⟩
  | append_singleton h c ih =>
    rw [Params.run_append] at hs
    obtain ⟨s0, h0, hs⟩ := Option.bind_eq_some_iff.mp hs
    obtain ⟨i1, i2, i3, i4⟩ := ih s0 h0
    simp only [Params.run, Option.bind_fun_some] at hs
    rw [List.reverse_append]
    simp only [List.reverse_cons, List.reverse_nil, List.nil_append, List.singleton_append]
    cases c with
    | make o =>
      simp only [Params.step, Params.make, Option.some.injEq] at hs
      subst hs
      refine ⟨by simp [Spec.parMade, i1], fun name => by simp [Spec.lastParam, i2], fun p => ?_, fun name p hp => ?_⟩
      · have hlt : ∀ q, q ≠ s0.heap.length → (s0.heap ++ [o])[q]? = s0.heap[q]? := by
          intro q hq
          rcases Nat.lt_or_gt_of_ne hq with h | h
          · exact List.getElem?_append_left h
          · rw [List.getElem?_eq_none (by simp; omega), List.getElem?_eq_none (by omega)]
        have := i3 p
        unfold Params.val at this ⊢
        cases o <;> simp only [Spec.parValue, ← i1] <;> split_ifs with hp <;>
          first
          | (subst hp; simp)
          | (simp only [hlt p hp]; exact this)
      · have := i4 name p hp
        simp only [List.length_append, List.length_singleton]
        omega
    | assign q v =>
      simp only [Params.step, Params.assign] at hs
      split at hs
      · rename_i w hw
        simp only [Option.some.injEq] at hs
        subst hs
        refine ⟨by simp [Spec.parMade, i1], fun name => by simp [Spec.lastParam, i2], fun p => ?_, fun name p hp => ?_⟩
        · have := i3 p
          have hq := (List.getElem?_eq_some_iff.mp hw).1
          unfold Params.val at this ⊢
          simp only [Spec.parValue]
          split_ifs with hp
          · subst hp
            simp [hq]
          · rw [List.getElem?_set_ne hp]
            exact this
        · simpa using i4 name p hp
      · cases hs
    | set n q =>
      cases q with
      | none => simp [Params.step, Params.set] at hs
      | some q =>
        simp only [Params.step, Params.set] at hs
        split_ifs at hs with hq
        simp only [Option.some.injEq] at hs
        subst hs
        refine ⟨by simp [Spec.parMade, i1], fun name => ?_, fun p => by simpa [Spec.parValue, Params.val] using i3 p,
          fun name p hp => ?_⟩
        · simp only [Spec.lastParam, i2, eq_comm]
        · simp only at hp
          split_ifs at hp
          · simp only [Option.some.injEq] at hp
            subst hp
            exact hq
          · exact i4 name p hp

/-- The names after the setup. -/
def targetNames (m : String) : Option Nat :=
  if m = "MAX_COMPUTE_UNITS" then some 2 else
  if m = "LOOP_NBIN" then some 1 else if m = "LOOP_LOCAL_SIZE" then some 0 else none

theorem targetParams_run (n b units : Nat) : ∃ s, Params.empty.run [.make (.size n), .set "LOOP_LOCAL_SIZE" (some 0),
      .make (.size b), .set "LOOP_NBIN" (some 1), .make (.size units), .set "MAX_COMPUTE_UNITS" (some 2)] = some s ∧
    s.get "LOOP_LOCAL_SIZE" = some (0, n) ∧ s.get "LOOP_NBIN" = some (1, b) ∧
    s.get "MAX_COMPUTE_UNITS" = some (2, units) ∧ s.contains hintName = false := by
  have v1 : targetNames "LOOP_LOCAL_SIZE" = some 0 := by decide +kernel
  have v2 : targetNames "LOOP_NBIN" = some 1 := by decide +kernel
  have v3 : targetNames "MAX_COMPUTE_UNITS" = some 2 := by decide +kernel
  have v4 : targetNames hintName = none := by decide +kernel
  refine ⟨⟨[.size n, .size b, .size units], targetNames⟩, rfl, ?_, ?_, ?_, ?_⟩
  · simp [Params.get, v1]
  · simp [Params.get, v2]
  · simp [Params.get, v3]
  · simp [Params.contains, v4]

theorem getEnvSize_setting {e : EnvVar} {d v : Nat} (h : Spec.Setting e d v) : getEnvSize e d = some v := by
  rcases h with ⟨rfl, rfl⟩ | ⟨rfl, h⟩
  · rfl
  · unfold getEnvSize
    simp only
    rw [if_pos ⟨by omega, by omega⟩]
    congr 1
    omega

end NP
