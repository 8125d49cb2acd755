import Verif.Containers.LemmasCas
import Mathlib.Data.Int.Order.Basic
import Mathlib.Tactic.IntervalCases

/-!
# C95: atomic minimum and maximum made of compare-and-exchange
-/

set_option autoImplicit false

namespace NP

/-- **C95.** However the exchanges of the calls are mixed, the calls that have returned returned what
they return, and left in memory what they leave there, if they are made one after the other without
interruption; in an order in which a call that returned before another one comes before it. -/
theorem C95_linear {T : Type} [LinearOrder T] (calls : List (CasCall T)) (m : T) (sched : List Nat)
    (s : CasSystem T) (h : casRun calls m sched = some s) :
    ∃ (order : List Nat) (results : List T), order.Nodup ∧ (∀ i, i ∈ order ↔ Spec.Returned s i) ∧
      Spec.OneByOne calls m order results s.mem ∧
      (∀ (k i : Nat), order[k]? = some i → ∃ r, results[k]? = some r ∧ s.calls[i]? = some (.done r)) ∧
      (∀ n : Nat, ∃ (s' : CasSystem T) (k : Nat), casRun calls m (sched.take n) = some s' ∧
        ∀ i, i ∈ order.take k ↔ Spec.Returned s' i) := by
  obtain ⟨order, inv, hpre⟩ := casInv_run sched s h
  obtain ⟨results, h1, h2⟩ := inv.seq
  refine ⟨order, results, inv.nodup, inv.ret, h1, h2, fun n => ?_⟩
  obtain ⟨s', k, -, h3, h4⟩ := hpre n
  exact ⟨s', k, h3, h4.ret⟩

/-- **C95, the work is bounded.** No call makes more exchanges than there are calls, plus one, however the
exchanges are mixed, and a call that has not returned can make its next exchange. -/
theorem C95_returns {T : Type} [LinearOrder T] (calls : List (CasCall T)) (m : T) (sched : List Nat)
    (s : CasSystem T) (h : casRun calls m sched = some s) :
    (∀ i : Nat, sched.count i ≤ calls.length + 1) ∧
    (∀ i < calls.length, Spec.Returned s i ∨ ∃ s', casRun calls m (sched ++ [i]) = some s') := by
  obtain ⟨order, inv, -⟩ := casInv_run sched s h
  refine ⟨inv.total, fun i hi => ?_⟩
  have hil : i < s.calls.length := by rw [inv.len]; exact hi
  cases hs : s.calls[i] with
  | done r => left; exact ⟨r, by rw [List.getElem?_eq_getElem hil, hs]⟩
  | running e =>
    right
    refine ⟨⟨(casStep s.mem e calls[i]).1, s.calls.set i (casStep s.mem e calls[i]).2⟩, ?_⟩
    unfold casRun at h ⊢
    rw [runItems_append_cas, h]
    simp only [Option.bind_some, runItems]
    unfold casExec
    rw [List.getElem?_eq_getElem hi, List.getElem?_eq_getElem hil, hs]
    rfl

/-- **C95, maximum.** Once all calls of `atomic_fetch_max` have returned the memory holds the largest of
what it held before and of the values of the calls. Every call returned what the memory held before or
the value of another call, not more than the final number. The values that the local variables start with
do not matter. -/
theorem C95_max {T : Type} [LinearOrder T] (values : List (T × T)) (m : T) (sched : List Nat)
    (s : CasSystem T) (h : casRun (values.map fun v => .fetchMax v.1 v.2) m sched = some s)
    (hall : ∀ i < values.length, Spec.Returned s i) :
    m ≤ s.mem ∧ (∀ v ∈ values, v.2 ≤ s.mem) ∧ (s.mem = m ∨ ∃ v ∈ values, s.mem = v.2) ∧
    ∀ (i : Nat) (r : T), s.calls[i]? = some (.done r) → m ≤ r ∧ r ≤ s.mem ∧
      (r = m ∨ ∃ (j : Nat) (w : T × T), j ≠ i ∧ values[j]? = some w ∧ r = w.2) :=
  cas_select values (fun v => .fetchMax v.1 v.2) m sched s h hall (· ≤ ·) max (fun x => le_refl x)
    (fun _ _ _ h1 h2 => le_trans h1 h2) le_max_left le_max_right (fun x y => max_choice x y)
    (fun _ _ => rfl)

/-- **C95, minimum.** Once all calls of `atomic_fetch_min` have returned the memory holds the smallest of
what it held before and of the values of the calls. Every call returned what the memory held before or
the value of another call, not less than the final number. -/
theorem C95_min {T : Type} [LinearOrder T] (values : List (T × T)) (m : T) (sched : List Nat)
    (s : CasSystem T) (h : casRun (values.map fun v => .fetchMin v.1 v.2) m sched = some s)
    (hall : ∀ i < values.length, Spec.Returned s i) :
    s.mem ≤ m ∧ (∀ v ∈ values, s.mem ≤ v.2) ∧ (s.mem = m ∨ ∃ v ∈ values, s.mem = v.2) ∧
    ∀ (i : Nat) (r : T), s.calls[i]? = some (.done r) → r ≤ m ∧ s.mem ≤ r ∧
      (r = m ∨ ∃ (j : Nat) (w : T × T), j ≠ i ∧ values[j]? = some w ∧ r = w.2) :=
  cas_select values (fun v => .fetchMin v.1 v.2) m sched s h hall (fun x y => y ≤ x) min (fun x => le_refl x)
    (fun _ _ _ h1 h2 => le_trans h2 h1) min_le_left min_le_right (fun x y => min_choice x y)
    (fun _ _ => rfl)

/-- **C95, a call alone.** A call that nothing interferes with makes at most two exchanges, leaves the result
of the operation in memory and returns what was there. -/
theorem C95_alone {T : Type} [LinearOrder T] (c : CasCall T) (m : T) :
    ∃ n ≤ 2, casRun [c] m (List.replicate n 0) = some ⟨Spec.fetchOp m c, [.done m]⟩ := by
  have key : ∀ e : T, (casStep m e c = (m, .running m) ∧ m ≠ e) ∨ casStep m e c = (Spec.fetchOp m c, .done m) :=
    fun e => casStep_cases m e c
  have run : ∀ e, casExec [c] 0 ⟨m, [.running e]⟩ = some ⟨(casStep m e c).1, [(casStep m e c).2]⟩ := by
    intro e; rfl
  obtain ⟨e, he⟩ : ∃ e, casStart m c = .running e := by cases c <;> exact ⟨_, rfl⟩
  rcases key e with ⟨h1, -⟩ | h1
  · refine ⟨2, le_refl _, ?_⟩
    have h2 : casStep m m c = (Spec.fetchOp m c, .done m) := (key m).resolve_left fun h => h.2 rfl
    simp [casRun, runItems, he, run, h1, h2]
  · refine ⟨1, by decide, ?_⟩
    simp [casRun, runItems, he, run, h1]

namespace Ex

/-- Two calls of `atomic_fetch_max` and one of `atomic_fetch_min`. -/
def casCalls : List (CasCall Int) := [.fetchMax (-100) 5, .fetchMax (-100) 7, .fetchMin 100 (-3)]

/-- Both maxima read 1; the larger is written first, which makes the other one return. Then the minimum
needs two exchanges. -/
example : casRun casCalls 1 [0, 1, 1, 0, 2, 2] = some ⟨-3, [.done 7, .done 1, .done 7]⟩ := by decide +kernel

/-- The first maximum fails once more because the second one is smaller and came first. -/
example : casRun [.fetchMax (-100) 5, .fetchMax (-100) 3] (1 : Int) [0, 1, 1, 0, 0] =
    some ⟨5, [.done 3, .done 1]⟩ := by decide +kernel

/-- The number of exchanges allowed by the bound is reached. -/
example : ([0, 1, 1, 0, 0] : List Nat).count 0 = 2 + 1 := by decide

example : ∀ i < 2, Spec.Returned (⟨5, [.done 3, .done 1]⟩ : CasSystem Int) i := by
  intro i hi
  interval_cases i
  · exact ⟨3, rfl⟩
  · exact ⟨1, rfl⟩

/-- The local variable may start above the values, as it does for negative numbers of type `double`, where
`numeric_limits<double>::min()` is positive. -/
example : casRun [.fetchMax 1 (-5), .fetchMax 1 (-7)] (-10 : Int) [0, 1, 1, 0, 0] =
    some ⟨-5, [.done (-7), .done (-10)]⟩ := by decide +kernel

end Ex

end NP
