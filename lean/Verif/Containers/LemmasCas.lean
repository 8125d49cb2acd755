import Verif.Containers.SpecCas
import Mathlib.Tactic.SplitIfs
import Mathlib.Data.List.Basic
import Mathlib.Data.List.Count
import Mathlib.Data.Finset.Card
import Mathlib.Data.Finset.Range

/-!
# Lemmas: atomic minimum and maximum made of compare-and-exchange
-/

set_option autoImplicit false

namespace NP

theorem runItems_append_cas {ι σ : Type} (step : ι → σ → Option σ) (a b : List ι) (s : σ) :
    runItems step (a ++ b) s = (runItems step a s).bind (runItems step b) := by
  induction a generalizing s with
  | nil => rfl
  | cons i a ih =>
    simp only [List.cons_append, runItems]
    cases step i s with
    | none => rfl
    | some s' => exact ih s'

theorem syclMax_eq {T : Type} [LinearOrder T] (x y : T) : syclMax x y = max y x := by
  unfold syclMax
  split
  · rename_i h; exact (max_eq_left (le_of_lt h)).symm
  · rename_i h; exact (max_eq_right (not_lt.mp h)).symm

theorem syclMin_eq {T : Type} [LinearOrder T] (x y : T) : syclMin x y = min y x := by
  unfold syclMin
  split
  · rename_i h; exact (min_eq_left (le_of_lt h)).symm
  · rename_i h; exact (min_eq_right (not_lt.mp h)).symm

/-- A pass of the loop either leaves the memory, with the call going on and knowing the memory that differs
from what it expected, or does the whole operation. -/
theorem casStep_cases {T : Type} [LinearOrder T] (mem expected : T) (c : CasCall T) :
    (casStep mem expected c = (mem, .running mem) ∧ mem ≠ expected) ∨
    casStep mem expected c = (Spec.fetchOp mem c, .done mem) := by
  cases c with
  | fetchMax start value =>
    simp only [casStep, Spec.fetchOp, syclMax_eq]
    split
    · rename_i h; subst h; right; rfl
    · rename_i h
      split
      · left; exact ⟨rfl, h⟩
      · rename_i h2; right; rw [max_eq_left (not_lt.mp h2)]
  | fetchMin start value =>
    simp only [casStep, Spec.fetchOp, syclMin_eq]
    split
    · rename_i h; subst h; right; rfl
    · rename_i h
      split
      · left; exact ⟨rfl, h⟩
      · rename_i h2; right; rw [min_eq_left (not_lt.mp h2)]
  | native f => right; rfl

/-- What one exchange does. -/
theorem casExec_cases {T : Type} [LinearOrder T] {calls : List (CasCall T)} {i : Nat} {s s' : CasSystem T}
    (h : casExec calls i s = some s') :
    ∃ c e, calls[i]? = some c ∧ s.calls[i]? = some (.running e) ∧
      ((s' = ⟨s.mem, s.calls.set i (.running s.mem)⟩ ∧ s.mem ≠ e) ∨
        s' = ⟨Spec.fetchOp s.mem c, s.calls.set i (.done s.mem)⟩) := by
  unfold casExec at h
  cases hc : calls[i]? with
  | none => simp [hc] at h
  | some c =>
    cases hs : s.calls[i]? with
    | none => simp [hc, hs] at h
    | some st =>
      cases st with
      | done r => simp [hc, hs] at h
      | running e =>
        simp only [hc, hs, Option.bind_some, Option.some.injEq] at h
        refine ⟨c, e, rfl, rfl, ?_⟩
        rcases casStep_cases s.mem e c with ⟨h1, h2⟩ | h1
        · left; rw [h1] at h; exact ⟨h.symm, h2⟩
        · right; rw [h1] at h; exact h.symm

theorem oneByOne_snoc {T : Type} [LinearOrder T] {calls : List (CasCall T)} {m m' : T} {order : List Nat}
    {results : List T} (h : Spec.OneByOne calls m order results m') {i : Nat} {c : CasCall T}
    (hc : calls[i]? = some c) :
    Spec.OneByOne calls m (order ++ [i]) (results ++ [m']) (Spec.fetchOp m' c) := by
  induction h with
  | nil m => exact .cons m i c [] [] _ hc (.nil _)
  | cons m j d order results m' hd _ ih => exact .cons m j d _ _ _ hd ih

theorem oneByOne_length {T : Type} [LinearOrder T] {calls : List (CasCall T)} {m m' : T} {order : List Nat}
    {results : List T} (h : Spec.OneByOne calls m order results m') : order.length = results.length := by
  induction h with
  | nil m => rfl
  | cons m j d order results m' hd _ ih => simp [ih]

/-- The state after the exchanges `sched`, in terms of the calls that have returned. -/
structure CasInv {T : Type} [LinearOrder T] (calls : List (CasCall T)) (m : T) (sched order : List Nat)
    (s : CasSystem T) : Prop where
  len : s.calls.length = calls.length
  nodup : order.Nodup
  ret : ∀ i, i ∈ order ↔ Spec.Returned s i
  seq : ∃ results, Spec.OneByOne calls m order results s.mem ∧
    ∀ (k i : Nat), order[k]? = some i → ∃ r, results[k]? = some r ∧ s.calls[i]? = some (.done r)
  count : ∀ (i : Nat) (e : T), s.calls[i]? = some (.running e) →
    sched.count i ≤ order.length + 1 ∧ (s.mem ≠ e → sched.count i ≤ order.length)
  total : ∀ i : Nat, sched.count i ≤ calls.length + 1

theorem nodup_bound {n : Nat} {order : List Nat} (h : order.Nodup) (hlt : ∀ i ∈ order, i < n) :
    order.length ≤ n := by
  have h1 : order.toFinset ⊆ Finset.range n := by
    intro i hi; simpa using hlt i (by simpa using hi)
  have h2 := Finset.card_le_card h1
  rwa [List.toFinset_card_of_nodup h, Finset.card_range] at h2

theorem casInv_init {T : Type} [LinearOrder T] (calls : List (CasCall T)) (m : T) :
    CasInv calls m [] [] ⟨m, calls.map (casStart m)⟩ := by
  refine ⟨by simp, List.nodup_nil, ?_, ⟨[], .nil m, by simp⟩, by simp, by simp⟩
  intro i
  simp only [List.not_mem_nil, false_iff]
  rintro ⟨r, hr⟩
  simp only [List.getElem?_map] at hr
  cases hc : calls[i]? with
  | none => simp [hc] at hr
  | some c => cases c <;> simp [hc, casStart] at hr

theorem casInv_step {T : Type} [LinearOrder T] {calls : List (CasCall T)} {m : T} {sched order : List Nat}
    {s s' : CasSystem T} (inv : CasInv calls m sched order s) {i : Nat}
    (h : casExec calls i s = some s') :
    ∃ more, CasInv calls m (sched ++ [i]) (order ++ more) s' := by
  obtain ⟨c, e, hc, hi, hcase⟩ := casExec_cases h
  have hil : i < s.calls.length := (List.getElem?_eq_some_iff.mp hi).1
  have hnot : i ∉ order := by
    rw [inv.ret]; rintro ⟨r, hr⟩; rw [hi] at hr; simp at hr
  have hlt : ∀ j ∈ order, j < calls.length := by
    intro j hj
    obtain ⟨r, hr⟩ := (inv.ret j).mp hj
    have := (List.getElem?_eq_some_iff.mp hr).1
    rw [inv.len] at this; exact this
  have hbound : order.length + 1 ≤ calls.length := by
    have : (i :: order).length ≤ calls.length := by
      refine nodup_bound (List.nodup_cons.mpr ⟨hnot, inv.nodup⟩) ?_
      intro j hj
      rcases List.mem_cons.mp hj with rfl | hj
      · rw [← inv.len]; exact hil
      · exact hlt j hj
    simpa using this
  have hci := inv.count i e hi
  have htot : ∀ j : Nat, (sched ++ [i]).count j ≤ calls.length + 1 := by
    intro j
    rw [List.count_append]
    by_cases hji : j = i
    · subst hji; simp only [List.count_singleton_self]; omega
    · have : List.count j [i] = 0 := List.count_eq_zero.mpr (by simpa using hji)
      have := inv.total j; omega
  obtain ⟨results, hseq, hres⟩ := inv.seq
  rcases hcase with ⟨rfl, hne⟩ | rfl
  · refine ⟨[], by simpa using inv.len, by simpa using inv.nodup, ?_, ⟨results, by simpa using hseq, ?_⟩, ?_, htot⟩
    · intro j
      rw [List.append_nil, inv.ret]
      unfold Spec.Returned
      by_cases hji : i = j
      · subst hji; rw [hi]; simp [hil]
      · simp [List.getElem?_set_ne hji]
    · intro k j hk
      rw [List.append_nil] at hk
      obtain ⟨r, h1, h2⟩ := hres k j hk
      refine ⟨r, h1, ?_⟩
      have hji : i ≠ j := by rintro rfl; rw [hi] at h2; simp at h2
      simpa [List.getElem?_set_ne hji] using h2
    · intro j e' hj
      rw [List.count_append, List.append_nil]
      by_cases hji : i = j
      · subst hji
        simp [hil] at hj
        subst hj
        have := hci.2 hne
        simp only [List.count_singleton_self]
        exact ⟨by omega, fun h => absurd rfl h⟩
      · rw [List.getElem?_set_ne hji] at hj
        have : List.count j [i] = 0 := List.count_eq_zero.mpr (by simpa using fun h => hji h.symm)
        have := inv.count j e' hj
        exact ⟨by omega, fun h => by have := this.2 h; omega⟩
  · refine ⟨[i], by simpa using inv.len, ?_, ?_, ⟨results ++ [s.mem], oneByOne_snoc hseq hc, ?_⟩, ?_, htot⟩
    · rw [List.nodup_append]
      refine ⟨inv.nodup, by simp, ?_⟩
      intro a ha b hb
      simp only [List.mem_singleton] at hb
      subst hb; rintro rfl; exact hnot ha
    · intro j
      rw [List.mem_append, inv.ret]
      unfold Spec.Returned
      by_cases hji : i = j
      · subst hji; simp [hil]
      · have hji' : ¬ j = i := fun h => hji h.symm
        simp [List.getElem?_set_ne hji, hji']
    · intro k j hk
      have hlen := oneByOne_length hseq
      by_cases hkl : k < order.length
      · rw [List.getElem?_append_left hkl] at hk
        obtain ⟨r, h1, h2⟩ := hres k j hk
        refine ⟨r, by rw [List.getElem?_append_left (by omega)]; exact h1, ?_⟩
        have hji : i ≠ j := by rintro rfl; rw [hi] at h2; simp at h2
        simpa [List.getElem?_set_ne hji] using h2
      · have hk0 : k = order.length := by
          have := (List.getElem?_eq_some_iff.mp hk).1
          simp only [List.length_append, List.length_singleton] at this; omega
        subst hk0
        simp at hk
        subst hk
        refine ⟨s.mem, ?_, by simp [hil]⟩
        rw [hlen]; simp
    · intro j e' hj
      rw [List.count_append, List.length_append, List.length_singleton]
      by_cases hji : i = j
      · subst hji; simp [hil] at hj
      · rw [List.getElem?_set_ne hji] at hj
        have : List.count j [i] = 0 := List.count_eq_zero.mpr (by simpa using fun h => hji h.symm)
        have := (inv.count j e' hj).1
        exact ⟨by omega, fun _ => by omega⟩

theorem casInv_run {T : Type} [LinearOrder T] {calls : List (CasCall T)} {m : T} (sched : List Nat) :
    ∀ s : CasSystem T, casRun calls m sched = some s → ∃ order, CasInv calls m sched order s ∧
      ∀ n : Nat, ∃ (s' : CasSystem T) (k : Nat), k ≤ order.length ∧
        casRun calls m (sched.take n) = some s' ∧ CasInv calls m (sched.take n) (order.take k) s' := by
  induction sched using List.reverseRecOn with
  | nil =>
    intro s h
    have hs : s = ⟨m, calls.map (casStart m)⟩ := by
      simpa [casRun, runItems, eq_comm] using h
    subst hs
    refine ⟨[], casInv_init calls m, fun n => ⟨_, 0, le_refl _, by simp; exact h, ?_⟩⟩
    simpa using casInv_init calls m
  | append_singleton sched i ih =>
    intro s h
    have h' := h
    unfold casRun at h'
    rw [runItems_append_cas, Option.bind_eq_some_iff] at h'
    obtain ⟨s1, h1, h2⟩ := h'
    have h2' : casExec calls i s1 = some s := by
      simp only [runItems, Option.bind_eq_some_iff, Option.some.injEq] at h2
      obtain ⟨s2, h3, h4⟩ := h2
      rw [h3, h4]
    obtain ⟨order, inv, hpre⟩ := ih s1 h1
    obtain ⟨more, inv'⟩ := casInv_step inv h2'
    refine ⟨order ++ more, inv', ?_⟩
    intro n
    by_cases hn : n ≤ sched.length
    · obtain ⟨s', k, hk, h3, h4⟩ := hpre n
      refine ⟨s', k, by rw [List.length_append]; omega, ?_, ?_⟩
      · rw [List.take_append_of_le_length hn]; exact h3
      · rw [List.take_append_of_le_length hn, List.take_append_of_le_length hk]; exact h4
    · have ht : (sched ++ [i]).take n = sched ++ [i] := List.take_of_length_le (by simp; omega)
      refine ⟨s, (order ++ more).length, le_refl _, by rw [ht]; exact h, ?_⟩
      rw [ht, List.take_length]; exact inv'

/-- Calls made one after the other that each replace the number in memory by the larger, in the sense of
`R`, of it and the value of the call. -/
theorem oneByOne_select {T : Type} [LinearOrder T] {calls : List (CasCall T)} {m m' : T} {order : List Nat}
    {results : List T} (h : Spec.OneByOne calls m order results m') (R : T → T → Prop) (op : T → T → T)
    (val : Nat → T) (hrefl : ∀ x, R x x) (htrans : ∀ x y z, R x y → R y z → R x z)
    (hl : ∀ x y, R x (op x y)) (hr : ∀ x y, R y (op x y)) (hsel : ∀ x y, op x y = x ∨ op x y = y)
    (hcalls : ∀ (i : Nat) (c : CasCall T), calls[i]? = some c → ∀ x, Spec.fetchOp x c = op x (val i)) :
    R m m' ∧ (∀ i ∈ order, R (val i) m') ∧ (m' = m ∨ ∃ i ∈ order, m' = val i) ∧
    ∀ (k : Nat) (r : T), results[k]? = some r → R m r ∧ R r m' ∧
      (r = m ∨ ∃ k' i : Nat, k' < k ∧ order[k']? = some i ∧ r = val i) := by
  induction h with
  | nil m => exact ⟨hrefl m, by simp, Or.inl rfl, by simp⟩
  | cons m i c order results m' hc _ ih =>
    obtain ⟨h1, h2, h3, h4⟩ := ih
    rw [hcalls i c hc m] at h1 h3 h4
    have hm : R m m' := htrans _ _ _ (hl m (val i)) h1
    refine ⟨hm, ?_, ?_, ?_⟩
    · intro j hj
      rcases List.mem_cons.mp hj with rfl | hj
      · exact htrans _ _ _ (hr m (val j)) h1
      · exact h2 j hj
    · rcases h3 with h3 | ⟨j, hj, h3⟩
      · rcases hsel m (val i) with h5 | h5
        · left; rw [h3, h5]
        · right; exact ⟨i, List.mem_cons_self, by rw [h3, h5]⟩
      · right; exact ⟨j, List.mem_cons_of_mem _ hj, h3⟩
    · intro k r hk
      cases k with
      | zero =>
        simp only [List.getElem?_cons_zero, Option.some.injEq] at hk
        subst hk
        exact ⟨hrefl _, hm, Or.inl rfl⟩
      | succ k =>
        simp only [List.getElem?_cons_succ] at hk
        obtain ⟨h5, h6, h7⟩ := h4 k r hk
        refine ⟨htrans _ _ _ (hl m (val i)) h5, h6, ?_⟩
        rcases h7 with h7 | ⟨k', j, hk', hj, h7⟩
        · rcases hsel m (val i) with h8 | h8
          · left; rw [h7, h8]
          · right; exact ⟨0, i, by omega, by simp, by rw [h7, h8]⟩
        · right; exact ⟨k' + 1, j, by omega, by simpa using hj, h7⟩

/-- All calls have returned and each of them replaces the number in memory by the larger, in the sense of
`R`, of it and the value of the call. -/
theorem cas_select {T : Type} [LinearOrder T] (values : List (T × T)) (mk : T × T → CasCall T) (m : T)
    (sched : List Nat) (s : CasSystem T) (h : casRun (values.map mk) m sched = some s)
    (hall : ∀ i < values.length, Spec.Returned s i)
    (R : T → T → Prop) (op : T → T → T) (hrefl : ∀ x, R x x) (htrans : ∀ x y z, R x y → R y z → R x z)
    (hl : ∀ x y, R x (op x y)) (hr : ∀ x y, R y (op x y)) (hsel : ∀ x y, op x y = x ∨ op x y = y)
    (hmk : ∀ v x, Spec.fetchOp x (mk v) = op x v.2) :
    R m s.mem ∧ (∀ v ∈ values, R v.2 s.mem) ∧ (s.mem = m ∨ ∃ v ∈ values, s.mem = v.2) ∧
    ∀ (i : Nat) (r : T), s.calls[i]? = some (.done r) →
      R m r ∧ R r s.mem ∧
      (r = m ∨ ∃ (j : Nat) (w : T × T), j ≠ i ∧ values[j]? = some w ∧ r = w.2) := by
  obtain ⟨order, inv, -⟩ := casInv_run sched s h
  obtain ⟨results, hseq, hres⟩ := inv.seq
  have hlt : ∀ i ∈ order, i < values.length := by
    intro i hi
    obtain ⟨r, hr⟩ := (inv.ret i).mp hi
    have h1 := (List.getElem?_eq_some_iff.mp hr).1
    have h2 := inv.len
    rw [List.length_map] at h2
    omega
  let val : Nat → T := fun i => ((values[i]?).map Prod.snd).getD m
  have hval : ∀ (i : Nat) (v : T × T), values[i]? = some v → val i = v.2 := by
    intro i v hv; simp [val, hv]
  obtain ⟨h1, h2, h3, h4⟩ := oneByOne_select hseq R op val hrefl htrans hl hr hsel (by
    intro i c hc x
    rw [List.getElem?_map] at hc
    cases hv : values[i]? with
    | none => rw [hv] at hc; simp at hc
    | some v =>
      rw [hv] at hc
      simp only [Option.map_some, Option.some.injEq] at hc
      rw [← hc, hmk, hval i v hv])
  have hget : ∀ i ∈ order, ∃ v, values[i]? = some v ∧ val i = v.2 := fun i hi =>
    ⟨values[i]'(hlt i hi), List.getElem?_eq_getElem (hlt i hi), hval i _ (List.getElem?_eq_getElem (hlt i hi))⟩
  refine ⟨h1, ?_, ?_, ?_⟩
  · intro v hv
    obtain ⟨i, hi, rfl⟩ := List.getElem_of_mem hv
    have := h2 i ((inv.ret i).mpr (hall i hi))
    rwa [hval i _ (List.getElem?_eq_getElem hi)] at this
  · rcases h3 with h3 | ⟨i, hi, h3⟩
    · exact Or.inl h3
    · obtain ⟨v, hv, hv2⟩ := hget i hi
      exact Or.inr ⟨v, List.mem_of_getElem? hv, by rw [h3, hv2]⟩
  · intro i r hi
    have hio : i ∈ order := (inv.ret i).mpr ⟨r, hi⟩
    obtain ⟨k, hk⟩ := List.getElem?_of_mem hio
    obtain ⟨r', h5, h6⟩ := hres k i hk
    rw [hi] at h6
    simp only [Option.some.injEq, CasState.done.injEq] at h6
    subst h6
    obtain ⟨h7, h8, h9⟩ := h4 k r h5
    refine ⟨h7, h8, ?_⟩
    rcases h9 with h9 | ⟨k', j, hkk, hj, h9⟩
    · exact Or.inl h9
    · right
      obtain ⟨w, hw, hw2⟩ := hget j (List.mem_of_getElem? hj)
      refine ⟨j, w, ?_, hw, by rw [h9, hw2]⟩
      rintro rfl
      have := inv.nodup
      have h10 := (List.getElem?_eq_some_iff.mp hk)
      have h11 := (List.getElem?_eq_some_iff.mp hj)
      obtain ⟨l1, e1⟩ := h10
      obtain ⟨l2, e2⟩ := h11
      have := (List.Nodup.getElem_inj_iff this (hi := l1) (hj := l2)).mp (by rw [e1, e2])
      omega

end NP
