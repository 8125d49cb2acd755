import Verif.Common.KernelLemmas
import Mathlib.Data.List.Nodup
import Mathlib.Data.List.Perm.Subperm

/-!
# Kernels with atomic counters, and kernels that store one value per item

The offset that `fetch_add` returns to an item depends on the order in which the items run.
`rank` is that offset for a given order.
-/

set_option autoImplicit false

namespace NP

variable {ι : Type} {σ : Type}

theorem runItems_congr {step step' : ι → σ → Option σ} {items : List ι}
    (h : ∀ i ∈ items, ∀ s, step i s = step' i s) (s : σ) :
    runItems step items s = runItems step' items s := by
  induction items generalizing s with
  | nil => rfl
  | cons i is ih =>
    rw [runItems_cons, runItems_cons, h i List.mem_cons_self]
    cases step' i s with
    | none => rfl
    | some s' => exact ih (fun j hj => h j (List.mem_cons_of_mem i hj)) s'

/-- Items on which the step does nothing can be left out. -/
theorem runItems_filter {step : ι → σ → Option σ} {p : ι → Bool} {items : List ι}
    (h : ∀ i ∈ items, p i = false → ∀ s, step i s = some s) (s : σ) :
    runItems step items s = runItems step (items.filter p) s := by
  induction items generalizing s with
  | nil => rfl
  | cons i is ih =>
    have ih' := fun s => ih (fun j hj => h j (List.mem_cons_of_mem i hj)) s
    by_cases hp : p i
    · rw [List.filter_cons_of_pos hp, runItems_cons, runItems_cons]
      cases step i s with
      | none => rfl
      | some s' => exact ih' s'
    · rw [List.filter_cons_of_neg hp, runItems_cons,
        h i List.mem_cons_self (by simpa using hp), Option.bind_some]
      exact ih' s

/-- Two independent parts of the state can be run separately. -/
theorem runItems_prod {τ : Type} {f : ι → σ → Option σ} {g : ι → τ → Option τ}
    {step : ι → σ × τ → Option (σ × τ)} {items : List ι}
    (h : ∀ i ∈ items, ∀ s t, step i (s, t) =
      (f i s).bind fun s' => (g i t).bind fun t' => some (s', t'))
    {s s' : σ} {t t' : τ} (hf : runItems f items s = some s')
    (hg : runItems g items t = some t') : runItems step items (s, t) = some (s', t') := by
  induction items generalizing s t with
  | nil =>
    simp only [runItems_nil, Option.some.injEq] at hf hg ⊢
    rw [hf, hg]
  | cons i is ih =>
    rw [runItems_cons, Option.bind_eq_some_iff] at hf hg
    obtain ⟨s1, h1, h2⟩ := hf
    obtain ⟨t1, h3, h4⟩ := hg
    rw [runItems_cons, h i List.mem_cons_self, h1, h3]
    exact ih (fun j hj => h j (List.mem_cons_of_mem i hj)) h2 h4

/-- Each item stores (at most) one value in an array; items that store to the same place
store the same value. -/
theorem runItems_put {α : Type} {step : ι → List α → Option (List α)} {items : List ι}
    {m : List α} (dst : ι → Option Nat) (v : ι → α)
    (hstep : ∀ i ∈ items, ∀ a : List α, a.length = m.length →
      step i a = match dst i with | none => some a | some d => st a d (v i))
    (hagree : ∀ i ∈ items, ∀ j ∈ items, ∀ d, dst i = some d → dst j = some d → v i = v j)
    (hin : ∀ i ∈ items, ∀ d, dst i = some d → d < m.length) :
    ∃ m', runItems step items m = some m' ∧ m'.length = m.length ∧
      (∀ i ∈ items, ∀ d, dst i = some d → m'[d]? = some (v i)) ∧
      (∀ k, (∀ i ∈ items, dst i ≠ some k) → m'[k]? = m[k]?) := by
  have key := runItems_region (step := step) (items := items) (m := m)
    (region := fun i k => dst i = some k) (val := fun i _ => v i) ?_ ?_
  · obtain ⟨m', h1, h2, h3, h4⟩ := key
    exact ⟨m', h1, h2, h3, fun k hk => h4 k (by simpa using hk)⟩
  · intro i hi s hs
    rw [hstep i hi s hs]
    cases hd : dst i with
    | none => exact ⟨s, rfl, rfl, by simp, by simp⟩
    | some d =>
      have := hin i hi d hd
      refine ⟨s.set d (v i), st_eq_some (by omega), by simp, ?_, ?_⟩
      · intro k hk
        simp only [Option.some.injEq] at hk
        subst hk
        exact List.getElem?_set_self (by omega)
      · intro k hk
        simp only [Option.some.injEq] at hk
        exact List.getElem?_set_ne hk
  · intro i hi j hj k h1 h2
    exact hagree i hi j hj k h1 h2

variable [DecidableEq ι]

/-- The number of items, run before `i`, that use the same counter. -/
def rank (key : ι → Option Nat) (items : List ι) (i : ι) : Nat :=
  (items.filter (fun j => key j = key i)).idxOf i

/-- Number of items that use counter `c`. -/
def keyCount (key : ι → Option Nat) (items : List ι) (c : Nat) : Nat :=
  (items.filter (fun j => key j = some c)).length

omit [DecidableEq ι] in
theorem keyCount_perm {key : ι → Option Nat} {l l' : List ι} (h : l.Perm l') (c : Nat) :
    keyCount key l c = keyCount key l' c := (h.filter _).length_eq

theorem rank_lt {key : ι → Option Nat} {items : List ι} {i : ι} {c : Nat} (hi : i ∈ items)
    (hc : key i = some c) : rank key items i < keyCount key items c := by
  unfold rank keyCount
  rw [hc]
  exact List.idxOf_lt_length_of_mem (List.mem_filter.2 ⟨hi, by simp [hc]⟩)

theorem rank_inj {key : ι → Option Nat} {items : List ι} {i j : ι} {c : Nat} (hi : i ∈ items)
    (hci : key i = some c) (hcj : key j = some c)
    (h : rank key items i = rank key items j) : i = j := by
  unfold rank at h
  rw [hci, hcj] at h
  exact (List.idxOf_inj (List.mem_filter.2 ⟨hi, by simp [hci]⟩)).1 h

theorem rank_surj {key : ι → Option Nat} {items : List ι} {c r : Nat} (hnd : items.Nodup)
    (h : r < keyCount key items c) :
    ∃ i ∈ items, key i = some c ∧ rank key items i = r := by
  unfold keyCount at h
  have hm := List.getElem_mem h
  rw [List.mem_filter] at hm
  refine ⟨_, hm.1, by simpa using hm.2, ?_⟩
  unfold rank
  rw [show key (items.filter (fun j => key j = some c))[r] = some c by simpa using hm.2]
  exact List.Nodup.idxOf_getElem (hnd.filter _) r h

theorem rank_split {key : ι → Option Nat} {pre post : List ι} {i : ι} {c : Nat}
    (hnd : (pre ++ i :: post).Nodup) (hc : key i = some c) :
    rank key (pre ++ i :: post) i = keyCount key pre c := by
  unfold rank keyCount
  rw [hc, List.filter_append, List.filter_cons_of_pos (by simp [hc])]
  have : i ∉ pre.filter (fun j => key j = some c) := by
    intro h
    have := (List.mem_filter.1 h).1
    rw [List.nodup_append] at hnd
    exact hnd.2.2 i this i List.mem_cons_self rfl
  rw [List.idxOf_append_of_notMem this]
  simp

omit [DecidableEq ι] in
theorem keyCount_append (key : ι → Option Nat) (l l' : List ι) (c : Nat) :
    keyCount key (l ++ l') c = keyCount key l c + keyCount key l' c := by
  unfold keyCount; rw [List.filter_append, List.length_append]

/-- One work item of a kernel with atomic counters: an item with a key adds one to that
counter and stores something that may depend on the old value. -/
def fetchStep (key : ι → Option Nat) (store : ι → Nat → σ → Option σ) (skip : ι → σ → Option σ)
    (i : ι) (s : List Nat × σ) : Option (List Nat × σ) :=
  match key i with
  | none => (skip i s.2).bind fun t => some (s.1, t)
  | some c => (fetchAdd s.1 c).bind fun r => (store i r.1 s.2).bind fun t => some (r.2, t)

/-- Counters after the items ran. -/
def addCounts (key : ι → Option Nat) (items : List ι) (ctr : List Nat) : List Nat :=
  ctr.mapIdx fun c v => v + keyCount key items c

omit [DecidableEq ι] in
theorem getElem?_addCounts (key : ι → Option Nat) (items : List ι) (ctr : List Nat) (c : Nat) :
    (addCounts key items ctr)[c]? = (ctr[c]?).map (· + keyCount key items c) := by
  unfold addCounts; rw [List.getElem?_mapIdx]

/-- A kernel with atomic counters is the same as a kernel in which each item knows its
offset. -/
theorem runItems_fetch {key : ι → Option Nat} {store : ι → Nat → σ → Option σ}
    {skip : ι → σ → Option σ} {items : List ι} (hnd : items.Nodup) {ctr : List Nat}
    (hk : ∀ i ∈ items, ∀ c, key i = some c → c < ctr.length) (s : σ) :
    runItems (fetchStep key store skip) items (ctr, s) =
      (runItems (fun i s => match key i with
        | none => skip i s
        | some c => store i (ctr.getD c 0 + rank key items i) s) items s).map
        (fun t => (addCounts key items ctr, t)) := by
  suffices H : ∀ (post pre : List ι) (s : σ), items = pre ++ post →
      runItems (fetchStep key store skip) post (addCounts key pre ctr, s) =
        (runItems (fun i s => match key i with
          | none => skip i s
          | some c => store i (ctr.getD c 0 + rank key items i) s) post s).map
          (fun t => (addCounts key items ctr, t)) by
    have h0 : addCounts key ([] : List ι) ctr = ctr := by
      apply List.ext_getElem?
      intro c
      rw [getElem?_addCounts]
      simp [keyCount]
    have := H items [] s rfl
    rwa [h0] at this
  intro post
  induction post with
  | nil =>
    intro pre s h
    rw [List.append_nil] at h
    subst h
    rfl
  | cons i is ih =>
    intro pre s h
    have hi : i ∈ items := by rw [h]; simp
    rw [runItems_cons, runItems_cons]
    cases hkey : key i with
    | none =>
      simp only [fetchStep, hkey]
      cases skip i s with
      | none => rfl
      | some t =>
        have hc : addCounts key (pre ++ [i]) ctr = addCounts key pre ctr := by
          apply List.ext_getElem?
          intro c
          rw [getElem?_addCounts, getElem?_addCounts, keyCount_append]
          simp [keyCount, hkey]
        have := ih (pre ++ [i]) t (by simp [h])
        rw [hc] at this
        simpa using this
    | some c =>
      have hlt := hk i hi c hkey
      have hr : rank key items i = keyCount key pre c := by
        subst h; exact rank_split hnd hkey
      have hget : (addCounts key pre ctr)[c]? = some (ctr.getD c 0 + keyCount key pre c) := by
        rw [getElem?_addCounts, List.getElem?_eq_getElem hlt, Option.map_some]
        simp [hlt]
      simp only [fetchStep, hkey, fetchAdd, rd, hget, Option.bind_some, hr]
      cases store i (ctr.getD c 0 + keyCount key pre c) s with
      | none => rfl
      | some t =>
        have hc : (addCounts key pre ctr).set c (ctr.getD c 0 + keyCount key pre c + 1) =
            addCounts key (pre ++ [i]) ctr := by
          apply List.ext_getElem?
          intro d
          rw [getElem?_addCounts, keyCount_append]
          by_cases hd : c = d
          · subst hd
            rw [List.getElem?_set_self (by simp [addCounts, hlt]), List.getElem?_eq_getElem hlt]
            simp [keyCount, hkey, hlt]; omega
          · rw [List.getElem?_set_ne hd, getElem?_addCounts]
            simp [keyCount, hkey, hd]
        have := ih (pre ++ [i]) t (by simp [h])
        rw [← hc] at this
        simpa using this

end NP
