import Verif.Move.Model
import Verif.Move.Spec
import Verif.Group.LemmasPlan
import Verif.Comm.LemmasEdges
import Verif.Group.LemmasRemoveGroup
import Verif.Loop.Props

/-! # Lemmas about the identification of departing particles -/

set_option autoImplicit false

namespace NP

open Spec

/-! ## Specification -/

theorem destination_eq_some {size own comp : Nat} {g : Group} {c k r : Nat} :
    destination size own comp g c k = some r ↔
      r < size ∧ r ≠ own ∧ g.mem ⟨g.rankSym, c, comp, k⟩ = some (r : Int) := by
  unfold destination
  constructor
  · intro h
    have h1 := List.find?_some h
    have h2 := List.mem_of_find?_eq_some h
    simp only [Bool.and_eq_true, bne_iff_ne, ne_eq, beq_iff_eq] at h1
    exact ⟨List.mem_range.1 h2, h1.1, h1.2⟩
  · rintro ⟨h1, h2, h3⟩
    cases hf : (List.range size).find? (fun r => r != own &&
        g.mem ⟨g.rankSym, c, comp, k⟩ == some (r : Int)) with
    | none =>
      have := List.find?_eq_none.1 hf r (List.mem_range.2 h1)
      simp [h2, h3] at this
    | some x =>
      have := List.find?_some hf
      simp only [Bool.and_eq_true, bne_iff_ne, ne_eq, beq_iff_eq] at this
      rw [h3] at this
      have h4 := this.2
      simp only [Option.some.injEq, Int.natCast_inj] at h4
      rw [h4]

theorem departRank_eq {size own comp : Nat} {g : Group} {p : Nat × Nat} {v : Int}
    (hv : g.mem ⟨g.rankSym, p.1, comp, p.2⟩ = some v) :
    departRank size own g.mem g.rankSym comp p =
      some (destination size own comp g p.1 p.2) := by
  unfold departRank
  rw [hv, Option.bind_some]
  congr 1
  by_cases h : ((v ≥ 0) ∧ (v < (size : Int))) ∧ v ≠ (own : Int)
  · rw [if_pos h]
    symm
    rw [destination_eq_some]
    refine ⟨by omega, by omega, ?_⟩
    rw [hv]
    congr 1
    omega
  · rw [if_neg h]
    symm
    cases hd : destination size own comp g p.1 p.2 with
    | none => rfl
    | some r =>
      exfalso
      obtain ⟨h1, h2, h3⟩ := destination_eq_some.1 hd
      rw [hv, Option.some.injEq] at h3
      apply h
      omega

theorem mem_particlesOf {g : Group} {c k : Nat} :
    (c, k) ∈ particlesOf g ↔ c < g.ncell ∧ k < count g c := by
  unfold particlesOf
  simp only [List.mem_flatMap, List.mem_range, List.mem_map, Prod.mk.injEq]
  constructor
  · rintro ⟨c', h1, k', h2, rfl, rfl⟩; exact ⟨h1, h2⟩
  · rintro ⟨h1, h2⟩; exact ⟨c, h1, k, h2, rfl, rfl⟩

theorem nodup_particlesOf (g : Group) : (particlesOf g).Nodup := by
  unfold particlesOf
  refine nodup_flatMap_range ?_ ?_
  · intro c _
    exact List.Nodup.map (fun a b h => by simpa using h) List.nodup_range
  · intro s t _ _ hst x hx hx'
    obtain ⟨a, -, rfl⟩ := List.mem_map.1 hx
    obtain ⟨b, -, hb⟩ := List.mem_map.1 hx'
    simp only [Prod.mk.injEq] at hb
    exact hst hb.1.symm

/-! ## Kernels with counters -/

section
variable {ι : Type} [DecidableEq ι]

/-- The values that the items fetch from counters that start at zero. -/
theorem fetch_record {key : ι → Option Nat} {items : List ι} (hnd : items.Nodup) {n : Nat}
    (hk : ∀ i ∈ items, ∀ c, key i = some c → c < n) (f0 : ι → Nat) :
    ∃ f, runItems (fetchStep key (fun i v (f : ι → Nat) => some fun j => if j = i then v else f j)
        (fun _ f => some f)) items (List.replicate n 0, f0) =
        some (addCounts key items (List.replicate n 0), f) ∧
      ∀ i ∈ items, ∀ c, key i = some c → f i = rank key items i := by
  have hf := runItems_fetch (key := key)
    (store := fun i v (f : ι → Nat) => some fun j => if j = i then v else f j)
    (skip := fun _ f => some f) hnd (ctr := List.replicate n 0)
    (by simpa using hk) f0
  obtain ⟨f, hf1, hf2⟩ := runItems_invariant
    (step := fun (i : ι) (s : ι → Nat) => match key i with
        | none => some s
        | some c => some fun j => if j = i then (List.replicate n 0).getD c 0 + rank key items i
            else s j) (items := items) (s := f0)
    (P := fun pre f => ∀ i ∈ pre, ∀ c, key i = some c → f i = rank key items i)
    (by
      intro pre i post f he hf
      cases hki : key i with
      | none =>
        refine ⟨_, rfl, ?_⟩
        intro x hx c hc
        rcases List.mem_append.1 hx with hx | hx
        · exact hf x hx c hc
        · rw [List.mem_singleton] at hx
          rw [hx, hki] at hc; cases hc
      | some c =>
        refine ⟨_, rfl, ?_⟩
        intro x hx c' hc'
        have hz : (List.replicate n 0).getD c 0 = 0 := by
          rw [List.getD_eq_getElem?_getD, List.getElem?_replicate]; split <;> rfl
        simp only [hz, Nat.zero_add]
        rcases List.mem_append.1 hx with hx1 | hx1
        · have hne : x ≠ i := by
            intro hxi
            rw [he, List.nodup_append] at hnd
            exact hnd.2.2 x hx1 i List.mem_cons_self hxi
          rw [if_neg hne]; exact hf x hx1 c' hc'
        · rw [List.mem_singleton] at hx1
          rw [if_pos hx1, hx1])
    (by simp)
  refine ⟨f, ?_, hf2⟩
  exact hf.trans (congrArg (Option.map _) hf1)

theorem rank_of_getElem? {key : ι → Option Nat} {items : List ι} (hnd : items.Nodup) {c i : Nat}
    {p : ι} (h : (items.filter fun p => key p = some c)[i]? = some p) :
    rank key items p = i := by
  obtain ⟨hi, h2⟩ := List.getElem?_eq_some_iff.1 h
  have hm := List.getElem_mem hi
  rw [List.mem_filter] at hm
  subst h2
  unfold rank
  rw [show key (items.filter (fun j => key j = some c))[i] = some c by simpa using hm.2]
  exact List.Nodup.idxOf_getElem (hnd.filter _) i hi

/-- Items with key 0 store at the value they fetch: the array then begins with their values. -/
theorem put_list {α : Type} {key : ι → Option Nat} {items : List ι} (hnd : items.Nodup)
    (f : ι → α) {x : List α} (hx : keyCount key items 0 ≤ x.length) :
    ∃ x', runItems (putStep (fun p => if key p = some 0 then some (rank key items p) else none) f)
        items x = some x' ∧ x'.length = x.length ∧
      x'.take (keyCount key items 0) = (items.filter fun p => key p = some 0).map f := by
  obtain ⟨x', k1, k2, k3, -⟩ := runItems_putStep (items := items) (m := x)
    (fun p => if key p = some 0 then some (rank key items p) else none) f
    (by
      intro p hp q hq d h1 h2
      by_cases hpk : key p = some 0
      · by_cases hqk : key q = some 0
        · rw [if_pos hpk] at h1
          rw [if_pos hqk] at h2
          rw [← h2, Option.some.injEq] at h1
          rw [rank_inj hp hpk hqk h1]
        · rw [if_neg hqk] at h2; cases h2
      · rw [if_neg hpk] at h1; cases h1)
    (by
      intro p hp d h1
      by_cases hpk : key p = some 0
      · rw [if_pos hpk, Option.some.injEq] at h1
        rw [← h1]
        exact Nat.lt_of_lt_of_le (rank_lt hp hpk) hx
      · rw [if_neg hpk] at h1; cases h1)
  refine ⟨x', k1, k2, ?_⟩
  apply List.ext_getElem?
  intro i
  rw [List.getElem?_take, List.getElem?_map]
  by_cases hi : i < keyCount key items 0
  · rw [if_pos hi]
    have hi' : i < (items.filter fun p => key p = some 0).length := hi
    have hm := List.getElem_mem hi'
    rw [List.mem_filter] at hm
    have hr : rank key items (items.filter fun p => key p = some 0)[i] = i := by
      unfold rank
      rw [show key (items.filter (fun j => key j = some 0))[i] = some 0 by simpa using hm.2]
      exact List.Nodup.idxOf_getElem (hnd.filter _) i hi'
    rw [List.getElem?_eq_getElem hi', Option.map_some]
    have := k3 _ hm.1 _ (if_pos (by simpa using hm.2))
    rw [hr] at this
    exact this
  · rw [if_neg hi, List.getElem?_eq_none (by
      have : (items.filter fun p => key p = some 0).length = keyCount key items 0 := rfl
      omega)]
    rfl

end

end NP
