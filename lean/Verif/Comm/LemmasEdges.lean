import Verif.Comm.LemmasExchange

/-! # Lemmas about counting with remote accumulates -/

set_option autoImplicit false

namespace NP

open Spec

theorem mapM_zipIdx {α β γ : Type} {f : α × Nat → Option γ} {g : α → β → γ} {data : List β}
    (h : ∀ (a : α) (i : Nat) (b : β), data[i]? = some b → f (a, i) = some (g a b)) :
    ∀ (l : List α) (k : Nat), data.length = k + l.length →
      (l.zipIdx k).mapM f = some (List.zipWith g l (data.drop k)) := by
  intro l
  induction l with
  | nil => intro k _; rfl
  | cons a l ih =>
    intro k hk
    simp only [List.length_cons] at hk
    have hlt : k < data.length := by omega
    rw [List.zipIdx_cons, List.mapM_cons, h a k _ (List.getElem?_eq_getElem hlt),
      ih (k + 1) (by omega), List.drop_eq_getElem_cons hlt]
    rfl

theorem countSends_eq {β : Type} {tag : Nat} {ranks : List Nat} {data : List β}
    (h : data.length = ranks.length) : countSends tag ranks data =
      some ((ranks.zip data).map fun rv => ⟨rv.1, tag, rv.2⟩) := by
  unfold countSends
  rw [mapM_zipIdx (data := data) (g := fun r v => ⟨r, tag, v⟩)]
  · rw [List.drop_zero, List.map_zip_eq_zipWith]; rfl
  · intro a i b hb
    simp only [rd, hb, Option.bind_some]
  · omega

/-- The sends of all ranks. -/
def namedSends {β : Type} (tag : Nat) (targets : Nat → List Nat) (values : Nat → List β) (s : Nat) :
    List (OutMsg β) := ((targets s).zip (values s)).map fun tv => ⟨tv.1, tag, tv.2⟩

theorem inbox_named {β : Type} (n tag : Nat) (targets : Nat → List Nat) (values : Nat → List β)
    (r : Nat) : inbox n (namedSends tag targets values) r =
      (namedBy n targets values r).map fun sv => ⟨sv.1, tag, sv.2⟩ := by
  unfold inbox namedBy namedSends
  rw [List.map_flatMap]
  congr 1
  funext s
  induction (targets s).zip (values s) with
  | nil => rfl
  | cons tv l ih =>
    rw [List.map_cons, List.filterMap_cons]
    by_cases h : tv.1 = r
    · rw [if_pos h, List.filter_cons_of_pos (by simpa using h)]
      simp only [List.map_cons]
      rw [ih]
    · rw [if_neg h, List.filter_cons_of_neg (by simpa using h)]
      exact ih

theorem filter_zip_length {β : Type} {l : List Nat} {v : List β} (h : v.length = l.length) (r : Nat) :
    ((l.zip v).filter fun tv => tv.1 = r).length = l.count r := by
  induction l generalizing v with
  | nil => simp
  | cons a l ih =>
    cases v with
    | nil => simp at h
    | cons b v =>
      rw [List.zip_cons_cons, List.count_cons]
      by_cases ha : a = r
      · rw [List.filter_cons_of_pos (by simpa using ha), List.length_cons, ih (by simpa using h)]
        simp [ha]
      · rw [List.filter_cons_of_neg (by simpa using ha), ih (by simpa using h)]
        simp [ha]

theorem length_namedBy {β : Type} {n : Nat} {targets : Nat → List Nat} {values : Nat → List β}
    (h : ∀ s, s < n → (values s).length = (targets s).length) (r : Nat) :
    (namedBy n targets values r).length =
      ((List.range n).map fun s => (targets s).count r).sum := by
  unfold namedBy
  rw [List.length_flatMap]
  congr 1
  apply List.map_congr_left
  intro s hs
  rw [List.length_map, filter_zip_length (h s (List.mem_range.1 hs))]

theorem zipIdx_filter_length (l : List Nat) (s r : Nat) : ∀ k,
    (((l.zipIdx k).map fun ti => ((s, ti.2), ti.1)).filter fun j => some j.2 = some r).length =
      l.count r := by
  induction l with
  | nil => intro k; rfl
  | cons a l ih =>
    intro k
    rw [List.zipIdx_cons, List.map_cons, List.count_cons]
    by_cases ha : a = r
    · rw [List.filter_cons_of_pos (by simpa using ha), List.length_cons, ih]
      simp [ha]
    · rw [List.filter_cons_of_neg (by simpa using ha), ih]
      simp [ha]

theorem keyCount_rmaItems (n : Nat) (targets : Nat → List Nat) (r : Nat) :
    keyCount (fun it : (Nat × Nat) × Nat => some it.2) (rmaItems n targets) r =
      ((List.range n).map fun s => (targets s).count r).sum := by
  unfold keyCount rmaItems
  rw [List.filter_flatMap, List.length_flatMap]
  congr 1
  apply List.map_congr_left
  intro s _
  exact zipIdx_filter_length (targets s) s r 0

theorem nodup_rmaItems_fst (n : Nat) (targets : Nat → List Nat) :
    ((rmaItems n targets).map Prod.fst).Nodup := by
  unfold rmaItems
  rw [List.map_flatMap]
  refine nodup_flatMap_range ?_ ?_
  · intro s _
    rw [List.map_map]
    have : (Prod.fst ∘ fun ti : Nat × Nat => ((s, ti.2), ti.1)) =
        (fun i => (s, i)) ∘ Prod.snd := rfl
    rw [this, ← List.map_map]
    refine List.Nodup.map (fun a b h => by simpa using h) ?_
    rw [List.zipIdx_map_snd]
    exact List.nodup_range'
  · intro s t _ _ hst x hx hx'
    rw [List.map_map] at hx hx'
    obtain ⟨a, -, rfl⟩ := List.mem_map.1 hx
    obtain ⟨b, -, hb⟩ := List.mem_map.1 hx'
    simp only [Function.comp_apply, Prod.mk.injEq] at hb
    exact hst hb.1.symm

theorem mem_rmaItems {n : Nat} {targets : Nat → List Nat} {s i t : Nat} :
    ((s, i), t) ∈ rmaItems n targets ↔ s < n ∧ (targets s)[i]? = some t := by
  unfold rmaItems
  simp only [List.mem_flatMap, List.mem_range, List.mem_map, Prod.mk.injEq]
  constructor
  · rintro ⟨s', hs', ⟨t', i'⟩, hm, ⟨rfl, rfl⟩, rfl⟩
    exact ⟨hs', List.mem_zipIdx_iff_getElem?.1 hm⟩
  · rintro ⟨h1, h2⟩
    exact ⟨s, h1, (t, i), List.mem_zipIdx_iff_getElem?.2 h2, ⟨rfl, rfl⟩, rfl⟩

/-- The counters end at the number of calls that name the rank; the values fetched by the calls
that name `r` are 0, 1, ... without repeats. -/
theorem rmaCount_spec {n : Nat} (order : Sched) {targets : Nat → List Nat}
    (ht : ∀ s, s < n → ∀ t ∈ targets s, t < n) :
    ∃ ctr f, rmaCount n order targets = some (ctr, f) ∧ ctr.length = n ∧
      (∀ r, r < n → ctr[r]? = some (((List.range n).map fun s => (targets s).count r).sum)) ∧
      (∀ s i r, s < n → (targets s)[i]? = some r →
        f (s, i) < ((List.range n).map fun s => (targets s).count r).sum) ∧
      (∀ s i s' i' r, s < n → (targets s)[i]? = some r → s' < n → (targets s')[i']? = some r →
        f (s, i) = f (s', i') → s = s' ∧ i = i') := by
  let key : (Nat × Nat) × Nat → Option Nat := fun it => some it.2
  let items := order.order (rmaItems n targets)
  have hperm : items.Perm (rmaItems n targets) := order.perm _
  have hnd : items.Nodup := hperm.nodup_iff.2 (List.Nodup.of_map _ (nodup_rmaItems_fst n targets))
  have hndf : (items.map Prod.fst).Nodup :=
    (hperm.map _).nodup_iff.2 (nodup_rmaItems_fst n targets)
  have hstep : rmaStep = fetchStep key
      (fun it v (f : Nat × Nat → Nat) => some fun k => if k = it.1 then v else f k)
      (fun _ f => some f) := by
    funext it s
    simp only [rmaStep, fetchStep, key]
    cases fetchAdd s.1 it.2 <;> rfl
  have hk : ∀ it ∈ items, ∀ c, key it = some c → c < (List.replicate n 0).length := by
    rintro ⟨⟨s, i⟩, t⟩ hit c hc
    obtain ⟨h1, h2⟩ := mem_rmaItems.1 (hperm.subset hit)
    simp only [key, Option.some.injEq] at hc
    subst hc
    rw [List.length_replicate]
    exact ht s h1 t (List.mem_of_getElem? h2)
  have hf := runItems_fetch (key := key)
    (store := fun it v (f : Nat × Nat → Nat) => some fun k => if k = it.1 then v else f k)
    (skip := fun _ f => some f) hnd (ctr := List.replicate n 0) hk (fun _ => 0)
  obtain ⟨f, hf1, hf2⟩ := runItems_invariant
    (step := fun (i : (Nat × Nat) × Nat) (s : Nat × Nat → Nat) => match key i with
        | none => some s
        | some c => some fun k => if k = i.1 then (List.replicate n 0).getD c 0 + rank key items i
            else s k) (items := items) (s := fun _ => 0)
    (P := fun pre f => ∀ it ∈ pre, f it.1 = rank key items it)
    (by
      intro pre it post f he hf
      refine ⟨_, rfl, ?_⟩
      intro x hx
      have hz : (List.replicate n 0).getD it.2 0 = 0 := by
        rw [List.getD_eq_getElem?_getD, List.getElem?_replicate]; split <;> rfl
      simp only [hz, Nat.zero_add]
      rcases List.mem_append.1 hx with hx | hx
      · have hne : x.1 ≠ it.1 := by
          intro h
          rw [he, List.map_append, List.map_cons, List.nodup_append] at hndf
          exact hndf.2.2 _ (List.mem_map.2 ⟨x, hx, rfl⟩) _ List.mem_cons_self h
        rw [if_neg hne]; exact hf x hx
      · rw [List.mem_singleton] at hx
        subst hx
        rw [if_pos rfl])
    (by simp)
  have hcount : ∀ r, keyCount key items r = ((List.range n).map fun s => (targets s).count r).sum :=
    fun r => (keyCount_perm hperm r).trans (keyCount_rmaItems n targets r)
  refine ⟨addCounts key items (List.replicate n 0), f, ?_, by simp [addCounts], ?_, ?_, ?_⟩
  · unfold rmaCount
    rw [hstep]
    refine hf.trans ?_
    rw [hf1]; rfl
  · intro r hr
    rw [getElem?_addCounts, hcount]
    simp [hr]
  · intro s i r hs hi
    have hm : ((s, i), r) ∈ items := hperm.symm.subset (mem_rmaItems.2 ⟨hs, hi⟩)
    rw [hf2 _ hm, ← hcount]
    exact rank_lt hm rfl
  · intro s i s' i' r hs hi hs' hi' he
    have hm : ((s, i), r) ∈ items := hperm.symm.subset (mem_rmaItems.2 ⟨hs, hi⟩)
    have hm' : ((s', i'), r) ∈ items := hperm.symm.subset (mem_rmaItems.2 ⟨hs', hi'⟩)
    have h1 := hf2 _ hm
    have h2 := hf2 _ hm'
    simp only at h1 h2
    rw [h1, h2] at he
    have := rank_inj (c := r) hm rfl rfl he
    simp only [Prod.mk.injEq] at this
    exact this.1

end NP
