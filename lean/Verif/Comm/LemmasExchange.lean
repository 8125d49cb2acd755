import Verif.Comm.SpecExchange
import Verif.Common.Atomic
import Mathlib.Data.List.Nodup
import Mathlib.Data.List.Perm.Basic

/-! # Lemmas about exchanges -/

set_option autoImplicit false

namespace NP

open Spec

theorem mapM_of_forall {α β : Type} {f : α → Option β} {g : α → β} {l : List α}
    (h : ∀ x ∈ l, f x = some (g x)) : l.mapM f = some (l.map g) := by
  induction l with
  | nil => rfl
  | cons a l ih =>
    rw [List.mapM_cons, h a List.mem_cons_self, ih fun x hx => h x (List.mem_cons_of_mem _ hx)]
    rfl

variable {α : Type}

theorem exists_perm_map {κ β : Type} (kf : β → κ) (K : List κ) :
    ∀ arr : List β, (arr.map kf).Perm K → ∃ got : List β, got.Perm arr ∧ got.map kf = K := by
  induction K with
  | nil =>
    intro arr h
    have : arr = [] := by simpa using h.length_eq
    subst this
    exact ⟨[], List.Perm.refl _, rfl⟩
  | cons k K ih =>
    intro arr h
    have hk : k ∈ arr.map kf := h.symm.subset List.mem_cons_self
    obtain ⟨m, hm, rfl⟩ := List.mem_map.1 hk
    obtain ⟨l1, l2, rfl⟩ := List.append_of_mem hm
    have hp : (l1 ++ m :: l2).Perm (m :: (l1 ++ l2)) := List.perm_middle
    have : ((l1 ++ l2).map kf).Perm K :=
      List.Perm.cons_inv (((hp.map kf).symm.trans h))
    obtain ⟨got, h1, h2⟩ := ih _ this
    exact ⟨m :: got, (h1.cons m).trans hp.symm, by rw [List.map_cons, h2]⟩

section Keys

variable {κ : Type} [DecidableEq κ] (kf : InMsg α → κ) (ks : Slot → κ)

/-- The slots after the messages `P` arrived. -/
def slotState (slots : List Slot) (P : List (InMsg α)) : List (Slot × Option (InMsg α)) :=
  slots.map fun s => (s, P.find? fun m => decide (kf m = ks s))

theorem place_state {slots : List Slot} {P : List (InMsg α)} {m : InMsg α}
    (hacc : ∀ s ∈ slots, s.accepts m = true ↔ kf m = ks s) (hnd : (slots.map ks).Nodup)
    (hin : kf m ∈ slots.map ks) (hnew : ∀ m' ∈ P, kf m' ≠ kf m) :
    place m (slotState kf ks slots P) = some (slotState kf ks slots (P ++ [m])) := by
  induction slots with
  | nil => simp at hin
  | cons s l ih =>
    simp only [List.map_cons, List.nodup_cons] at hnd
    have hfind : ∀ s', kf m ≠ ks s' → (P ++ [m]).find? (fun m => decide (kf m = ks s')) =
        P.find? fun m => decide (kf m = ks s') := by
      intro s' hs'
      rw [List.find?_append]
      simp [hs']
    by_cases hk : kf m = ks s
    · have hnone : P.find? (fun m => decide (kf m = ks s)) = none := by
        rw [List.find?_eq_none]
        intro m' hm'
        simp only [decide_eq_true_eq]
        rw [← hk]; exact hnew m' hm'
      have hl : slotState kf ks l P = slotState kf ks l (P ++ [m]) := by
        unfold slotState
        apply List.map_congr_left
        intro s' hs'
        rw [hfind s' (fun h => hnd.1 (by rw [← hk, h]; exact List.mem_map.2 ⟨s', hs', rfl⟩))]
      unfold slotState at *
      simp only [List.map_cons]
      rw [hnone, place, if_pos ((hacc s List.mem_cons_self).2 hk), hl, List.find?_append, hnone]
      simp [hk]
    · have hin' : kf m ∈ l.map ks := by
        rw [List.map_cons, List.mem_cons] at hin
        rcases hin with h | h
        · exact absurd h hk
        · exact h
      have := ih (fun s' hs' => hacc s' (List.mem_cons_of_mem _ hs')) hnd.2 hin'
      have hna : ¬ (s.accepts m = true) := fun h => hk ((hacc s List.mem_cons_self).1 h)
      unfold slotState at *
      simp only [List.map_cons]
      rw [hfind s hk]
      cases hf : P.find? (fun m => decide (kf m = ks s)) with
      | none => rw [place, if_neg hna, this]; rfl
      | some x => rw [place, this]; rfl

theorem place_all {slots : List Slot} {arr : List (InMsg α)}
    (hacc : ∀ s ∈ slots, ∀ m ∈ arr, s.accepts m = true ↔ kf m = ks s)
    (hnd : (slots.map ks).Nodup) (hin : ∀ m ∈ arr, kf m ∈ slots.map ks)
    (hnd' : (arr.map kf).Nodup) :
    runItems place arr (slots.map fun s => (s, none)) = some (slotState kf ks slots arr) := by
  obtain ⟨s', h1, h2⟩ := runItems_invariant (step := place) (items := arr)
    (P := fun P s => s = slotState kf ks slots P) (s := slots.map fun s => (s, none))
    (by
      intro pre m post s he hs
      subst hs
      have hm : m ∈ arr := by rw [he]; simp
      refine ⟨_, place_state kf ks (fun s hs => hacc s hs m hm) hnd (hin m hm) ?_, rfl⟩
      intro m' hm' hk
      rw [he, List.map_append, List.map_cons, List.nodup_append] at hnd'
      exact hnd'.2.2 _ (List.mem_map.2 ⟨m', hm', rfl⟩) _ List.mem_cons_self hk)
    (by simp [slotState])
  rw [h1, h2]

/-- If messages and slots are matched one to one by a key, every order of arrival fills the slots
with the messages that belong there. -/
theorem deliver_keys {slots : List Slot} {arr : List (InMsg α)}
    (hacc : ∀ s ∈ slots, ∀ m ∈ arr, s.accepts m = true ↔ kf m = ks s)
    (hnd : (slots.map ks).Nodup) (hp : (arr.map kf).Perm (slots.map ks)) :
    ∃ got, deliver slots arr = some got ∧ got.Perm arr ∧ got.map kf = slots.map ks := by
  obtain ⟨got, h1, h2⟩ := exists_perm_map kf (slots.map ks) arr hp
  refine ⟨got, ?_, h1, h2⟩
  have hnd' : (arr.map kf).Nodup := hp.nodup_iff.2 hnd
  unfold deliver
  rw [place_all kf ks hacc hnd (fun m hm => hp.subset (List.mem_map.2 ⟨m, hm, rfl⟩)) hnd',
    Option.bind_some]
  have hfind : ∀ m ∈ arr, arr.find? (fun x => decide (kf x = kf m)) = some m := by
    intro m hm
    cases hf : arr.find? (fun x => decide (kf x = kf m)) with
    | none =>
      rw [List.find?_eq_none] at hf
      exact absurd (by simp) (hf m hm)
    | some x =>
      have hx := List.find?_some hf
      have hxm := List.mem_of_find?_eq_some hf
      simp only [decide_eq_true_eq] at hx
      rw [List.inj_on_of_nodup_map hnd' hxm hm hx]
  have hsub : ∀ m ∈ got, m ∈ arr := fun m hm => h1.subset hm
  clear hp h1 hacc hnd
  unfold slotState
  induction slots generalizing got with
  | nil =>
    have : got = [] := by simpa using h2
    subst this; rfl
  | cons s l ih =>
    cases got with
    | nil => simp at h2
    | cons m got =>
      simp only [List.map_cons, List.cons.injEq] at h2
      rw [List.map_cons, List.mapM_cons]
      simp only
      rw [← h2.1, hfind m (hsub m List.mem_cons_self), ih got h2.2
        (fun x hx => hsub x (List.mem_cons_of_mem _ hx))]
      rfl

end Keys

/-- If every slot accepts every message, the slots are filled in the order of arrival. -/
theorem deliver_any {slots : List Slot} {arr : List (InMsg α)}
    (hacc : ∀ s ∈ slots, ∀ m ∈ arr, s.accepts m = true) (hl : arr.length = slots.length) :
    deliver slots arr = some arr := by
  have hplace : ∀ (filled : List (Slot × InMsg α)) (s : Slot) (l : List (Slot × Option (InMsg α)))
      (m : InMsg α), s.accepts m = true →
      place m (filled.map (fun x => (x.1, some x.2)) ++ (s, none) :: l) =
        some (filled.map (fun x => (x.1, some x.2)) ++ (s, some m) :: l) := by
    intro filled s l m h
    induction filled with
    | nil => simp [place, h]
    | cons x filled ih =>
      simp only [List.map_cons, List.cons_append]
      rw [place, ih]; rfl
  have hrun : ∀ (arr : List (InMsg α)) (slots : List Slot) (filled : List (Slot × InMsg α)),
      (∀ s ∈ slots, ∀ m ∈ arr, s.accepts m = true) → arr.length = slots.length →
      runItems place arr (filled.map (fun x => (x.1, some x.2)) ++ slots.map fun s => (s, none)) =
        some (filled.map (fun x => (x.1, some x.2)) ++ (slots.zip arr).map fun x => (x.1, some x.2)) := by
    intro arr
    induction arr with
    | nil =>
      intro slots filled _ h
      have : slots = [] := by simpa using h.symm
      subst this; simp
    | cons m arr ih =>
      intro slots filled hacc h
      cases slots with
      | nil => simp at h
      | cons s slots =>
        rw [runItems_cons, List.map_cons,
          hplace filled s _ m (hacc s List.mem_cons_self m List.mem_cons_self), Option.bind_some]
        have := ih slots (filled ++ [(s, m)])
          (fun s' hs' m' hm' => hacc s' (List.mem_cons_of_mem _ hs') m' (List.mem_cons_of_mem _ hm'))
          (by simpa using h)
        simp only [List.map_append, List.map_cons, List.map_nil, List.append_assoc,
          List.cons_append, List.nil_append] at this
        rw [this]
        simp
  unfold deliver
  have := hrun arr slots [] hacc hl
  simp only [List.map_nil, List.nil_append] at this
  rw [this, Option.bind_some]
  clear this hrun hplace hacc
  induction arr generalizing slots with
  | nil =>
    have : slots = [] := by simpa using hl.symm
    subst this; rfl
  | cons m arr ih =>
    cases slots with
    | nil => simp at hl
    | cons s slots =>
      rw [List.zip_cons_cons, List.map_cons, List.mapM_cons, ih (by simpa using hl)]
      rfl

/-! ## Messages for a rank -/

theorem mem_inbox {n : Nat} {sends : Nat → List (OutMsg α)} {r : Nat} {m : InMsg α} :
    m ∈ inbox n sends r ↔ m.src < n ∧ (⟨r, m.tag, m.data⟩ : OutMsg α) ∈ sends m.src := by
  unfold inbox
  simp only [List.mem_flatMap, List.mem_range, List.mem_filterMap]
  constructor
  · rintro ⟨s, hs, o, ho, he⟩
    by_cases h : o.dst = r
    · rw [if_pos h] at he
      obtain rfl := Option.some.inj he
      refine ⟨hs, ?_⟩
      subst h; exact ho
    · rw [if_neg h] at he; cases he
  · rintro ⟨h1, h2⟩
    exact ⟨m.src, h1, _, h2, by simp⟩

theorem nodup_flatMap_range {β : Type} {n : Nat} {f : Nat → List β}
    (h1 : ∀ s, s < n → (f s).Nodup) (h2 : ∀ s t, s < n → t < n → s ≠ t → ∀ x ∈ f s, x ∉ f t) :
    ((List.range n).flatMap f).Nodup := by
  rw [List.nodup_flatMap]
  refine ⟨fun s hs => h1 s (List.mem_range.1 hs), ?_⟩
  rw [List.pairwise_iff_getElem]
  intro i j hi hj hij
  simp only [List.length_range] at hi hj
  simp only [List.getElem_range, Function.onFun, List.Disjoint]
  intro x hx hx'
  exact h2 i j hi hj (by omega) x hx hx'

theorem inbox_keys_nodup {n : Nat} {sends : Nat → List (OutMsg α)} {r : Nat}
    (h : ∀ s, s < n → ((sends s).map fun o => (o.dst, o.tag)).Nodup) :
    ((inbox n sends r).map fun m => (m.src, m.tag)).Nodup := by
  have hmap : (inbox n sends r).map (fun m => (m.src, m.tag)) =
      (List.range n).flatMap fun s => (((sends s).map fun o => (o.dst, o.tag)).filter
        fun k => k.1 = r).map fun k => (s, k.2) := by
    unfold inbox
    rw [List.map_flatMap]
    congr 1
    funext s
    induction sends s with
    | nil => rfl
    | cons o l ih =>
      rw [List.filterMap_cons, List.map_cons]
      by_cases ho : o.dst = r
      · rw [if_pos ho, List.filter_cons_of_pos (by simpa using ho)]
        simp only [List.map_cons]
        rw [ih]
      · rw [if_neg ho, List.filter_cons_of_neg (by simpa using ho)]
        exact ih
  rw [hmap]
  refine nodup_flatMap_range ?_ ?_
  · intro s hs
    refine List.Nodup.map_on ?_ ((h s hs).filter _)
    intro x hx y hy hxy
    simp only [List.mem_filter, decide_eq_true_eq] at hx hy
    simp only [Prod.mk.injEq, true_and] at hxy
    exact Prod.ext (hx.2.trans hy.2.symm) hxy
  · intro s t _ _ hst x hx hx'
    obtain ⟨a, -, rfl⟩ := List.mem_map.1 hx
    obtain ⟨b, -, hb⟩ := List.mem_map.1 hx'
    simp only [Prod.mk.injEq] at hb
    exact hst hb.1.symm

/-- A phase in which all receives name their source. `K` are the sources and tags of the
receives of rank `r`. -/
theorem exchange_named {n : Nat} {arrive : Nat → Sched} {slots : Nat → List Slot}
    {sends : Nat → List (OutMsg α)} {r : Nat} {K : List (Nat × Nat)}
    (hs : ∀ s, s < n → ((sends s).map fun o => (o.dst, o.tag)).Nodup)
    (hslots : slots r = K.map fun k => ⟨some k.1, k.2⟩) (hK : K.Nodup)
    (hmem : ∀ s t, (s, t) ∈ K ↔ s < n ∧ ∃ o ∈ sends s, o.dst = r ∧ o.tag = t) :
    ∃ got, exchange n arrive slots sends r = some got ∧
      got.map (fun m => (m.src, m.tag)) = K ∧ got.Perm (inbox n sends r) := by
  have key := deliver_keys (kf := fun m : InMsg α => (m.src, m.tag))
    (ks := fun s : Slot => (s.src.getD 0, s.tag)) (slots := slots r)
    (arr := (arrive r).order (inbox n sends r)) ?_ ?_ ?_
  · obtain ⟨got, h1, h2, h3⟩ := key
    refine ⟨got, h1, ?_, h2.trans ((arrive r).perm _)⟩
    rw [h3, hslots, List.map_map]
    simp [Function.comp_def]
  · intro s hsl m _
    rw [hslots] at hsl
    obtain ⟨k, -, rfl⟩ := List.mem_map.1 hsl
    simp only [Slot.accepts, Bool.and_eq_true, beq_iff_eq, Option.getD_some, Prod.mk.injEq]
    exact ⟨fun h => ⟨h.1.symm, h.2.symm⟩, fun h => ⟨h.1.symm, h.2.symm⟩⟩
  · rw [hslots, List.map_map]
    simpa [Function.comp_def] using hK
  · rw [hslots, List.map_map]
    have hK' : K.map ((fun s : Slot => (s.src.getD 0, s.tag)) ∘ fun k => ⟨some k.1, k.2⟩) = K := by
      simp [Function.comp_def]
    rw [hK']
    refine (((arrive r).perm _).map _).trans ?_
    rw [List.perm_ext_iff_of_nodup (inbox_keys_nodup hs) hK]
    rintro ⟨s, t⟩
    rw [hmem, List.mem_map]
    constructor
    · rintro ⟨m, hm, he⟩
      obtain ⟨h1, h2⟩ := mem_inbox.1 hm
      simp only [Prod.mk.injEq] at he
      obtain ⟨rfl, rfl⟩ := he
      exact ⟨h1, _, h2, rfl, rfl⟩
    · rintro ⟨h1, o, ho, rfl, rfl⟩
      exact ⟨⟨s, o.tag, o.data⟩, mem_inbox.2 ⟨h1, ho⟩, rfl⟩

/-- A phase in which all receives are from any source. -/
theorem exchange_any {n : Nat} {arrive : Nat → Sched} {slots : Nat → List Slot}
    {sends : Nat → List (OutMsg α)} {r k t : Nat} (hslots : slots r = List.replicate k ⟨none, t⟩)
    (htag : ∀ s, s < n → ∀ o ∈ sends s, o.tag = t) (hk : k = (inbox n sends r).length) :
    exchange n arrive slots sends r = some ((arrive r).order (inbox n sends r)) := by
  unfold exchange
  apply deliver_any
  · intro s hs m hm
    rw [hslots] at hs
    obtain rfl := List.eq_of_mem_replicate hs
    obtain ⟨h1, h2⟩ := mem_inbox.1 (((arrive r).perm _).subset hm)
    have := htag _ h1 _ h2
    simp only at this
    simp [Slot.accepts, this]
  · rw [hslots, List.length_replicate, ((arrive r).perm _).length_eq, hk]

theorem exchangeAll_of {n : Nat} {arrive : Nat → Sched} {slots : Nat → List Slot}
    {sends : Nat → List (OutMsg α)} {got : Nat → List (InMsg α)}
    (hd : ∀ s, s < n → ∀ o ∈ sends s, o.dst < n)
    (h : ∀ r, r < n → exchange n arrive slots sends r = some (got r)) :
    exchangeAll n arrive slots sends = some ((List.range n).map got) := by
  unfold exchangeAll
  rw [if_pos, mapM_of_forall]
  · intro r hr
    exact h r (List.mem_range.1 hr)
  · rw [List.all_eq_true]
    intro s hs
    rw [List.all_eq_true]
    intro o ho
    simpa using hd s (List.mem_range.1 hs) o ho

/-! ## Tags of edges -/

theorem length_edgeTags (l : List Nat) : ∀ c, (edgeTags l c).length = l.length := by
  induction l with
  | nil => intro c; rfl
  | cons p l ih => intro c; simp [edgeTags, ih]

theorem getElem?_edgeTags (l : List Nat) : ∀ (c : Nat → Nat) (i p : Nat), l[i]? = some p →
    (edgeTags l c)[i]? = some (c p + (l.take i).count p) := by
  induction l with
  | nil => intro c i p h; simp at h
  | cons q l ih =>
    intro c i p h
    cases i with
    | zero =>
      simp only [List.getElem?_cons_zero, Option.some.injEq] at h
      subst h
      simp [edgeTags]
    | succ i =>
      rw [List.getElem?_cons_succ] at h
      rw [edgeTags, List.getElem?_cons_succ, ih _ i p h, List.take_succ_cons, List.count_cons]
      by_cases hpq : p = q
      · subst hpq
        simp only [if_true, beq_self_eq_true]
        congr 1; omega
      · have : ¬ q = p := fun h => hpq h.symm
        simp [hpq, this]

theorem mem_zip_edgeTags (l : List Nat) : ∀ (c : Nat → Nat) (p t : Nat),
    (p, t) ∈ l.zip (edgeTags l c) ↔ c p ≤ t ∧ t < c p + l.count p := by
  induction l with
  | nil => intro c p t; simp [edgeTags]
  | cons q l ih =>
    intro c p t
    rw [edgeTags, List.zip_cons_cons, List.mem_cons, ih, List.count_cons]
    by_cases hpq : p = q
    · subst hpq
      simp only [Prod.mk.injEq, true_and, if_true, beq_self_eq_true]
      omega
    · have : ¬ q = p := fun h => hpq h.symm
      simp [hpq, this]

theorem nodup_zip_edgeTags (l : List Nat) : ∀ (c : Nat → Nat), (l.zip (edgeTags l c)).Nodup := by
  induction l with
  | nil => intro c; simp [edgeTags]
  | cons q l ih =>
    intro c
    rw [edgeTags, List.zip_cons_cons, List.nodup_cons]
    refine ⟨?_, ih _⟩
    rw [mem_zip_edgeTags]
    simp only [if_true]
    omega

theorem edge_unique {l : List Nat} {i j p : Nat} (hi : l[i]? = some p) (hj : l[j]? = some p)
    (h : (l.take i).count p = (l.take j).count p) : i = j := by
  have hnd := nodup_zip_edgeTags l fun _ => 0
  have ei := getElem?_edgeTags l (fun _ => 0) i p hi
  have ej := getElem?_edgeTags l (fun _ => 0) j p hj
  have hli := (List.getElem?_eq_some_iff.1 hi).1
  have hzi : (l.zip (edgeTags l fun _ => 0))[i]? = some (p, 0 + (l.take i).count p) := by
    rw [List.getElem?_zip_eq_some]; exact ⟨hi, ei⟩
  have hzj : (l.zip (edgeTags l fun _ => 0))[j]? = some (p, 0 + (l.take j).count p) := by
    rw [List.getElem?_zip_eq_some]; exact ⟨hj, ej⟩
  refine (List.getElem?_inj ?_ hnd).1 (hzi.trans (by rw [h]; exact hzj.symm))
  rw [List.length_zip, length_edgeTags]; omega

/-- Received messages are stored in disjoint places. -/
theorem runItems_edgeStore {l : List (Edge × InMsg (List α))} : ∀ {buf : List α},
    (∀ em ∈ l, em.2.data.length ≤ em.1.len ∧ em.1.displ + em.1.len ≤ buf.length) →
    l.Pairwise (fun x y => x.1.displ + x.1.len ≤ y.1.displ ∨ y.1.displ + y.1.len ≤ x.1.displ) →
    ∃ buf', runItems edgeStore l buf = some buf' ∧ buf'.length = buf.length ∧
      (∀ em ∈ l, ∀ k, k < em.2.data.length → buf'[em.1.displ + k]? = em.2.data[k]?) ∧
      (∀ k, (∀ em ∈ l, ¬ (em.1.displ ≤ k ∧ k < em.1.displ + em.1.len)) → buf'[k]? = buf[k]?) := by
  induction l with
  | nil => intro buf _ _; exact ⟨buf, rfl, rfl, by simp, fun _ _ => rfl⟩
  | cons em l ih =>
    intro buf hin hp
    rw [List.pairwise_cons] at hp
    obtain ⟨h1, h2⟩ := hin em List.mem_cons_self
    have hst : stRange buf em.1.displ em.2.data = some (buf.take em.1.displ ++ em.2.data ++
        buf.drop (em.1.displ + em.2.data.length)) := stRange_eq_some (by omega)
    obtain ⟨hl, -⟩ := length_of_stRange hst
    obtain ⟨buf', b1, b2, b3, b4⟩ := ih (buf := buf.take em.1.displ ++ em.2.data ++
        buf.drop (em.1.displ + em.2.data.length))
      (fun x hx => by rw [hl]; exact hin x (List.mem_cons_of_mem _ hx)) hp.2
    refine ⟨buf', ?_, b2.trans hl, ?_, ?_⟩
    · rw [runItems_cons, edgeStore, if_pos h1, hst]; exact b1
    · intro x hx k hk
      rcases List.mem_cons.1 hx with rfl | hx
      · rw [b4, getElem?_of_stRange hst, if_pos (by omega)]
        · congr 1; omega
        · intro y hy
          rcases hp.1 y hy with h | h <;> omega
      · exact b3 x hx k hk
    · intro k hk
      rw [b4 k (fun x hx => hk x (List.mem_cons_of_mem _ hx)), getElem?_of_stRange hst, if_neg]
      have := hk em List.mem_cons_self
      omega

end NP
