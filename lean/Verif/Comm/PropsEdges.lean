import Verif.Comm.LemmasEdges

/-!
# C29: edge counting discovers exactly the ranks that will send
-/

set_option autoImplicit false

namespace NP

open Spec

variable {α : Type}

theorem exchangeCountsAny_spec {n : Nat} (arrive : Nat → Sched) (tag : Nat) {counts : Nat → Nat}
    {recvRanks : Nat → List Nat} {recvData : Nat → List Int}
    (hr : ∀ s, s < n → ∀ t ∈ recvRanks s, t < n)
    (hl : ∀ s, s < n → (recvData s).length = (recvRanks s).length)
    (hc : ∀ r, r < n → counts r = (namedBy n recvRanks recvData r).length) :
    ∃ out, exchangeCountsAny n arrive tag counts recvRanks recvData = some out ∧ out.length = n ∧
      ∀ r, r < n → ∃ ranks data, out[r]? = some (ranks, data) ∧ ranks.length = data.length ∧
        (ranks.zip data).Perm (namedBy n recvRanks recvData r) := by
  have hsends : (List.range n).mapM (fun r => countSends tag (recvRanks r) (recvData r)) =
      some ((List.range n).map (namedSends tag recvRanks recvData)) :=
    mapM_of_forall fun r hrm => countSends_eq (hl r (List.mem_range.1 hrm))
  have hget : ∀ s, s < n → ((List.range n).map (namedSends tag recvRanks recvData)).getD s [] =
      namedSends tag recvRanks recvData s := by
    intro s hs; simp [hs]
  have hinbox : ∀ r, inbox n (fun s =>
      ((List.range n).map (namedSends tag recvRanks recvData)).getD s []) r =
      (namedBy n recvRanks recvData r).map fun sv => ⟨sv.1, tag, sv.2⟩ := by
    intro r
    rw [← inbox_named]
    unfold inbox
    apply List.flatMap_congr
    intro s hs
    simp only [hget s (List.mem_range.1 hs)]
  have hex := exchangeAll_of (arrive := arrive) (n := n)
    (slots := fun r => List.replicate (counts r) ⟨none, tag⟩)
    (sends := fun s => ((List.range n).map (namedSends tag recvRanks recvData)).getD s [])
    (got := fun r => (arrive r).order
      ((namedBy n recvRanks recvData r).map fun sv => ⟨sv.1, tag, sv.2⟩))
    (by
      intro s hs o ho
      simp only [hget s hs] at ho
      obtain ⟨tv, htv, rfl⟩ := List.mem_map.1 ho
      exact hr s hs _ (List.of_mem_zip htv).1)
    (by
      intro r hrn
      rw [← hinbox r]
      refine exchange_any rfl ?_ ?_
      · intro s hs o ho
        simp only [hget s hs] at ho
        obtain ⟨tv, _, rfl⟩ := List.mem_map.1 ho
        rfl
      · rw [hinbox r, List.length_map, hc r hrn])
  unfold exchangeCountsAny
  rw [hsends, Option.bind_some, hex, Option.bind_some]
  refine ⟨_, rfl, by simp, ?_⟩
  intro r hrn
  refine ⟨_, _, by rw [List.getElem?_map, List.getElem?_map, List.getElem?_range hrn]; rfl,
    by simp, ?_⟩
  have : ∀ l : List (InMsg Int), (l.map InMsg.src).zip (l.map InMsg.data) =
      l.map fun m => (m.src, m.data) := by
    intro l; induction l with
    | nil => rfl
    | cons a l ih => simp only [List.map_cons, List.zip_cons_cons, ih]
  rw [this]
  have hp := ((arrive r).perm ((namedBy n recvRanks recvData r).map
    fun sv => (⟨sv.1, tag, sv.2⟩ : InMsg Int))).map fun m => (m.src, m.data)
  rw [List.map_map] at hp
  simpa [Function.comp_def] using hp

theorem mem_namedBy {β : Type} {n : Nat} {targets : Nat → List Nat} {values : Nat → List β}
    {r s : Nat} {v : β} : (s, v) ∈ namedBy n targets values r ↔
      s < n ∧ ∃ j : Nat, (targets s)[j]? = some r ∧ (values s)[j]? = some v := by
  unfold namedBy
  simp only [List.mem_flatMap, List.mem_range, List.mem_map, List.mem_filter, decide_eq_true_eq,
    Prod.mk.injEq]
  constructor
  · rintro ⟨s', hs', ⟨t, v'⟩, ⟨hm, rfl⟩, rfl, rfl⟩
    obtain ⟨j, hj⟩ := List.mem_iff_getElem?.1 hm
    exact ⟨hs', j, (List.getElem?_zip_eq_some.1 hj).1, (List.getElem?_zip_eq_some.1 hj).2⟩
  · rintro ⟨hs, j, h1, h2⟩
    exact ⟨s, hs, (r, v), ⟨List.mem_of_getElem? (List.getElem?_zip_eq_some.2 ⟨h1, h2⟩), rfl⟩,
      rfl, rfl⟩

theorem nodup_namedBy_fst {β : Type} {n : Nat} {targets : Nat → List Nat} {values : Nat → List β}
    (h : ∀ s, s < n → (targets s).Nodup)
    (hl : ∀ s, s < n → (values s).length = (targets s).length) (r : Nat) :
    ((namedBy n targets values r).map Prod.fst).Nodup := by
  unfold namedBy
  rw [List.map_flatMap]
  refine nodup_flatMap_range ?_ ?_
  · intro s hs
    have hle : (((targets s).zip (values s)).filter fun tv => decide (tv.1 = r)).length ≤ 1 := by
      rw [filter_zip_length (hl s hs)]
      exact List.nodup_iff_count_le_one.1 (h s hs) r
    generalize ((targets s).zip (values s)).filter (fun tv => decide (tv.1 = r)) = l at hle
    match l, hle with
    | [], _ => simp
    | [_], _ => simp
  · intro s t _ _ hst x hx hx'
    rw [List.map_map] at hx hx'
    obtain ⟨a, -, rfl⟩ := List.mem_map.1 hx
    obtain ⟨b, -, hb⟩ := List.mem_map.1 hx'
    exact hst hb.symm

/-- `get_remote_ranks`, on every rank `r` and for every order of the increments and of the arrival
of messages: the ranks and values that `r` obtains are those of the ranks that named `r`, each as
often as it named `r`. -/
theorem C29_remote_ranks {n : Nat} (order : Sched) (arrive : Nat → Sched)
    {recvRanks : Nat → List Nat} {recvData : Nat → List Int}
    (hr : ∀ s, s < n → ∀ t ∈ recvRanks s, t < n)
    (hl : ∀ s, s < n → (recvData s).length = (recvRanks s).length) :
    ∃ out, getRemoteRanks n order arrive recvRanks recvData = some out ∧ out.length = n ∧
      ∀ r, r < n → ∃ ranks data, out[r]? = some (ranks, data) ∧ ranks.length = data.length ∧
        (ranks.zip data).Perm (namedBy n recvRanks recvData r) := by
  obtain ⟨ctr, f, h1, h2, h3, -, -⟩ := rmaCount_spec order hr
  unfold getRemoteRanks
  rw [h1, Option.bind_some]
  refine exchangeCountsAny_spec arrive 127 hr hl ?_
  intro r hrn
  rw [length_namedBy hl]
  simp [h3 r hrn]

/-- `exchangeCountsAny` when every rank names a rank at most once. -/
theorem exchangeCountsAny_once {n : Nat} (arrive : Nat → Sched) (tag : Nat) {counts : Nat → Nat}
    {recvRanks : Nat → List Nat} {recvData : Nat → List Int}
    (hr : ∀ s, s < n → ∀ t ∈ recvRanks s, t < n) (hnd : ∀ s, s < n → (recvRanks s).Nodup)
    (hl : ∀ s, s < n → (recvData s).length = (recvRanks s).length)
    (hc : ∀ r, r < n → counts r = (namedBy n recvRanks recvData r).length) :
    ∃ out, exchangeCountsAny n arrive tag counts recvRanks recvData = some out ∧ out.length = n ∧
      ∀ r, r < n → ∃ ranks data, out[r]? = some (ranks, data) ∧ ranks.length = data.length ∧
        ranks.Nodup ∧ (∀ s, s ∈ ranks ↔ s < n ∧ r ∈ recvRanks s) ∧
        ∀ (i j s : Nat), ranks[i]? = some s → (recvRanks s)[j]? = some r →
          data[i]? = (recvData s)[j]? := by
  obtain ⟨out, h1, h2, h3⟩ := exchangeCountsAny_spec arrive tag hr hl hc
  refine ⟨out, h1, h2, ?_⟩
  intro r hrn
  obtain ⟨ranks, data, h4, h5, h6⟩ := h3 r hrn
  have hfst : ranks = (ranks.zip data).map Prod.fst :=
    (List.map_fst_zip (by omega)).symm
  refine ⟨ranks, data, h4, h5, ?_, ?_, ?_⟩
  · rw [hfst]
    exact ((h6.map _).nodup_iff).2 (nodup_namedBy_fst hnd hl r)
  · intro s
    rw [hfst, (h6.map _).mem_iff, List.mem_map]
    constructor
    · rintro ⟨⟨s', v⟩, hm, rfl⟩
      obtain ⟨hs, j, hj, -⟩ := mem_namedBy.1 hm
      exact ⟨hs, List.mem_of_getElem? hj⟩
    · rintro ⟨hs, hm⟩
      obtain ⟨j, hj⟩ := List.mem_iff_getElem?.1 hm
      have hlt : j < (recvData s).length := by
        rw [hl s hs]; exact (List.getElem?_eq_some_iff.1 hj).1
      exact ⟨(s, (recvData s)[j]), mem_namedBy.2 ⟨hs, j, hj, List.getElem?_eq_getElem hlt⟩, rfl⟩
  · intro i j s hi hj
    have hlt : i < data.length := by
      rw [← h5]; exact (List.getElem?_eq_some_iff.1 hi).1
    have hz : (ranks.zip data)[i]? = some (s, data[i]) :=
      List.getElem?_zip_eq_some.2 ⟨hi, List.getElem?_eq_getElem hlt⟩
    obtain ⟨hs, j', hj', hv⟩ := mem_namedBy.1 (h6.subset (List.mem_of_getElem? hz))
    have : j = j' := (List.getElem?_inj (List.getElem?_eq_some_iff.1 hj).1 (hnd s hs)).1
      (hj.trans hj'.symm)
    subst this
    rw [List.getElem?_eq_getElem hlt, hv]

/-- If every rank names a rank at most once: the ranks that `r` obtains are exactly those that
named it, each once, and beside each rank is the value which that rank gave for `r`. -/
theorem C29_each_once {n : Nat} (order : Sched) (arrive : Nat → Sched)
    {recvRanks : Nat → List Nat} {recvData : Nat → List Int}
    (hr : ∀ s, s < n → ∀ t ∈ recvRanks s, t < n) (hnd : ∀ s, s < n → (recvRanks s).Nodup)
    (hl : ∀ s, s < n → (recvData s).length = (recvRanks s).length) :
    ∃ out, getRemoteRanks n order arrive recvRanks recvData = some out ∧ out.length = n ∧
      ∀ r, r < n → ∃ ranks data, out[r]? = some (ranks, data) ∧ ranks.length = data.length ∧
        ranks.Nodup ∧ (∀ s, s ∈ ranks ↔ s < n ∧ r ∈ recvRanks s) ∧
        ∀ (i j s : Nat), ranks[i]? = some s → (recvRanks s)[j]? = some r →
          data[i]? = (recvData s)[j]? := by
  obtain ⟨ctr, f, h1, h2, h3, -, -⟩ := rmaCount_spec order hr
  unfold getRemoteRanks
  rw [h1, Option.bind_some]
  refine exchangeCountsAny_once arrive 127 hr hnd hl ?_
  intro r hrn
  rw [length_namedBy hl]
  simp [h3 r hrn]

/-- Named receives from distinct ranks that each send one message. -/
theorem exchange_ranks {n : Nat} (arrive : Nat → Sched) {tag : Nat} {sendRanks : Nat → List Nat}
    {targets : Nat → List Nat} {values : Nat → List α}
    (hr : ∀ s, s < n → ∀ t ∈ targets s, t < n) (hnd : ∀ s, s < n → (targets s).Nodup)
    (hl : ∀ s, s < n → (values s).length = (targets s).length)
    (hsnd : ∀ r, r < n → (sendRanks r).Nodup)
    (hmem : ∀ r, r < n → ∀ s, s ∈ sendRanks r ↔ s < n ∧ r ∈ targets s)
    (sends : List (List (OutMsg α)))
    (hsends : sends = (List.range n).map (namedSends tag targets values)) :
    ∃ got : Nat → List (InMsg α), exchangeAll n arrive
        (fun r => (sendRanks r).map fun s => ⟨some s, tag⟩) (fun s => sends.getD s []) =
          some ((List.range n).map got) ∧
      ∀ r, r < n → (got r).map InMsg.src = sendRanks r ∧
        ∀ (i j s : Nat), (sendRanks r)[i]? = some s → (targets s)[j]? = some r →
          ((got r)[i]?.map InMsg.data) = (values s)[j]? := by
  subst hsends
  have hget : ∀ s, s < n → ((List.range n).map (namedSends tag targets values)).getD s [] =
      namedSends tag targets values s := by
    intro s hs; simp [hs]
  have hkeys : ∀ s, s < n → (namedSends tag targets values s).map (fun o => (o.dst, o.tag)) =
      (targets s).map fun t => (t, tag) := by
    intro s hs
    unfold namedSends
    rw [List.map_map]
    have : ((fun o : OutMsg α => (o.dst, o.tag)) ∘ fun tv : Nat × α => ⟨tv.1, tag, tv.2⟩) =
        (fun t => (t, tag)) ∘ Prod.fst := rfl
    rw [this, ← List.map_map, List.map_fst_zip (Nat.le_of_eq (hl s hs).symm)]
  have key : ∀ r, r < n → ∃ got, exchange n arrive
      (fun r => (sendRanks r).map fun s => (⟨some s, tag⟩ : Slot))
      (fun s => ((List.range n).map (namedSends tag targets values)).getD s []) r = some got ∧
      got.map (fun m => (m.src, m.tag)) = (sendRanks r).map (fun s => (s, tag)) ∧
      got.Perm (inbox n (fun s =>
        ((List.range n).map (namedSends tag targets values)).getD s []) r) := by
    intro r hrn
    refine exchange_named ?_ ?_ ?_ ?_
    · intro s hs
      simp only [hget s hs]
      rw [hkeys s hs]
      exact (hnd s hs).map fun a b h => by simpa using h
    · rw [List.map_map]; rfl
    · exact (hsnd r hrn).map fun a b h => by simpa using h
    · intro s t
      constructor
      · intro hm
        obtain ⟨s', hs', he⟩ := List.mem_map.1 hm
        simp only [Prod.mk.injEq] at he
        obtain ⟨rfl, rfl⟩ := he
        obtain ⟨hs, hrm⟩ := (hmem r hrn s').1 hs'
        refine ⟨hs, ?_⟩
        have : (r, tag) ∈ (namedSends tag targets values s').map fun o => (o.dst, o.tag) := by
          rw [hkeys s' hs]; exact List.mem_map.2 ⟨r, hrm, rfl⟩
        obtain ⟨o, ho, he⟩ := List.mem_map.1 this
        simp only [Prod.mk.injEq] at he
        exact ⟨o, by simp only [hget s' hs]; exact ho, he.1, he.2⟩
      · rintro ⟨hs, o, ho, rfl, rfl⟩
        simp only [hget s hs] at ho
        have : (o.dst, o.tag) ∈ (namedSends tag targets values s).map fun o => (o.dst, o.tag) :=
          List.mem_map.2 ⟨o, ho, rfl⟩
        rw [hkeys s hs] at this
        obtain ⟨t, ht, he⟩ := List.mem_map.1 this
        simp only [Prod.mk.injEq] at he
        refine List.mem_map.2 ⟨s, (hmem _ hrn s).2 ⟨hs, he.1 ▸ ht⟩, ?_⟩
        rw [← he.2]
  choose! got hgot using key
  refine ⟨got, exchangeAll_of ?_ fun r hrn => (hgot r hrn).1, ?_⟩
  · intro s hs o ho
    simp only [hget s hs] at ho
    obtain ⟨tv, htv, rfl⟩ := List.mem_map.1 ho
    exact hr s hs _ (List.of_mem_zip htv).1
  · intro r hrn
    obtain ⟨-, h2, h3⟩ := hgot r hrn
    have hsrc : (got r).map InMsg.src = sendRanks r := by
      have := congrArg (List.map Prod.fst) h2
      rw [List.map_map, List.map_map] at this
      simpa [Function.comp_def] using this
    refine ⟨hsrc, ?_⟩
    intro i j s hi hj
    rw [← hsrc, List.getElem?_map, Option.map_eq_some_iff] at hi
    obtain ⟨m, hm, rfl⟩ := hi
    rw [hm, Option.map_some]
    obtain ⟨hs, ho⟩ := mem_inbox.1 (h3.subset (List.mem_of_getElem? hm))
    simp only [hget _ hs] at ho
    obtain ⟨tv, htv, he⟩ := List.mem_map.1 ho
    simp only [OutMsg.mk.injEq] at he
    obtain ⟨j', hj'⟩ := List.mem_iff_getElem?.1 htv
    obtain ⟨ha, hb⟩ := List.getElem?_zip_eq_some.1 hj'
    have : j = j' := (List.getElem?_inj (List.getElem?_eq_some_iff.1 hj).1 (hnd _ hs)).1
      (hj.trans (by rw [ha, he.1]))
    subst this
    rw [hb, he.2.2]

/-- The ordered count exchange, when the ranks that `r` expects are those that name it: the value
of index `i` is the one which the `i`-th expected rank gave for `r`, for every order of arrival. -/
theorem C29_ordered {n : Nat} (arrive : Nat → Sched) (tag : Nat)
    {recvRanks sendRanks : Nat → List Nat} {recvData : Nat → List Int}
    (hr : ∀ s, s < n → ∀ t ∈ recvRanks s, t < n) (hnd : ∀ s, s < n → (recvRanks s).Nodup)
    (hl : ∀ s, s < n → (recvData s).length = (recvRanks s).length)
    (hsnd : ∀ r, r < n → (sendRanks r).Nodup)
    (hmem : ∀ r, r < n → ∀ s, s ∈ sendRanks r ↔ s < n ∧ r ∈ recvRanks s) :
    ∃ out, exchangeCountsOrdered n arrive tag recvRanks recvData sendRanks = some out ∧
      out.length = n ∧ ∀ r, r < n → ∃ data, out[r]? = some data ∧
        data.length = (sendRanks r).length ∧
        ∀ (i j s : Nat), (sendRanks r)[i]? = some s → (recvRanks s)[j]? = some r →
          data[i]? = (recvData s)[j]? := by
  obtain ⟨got, h1, h2⟩ := exchange_ranks arrive (tag := tag) hr hnd hl hsnd hmem _ rfl
  have hsends : (List.range n).mapM (fun r => countSends tag (recvRanks r) (recvData r)) =
      some ((List.range n).map (namedSends tag recvRanks recvData)) :=
    mapM_of_forall fun r hrm => countSends_eq (hl r (List.mem_range.1 hrm))
  unfold exchangeCountsOrdered
  rw [hsends, Option.bind_some, h1, Option.bind_some,
    mapM_of_forall (g := fun r => (got r).map InMsg.data)]
  · refine ⟨_, rfl, by simp, ?_⟩
    intro r hrn
    obtain ⟨h3, h4⟩ := h2 r hrn
    refine ⟨_, by rw [List.getElem?_map, List.getElem?_range hrn]; rfl, ?_, ?_⟩
    · rw [List.length_map, ← h3, List.length_map]
    · intro i j s hi hj
      rw [List.getElem?_map]
      exact h4 i j s hi hj
  · intro r hrm
    have hrn := List.mem_range.1 hrm
    simp only [rd, List.getElem?_map, List.getElem?_range hrn, Option.map_some, Option.bind_some]
    rw [if_pos (h2 r hrn).1]

/-- The data exchange that follows: if the counts of both sides agree, the bytes of index `i` are
those which the `i`-th expected rank gave for `r`. -/
theorem C29_data {n : Nat} (arrive : Nat → Sched) (tag : Nat)
    {recvRanks sendRanks recvCounts sendCounts : Nat → List Nat}
    {recvData : Nat → List (List α)}
    (hr : ∀ s, s < n → ∀ t ∈ recvRanks s, t < n) (hnd : ∀ s, s < n → (recvRanks s).Nodup)
    (hl : ∀ s, s < n → (recvData s).length = (recvRanks s).length)
    (hcl : ∀ s, s < n → (recvData s).map List.length = recvCounts s)
    (hsnd : ∀ r, r < n → (sendRanks r).Nodup)
    (hmem : ∀ r, r < n → ∀ s, s ∈ sendRanks r ↔ s < n ∧ r ∈ recvRanks s)
    (hcount : ∀ (r i j s : Nat), r < n → (sendRanks r)[i]? = some s →
      (recvRanks s)[j]? = some r → (sendCounts r)[i]? = (recvCounts s)[j]?) :
    ∃ out, exchangeData n arrive tag recvRanks recvCounts recvData sendRanks sendCounts = some out ∧
      out.length = n ∧ ∀ r, r < n → ∃ data, out[r]? = some data ∧
        data.length = (sendRanks r).length ∧
        ∀ (i j s : Nat), (sendRanks r)[i]? = some s → (recvRanks s)[j]? = some r →
          data[i]? = (recvData s)[j]? := by
  obtain ⟨got, h1, h2⟩ := exchange_ranks arrive (tag := tag) hr hnd hl hsnd hmem _ rfl
  have hsends : (List.range n).mapM (fun r =>
      (((recvRanks r).zipIdx.mapM fun ri => (rd (recvCounts r) ri.2).bind fun c =>
        (rd (recvData r) ri.2).bind fun d => slice d 0 c)).bind fun ds =>
      countSends tag (recvRanks r) ds) =
      some ((List.range n).map (namedSends tag recvRanks recvData)) := by
    refine mapM_of_forall fun r hrm => ?_
    have hrn := List.mem_range.1 hrm
    rw [mapM_zipIdx (data := recvData r) (g := fun _ d => d)]
    · have : List.zipWith (fun _ d => d) (recvRanks r) ((recvData r).drop 0) = recvData r := by
        rw [List.drop_zero]
        apply List.ext_getElem?
        intro i
        rw [List.getElem?_zipWith]
        have := hl r hrn
        rcases Nat.lt_or_ge i (recvData r).length with h | h
        · rw [List.getElem?_eq_getElem h, List.getElem?_eq_getElem (by omega)]
        · rw [List.getElem?_eq_none h, List.getElem?_eq_none (by omega)]
      rw [this, Option.bind_some]
      exact countSends_eq (hl r hrn)
    · intro a i d hd
      have hc : (recvCounts r)[i]? = some d.length := by
        rw [← hcl r hrn, List.getElem?_map, hd]; rfl
      simp only [rd, hc, hd, Option.bind_some]
      rw [slice_eq_some (by omega) (by omega)]
      simp
    · rw [hl r hrn]; omega
  unfold exchangeData
  rw [hsends, Option.bind_some, h1, Option.bind_some,
    mapM_of_forall (g := fun r => (got r).map InMsg.data)]
  · refine ⟨_, rfl, by simp, ?_⟩
    intro r hrn
    obtain ⟨h3, h4⟩ := h2 r hrn
    refine ⟨_, by rw [List.getElem?_map, List.getElem?_range hrn]; rfl, ?_, ?_⟩
    · rw [List.length_map, ← h3, List.length_map]
    · intro i j s hi hj
      rw [List.getElem?_map]
      exact h4 i j s hi hj
  · intro r hrm
    have hrn := List.mem_range.1 hrm
    obtain ⟨h3, h4⟩ := h2 r hrn
    simp only [rd, List.getElem?_map, List.getElem?_range hrn, Option.map_some, Option.bind_some]
    rw [mapM_of_forall (g := fun mi => mi.1.data)]
    · congr 1
      have : (fun mi : InMsg (List α) × Nat => mi.1.data) = InMsg.data ∘ Prod.fst := rfl
      rw [this, ← List.map_map, List.zipIdx_map_fst]
    · rintro ⟨m, i⟩ hm
      have hm' : (got r)[i]? = some m := List.mem_zipIdx_iff_getElem?.1 hm
      have hi : (sendRanks r)[i]? = some m.src := by
        rw [← h3, List.getElem?_map, hm']; rfl
      obtain ⟨hs, hrm'⟩ := (hmem r hrn m.src).1 (List.mem_of_getElem? hi)
      obtain ⟨j, hj⟩ := List.mem_iff_getElem?.1 hrm'
      have hv := h4 i j m.src hi hj
      rw [hm', Option.map_some] at hv
      have hc := hcount r i j m.src hrn hi hj
      rw [← hcl m.src hs, List.getElem?_map, ← hv] at hc
      simp only [hc, Option.map_some, Option.bind_some, Nat.le_refl, if_true]

/-- The two calls one after the other: the ranks and counts found by `get_remote_ranks` are the
arguments of the data exchange. Every rank obtains, beside the rank of each sender, the bytes
which that rank sent to it. -/
theorem C29_counts_then_data {n : Nat} (order : Sched) (arrive arrive' : Nat → Sched) (tag : Nat)
    {recvRanks : Nat → List Nat} {recvData : Nat → List (List α)}
    (hr : ∀ s, s < n → ∀ t ∈ recvRanks s, t < n) (hnd : ∀ s, s < n → (recvRanks s).Nodup)
    (hl : ∀ s, s < n → (recvData s).length = (recvRanks s).length) :
    ∃ found, getRemoteRanks n order arrive recvRanks
        (fun s => (recvData s).map fun d => (d.length : Int)) = some found ∧
      ∃ out, exchangeData n arrive' tag recvRanks (fun s => (recvData s).map List.length) recvData
          (fun r => (found.getD r ([], [])).1)
          (fun r => (found.getD r ([], [])).2.map Int.toNat) = some out ∧ out.length = n ∧
      ∀ r, r < n → ∃ ranks data, found[r]?.map Prod.fst = some ranks ∧ out[r]? = some data ∧
        ranks.length = data.length ∧ ranks.Nodup ∧ (∀ s, s ∈ ranks ↔ s < n ∧ r ∈ recvRanks s) ∧
        ∀ (i j s : Nat), ranks[i]? = some s → (recvRanks s)[j]? = some r →
          data[i]? = (recvData s)[j]? := by
  obtain ⟨found, h1, h2, h3⟩ := C29_each_once order arrive
    (recvData := fun s => (recvData s).map fun d => (d.length : Int)) hr hnd
    (by intro s hs; rw [List.length_map, hl s hs])
  refine ⟨found, h1, ?_⟩
  obtain ⟨out, h4, h5, h6⟩ := C29_data arrive' tag (recvRanks := recvRanks)
    (sendRanks := fun r => (found.getD r ([], [])).1)
    (recvCounts := fun s => (recvData s).map List.length)
    (sendCounts := fun r => (found.getD r ([], [])).2.map Int.toNat) hr hnd hl (fun _ _ => rfl)
    (by
      intro r hrn; obtain ⟨ranks, data, e, -, e2, -, -⟩ := h3 r hrn
      rw [List.getD_eq_getElem?_getD, e]; exact e2)
    (by
      intro r hrn; obtain ⟨ranks, data, e, -, -, e3, -⟩ := h3 r hrn
      rw [List.getD_eq_getElem?_getD, e]; exact e3)
    (by
      intro r i j s hrn hi hj
      obtain ⟨ranks, data, e, e1, -, -, e4⟩ := h3 r hrn
      rw [List.getD_eq_getElem?_getD, e] at hi ⊢
      have := e4 i j s hi hj
      rw [List.getElem?_map] at this
      simp only [Option.getD_some, List.getElem?_map, this, Option.map_map]
      cases (recvData s)[j]? <;> simp)
  refine ⟨out, h4, h5, ?_⟩
  intro r hrn
  obtain ⟨ranks, counts, e, e1, e2, e3, -⟩ := h3 r hrn
  obtain ⟨data, g1, g2, g3⟩ := h6 r hrn
  simp only [List.getD_eq_getElem?_getD, e, Option.getD_some] at g2 g3
  exact ⟨ranks, data, by rw [e]; rfl, g1, g2.symm, e2, e3, g3⟩

namespace Ex

/-- Three ranks: 0 names 1 and 2, 1 names 2, 2 names 0 and itself. -/
def edgeRanks (r : Nat) : List Nat := [[1, 2], [2], [0, 2]].getD r []

/-- Some data for each. -/
def edgeBytes (r : Nat) : List (List Int) := [[[1, 2], [3]], [[]], [[4, 5, 6], [7]]].getD r []

theorem edge_lt : ∀ s, s < 3 → ∀ t ∈ edgeRanks s, t < 3 := by decide
theorem edge_nd : ∀ s, s < 3 → (edgeRanks s).Nodup := by decide
theorem edge_len : ∀ s, s < 3 → (edgeBytes s).length = (edgeRanks s).length := by decide

example := C29_counts_then_data Sched.reversed (fun _ => Sched.reversed) (fun _ => Sched.inOrder)
  126 edge_lt edge_nd edge_len

example : getRemoteRanks 3 Sched.reversed (fun _ => Sched.reversed) edgeRanks
    (fun s => (edgeBytes s).map fun d => (d.length : Int)) =
    some [([2], [3]), ([0], [2]), ([2, 1, 0], [1, 0, 1])] := by decide +kernel

end Ex

end NP
