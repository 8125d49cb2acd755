import Verif.Boundary.LemmasExchange2

/-!
# Lemmas for the exchange of face data: building the pattern
-/

set_option autoImplicit false

namespace NP

/-- The communication data of rank `r` agree with the faces `R s q` of rank `q` that each
rank `s` holds. -/
structure SurfSync (n : Nat) (R : Nat → Nat → List Int) (faces : List Int) (r : Nat) (a : SurfRank) :
    Prop where
  dests : ∀ d, d ∈ a.dests ↔ d < n ∧ R r d ≠ []
  destsNodup : a.dests.Nodup
  sources : ∀ s, s ∈ a.sources ↔ s < n ∧ R s r ≠ []
  sourcesNodup : a.sources.Nodup
  revDests : a.revDests.Perm a.sources
  revSources : a.revSources.Perm a.dests
  outCounts : a.outCounts = a.dests.map fun d => (R r d).length
  inCounts : a.inCounts = a.sources.map fun s => (R s r).length
  outIds : a.outIds = a.dests.flatMap (R r)
  inIds : a.inIds = a.sources.flatMap fun s => R s r
  sendIds : a.sendIds = (List.range n).map fun s => R s r
  packIndex : a.packIndex = a.seqGeom.map fun g => a.outIds.idxOf g
  revPack : a.revPack.getD [] = a.revDests.flatMap fun s => (R s r).map faces.idxOf
  revPackSome : a.revPack = none → a.inIds = []
  revUnpack : a.revUnpack.getD [] = a.revSources.flatMap fun q => (R r q).map a.seqGeom.idxOf
  revUnpackSome : a.revUnpack = none → a.seqGeom = []
  revOutCounts : a.revOutCounts = a.revDests.map fun s => (R s r).length
  revInCounts : a.revInCounts = a.revSources.map fun q => (R r q).length

theorem find_idxOf {m : List (Int × Nat)} {l : List Int}
    (h : ∀ g i, surfFind m g = some i ↔ l[i]? = some g) {g : Int} (hg : g ∈ l) :
    surfFind m g = some (l.idxOf g) := by
  rw [h]
  have hlt := List.idxOf_lt_length_of_mem hg
  rw [List.getElem?_eq_getElem hlt, List.getElem_idxOf]

theorem nodup_of_lt {l : List Int} (h : l.Pairwise (· < ·)) : l.Nodup :=
  h.imp fun hab => ne_of_lt hab

theorem mem_surfKeys {n : Nat} {R : Nat → List Int} {a : SurfRank}
    (h : a.recvIds = (List.range n).map R) (d : Nat) : d ∈ surfKeys a ↔ d < n ∧ R d ≠ [] := by
  unfold surfKeys
  rw [List.mem_filter, List.mem_range, h, List.length_map, List.length_range]
  constructor
  · rintro ⟨h1, h2⟩
    rw [rd_table R h1] at h2
    exact ⟨h1, by simpa using h2⟩
  · rintro ⟨h1, h2⟩
    refine ⟨h1, ?_⟩
    rw [rd_table R h1]
    simpa using h2

theorem mem_surfInEdges {n : Nat} {R : Nat → Nat → List Int} {W : Nat → SurfRank}
    (h : ∀ r < n, (W r).recvIds = (List.range n).map (R r)) {q : Nat} (hq : q < n) (s : Nat) :
    s ∈ surfInEdges ((List.range n).map W) q ↔ s < n ∧ R s q ≠ [] := by
  unfold surfInEdges
  rw [List.mem_filter, List.mem_range, List.length_map, List.length_range]
  constructor
  · rintro ⟨h1, h2⟩
    rw [rd_table W h1] at h2
    simp only [List.contains_iff_mem] at h2
    exact ⟨h1, ((mem_surfKeys (h s h1) q).1 h2).2⟩
  · rintro ⟨h1, h2⟩
    refine ⟨h1, ?_⟩
    rw [rd_table W h1]
    simp only [List.contains_iff_mem]
    exact (mem_surfKeys (h s h1) q).2 ⟨hq, h2⟩

/-- The ids received from one source are added to its set. -/
theorem surfSendId_loop {n : Nat} {a : SurfRank} {S : Nat → List Int} {src i0 : Nat} {ids : List Int}
    (hsrc : src < n) (hS : ∀ s < n, (S s).Pairwise (· < ·))
    (hin : ∀ k g, ids[k]? = some g → a.inIds[i0 + k]? = some g)
    (hown : ∀ g ∈ ids, (surfFind a.ownedIndex g).isSome) :
    ∃ S', forLoop 0 ids.length (fun _ => surfSendId a src) ((List.range n).map S, i0) =
        some ((List.range n).map S', i0 + ids.length) ∧ (∀ s < n, (S' s).Pairwise (· < ·)) ∧
      ∀ s < n, ∀ g, g ∈ S' s ↔ g ∈ S s ∨ (s = src ∧ g ∈ ids) := by
  obtain ⟨s, h1, S', h2, h3, h4⟩ := forLoop_invariant (a := 0) (b := ids.length)
    (step := fun _ => surfSendId a src) (s := ((List.range n).map S, i0))
    (P := fun k s => ∃ S', s = ((List.range n).map S', i0 + k) ∧
      (∀ s < n, (S' s).Pairwise (· < ·)) ∧
      ∀ s < n, ∀ g, g ∈ S' s ↔ g ∈ S s ∨ (s = src ∧ g ∈ ids.take k)) (Nat.zero_le _)
    (by
      rintro k s - hk ⟨S', rfl, hs, hm⟩
      have hg : ids[k]? = some ids[k] := List.getElem?_eq_getElem hk
      unfold surfSendId
      dsimp only
      simp only [rd]
      rw [hin k _ hg, Option.bind_some, show ((List.range n).map S')[src]? = some (S' src) from
        rd_table S' hsrc, Option.bind_some, st_eq_some (by simpa using hsrc), Option.bind_some,
        if_pos (hown _ (List.getElem_mem hk)), set_table S' _ hsrc]
      refine ⟨_, rfl, _, rfl, ?_, ?_⟩
      · intro s hsn
        by_cases h : s = src
        · rw [if_pos h]; exact intSetInsert_sorted (hs _ hsrc)
        · rw [if_neg h]; exact hs s hsn
      · intro s hsn g
        rw [List.take_add_one, hg, Option.toList_some, List.mem_append, List.mem_singleton]
        by_cases h : s = src
        · subst h
          rw [if_pos rfl, mem_intSetInsert, hm s hsn]
          tauto
        · rw [if_neg h, hm s hsn]
          tauto)
    ⟨S, rfl, hS, by simp⟩
  refine ⟨S', by rw [h1, h2], h3, fun s hs g => ?_⟩
  rw [h4 s hs g, List.take_of_length_le (Nat.le_refl _)]

theorem surfSendIds_eq {n : Nat} {a : SurfRank} {S B : Nat → List Int}
    (hsend : a.sendIds = (List.range n).map S) (hS : ∀ s < n, (S s).Pairwise (· < ·))
    (hsrc : ∀ s ∈ a.sources, s < n) (hcount : a.inCounts = a.sources.map fun s => (B s).length)
    (hin : a.inIds = a.sources.flatMap B)
    (hown : ∀ s ∈ a.sources, ∀ g ∈ B s, (surfFind a.ownedIndex g).isSome) :
    ∃ S', surfSendIds a = some { a with sendIds := (List.range n).map S' } ∧
      (∀ s < n, (S' s).Pairwise (· < ·)) ∧
      ∀ s < n, ∀ g, g ∈ S' s ↔ g ∈ S s ∨ (s ∈ a.sources ∧ g ∈ B s) := by
  unfold surfSendIds
  rw [hsend]
  obtain ⟨s, h1, S', h2, h3, h4⟩ := forLoop_invariant (a := 0) (b := a.sources.length)
    (step := fun j s => (rd a.sources j).bind fun src =>
      (rd a.inCounts j).bind fun n => forLoop 0 n (fun _ => surfSendId a src) s)
    (s := ((List.range n).map S, 0))
    (P := fun j s => ∃ S', s = ((List.range n).map S',
        ((a.sources.map fun s => (B s).length).take j).sum) ∧
      (∀ s < n, (S' s).Pairwise (· < ·)) ∧
      ∀ s < n, ∀ g, g ∈ S' s ↔ g ∈ S s ∨ (s ∈ a.sources.take j ∧ g ∈ B s)) (Nat.zero_le _)
    (by
      rintro j s - hj ⟨S', rfl, hs, hm⟩
      have hx : a.sources[j]? = some a.sources[j] := List.getElem?_eq_getElem hj
      have hmem := List.getElem_mem hj
      obtain ⟨S2, g1, g2, g3⟩ := surfSendId_loop (a := a) (S := S') (src := a.sources[j])
        (i0 := ((a.sources.map fun s => (B s).length).take j).sum) (ids := B a.sources[j])
        (hsrc _ hmem) hs
        (fun k g hk => by
          have hsl := slice_flatMap a.sources B j hx
          rw [← hin] at hsl
          have hlt := (List.getElem?_eq_some_iff.1 hk).1
          have := getElem?_of_slice hsl (k) (by omega)
          rw [← this, hk])
        (hown _ hmem)
      simp only [rd]
      rw [hx, Option.bind_some, hcount, List.getElem?_map, hx, Option.map_some, Option.bind_some, g1]
      refine ⟨_, rfl, S2, ?_, g2, fun s hsn g => ?_⟩
      · rw [List.take_add_one]
        simp [hx]
      · rw [g3 s hsn, hm s hsn, List.take_add_one, hx, Option.toList_some, List.mem_append,
          List.mem_singleton]
        constructor
        · rintro ((h | h) | ⟨rfl, h⟩)
          · exact Or.inl h
          · exact Or.inr ⟨Or.inl h.1, h.2⟩
          · exact Or.inr ⟨Or.inr rfl, h⟩
        · rintro (h | ⟨h | h, h'⟩)
          · exact Or.inl (Or.inl h)
          · exact Or.inl (Or.inr ⟨h, h'⟩)
          · exact Or.inr ⟨h, h ▸ h'⟩)
    ⟨S, by simp, hS, by simp⟩
  rw [h1, h2, Option.bind_some]
  refine ⟨S', rfl, h3, fun s hs g => ?_⟩
  rw [h4 s hs g, List.take_of_length_le (Nat.le_refl _)]

theorem surfPackIndex_eq {a : SurfRank} (hnd : a.outIds.Nodup) (hmem : ∀ g, g ∈ a.outIds ↔ g ∈ a.seqGeom)
    (hfind : ∀ g i, surfFind a.geomSeq g = some i ↔ a.seqGeom[i]? = some g) (hseq : a.seqGeom.Nodup) :
    surfPackIndex a = some { a with packIndex := a.seqGeom.map fun g => a.outIds.idxOf g } := by
  unfold surfPackIndex
  have hput := runItems_put
    (step := fun pack m => (rd a.outIds pack).bind fun gid =>
      (surfFind a.geomSeq gid).bind fun i => st m i (some pack))
    (items := List.range' 0 (a.outIds.length - 0)) (m := List.replicate a.seqGeom.length none)
    (fun k => (a.outIds[k]?).map fun g => a.seqGeom.idxOf g) (fun k => some k)
    (fun k hk m hm => by
      have hlt : k < a.outIds.length := by simpa [List.mem_range'_1] using hk
      simp only [rd, List.getElem?_eq_getElem hlt, Option.bind_some, Option.map_some]
      rw [find_idxOf hfind ((hmem _).1 (List.getElem_mem hlt)), Option.bind_some])
    (fun i hi j hj d hd hd' => by
      have hlti : i < a.outIds.length := by simpa [List.mem_range'_1] using hi
      have hltj : j < a.outIds.length := by simpa [List.mem_range'_1] using hj
      rw [List.getElem?_eq_getElem hlti, Option.map_some, Option.some.injEq] at hd
      rw [List.getElem?_eq_getElem hltj, Option.map_some, Option.some.injEq] at hd'
      have := List.idxOf_inj ((hmem _).1 (List.getElem_mem hlti)) |>.1 (hd.trans hd'.symm)
      rw [(List.Nodup.getElem_inj_iff hnd).1 this])
    (fun i hi d hd => by
      have hlti : i < a.outIds.length := by simpa [List.mem_range'_1] using hi
      rw [List.getElem?_eq_getElem hlti, Option.map_some, Option.some.injEq] at hd
      rw [List.length_replicate, ← hd]
      exact List.idxOf_lt_length_of_mem ((hmem _).1 (List.getElem_mem hlti)))
  obtain ⟨m', h1, h2, h3, h4⟩ := hput
  unfold forLoop
  rw [h1, Option.bind_some]
  have hm' : m' = (a.seqGeom.map fun g => a.outIds.idxOf g).map some := by
    apply List.ext_getElem? fun k => ?_
    by_cases hk : k < a.seqGeom.length
    · have hg : a.seqGeom[k]? = some a.seqGeom[k] := List.getElem?_eq_getElem hk
      have ho := (hmem _).2 (List.getElem_mem hk)
      have hlt := List.idxOf_lt_length_of_mem ho
      have := h3 (a.outIds.idxOf a.seqGeom[k]) (by simp [List.mem_range'_1, hlt]) k (by
        rw [List.getElem?_eq_getElem hlt, Option.map_some, List.getElem_idxOf,
          List.Nodup.idxOf_getElem hseq])
      rw [this]
      simp [hg]
    · rw [List.getElem?_eq_none (by rw [h2, List.length_replicate]; omega),
        List.getElem?_eq_none (by simp; omega)]
  rw [hm', mapM_of_forall (g := fun x => x.getD 0) (by
    intro x hx
    obtain ⟨y, -, rfl⟩ := List.mem_map.1 hx
    rfl)]
  rw [Option.bind_some, List.map_map, show ((fun x : Option Nat => x.getD 0) ∘ some) = id from rfl,
    List.map_id]

/-- The per rank result of a collective, given rank by rank. -/
theorem mapRanks_exists {A B : Type} [Nonempty B] {n : Nat} {W : Nat → A} {f : Nat → A → Option B}
    {P : Nat → B → Prop} (h : ∀ r < n, ∃ b, f r (W r) = some b ∧ P r b) :
    ∃ g, mapRanks ((List.range n).map W) f = some ((List.range n).map g) ∧ ∀ r < n, P r (g r) := by
  choose! g hg using h
  exact ⟨g, mapRanks_table fun r hr => (hg r hr).1, fun r hr => (hg r hr).2⟩

theorem surfReverse_eq {n : Nat} {a : SurfRank} {S R : Nat → List Int} {faces : List Int}
    (hsend : a.sendIds = (List.range n).map S) (hrecv : a.recvIds = (List.range n).map R)
    (hd : ∀ d ∈ a.revDests, d < n ∧ S d ≠ []) (hs : ∀ s ∈ a.revSources, s < n ∧ R s ≠ [])
    (hown : ∀ d ∈ a.revDests, ∀ g ∈ S d, g ∈ faces) (hseq : ∀ s ∈ a.revSources, ∀ g ∈ R s, g ∈ a.seqGeom)
    (hindex : ∀ g i, surfFind a.ownedIndex g = some i ↔ faces[i]? = some g)
    (hfind : ∀ g i, surfFind a.geomSeq g = some i ↔ a.seqGeom[i]? = some g)
    (hl1 : a.revSources.length = a.outCounts.length) (hl2 : a.revDests.length = a.inCounts.length) :
    surfReverse a = some { a with
      revPack := some (a.revDests.flatMap fun s => (S s).map faces.idxOf)
      revUnpack := some (a.revSources.flatMap fun q => (R q).map a.seqGeom.idxOf)
      revOutCounts := a.revDests.map fun s => (S s).length
      revInCounts := a.revSources.map fun q => (R q).length
      version := a.version + 1 } := by
  unfold surfReverse
  rw [collectM_eq_flatMap (g := fun s => (S s).map faces.idxOf) fun d hd' => by
    obtain ⟨h1, h2⟩ := hd d hd'
    rw [hsend, rd_table S h1, Option.bind_some, if_neg (by simpa using h2)]
    exact mapM_of_forall fun g hg => find_idxOf hindex (hown d hd' g hg)]
  rw [Option.bind_some, mapM_of_forall (g := fun s => (S s).length) fun d hd' => by
    rw [hsend, rd_table S (hd d hd').1, Option.map_some]]
  rw [Option.bind_some, collectM_eq_flatMap (g := fun q => (R q).map a.seqGeom.idxOf) fun d hd' => by
    obtain ⟨h1, h2⟩ := hs d hd'
    rw [hrecv, rd_table R h1, Option.bind_some, if_neg (by simpa using h2)]
    exact mapM_of_forall fun g hg => find_idxOf hfind (hseq d hd' g hg)]
  rw [Option.bind_some, mapM_of_forall (g := fun s => (R s).length) fun d hd' => by
    rw [hrecv, rd_table R (hs d hd').1, Option.map_some]]
  rw [Option.bind_some, if_pos (by simp [hl1, hl2])]

end NP
