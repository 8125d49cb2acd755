import Verif.Pair.LemmasLoop

/-!
# C58: pair loops over lists of waves
-/

set_option autoImplicit false

namespace NP

open Spec

/-! ## The calls of a work group -/

/-- The call for one pair. -/
def callOf (v : PairView) (L : WaveList) (l : Nat) (o : Int) (c w pos : Nat) : PairCall :=
  let p := (((L c)[w]?.getD [])[pos]?).getD (0, 0)
  ⟨l, c, 0, w, pos, p.1, p.2, o + ((v.pairCountsEs[w * v.cellCount + c]?).getD 0 + pos)⟩

/-- The calls for one wave. -/
def waveCalls (v : PairView) (L : WaveList) (l : Nat) (o : Int) (c w : Nat) : List PairCall :=
  (List.range ((L c)[w]?.getD []).length).map (callOf v L l o c w)

theorem itemCalls_eq {v : PairView} {ncell : Nat} {L : WaveList} (hv : ViewOk v ncell L) {c : Nat}
    (hc : c < ncell) (l : Nat) (o : Int) {ls : Nat} (hls : 0 < ls) (w lane : Nat) :
    v.itemCalls l o ls c w lane =
      some ((strided lane ((L c)[w]?.getD []).length ls).map (callOf v L l o c w)) := by
  unfold PairView.itemCalls
  simp only [rd, hv.waves c hc, Option.bind_some]
  by_cases hw : w < (L c).length
  · have hps : (L c)[w]? = some (L c)[w] := List.getElem?_eq_getElem hw
    rw [if_pos hw, hv.cells, hv.counts c w _ hc hps, Option.bind_some, hps, Option.getD_some]
    apply mapM_of_forall
    intro pos hpos
    have hlt := ((mem_strided hls).1 hpos).2.1
    obtain ⟨number, hn, -⟩ := hv.numbers
    obtain ⟨e, he, -, -⟩ := hn c w _ pos hc hps hlt
    have hp : ((L c)[w])[pos]? = some ((L c)[w])[pos] := List.getElem?_eq_getElem hlt
    obtain ⟨o', h1, h2, h3⟩ := hv.pairs c w _ pos _ _ hc hps hp
    unfold PairView.call callOf
    simp only [rd, hv.cells, he, h1, h2, h3, hps, hp, Option.bind_some, Option.getD_some]
    rfl
  · have hnone : (L c)[w]? = none := List.getElem?_eq_none (by omega)
    rw [if_neg hw, hnone]
    simp [strided]
    omega

theorem laneCalls_eq {v : PairView} {ncell : Nat} {L : WaveList} (hv : ViewOk v ncell L) {c : Nat}
    (hc : c < ncell) (l : Nat) (o : Int) {ls : Nat} (hls : 0 < ls) (w : Nat) :
    ∃ calls, collectM (fun lane => v.itemCalls l o ls c w lane) (List.range ls) = some calls ∧
      calls.Perm (waveCalls v L l o c w) := by
  refine ⟨_, collectM_eq_flatMap fun lane _ => itemCalls_eq hv hc l o hls w lane, ?_⟩
  rw [← List.map_flatMap]
  exact (strided_lanes _ _ hls).map _

theorem mem_waveCalls {v : PairView} {L : WaveList} {l : Nat} {o : Int} {c w : Nat}
    {x : PairCall} (hx : x ∈ waveCalls v L l o c w) :
    x.list = l ∧ x.cell = c ∧ x.block = 0 ∧ x.wave = w ∧ x.pos < ((L c)[w]?.getD []).length ∧
      x = callOf v L l o c w x.pos := by
  unfold waveCalls at hx
  obtain ⟨k, hk, rfl⟩ := List.mem_map.1 hx
  exact ⟨rfl, rfl, rfl, rfl, List.mem_range.1 hk, rfl⟩

theorem waveCalls_nil {v : PairView} {L : WaveList} {l : Nat} {o : Int} {c w : Nat}
    (h : (L c).length ≤ w) : waveCalls v L l o c w = [] := by
  unfold waveCalls
  rw [List.getElem?_eq_none h]
  rfl

/-- Waves beyond the last one have no calls. -/
theorem waveCalls_extend {v : PairView} {L : WaveList} {l : Nat} {o : Int} {c W : Nat}
    (h : (L c).length ≤ W) : ((List.range W).flatMap fun w => waveCalls v L l o c w) =
      (List.range (L c).length).flatMap fun w => waveCalls v L l o c w := by
  obtain ⟨k, rfl⟩ : ∃ k, W = (L c).length + k := ⟨W - (L c).length, by omega⟩
  rw [List.range_add, List.flatMap_append]
  have : ((List.map (fun x => (L c).length + x) (List.range k)).flatMap
      fun w => waveCalls v L l o c w) = [] := by
    rw [List.flatMap_eq_nil_iff]
    intro w hw
    obtain ⟨a, _, rfl⟩ := List.mem_map.1 hw
    exact waveCalls_nil (by omega)
  rw [this, List.append_nil]

/-! ## The loop -/

/-- The pair lists of a loop. -/
structure ListsOk (lists : List PairView) (ncell : Nat) (Ls : List WaveList) : Prop where
  len : lists.length = Ls.length
  each : ∀ (i : Nat) (v : PairView) (L : WaveList), lists[i]? = some v → Ls[i]? = some L →
    ViewOk v ncell L

/-- The calls of the group of a cell and a list. -/
def groupCalls (lists : List PairView) (Ls : List WaveList) (g : Nat × Nat) : List PairCall :=
  match lists[g.2]?, Ls[g.2]?, (listOffsets 0 (lists.map (·.pairCount)))[g.2]? with
  | some v, some L, some o =>
    (List.range (L g.1).length).flatMap fun w => waveCalls v L g.2 o g.1 w
  | _, _, _ => []

theorem listsOk_at {lists : List PairView} {ncell : Nat} {Ls : List WaveList}
    (h : ListsOk lists ncell Ls) {i : Nat} (hi : i < lists.length) :
    ∃ v L o, lists[i]? = some v ∧ Ls[i]? = some L ∧ ViewOk v ncell L ∧
      (listOffsets 0 (lists.map (·.pairCount)))[i]? = some o ∧
      ∀ c, groupCalls lists Ls (c, i) =
        (List.range (L c).length).flatMap fun w => waveCalls v L i o c w := by
  have h1 : lists[i]? = some lists[i] := List.getElem?_eq_getElem hi
  have h2 : Ls[i]? = some (Ls[i]'(by rw [← h.len]; exact hi)) :=
    List.getElem?_eq_getElem (by rw [← h.len]; exact hi)
  have h3 := getElem?_listOffsets 0 (lists.map (·.pairCount)) i (by simpa using hi)
  refine ⟨_, _, _, h1, h2, h.each i _ _ h1 h2, h3, ?_⟩
  intro c
  unfold groupCalls
  simp only [h1, h2, h3]

/-- A submitted loop runs; every interleaving of its groups makes the calls of all groups, in the
order of the waves. -/
theorem pairLoop_groups {lists : List PairView} {ncell : Nat} {Ls : List WaveList}
    (h : ListsOk lists ncell Ls) {ls : Nat} (hls : 0 < ls) (cpu : Bool)
    (sched : Nat → Nat → Nat → Sched) (cellStart cellEnd : Option Int)
    {start stop : Nat} (hr : pairLoopRange ncell cellStart cellEnd = ((start : Int), (stop : Int)))
    (hstop : stop ≤ ncell) :
    ∃ gs, pairLoopSubmit lists ncell ls cpu sched cellStart cellEnd = some gs ∧
      ∀ t, Interleave gs t →
        t.Perm ((pairGroups start stop lists.length).flatMap (groupCalls lists Ls)) ∧
        InWaveOrder t := by
  unfold pairLoopSubmit
  dsimp only
  rw [hr]
  dsimp only
  have hidx : ∀ n : Nat, index (n : Int) = some n := by
    intro n; unfold index; rw [if_pos (by omega)]; simp
  obtain ⟨-, hmaxW⟩ := le_foldl_max (lists.map (·.maxWaveCount)) 0
  obtain ⟨-, hmaxP⟩ := le_foldl_max (lists.map (·.maxPairCount)) 0
  generalize hW : (lists.map (·.maxWaveCount)).foldl max 0 = W at hmaxW
  generalize hP : (lists.map (·.maxPairCount)).foldl max 0 = P at hmaxP
  by_cases hrun : P > 0 ∧ lists.length > 0 ∧ (stop : Int) - start > 0
  · rw [if_pos hrun, hidx, hidx]
    simp only [Option.bind_some]
    by_cases hcpu : cpu = true ∨ W = 1
    · rw [if_pos hcpu]
      -- one launch for each wave
      have hlaunch : ∀ w : Nat, ∃ calls, collectM (fun (g : Nat × Nat) =>
          (rd lists g.2).bind fun v => (rd (listOffsets 0 (lists.map (·.pairCount))) g.2).bind
            fun o => collectM (fun lane => v.itemCalls g.2 o ls g.1 w lane) (List.range ls))
          (pairGroups start stop lists.length) = some calls ∧
          calls.Perm ((pairGroups start stop lists.length).flatMap fun g =>
            match lists[g.2]?, Ls[g.2]?, (listOffsets 0 (lists.map (·.pairCount)))[g.2]? with
            | some v, some L, some o => waveCalls v L g.2 o g.1 w
            | _, _, _ => []) := by
        intro w
        have hone : ∀ g ∈ pairGroups start stop lists.length, ∃ calls : List PairCall,
            ((rd lists g.2).bind fun v => (rd (listOffsets 0 (lists.map (·.pairCount))) g.2).bind
              fun o => collectM (fun lane => v.itemCalls g.2 o ls g.1 w lane) (List.range ls)) =
              some calls ∧ calls.Perm (match lists[g.2]?, Ls[g.2]?,
                (listOffsets 0 (lists.map (·.pairCount)))[g.2]? with
            | some v, some L, some o => waveCalls v L g.2 o g.1 w
            | _, _, _ => []) := by
          intro g hg
          obtain ⟨a1, a2, a3⟩ := mem_pairGroups.1 hg
          obtain ⟨v, L, o, b1, b2, b3, b4, -⟩ := listsOk_at h a3
          obtain ⟨calls, c1, c2⟩ := laneCalls_eq b3 (by omega : g.1 < ncell) g.2 o hls w
          simp only [rd, b1, b2, b4, Option.bind_some]
          exact ⟨calls, c1, c2⟩
        choose! f hf1 hf2 using hone
        refine ⟨_, collectM_eq_flatMap hf1, ?_⟩
        exact List.Perm.flatMap_left _ hf2
      choose calls hc1 hc2 using hlaunch
      refine ⟨[((List.range W.toNat).map fun w => (sched w 0 0).order (calls w)).flatten], ?_, ?_⟩
      · rw [mapM_of_forall (g := fun w => (sched w 0 0).order (calls w))]
        · rfl
        · intro w _
          rw [hc1]
          rfl
      · intro t ht
        have hperm := ht.perm
        rw [List.flatten_singleton, ← List.flatMap_def] at hperm
        have hpw : ∀ w, ((sched w 0 0).order (calls w)).Perm
            ((pairGroups start stop lists.length).flatMap fun g =>
            match lists[g.2]?, Ls[g.2]?, (listOffsets 0 (lists.map (·.pairCount)))[g.2]? with
            | some v, some L, some o => waveCalls v L g.2 o g.1 w
            | _, _, _ => []) := fun w => ((sched w 0 0).perm _).trans (hc2 w)
        constructor
        · refine hperm.trans ?_
          refine (List.Perm.flatMap_left _ fun w _ => hpw w).trans ?_
          refine (flatMap_swap _ _ _).trans ?_
          apply List.Perm.of_eq
          apply List.flatMap_congr
          intro g hg
          obtain ⟨a1, a2, a3⟩ := mem_pairGroups.1 hg
          obtain ⟨v, L, o, b1, b2, b3, b4, b5⟩ := listsOk_at h a3
          have hb5 := b5 g.1
          rw [show ((g.1, g.2) : Nat × Nat) = g from rfl] at hb5
          rw [hb5]
          simp only [b1, b2, b4]
          apply waveCalls_extend
          by_cases hL : L g.1 = []
          · rw [hL]; exact Nat.zero_le _
          have := b3.maxWave g.1 (by omega) hL
          have := hmaxW v.maxWaveCount (List.mem_map.2 ⟨v, List.mem_of_getElem? b1, rfl⟩)
          omega
        · unfold InWaveOrder
          refine ht.pairwise ?_ (List.pairwise_singleton _ _)
          intro g hg
          rw [List.mem_singleton] at hg
          subst hg
          have hwave : ∀ w, ∀ x ∈ (sched w 0 0).order (calls w), x.block = 0 ∧ x.wave = w := by
            intro w x hx
            rw [(hpw w).mem_iff, List.mem_flatMap] at hx
            obtain ⟨g, hg, hx⟩ := hx
            obtain ⟨a1, a2, a3⟩ := mem_pairGroups.1 hg
            obtain ⟨v, L, o, b1, b2, b3, b4, -⟩ := listsOk_at h a3
            simp only [b1, b2, b4] at hx
            obtain ⟨-, -, d1, d2, -⟩ := mem_waveCalls hx
            exact ⟨d1, d2⟩
          rw [← List.flatMap_def, List.pairwise_flatMap]
          constructor
          · intro w _
            apply List.pairwise_of_forall_mem_list
            intro x hx y hy _ _
            obtain ⟨d1, d2⟩ := hwave w x hx
            obtain ⟨e1, e2⟩ := hwave w y hy
            omega
          · have hlt : (List.range W.toNat).Pairwise (· < ·) := List.pairwise_lt_range
            refine hlt.imp ?_
            intro w w' hww x hx y hy _ _
            obtain ⟨d1, d2⟩ := hwave w x hx
            obtain ⟨e1, e2⟩ := hwave w' y hy
            omega
    · rw [if_neg hcpu]
      -- one launch in which the groups loop over the waves
      have hgroup : ∀ g ∈ pairGroups start stop lists.length, ∃ calls : List PairCall,
          ((rd lists g.2).bind fun v => (rd (listOffsets 0 (lists.map (·.pairCount))) g.2).bind
            fun o => (rd v.waveCount g.1).bind fun nw =>
              ((List.range nw).mapM fun w =>
                (collectM (fun lane => v.itemCalls g.2 o ls g.1 w lane)
                  (List.range ls)).map fun calls => (sched w g.1 g.2).order calls).map
                List.flatten) = some calls ∧
          calls.Perm (groupCalls lists Ls g) ∧ InWaveOrder calls ∧
          ∀ x ∈ calls, x.cell = g.1 ∧ x.list = g.2 := by
        intro g hg
        obtain ⟨a1, a2, a3⟩ := mem_pairGroups.1 hg
        obtain ⟨v, L, o, b1, b2, b3, b4, b5⟩ := listsOk_at h a3
        have hb5 := b5 g.1
        rw [show ((g.1, g.2) : Nat × Nat) = g from rfl] at hb5
        have hw : ∀ w : Nat, ∃ calls, collectM (fun lane => v.itemCalls g.2 o ls g.1 w lane)
            (List.range ls) = some calls ∧ calls.Perm (waveCalls v L g.2 o g.1 w) :=
          fun w => laneCalls_eq b3 (by omega) g.2 o hls w
        choose calls hc1 hc2 using hw
        have hpw : ∀ w, ((sched w g.1 g.2).order (calls w)).Perm (waveCalls v L g.2 o g.1 w) :=
          fun w => ((sched w g.1 g.2).perm _).trans (hc2 w)
        refine ⟨((List.range (L g.1).length).map
          fun w => (sched w g.1 g.2).order (calls w)).flatten, ?_, ?_, ?_, ?_⟩
        · simp only [rd, b1, b4, Option.bind_some, b3.waves g.1 (by omega)]
          rw [mapM_of_forall (g := fun w => (sched w g.1 g.2).order (calls w))]
          · rfl
          · intro w _
            rw [hc1]
            rfl
        · rw [hb5, ← List.flatMap_def]
          exact List.Perm.flatMap_left _ fun w _ => hpw w
        · unfold InWaveOrder
          rw [← List.flatMap_def, List.pairwise_flatMap]
          constructor
          · intro w _
            apply List.pairwise_of_forall_mem_list
            intro x hx y hy _ _
            obtain ⟨-, -, d1, d2, -⟩ := mem_waveCalls ((hpw w).mem_iff.1 hx)
            obtain ⟨-, -, e1, e2, -⟩ := mem_waveCalls ((hpw w).mem_iff.1 hy)
            omega
          · have hlt : (List.range (L g.1).length).Pairwise (· < ·) := List.pairwise_lt_range
            refine hlt.imp ?_
            intro w w' hww x hx y hy _ _
            obtain ⟨-, -, d1, d2, -⟩ := mem_waveCalls ((hpw w).mem_iff.1 hx)
            obtain ⟨-, -, e1, e2, -⟩ := mem_waveCalls ((hpw w').mem_iff.1 hy)
            omega
        · intro x hx
          rw [← List.flatMap_def, List.mem_flatMap] at hx
          obtain ⟨w, _, hx⟩ := hx
          obtain ⟨d1, d2, -⟩ := mem_waveCalls ((hpw w).mem_iff.1 hx)
          exact ⟨d2, d1⟩
      choose! f hf1 hf2 hf3 hf4 using hgroup
      refine ⟨(pairGroups start stop lists.length).map f, mapM_of_forall hf1, ?_⟩
      intro t ht
      constructor
      · refine ht.perm.trans ?_
        rw [← List.flatMap_def]
        exact List.Perm.flatMap_left _ hf2
      · unfold InWaveOrder
        refine ht.pairwise ?_ ?_
        · intro g hg
          obtain ⟨g', hg', rfl⟩ := List.mem_map.1 hg
          exact hf3 g' hg'
        · rw [List.pairwise_map]
          have hnd : (pairGroups start stop lists.length).Pairwise (· ≠ ·) := nodup_pairGroups _ _ _
          refine hnd.imp_of_mem ?_
          intro g g' hg hg' hne x hx y hy
          obtain ⟨d1, d2⟩ := hf4 g hg x hx
          obtain ⟨e1, e2⟩ := hf4 g' hg' y hy
          have : ¬ (x.list = y.list ∧ x.cell = y.cell) := by
            rintro ⟨h1, h2⟩
            exact hne (Prod.ext (by omega) (by omega))
          exact ⟨fun h1 h2 => absurd ⟨h1, h2⟩ this, fun h1 h2 => absurd ⟨h1.symm, h2.symm⟩ this⟩
  · -- nothing to do
    rw [if_neg hrun]
    refine ⟨[], rfl, ?_⟩
    intro t ht
    have hnil : t = [] := by simpa using ht.perm
    subst hnil
    refine ⟨?_, List.Pairwise.nil⟩
    apply List.Perm.of_eq
    symm
    rw [List.flatMap_eq_nil_iff]
    intro g hg
    obtain ⟨a1, a2, a3⟩ := mem_pairGroups.1 hg
    obtain ⟨v, L, o, b1, b2, b3, b4, b5⟩ := listsOk_at h a3
    have hb5 := b5 g.1
    rw [show ((g.1, g.2) : Nat × Nat) = g from rfl] at hb5
    rw [hb5, List.flatMap_eq_nil_iff]
    intro w hw
    rw [List.mem_range] at hw
    by_contra hne
    have hps : (L g.1)[w]? = some (L g.1)[w] := List.getElem?_eq_getElem hw
    have hpne : (L g.1)[w] ≠ [] := by
      intro he
      apply hne
      unfold waveCalls
      rw [hps, Option.getD_some, he]
      rfl
    have := b3.maxPair g.1 w _ (by omega) hps hpne
    have := hmaxP v.maxPairCount (List.mem_map.2 ⟨v, List.mem_of_getElem? b1, rfl⟩)
    apply hrun
    refine ⟨by omega, by omega, by omega⟩

/-- The calls of all groups are the calls that have to be made. -/
theorem groupCalls_pairs {lists : List PairView} {ncell : Nat} {Ls : List WaveList}
    (h : ListsOk lists ncell Ls) (start stop : Nat) :
    (((pairGroups start stop lists.length).flatMap (groupCalls lists Ls)).map callPair) =
      loopPairs Ls start stop := by
  unfold pairGroups loopPairs
  rw [List.flatMap_assoc, List.map_flatMap]
  apply List.flatMap_congr
  intro c hc
  rw [List.flatMap_map, List.map_flatMap, h.len]
  symm
  apply flatMap_zipIdx
  intro i L hL
  have hi : i < lists.length := by
    rw [h.len]; exact (List.getElem?_eq_some_iff.1 hL).1
  obtain ⟨v, L', o, b1, b2, b3, b4, b5⟩ := listsOk_at h hi
  rw [hL, Option.some.injEq] at b2
  subst b2
  rw [b5 c, List.map_flatMap]
  dsimp only
  apply flatMap_zipIdx
  intro w ps hps
  unfold waveCalls
  rw [hps, Option.getD_some, List.map_map]
  apply map_zipIdx
  intro k p hp
  simp only [callPair, callOf, Function.comp, hps, hp, Option.getD_some]

/-- **Every pair exactly once, in the order of the waves.** A loop over pair lists, for every
cell range, local size, kind of device and order of execution, calls the kernel exactly once for
every pair of the lists in these cells, with the particles of the pair, and makes the calls of a
wave of a cell and list before those of later waves of this cell and list. -/
theorem C58_calls {lists : List PairView} {ncell : Nat} {Ls : List WaveList}
    (h : ListsOk lists ncell Ls) {ls : Nat} (hls : 0 < ls) (cpu : Bool)
    (sched : Nat → Nat → Nat → Sched) (cellStart cellEnd : Option Int)
    {start stop : Nat} (hr : pairLoopRange ncell cellStart cellEnd = ((start : Int), (stop : Int)))
    (hstop : stop ≤ ncell) :
    ∃ gs, pairLoopSubmit lists ncell ls cpu sched cellStart cellEnd = some gs ∧
      ∀ t, Interleave gs t →
        (t.map callPair).Perm (loopPairs Ls start stop) ∧ InWaveOrder t := by
  obtain ⟨gs, h1, h2⟩ := pairLoop_groups h hls cpu sched cellStart cellEnd hr hstop
  refine ⟨gs, h1, fun t ht => ⟨?_, (h2 t ht).2⟩⟩
  rw [← groupCalls_pairs h]
  exact (h2 t ht).1.map _

/-! ## Pair indices -/

/-- The pair lists report their number of pairs. -/
def ListsCounted (lists : List PairView) (ncell : Nat) (Ls : List WaveList) : Prop :=
  ∀ (i : Nat) (v : PairView) (L : WaveList), lists[i]? = some v → Ls[i]? = some L →
    v.pairCount = numPairs ncell L

theorem nodup_groupCalls {lists : List PairView} {ncell : Nat} {Ls : List WaveList}
    (h : ListsOk lists ncell Ls) (start stop : Nat) :
    ((pairGroups start stop lists.length).flatMap (groupCalls lists Ls)).Nodup := by
  rw [List.nodup_flatMap]
  constructor
  · intro g hg
    obtain ⟨a1, a2, a3⟩ := mem_pairGroups.1 hg
    obtain ⟨v, L, o, b1, b2, b3, b4, b5⟩ := listsOk_at h a3
    have hb5 := b5 g.1
    rw [show ((g.1, g.2) : Nat × Nat) = g from rfl] at hb5
    rw [hb5]
    apply nodup_flatMap_range
    · intro w _
      unfold waveCalls
      refine List.nodup_range.map ?_
      intro a b hab
      exact congrArg PairCall.pos hab
    · intro w w' _ _ hne x hx hx'
      obtain ⟨-, -, -, d, -⟩ := mem_waveCalls hx
      obtain ⟨-, -, -, e, -⟩ := mem_waveCalls hx'
      omega
  · have hnd : (pairGroups start stop lists.length).Pairwise (· ≠ ·) := nodup_pairGroups _ _ _
    refine hnd.imp_of_mem ?_
    intro g g' hg hg' hne x hx hx'
    obtain ⟨-, -, a3⟩ := mem_pairGroups.1 hg
    obtain ⟨v, L, o, b1, b2, b3, b4, b5⟩ := listsOk_at h a3
    have hb5 := b5 g.1
    rw [show ((g.1, g.2) : Nat × Nat) = g from rfl] at hb5
    rw [hb5, List.mem_flatMap] at hx
    obtain ⟨w, -, hx⟩ := hx
    obtain ⟨d1, d2, -⟩ := mem_waveCalls hx
    obtain ⟨-, -, a3⟩ := mem_pairGroups.1 hg'
    obtain ⟨v, L, o, b1, b2, b3, b4, b5⟩ := listsOk_at h a3
    have hb5 := b5 g'.1
    rw [show ((g'.1, g'.2) : Nat × Nat) = g' from rfl] at hb5
    rw [hb5, List.mem_flatMap] at hx'
    obtain ⟨w, -, hx'⟩ := hx'
    obtain ⟨e1, e2, -⟩ := mem_waveCalls hx'
    exact hne (Prod.ext (by omega) (by omega))

theorem sum_counted {lists : List PairView} {ncell : Nat} {Ls : List WaveList}
    (hlen : lists.length = Ls.length) (hcount : ListsCounted lists ncell Ls) :
    lists.map (·.pairCount) = (Ls.map (numPairs ncell)).map fun n : Nat => (n : Int) := by
  apply List.ext_getElem?
  intro i
  simp only [List.getElem?_map]
  by_cases hi : i < lists.length
  · have h1 : lists[i]? = some lists[i] := List.getElem?_eq_getElem hi
    have h2 : Ls[i]? = some (Ls[i]'(by omega)) := List.getElem?_eq_getElem (by omega)
    rw [h1, h2]
    simp only [Option.map_some]
    rw [hcount i _ _ h1 h2]
  · rw [List.getElem?_eq_none (by omega), List.getElem?_eq_none (by omega)]
    rfl

theorem sum_map_cast (l : List Nat) : (l.map fun n : Nat => (n : Int)).sum = (l.sum : Nat) := by
  induction l with
  | nil => rfl
  | cons a l ih => simp [ih]

theorem length_loopPairs (Ls : List WaveList) (ncell : Nat) :
    (loopPairs Ls 0 ncell).length = (Ls.map (numPairs ncell)).sum := by
  have h1 : (loopPairs Ls 0 ncell).length =
      ((List.range ncell).flatMap fun c => Ls.flatMap fun L => (L c).flatten).length := by
    unfold loopPairs
    rw [Nat.sub_zero, ← List.range_eq_range', List.length_flatMap, List.length_flatMap]
    congr 1
    apply List.map_congr_left
    intro c _
    rw [List.length_flatMap, List.length_flatMap]
    have hz : Ls.map (fun L => ((L c).flatten).length) =
        Ls.zipIdx.map (fun L => ((L.1 c).flatten).length) := by
      have := congrArg (List.map fun L : WaveList => ((L c).flatten).length)
        (List.zipIdx_map_fst 0 Ls)
      rw [List.map_map] at this
      exact this.symm
    rw [hz]
    congr 1
    apply List.map_congr_left
    rintro ⟨L, i⟩ _
    dsimp only
    rw [List.length_flatMap, List.length_flatten]
    have hz' : (L c).map List.length = (L c).zipIdx.map (fun ps => ps.1.length) := by
      have := congrArg (List.map (List.length (α := Int × Int))) (List.zipIdx_map_fst 0 (L c))
      rw [List.map_map] at this
      exact this.symm
    rw [hz']
    congr 1
    apply List.map_congr_left
    intro ps _
    simp
  rw [h1, (flatMap_swap _ _ _).length_eq, List.length_flatMap]
  rfl

/-- **Pair indices**, if every pair list reports its number of pairs: no two calls get the same
pair index, all pair indices are in `0, ..., total - 1`, and a loop over all cells uses all of
them. A list that is empty because of `clear` (or newly constructed) reports `-1` pairs, see
`C58_empty_list_shifts`; this is what is missing. -/
theorem C58_indices_partial {lists : List PairView} {ncell : Nat} {Ls : List WaveList}
    (h : ListsOk lists ncell Ls) (hcount : ListsCounted lists ncell Ls) {ls : Nat} (hls : 0 < ls)
    (cpu : Bool) (sched : Nat → Nat → Nat → Sched) (cellStart cellEnd : Option Int)
    {start stop : Nat} (hr : pairLoopRange ncell cellStart cellEnd = ((start : Int), (stop : Int)))
    (hstop : stop ≤ ncell) {gs : List (List PairCall)}
    (hgs : pairLoopSubmit lists ncell ls cpu sched cellStart cellEnd = some gs)
    {t : List PairCall} (ht : Interleave gs t) :
    (t.map (·.index)).Nodup ∧
    (∀ x ∈ t, 0 ≤ x.index ∧ x.index < ((Ls.map (numPairs ncell)).sum : Nat)) ∧
    (start = 0 → stop = ncell → ∀ n : Nat, n < (Ls.map (numPairs ncell)).sum →
      ∃ x ∈ t, x.index = n) := by
  obtain ⟨gs', h1, h2⟩ := pairLoop_groups h hls cpu sched cellStart cellEnd hr hstop
  rw [hgs, Option.some.injEq] at h1
  subst h1
  obtain ⟨hperm, -⟩ := h2 t ht
  have hpc := sum_counted h.len hcount
  -- the index of a call
  have key : ∀ x ∈ t, ∃ (L : WaveList) (v : PairView) (o : Int),
      lists[x.list]? = some v ∧ Ls[x.list]? = some L ∧
      (listOffsets 0 (lists.map (·.pairCount)))[x.list]? = some o ∧
      o = (((Ls.map (numPairs ncell)).take x.list).sum : Nat) ∧
      x = callOf v L x.list o x.cell x.wave x.pos ∧ x.cell < ncell ∧
      (∃ ps, (L x.cell)[x.wave]? = some ps ∧ x.pos < ps.length) ∧
      ∃ num : Nat, x.index = o + num ∧ num < numPairs ncell L ∧
        v.pairCountsEs[x.wave * ncell + x.cell]? = some (num - x.pos : Int) := by
    intro x hx
    rw [hperm.mem_iff, List.mem_flatMap] at hx
    obtain ⟨g, hg, hx⟩ := hx
    obtain ⟨a1, a2, a3⟩ := mem_pairGroups.1 hg
    obtain ⟨v, L, o, b1, b2, b3, b4, b5⟩ := listsOk_at h a3
    have hb5 := b5 g.1
    rw [show ((g.1, g.2) : Nat × Nat) = g from rfl] at hb5
    rw [hb5, List.mem_flatMap] at hx
    obtain ⟨w, hw, hx⟩ := hx
    rw [List.mem_range] at hw
    obtain ⟨c1, c2, c3, c4, c5, c6⟩ := mem_waveCalls hx
    have hps : (L g.1)[w]? = some (L g.1)[w] := List.getElem?_eq_getElem hw
    rw [hps, Option.getD_some] at c5
    have ho : o = (((Ls.map (numPairs ncell)).take g.2).sum : Nat) := by
      have := getElem?_listOffsets 0 (lists.map (·.pairCount)) g.2 (by simpa using a3)
      rw [b4, Option.some.injEq, hpc, ← List.map_take, sum_map_cast] at this
      omega
    obtain ⟨num, hn, -⟩ := b3.numbers
    obtain ⟨e, he1, he2, he3⟩ := hn g.1 w _ x.pos (by omega) hps c5
    refine ⟨L, v, o, ?_⟩
    rw [c1, c2, c4]
    refine ⟨b1, b2, b4, ho, c6, by omega, ⟨_, hps, c5⟩, num g.1 w x.pos, ?_, he3, ?_⟩
    · rw [c6]
      unfold callOf
      dsimp only
      rw [b3.cells, he1, Option.getD_some]
      omega
    · rw [he1, Option.some.injEq]
      omega
  have hinj : ∀ x ∈ t, ∀ y ∈ t, x.index = y.index → x = y := by
    intro x hx y hy hxy
    obtain ⟨L, v, o, a1, a2, a3, a4, a5, a6, ⟨ps, a7, a8⟩, nx, a9, a10, a11⟩ := key x hx
    obtain ⟨L', v', o', b1, b2, b3, b4, b5, b6, ⟨ps', b7, b8⟩, ny, b9, b10, b11⟩ := key y hy
    have hlist : x.list = y.list := by
      by_contra hne
      rcases Nat.lt_or_gt_of_ne hne with hlt | hlt
      · have := sum_take_add_le (ns := Ls.map (numPairs ncell)) hlt
          (by rw [List.getElem?_map, a2]; rfl)
        omega
      · have := sum_take_add_le (ns := Ls.map (numPairs ncell)) hlt
          (by rw [List.getElem?_map, b2]; rfl)
        omega
    rw [← hlist, a1, Option.some.injEq] at b1
    rw [← hlist, a2, Option.some.injEq] at b2
    rw [← hlist, a3, Option.some.injEq] at b3
    subst b1 b2 b3
    obtain ⟨num, hn1, hn2⟩ := (h.each _ _ _ a1 a2).numbers
    obtain ⟨e, d1, d2, -⟩ := hn1 x.cell x.wave ps x.pos a6 a7 a8
    obtain ⟨e', d1', d2', -⟩ := hn1 y.cell y.wave ps' y.pos b6 b7 b8
    rw [a11, Option.some.injEq] at d1
    rw [b11, Option.some.injEq] at d1'
    obtain ⟨f1, f2, f3⟩ := hn2 x.cell x.wave ps x.pos y.cell y.wave ps' y.pos a6 a7 a8 b6 b7 b8
      (by omega)
    rw [a5, b5, ← hlist, ← f1, ← f2, ← f3]
  have hnd : t.Nodup := hperm.nodup_iff.2 (nodup_groupCalls h start stop)
  have hndi : (t.map (·.index)).Nodup :=
    (List.nodup_map_iff_inj_on hnd).2 fun x hx y hy hxy => hinj x hx y hy hxy
  have hbound : ∀ x ∈ t, 0 ≤ x.index ∧ x.index < ((Ls.map (numPairs ncell)).sum : Nat) := by
    intro x hx
    obtain ⟨L, v, o, a1, a2, a3, a4, a5, a6, -, nx, a9, a10, a11⟩ := key x hx
    have hlt := (List.getElem?_eq_some_iff.1 a2).1
    have := sum_take_add_le (ns := Ls.map (numPairs ncell)) hlt (by rw [List.getElem?_map, a2]; rfl)
    have hall : (Ls.map (numPairs ncell)).take Ls.length = Ls.map (numPairs ncell) :=
      List.take_of_length_le (by simp)
    rw [hall] at this
    omega
  refine ⟨hndi, hbound, ?_⟩
  intro hs0 hs1 n hn
  subst hs0 hs1
  have hlen : t.length = (Ls.map (numPairs stop)).sum := by
    rw [← length_loopPairs, ← groupCalls_pairs h, List.length_map, hperm.length_eq]
  have hsub : (t.map (·.index)).Subperm
      ((List.range (Ls.map (numPairs stop)).sum).map fun n : Nat => (n : Int)) := by
    apply hndi.subperm
    intro i hi
    obtain ⟨x, hx, rfl⟩ := List.mem_map.1 hi
    have := hbound x hx
    exact List.mem_map.2 ⟨x.index.toNat, by rw [List.mem_range]; omega, by omega⟩
  have hp := hsub.perm_of_length_le (by simp [hlen])
  have : (n : Int) ∈ t.map (·.index) :=
    hp.mem_iff.2 (List.mem_map.2 ⟨n, List.mem_range.2 hn, rfl⟩)
  obtain ⟨x, hx, he⟩ := List.mem_map.1 this
  exact ⟨x, hx, he⟩

end NP
