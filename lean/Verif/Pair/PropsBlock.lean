import Verif.Pair.LemmasLoop
import Verif.Pair.PropsLoop

/-!
# C58: pair loops over lists of blocks
-/

set_option autoImplicit false

namespace NP

open Spec

/-! ## The calls of a work group -/

/-- The call for one pair. -/
def blockCallOf (L : BlockList) (bs l : Nat) (o : Int) (c pos : Nat) : PairCall :=
  let p := ((L c)[pos]?).getD ((0, 0), 0)
  ⟨l, c, pos / bs, p.2, pos, p.1.1, p.1.2, ((numBlockPairs c L + pos : Nat) : Int) + o⟩

/-- The positions that the work items visit in a wave of a block. -/
def wavePositions (L : BlockList) (bs c block w : Nat) : List Nat :=
  (List.range bs).flatMap fun lane =>
    if lane + block * bs < (L c).length ∧
      (((L c)[lane + block * bs]?).getD ((0, 0), 0)).2 = w then [lane + block * bs] else []

theorem mem_wavePositions {L : BlockList} {bs c block w pos : Nat} (hbs : 0 < bs) :
    pos ∈ wavePositions L bs c block w ↔ pos < (L c).length ∧ pos / bs = block ∧
      (((L c)[pos]?).getD ((0, 0), 0)).2 = w := by
  unfold wavePositions
  rw [List.mem_flatMap]
  constructor
  · rintro ⟨lane, hl, hx⟩
    rw [List.mem_range] at hl
    split at hx
    · rename_i hc
      rw [List.mem_singleton] at hx
      subst hx
      refine ⟨hc.1, ?_, hc.2⟩
      rw [Nat.add_mul_div_right _ _ hbs, Nat.div_eq_of_lt hl, Nat.zero_add]
    · simp at hx
  · rintro ⟨h1, h2, h3⟩
    have he : pos % bs + block * bs = pos := by
      rw [← h2, Nat.mul_comm]; exact Nat.mod_add_div pos bs
    refine ⟨pos % bs, List.mem_range.2 (Nat.mod_lt _ hbs), ?_⟩
    rw [he, if_pos ⟨h1, h3⟩]
    exact List.mem_singleton.2 rfl

theorem nodup_wavePositions (L : BlockList) (bs c block w : Nat) :
    (wavePositions L bs c block w).Nodup := by
  unfold wavePositions
  apply nodup_flatMap_range
  · intro s _
    split <;> simp
  · intro s t _ _ hst x hx hx'
    split at hx
    · split at hx'
      · rw [List.mem_singleton] at hx hx'
        omega
      · simp at hx'
    · simp at hx

theorem blockRead_eq {v : BlockView} {ncell bs : Nat} {L : BlockList} (hv : BlockOk v ncell bs L)
    {c : Nat} (hc : c < ncell) {pos : Nat} {p : (Int × Int) × Nat} (hp : (L c)[pos]? = some p) :
    v.read c pos = some (p.1.1, p.1.2, (p.2 : Int), numBlockPairs c L + pos) := by
  obtain ⟨⟨i, j⟩, w⟩ := p
  obtain ⟨h1, h2, h3⟩ := hv.pairs c pos i j w hc hp
  unfold BlockView.read
  simp only [rd, hv.offsets c hc, Option.bind_some, Nat.zero_add, hv.pairCount, h1, h2, h3]

theorem blockLanes_eq {v : BlockView} {ncell bs : Nat} {L : BlockList} (hv : BlockOk v ncell bs L)
    {c : Nat} (hc : c < ncell) (l : Nat) (o : Int) (hbs : 0 < bs) (block w : Nat) :
    collectM (fun lane => v.itemCalls l o bs c block w lane) (List.range bs) =
      some ((wavePositions L bs c block w).map (blockCallOf L bs l o c)) := by
  rw [collectM_eq_flatMap (g := fun lane => (if lane + block * bs < (L c).length ∧
      (((L c)[lane + block * bs]?).getD ((0, 0), 0)).2 = w then [lane + block * bs] else []).map
        (blockCallOf L bs l o c))]
  · unfold wavePositions
    rw [List.map_flatMap]
  · intro lane hlane
    rw [List.mem_range] at hlane
    unfold BlockView.itemCalls
    simp only [rd, hv.counts c hc, Option.bind_some]
    by_cases hlt : lane + block * bs < (L c).length
    · have hp : (L c)[lane + block * bs]? = some (L c)[lane + block * bs] :=
        List.getElem?_eq_getElem hlt
      rw [if_pos hlt, blockRead_eq hv hc hp, Option.bind_some]
      have hdiv : (lane + block * bs) / bs = block := by
        rw [Nat.add_mul_div_right _ _ hbs, Nat.div_eq_of_lt hlane, Nat.zero_add]
      by_cases hw : (L c)[lane + block * bs].2 = w
      · rw [if_pos (by dsimp only; omega), hp, Option.getD_some, if_pos ⟨hlt, hw⟩]
        unfold blockCallOf
        simp only [List.map_cons, List.map_nil, hp, Option.getD_some, hdiv, hw]
      · rw [if_neg (by dsimp only; omega), hp, Option.getD_some, if_neg (fun hh => hw hh.2)]
        rfl
    · rw [if_neg hlt, if_neg (fun hh => hlt hh.1)]
      rfl

/-- The calls of a group are the calls for the pairs of the cell, in the order of blocks and
waves. -/
theorem blockGroup_eq {v : BlockView} {ncell bs : Nat} {L : BlockList} (hv : BlockOk v ncell bs L)
    {c : Nat} (hc : c < ncell) (l : Nat) (o : Int) (hbs : 0 < bs) (sched : Nat → Nat → Sched)
    {waves : Nat → Option Nat}
    (hw : ∀ block, block * bs < (L c).length → ∃ nw, waves block = some nw ∧
      ∀ (k : Nat) (p : Int × Int) (w : Nat), (L c)[k]? = some (p, w) → k / bs = block → w < nw) :
    ∃ calls, v.groupCalls sched l o bs bs c waves = some calls ∧
      calls.Perm ((List.range (L c).length).map (blockCallOf L bs l o c)) ∧ InWaveOrder calls := by
  have hnb : ∀ block, block < ((L c).length + bs - 1) / bs ↔ block * bs < (L c).length := by
    intro block
    rw [Nat.lt_iff_add_one_le, Nat.le_div_iff_mul_le hbs, Nat.succ_mul]
    omega
  choose! nw hnw1 hnw2 using hw
  let wv := fun block w => (sched block w).order
    ((wavePositions L bs c block w).map (blockCallOf L bs l o c))
  have hmem : ∀ block w x, x ∈ wv block w → x.block = block ∧ x.wave = w := by
    intro block w x hx
    rw [((sched block w).perm _).mem_iff] at hx
    obtain ⟨pos, hpos, rfl⟩ := List.mem_map.1 hx
    obtain ⟨h1, h2, h3⟩ := (mem_wavePositions hbs).1 hpos
    exact ⟨h2, h3⟩
  refine ⟨(List.range (((L c).length + bs - 1) / bs)).flatMap fun block =>
    (List.range (nw block)).flatMap fun w => wv block w, ?_, ?_, ?_⟩
  · unfold BlockView.groupCalls
    simp only [rd, hv.counts c hc, Option.bind_some]
    rw [mapM_of_forall (g := fun block => (List.range (nw block)).flatMap fun w => wv block w)]
    · rw [List.flatMap_def]; rfl
    · intro block hb
      rw [List.mem_range, hnb] at hb
      rw [hnw1 block hb, Option.bind_some, mapM_of_forall (g := fun w => wv block w)]
      · rw [List.flatMap_def]; rfl
      · intro w _
        rw [blockLanes_eq hv hc l o hbs block w]
        rfl
  · have hpos : ((List.range (((L c).length + bs - 1) / bs)).flatMap fun block =>
        (List.range (nw block)).flatMap fun w => wavePositions L bs c block w).Perm
        (List.range (L c).length) := by
      rw [List.perm_ext_iff_of_nodup _ List.nodup_range]
      · intro x
        simp only [List.mem_flatMap, List.mem_range, mem_wavePositions hbs]
        constructor
        · rintro ⟨_, _, _, _, h, _⟩
          exact h
        · intro hx
          have hb : x / bs * bs < (L c).length :=
            Nat.lt_of_le_of_lt (Nat.div_mul_le_self x bs) hx
          have hp : (L c)[x]? = some ((L c)[x].1, (L c)[x].2) := List.getElem?_eq_getElem hx
          refine ⟨x / bs, (hnb _).2 hb, (L c)[x].2, hnw2 _ hb x _ _ hp rfl, hx, rfl, ?_⟩
          rw [hp]
          rfl
      · apply nodup_flatMap_range
        · intro block _
          apply nodup_flatMap_range
          · intro w _
            exact nodup_wavePositions _ _ _ _ _
          · intro w w' _ _ hne x hx hx'
            have h1 := ((mem_wavePositions hbs).1 hx).2.2
            have h2 := ((mem_wavePositions hbs).1 hx').2.2
            omega
        · intro b b' _ _ hne x hx hx'
          obtain ⟨w, -, hx⟩ := List.mem_flatMap.1 hx
          obtain ⟨w', -, hx'⟩ := List.mem_flatMap.1 hx'
          have h1 := ((mem_wavePositions hbs).1 hx).2.1
          have h2 := ((mem_wavePositions hbs).1 hx').2.1
          omega
    refine List.Perm.trans ?_ (hpos.map (blockCallOf L bs l o c))
    rw [List.map_flatMap]
    apply List.Perm.flatMap_left
    intro block _
    rw [List.map_flatMap]
    apply List.Perm.flatMap_left
    intro w _
    exact (sched block w).perm _
  · unfold InWaveOrder
    rw [List.pairwise_flatMap]
    constructor
    · intro block _
      rw [List.pairwise_flatMap]
      constructor
      · intro w _
        apply List.pairwise_of_forall_mem_list
        intro x hx y hy _ _
        obtain ⟨d1, d2⟩ := hmem block w x hx
        obtain ⟨e1, e2⟩ := hmem block w y hy
        omega
      · have hlt : (List.range (nw block)).Pairwise (· < ·) := List.pairwise_lt_range
        refine hlt.imp ?_
        intro w w' hww x hx y hy _ _
        obtain ⟨d1, d2⟩ := hmem block w x hx
        obtain ⟨e1, e2⟩ := hmem block w' y hy
        omega
    · have hlt : (List.range (((L c).length + bs - 1) / bs)).Pairwise (· < ·) :=
        List.pairwise_lt_range
      refine hlt.imp ?_
      intro b b' hbb x hx y hy _ _
      obtain ⟨w, -, hx⟩ := List.mem_flatMap.1 hx
      obtain ⟨w', -, hy⟩ := List.mem_flatMap.1 hy
      obtain ⟨d1, d2⟩ := hmem b w x hx
      obtain ⟨e1, e2⟩ := hmem b' w' y hy
      omega

/-! ## The loop -/

/-- The pair lists of a loop, all with the same block size. -/
structure BlockListsOk (lists : List BlockView) (ncell bs : Nat) (Ls : List BlockList) : Prop where
  len : lists.length = Ls.length
  each : ∀ (i : Nat) (v : BlockView) (L : BlockList), lists[i]? = some v → Ls[i]? = some L →
    BlockOk v ncell bs L

/-- The calls of the group of a cell and a list. -/
def blockGroupCalls (bs : Nat) (lists : List BlockView) (Ls : List BlockList) (g : Nat × Nat) :
    List PairCall :=
  match Ls[g.2]?, (listOffsets 0 (lists.map fun v => (v.pairCount : Int)))[g.2]? with
  | some L, some o => (List.range (L g.1).length).map (blockCallOf L bs g.2 o g.1)
  | _, _ => []

theorem blockListsOk_at {lists : List BlockView} {ncell bs : Nat} {Ls : List BlockList}
    (h : BlockListsOk lists ncell bs Ls) {i : Nat} (hi : i < lists.length) :
    ∃ v L o, lists[i]? = some v ∧ Ls[i]? = some L ∧ BlockOk v ncell bs L ∧
      (listOffsets 0 (lists.map fun v => (v.pairCount : Int)))[i]? = some o ∧
      o = (((Ls.map (numBlockPairs ncell)).take i).sum : Nat) ∧
      ∀ c, blockGroupCalls bs lists Ls (c, i) =
        (List.range (L c).length).map (blockCallOf L bs i o c) := by
  have h1 : lists[i]? = some lists[i] := List.getElem?_eq_getElem hi
  have h2 : Ls[i]? = some (Ls[i]'(by rw [← h.len]; exact hi)) :=
    List.getElem?_eq_getElem (by rw [← h.len]; exact hi)
  have h3 := getElem?_listOffsets 0 (lists.map fun v => (v.pairCount : Int)) i (by simpa using hi)
  refine ⟨_, _, _, h1, h2, h.each i _ _ h1 h2, h3, ?_, ?_⟩
  · have hpc : lists.map (fun v => (v.pairCount : Int)) =
        (Ls.map (numBlockPairs ncell)).map fun n : Nat => (n : Int) := by
      apply List.ext_getElem?
      intro i
      simp only [List.getElem?_map]
      by_cases hi : i < lists.length
      · have h1 : lists[i]? = some lists[i] := List.getElem?_eq_getElem hi
        have h2 : Ls[i]? = some (Ls[i]'(by rw [← h.len]; exact hi)) :=
          List.getElem?_eq_getElem (by rw [← h.len]; exact hi)
        rw [h1, h2]
        simp only [Option.map_some]
        rw [(h.each i _ _ h1 h2).pairCount]
      · rw [List.getElem?_eq_none (by omega), List.getElem?_eq_none (by rw [← h.len]; omega)]
        rfl
    rw [hpc, ← List.map_take, sum_map_cast]
    omega
  · intro c
    unfold blockGroupCalls
    simp only [h2, h3]

theorem numBlockPairs_succ (c : Nat) (L : BlockList) :
    numBlockPairs (c + 1) L = numBlockPairs c L + (L c).length := by
  unfold numBlockPairs
  rw [List.range_succ, List.flatMap_append, List.length_append]
  simp

theorem numBlockPairs_le {c c' : Nat} (L : BlockList) (h : c < c') :
    numBlockPairs c L + (L c).length ≤ numBlockPairs c' L := by
  induction c' with
  | zero => omega
  | succ d ih =>
    rw [numBlockPairs_succ]
    by_cases hcd : c = d
    · subst hcd; omega
    · have := ih (by omega); omega

/-- A submitted loop runs; every interleaving of its groups makes the calls of all groups, in the
order of the blocks and waves. -/
theorem blockLoop_groups {lists : List BlockView} {ncell bs : Nat} {Ls : List BlockList}
    (h : BlockListsOk lists ncell bs Ls) (hbs : 0 < bs) (cpu : Bool)
    (sched : Nat → Nat → Nat → Nat → Sched) (cellStart cellEnd : Option Int)
    {start stop : Nat} (hr : pairLoopRange ncell cellStart cellEnd = ((start : Int), (stop : Int)))
    (hstop : stop ≤ ncell) :
    ∃ gs, blockLoopSubmit lists ncell bs cpu sched cellStart cellEnd = some gs ∧
      ∀ t, Interleave gs t →
        t.Perm ((pairGroups start stop lists.length).flatMap (blockGroupCalls bs lists Ls)) ∧
        InWaveOrder t := by
  unfold blockLoopSubmit
  dsimp only
  rw [hr]
  dsimp only
  have hidx : ∀ n : Nat, index (n : Int) = some n := by
    intro n; unfold index; rw [if_pos (by omega)]; simp
  obtain ⟨-, hmaxW⟩ := le_foldl_max_nat (lists.map (·.maxWaveCount)) 0
  generalize hW : (lists.map (·.maxWaveCount)).foldl max 0 = W at hmaxW
  have hlast : lists.length > 0 → (lists.getLast?.map (·.blockSize)).getD 0 = bs := by
    intro hl
    have hne : lists ≠ [] := by intro hh; rw [hh] at hl; simp at hl
    rw [List.getLast?_eq_some_getLast hne]
    have h1 : lists[lists.length - 1]? = some (lists.getLast hne) := by
      rw [← List.getLast?_eq_getElem?, List.getLast?_eq_some_getLast hne]
    obtain ⟨v, L, o, b1, b2, b3, -⟩ := blockListsOk_at h (by omega : lists.length - 1 < _)
    rw [h1, Option.some.injEq] at b1
    subst b1
    exact b3.blockSize
  have hassert : (lists.getLast?.map (·.blockSize)).getD 0 = 0 ∨
      bs = (lists.getLast?.map (·.blockSize)).getD 0 := by
    by_cases hl : lists.length > 0
    · right; exact (hlast hl).symm
    · left
      have : lists = [] := List.length_eq_zero_iff.1 (by omega)
      rw [this]; rfl
  rw [if_pos hassert]
  by_cases hrun : (lists.getLast?.map (·.blockSize)).getD 0 > 0 ∧ lists.length > 0 ∧
      (stop : Int) - start > 0 ∧ (lists.map (·.pairCount)).sum > 0
  · rw [if_pos hrun, hidx, hidx]
    simp only [Option.bind_some]
    rw [hlast hrun.2.1]
    have hgroup : ∀ g ∈ pairGroups start stop lists.length, ∃ calls : List PairCall,
        ((rd lists g.2).bind fun v => (rd (listOffsets 0 (lists.map fun v => (v.pairCount : Int)))
          g.2).bind fun o => v.groupCalls (sched g.1 g.2) g.2 o bs bs g.1 fun block =>
            if cpu = true then some W else rd v.waveCounts (block * v.cellCount + g.1)) =
          some calls ∧
        calls.Perm (blockGroupCalls bs lists Ls g) ∧ InWaveOrder calls ∧
        ∀ x ∈ calls, x.cell = g.1 ∧ x.list = g.2 := by
      intro g hg
      obtain ⟨a1, a2, a3⟩ := mem_pairGroups.1 hg
      obtain ⟨v, L, o, b1, b2, b3, b4, -, b5⟩ := blockListsOk_at h a3
      have hb5 := b5 g.1
      rw [show ((g.1, g.2) : Nat × Nat) = g from rfl] at hb5
      obtain ⟨calls, c1, c2, c3⟩ := blockGroup_eq b3 (by omega : g.1 < ncell) g.2 o hbs
        (sched g.1 g.2) (waves := fun block =>
            if cpu = true then some W else rd v.waveCounts (block * v.cellCount + g.1)) (by
          intro block hblock
          obtain ⟨nw, d1, d2, d3⟩ := b3.waves g.1 block (by omega) hblock
          by_cases hcpu : cpu = true
          · refine ⟨W, by rw [if_pos hcpu], ?_⟩
            intro k p w hk hkb
            have := d3 k p w hk hkb
            have := hmaxW v.maxWaveCount (List.mem_map.2 ⟨v, List.mem_of_getElem? b1, rfl⟩)
            omega
          · refine ⟨nw, ?_, d3⟩
            rw [if_neg hcpu, b3.cells]
            exact d1)
      simp only [rd, b1, b4, Option.bind_some]
      refine ⟨calls, c1, by rw [hb5]; exact c2, c3, ?_⟩
      intro x hx
      rw [c2.mem_iff] at hx
      obtain ⟨k, _, rfl⟩ := List.mem_map.1 hx
      exact ⟨rfl, rfl⟩
    choose! f hf1 hf2 hf3 hf4 using hgroup
    refine ⟨(pairGroups start stop lists.length).map f, mapM_of_forall hf1, ?_⟩
    intro t ht
    constructor
    · refine ht.perm.trans ?_
      rw [← List.flatMap_def]
      exact List.Perm.flatMap_left _ hf2
    · unfold InWaveOrder
      refine ht.pairwise ?_ ?_
      · intro g hg
        obtain ⟨g', hg', rfl⟩ := List.mem_map.1 hg
        exact hf3 g' hg'
      · rw [List.pairwise_map]
        have hnd : (pairGroups start stop lists.length).Pairwise (· ≠ ·) := nodup_pairGroups _ _ _
        refine hnd.imp_of_mem ?_
        intro g g' hg hg' hne x hx y hy
        obtain ⟨d1, d2⟩ := hf4 g hg x hx
        obtain ⟨e1, e2⟩ := hf4 g' hg' y hy
        have : ¬ (x.list = y.list ∧ x.cell = y.cell) := by
          rintro ⟨h1, h2⟩
          exact hne (Prod.ext (by omega) (by omega))
        exact ⟨fun h1 h2 => absurd ⟨h1, h2⟩ this, fun h1 h2 => absurd ⟨h1.symm, h2.symm⟩ this⟩
  · rw [if_neg hrun]
    refine ⟨[], rfl, ?_⟩
    intro t ht
    have hnil : t = [] := by simpa using ht.perm
    subst hnil
    refine ⟨?_, List.Pairwise.nil⟩
    apply List.Perm.of_eq
    symm
    rw [List.flatMap_eq_nil_iff]
    intro g hg
    obtain ⟨a1, a2, a3⟩ := mem_pairGroups.1 hg
    obtain ⟨v, L, o, b1, b2, b3, b4, -, b5⟩ := blockListsOk_at h a3
    have hb5 := b5 g.1
    rw [show ((g.1, g.2) : Nat × Nat) = g from rfl] at hb5
    rw [hb5]
    have hz : (lists.map (·.pairCount)).sum = 0 := by
      by_contra hne
      exact hrun ⟨by rw [hlast (by omega)]; exact hbs, by omega, by omega, by omega⟩
    have hv0 : v.pairCount = 0 :=
      List.sum_eq_zero_iff_forall_eq_nat.1 hz _ (List.mem_map.2 ⟨v, List.mem_of_getElem? b1, rfl⟩)
    have := numBlockPairs_le L (by omega : g.1 < ncell)
    rw [← b3.pairCount, hv0] at this
    have : (L g.1).length = 0 := by omega
    rw [this]
    rfl

/-- The calls of all groups are the calls that have to be made. -/
theorem blockGroupCalls_pairs {lists : List BlockView} {ncell bs : Nat} {Ls : List BlockList}
    (h : BlockListsOk lists ncell bs Ls) (start stop : Nat) :
    (((pairGroups start stop lists.length).flatMap (blockGroupCalls bs lists Ls)).map callPair) =
      loopBlockPairs bs Ls start stop := by
  unfold pairGroups loopBlockPairs
  rw [List.flatMap_assoc, List.map_flatMap]
  apply List.flatMap_congr
  intro c hc
  rw [List.flatMap_map, List.map_flatMap, h.len]
  symm
  apply flatMap_zipIdx
  intro i L hL
  have hi : i < lists.length := by
    rw [h.len]; exact (List.getElem?_eq_some_iff.1 hL).1
  obtain ⟨v, L', o, b1, b2, b3, b4, -, b5⟩ := blockListsOk_at h hi
  rw [hL, Option.some.injEq] at b2
  subst b2
  rw [b5 c, List.map_map]
  dsimp only
  apply map_zipIdx
  intro k p hp
  simp only [callPair, blockCallOf, Function.comp, hp, Option.getD_some]

/-- **Every pair exactly once, in the order of the blocks and waves**, for lists of blocks of the
same size. -/
theorem C58_block_calls {lists : List BlockView} {ncell bs : Nat} {Ls : List BlockList}
    (h : BlockListsOk lists ncell bs Ls) (hbs : 0 < bs) (cpu : Bool)
    (sched : Nat → Nat → Nat → Nat → Sched) (cellStart cellEnd : Option Int)
    {start stop : Nat} (hr : pairLoopRange ncell cellStart cellEnd = ((start : Int), (stop : Int)))
    (hstop : stop ≤ ncell) :
    ∃ gs, blockLoopSubmit lists ncell bs cpu sched cellStart cellEnd = some gs ∧
      ∀ t, Interleave gs t →
        (t.map callPair).Perm (loopBlockPairs bs Ls start stop) ∧ InWaveOrder t := by
  obtain ⟨gs, h1, h2⟩ := blockLoop_groups h hbs cpu sched cellStart cellEnd hr hstop
  refine ⟨gs, h1, fun t ht => ⟨?_, (h2 t ht).2⟩⟩
  rw [← blockGroupCalls_pairs h]
  exact (h2 t ht).1.map _

theorem nodup_blockGroupCalls {lists : List BlockView} {ncell bs : Nat} {Ls : List BlockList}
    (h : BlockListsOk lists ncell bs Ls) (start stop : Nat) :
    ((pairGroups start stop lists.length).flatMap (blockGroupCalls bs lists Ls)).Nodup := by
  have hmem : ∀ g ∈ pairGroups start stop lists.length, ∀ x ∈ blockGroupCalls bs lists Ls g,
      x.list = g.2 ∧ x.cell = g.1 := by
    intro g hg x hx
    obtain ⟨-, -, a3⟩ := mem_pairGroups.1 hg
    obtain ⟨v, L, o, b1, b2, b3, b4, -, b5⟩ := blockListsOk_at h a3
    have hb5 := b5 g.1
    rw [show ((g.1, g.2) : Nat × Nat) = g from rfl] at hb5
    rw [hb5] at hx
    obtain ⟨k, _, rfl⟩ := List.mem_map.1 hx
    exact ⟨rfl, rfl⟩
  rw [List.nodup_flatMap]
  constructor
  · intro g hg
    obtain ⟨a1, a2, a3⟩ := mem_pairGroups.1 hg
    obtain ⟨v, L, o, b1, b2, b3, b4, -, b5⟩ := blockListsOk_at h a3
    have hb5 := b5 g.1
    rw [show ((g.1, g.2) : Nat × Nat) = g from rfl] at hb5
    rw [hb5]
    refine List.nodup_range.map ?_
    intro a b hab
    exact congrArg PairCall.pos hab
  · have hnd : (pairGroups start stop lists.length).Pairwise (· ≠ ·) := nodup_pairGroups _ _ _
    refine hnd.imp_of_mem ?_
    intro g g' hg hg' hne x hx hx'
    obtain ⟨d1, d2⟩ := hmem g hg x hx
    obtain ⟨e1, e2⟩ := hmem g' hg' x hx'
    exact hne (Prod.ext (by omega) (by omega))

theorem length_loopBlockPairs (bs : Nat) (Ls : List BlockList) (ncell : Nat) :
    (loopBlockPairs bs Ls 0 ncell).length = (Ls.map (numBlockPairs ncell)).sum := by
  have h1 : (loopBlockPairs bs Ls 0 ncell).length =
      ((List.range ncell).flatMap fun c => Ls.flatMap fun L => L c).length := by
    unfold loopBlockPairs
    rw [Nat.sub_zero, ← List.range_eq_range', List.length_flatMap, List.length_flatMap]
    congr 1
    apply List.map_congr_left
    intro c _
    rw [List.length_flatMap, List.length_flatMap]
    have hz : Ls.map (fun L => (L c).length) = Ls.zipIdx.map (fun L => (L.1 c).length) := by
      have := congrArg (List.map fun L : BlockList => (L c).length) (List.zipIdx_map_fst 0 Ls)
      rw [List.map_map] at this
      exact this.symm
    rw [hz]
    congr 1
    apply List.map_congr_left
    rintro ⟨L, i⟩ _
    simp
  rw [h1, (flatMap_swap _ _ _).length_eq, List.length_flatMap]
  rfl

/-- **Pair indices** of lists of blocks: no two calls get the same pair index, all pair indices
are in `0, ..., total - 1`, and a loop over all cells uses all of them. -/
theorem C58_block_indices {lists : List BlockView} {ncell bs : Nat} {Ls : List BlockList}
    (h : BlockListsOk lists ncell bs Ls) (hbs : 0 < bs) (cpu : Bool)
    (sched : Nat → Nat → Nat → Nat → Sched) (cellStart cellEnd : Option Int)
    {start stop : Nat} (hr : pairLoopRange ncell cellStart cellEnd = ((start : Int), (stop : Int)))
    (hstop : stop ≤ ncell) {gs : List (List PairCall)}
    (hgs : blockLoopSubmit lists ncell bs cpu sched cellStart cellEnd = some gs)
    {t : List PairCall} (ht : Interleave gs t) :
    (t.map (·.index)).Nodup ∧
    (∀ x ∈ t, 0 ≤ x.index ∧ x.index < ((Ls.map (numBlockPairs ncell)).sum : Nat)) ∧
    (start = 0 → stop = ncell → ∀ n : Nat, n < (Ls.map (numBlockPairs ncell)).sum →
      ∃ x ∈ t, x.index = n) := by
  obtain ⟨gs', h1, h2⟩ := blockLoop_groups h hbs cpu sched cellStart cellEnd hr hstop
  rw [hgs, Option.some.injEq] at h1
  subst h1
  obtain ⟨hperm, -⟩ := h2 t ht
  have key : ∀ x ∈ t, ∃ (L : BlockList) (o : Int), Ls[x.list]? = some L ∧
      o = (((Ls.map (numBlockPairs ncell)).take x.list).sum : Nat) ∧
      x = blockCallOf L bs x.list o x.cell x.pos ∧ x.cell < ncell ∧ x.pos < (L x.cell).length ∧
      x.index = ((numBlockPairs x.cell L + x.pos : Nat) : Int) + o := by
    intro x hx
    rw [hperm.mem_iff, List.mem_flatMap] at hx
    obtain ⟨g, hg, hx⟩ := hx
    obtain ⟨a1, a2, a3⟩ := mem_pairGroups.1 hg
    obtain ⟨v, L, o, b1, b2, b3, b4, b6, b5⟩ := blockListsOk_at h a3
    have hb5 := b5 g.1
    rw [show ((g.1, g.2) : Nat × Nat) = g from rfl] at hb5
    rw [hb5] at hx
    obtain ⟨k, hk, rfl⟩ := List.mem_map.1 hx
    exact ⟨L, o, b2, b6, rfl, by show g.1 < ncell; omega, List.mem_range.1 hk, rfl⟩
  have hinj : ∀ x ∈ t, ∀ y ∈ t, x.index = y.index → x = y := by
    intro x hx y hy hxy
    obtain ⟨L, o, a1, a2, a3, a4, a5, a6⟩ := key x hx
    obtain ⟨L', o', b1, b2, b3, b4, b5, b6⟩ := key y hy
    have hx1 := numBlockPairs_le L a4
    have hy1 := numBlockPairs_le L' b4
    have hlist : x.list = y.list := by
      by_contra hne
      rcases Nat.lt_or_gt_of_ne hne with hlt | hlt
      · have := sum_take_add_le (ns := Ls.map (numBlockPairs ncell)) hlt
          (by rw [List.getElem?_map, a1]; rfl)
        omega
      · have := sum_take_add_le (ns := Ls.map (numBlockPairs ncell)) hlt
          (by rw [List.getElem?_map, b1]; rfl)
        omega
    rw [← hlist, a1, Option.some.injEq] at b1
    subst b1
    rw [← hlist, ← a2] at b2
    subst b2
    have hcell : x.cell = y.cell := by
      by_contra hne
      rcases Nat.lt_or_gt_of_ne hne with hlt | hlt
      · have := numBlockPairs_le L hlt
        omega
      · have := numBlockPairs_le L hlt
        omega
    rw [← hcell] at b6
    have hpos : x.pos = y.pos := by omega
    rw [a3, b3, ← hlist, ← hcell, ← hpos]
  have hnd : t.Nodup := hperm.nodup_iff.2 (nodup_blockGroupCalls h start stop)
  have hndi : (t.map (·.index)).Nodup :=
    (List.nodup_map_iff_inj_on hnd).2 fun x hx y hy hxy => hinj x hx y hy hxy
  have hbound : ∀ x ∈ t, 0 ≤ x.index ∧
      x.index < ((Ls.map (numBlockPairs ncell)).sum : Nat) := by
    intro x hx
    obtain ⟨L, o, a1, a2, a3, a4, a5, a6⟩ := key x hx
    have hx1 := numBlockPairs_le L a4
    have hlt := (List.getElem?_eq_some_iff.1 a1).1
    have := sum_take_add_le (ns := Ls.map (numBlockPairs ncell)) hlt
      (by rw [List.getElem?_map, a1]; rfl)
    have hall : (Ls.map (numBlockPairs ncell)).take Ls.length = Ls.map (numBlockPairs ncell) :=
      List.take_of_length_le (by simp)
    rw [hall] at this
    omega
  refine ⟨hndi, hbound, ?_⟩
  intro hs0 hs1 n hn
  subst hs0 hs1
  have hlen : t.length = (Ls.map (numBlockPairs stop)).sum := by
    rw [← length_loopBlockPairs bs, ← blockGroupCalls_pairs h, List.length_map, hperm.length_eq]
  have hsub : (t.map (·.index)).Subperm
      ((List.range (Ls.map (numBlockPairs stop)).sum).map fun n : Nat => (n : Int)) := by
    apply hndi.subperm
    intro i hi
    obtain ⟨x, hx, rfl⟩ := List.mem_map.1 hi
    have := hbound x hx
    exact List.mem_map.2 ⟨x.index.toNat, by rw [List.mem_range]; omega, by omega⟩
  have hp := hsub.perm_of_length_le (by simp [hlen])
  have : (n : Int) ∈ t.map (·.index) :=
    hp.mem_iff.2 (List.mem_map.2 ⟨n, List.mem_range.2 hn, rfl⟩)
  obtain ⟨x, hx, he⟩ := List.mem_map.1 this
  exact ⟨x, hx, he⟩

/-! ## Examples and a defect -/

namespace Ex

/-- Three pairs in one cell, in two blocks of size 2. The first block has two waves. -/
def blockPairs : BlockList := fun _ => [((0, 1), 0), ((1, 2), 1), ((0, 3), 0)]

def blockView : BlockView := ⟨3, 2, 1, 2, [2, 1], [3], [0], [0, 1, 0, 1, 2, 3, 0, 1, 0]⟩

theorem blockView_ok : BlockOk blockView 1 2 blockPairs := by
  refine ⟨rfl, rfl, rfl, ?_, ?_, ?_, ?_⟩
  · intro c hc
    obtain rfl : c = 0 := by omega
    rfl
  · intro c hc
    obtain rfl : c = 0 := by omega
    rfl
  · intro c k i j w hc hk
    obtain rfl : c = 0 := by omega
    match k with
    | 0 => cases hk; exact ⟨rfl, rfl, rfl⟩
    | 1 => cases hk; exact ⟨rfl, rfl, rfl⟩
    | 2 => cases hk; exact ⟨rfl, rfl, rfl⟩
    | k + 3 => simp [blockPairs] at hk
  · intro c block hc hb
    obtain rfl : c = 0 := by omega
    simp only [blockPairs, List.length_cons, List.length_nil] at hb
    have hb2 : block = 0 ∨ block = 1 := by omega
    rcases hb2 with rfl | rfl
    · refine ⟨2, rfl, by decide, ?_⟩
      intro k p w hk hkb
      match k with
      | 0 => cases hk; decide
      | 1 => cases hk; decide
      | k + 2 => omega
    · refine ⟨1, rfl, by decide, ?_⟩
      intro k p w hk hkb
      match k with
      | 0 => omega
      | 1 => omega
      | 2 => cases hk; decide
      | k + 3 => simp [blockPairs] at hk

example : BlockListsOk [blockView, blockView] 1 2 [blockPairs, blockPairs] := by
  refine ⟨rfl, ?_⟩
  intro i v L hv hL
  match i with
  | 0 => cases hv; cases hL; exact blockView_ok
  | 1 => cases hv; cases hL; exact blockView_ok
  | i + 2 => simp at hv

example : (blockLoopSubmit [blockView, blockView] 1 2 false (fun _ _ _ _ => Sched.reversed)
    none none).map (fun gs => gs.map fun g => g.map fun x => ((x.block, x.wave), (x.a, x.b), x.index)) =
    some [[((0, 0), (0, 1), 0), ((0, 1), (1, 2), 1), ((1, 0), (0, 3), 2)],
      [((0, 0), (0, 1), 3), ((0, 1), (1, 2), 4), ((1, 0), (0, 3), 5)]] := by
  decide +kernel

/-- Two pairs that share a particle, in two blocks of size 1. -/
def smallBlocks : BlockView := ⟨2, 1, 1, 1, [1, 1], [2], [0], [0, 1, 1, 2, 0, 0]⟩

theorem smallBlocks_ok : BlockOk smallBlocks 1 1 fun _ => [((0, 1), 0), ((1, 2), 0)] := by
  refine ⟨rfl, rfl, rfl, ?_, ?_, ?_, ?_⟩
  · intro c hc
    obtain rfl : c = 0 := by omega
    rfl
  · intro c hc
    obtain rfl : c = 0 := by omega
    rfl
  · intro c k i j w hc hk
    obtain rfl : c = 0 := by omega
    match k with
    | 0 => cases hk; exact ⟨rfl, rfl, rfl⟩
    | 1 => cases hk; exact ⟨rfl, rfl, rfl⟩
    | k + 2 => simp at hk
  · intro c block hc hb
    obtain rfl : c = 0 := by omega
    simp only [List.length_cons, List.length_nil] at hb
    have hb2 : block = 0 ∨ block = 1 := by omega
    rcases hb2 with rfl | rfl
    · refine ⟨1, rfl, by decide, ?_⟩
      intro k p w hk hkb
      match k with
      | 0 => cases hk; decide
      | k + 1 => omega
    · refine ⟨1, rfl, by decide, ?_⟩
      intro k p w hk hkb
      match k with
      | 0 => omega
      | 1 => cases hk; decide
      | k + 2 => simp at hk

end Ex

/-- **Defect.** Only the block size of the last pair list is compared with the local size. If an
earlier list has smaller blocks, then two pairs of it that are in different blocks, and share a
particle, are run in the same block and wave, without a barrier between them. -/
theorem C58_block_sizes_not_checked :
    (blockLoopSubmit [Ex.smallBlocks, Ex.blockView] 1 2 false (fun _ _ _ _ => Sched.inOrder)
      none none).map (fun gs => (gs.flatten.filter fun x => x.list == 0).map
        fun x => ((x.block, x.wave), x.a, x.b)) =
      some [((0, 0), 0, 1), ((0, 0), 1, 2)] := by
  decide +kernel

end NP
