import Verif.Pair.LemmasOccupancy
import Mathlib.Data.Rat.Cast.Order
import Mathlib.Tactic.Positivity

/-!
# C79: validation and statistics of pair lists tell the truth
-/

set_option autoImplicit false

namespace NP

open Spec

/-- `CellReads` for a device structure that describes the pairs `L`. -/
theorem cellReads_of_ok {v : BlockView} {L : BlockList}
    (hv : Spec.BlockOk v v.cellCount v.blockSize L) {c : Nat} (hc : c < v.cellCount) :
    CellReads v c (L c).length (fun c => numBlockPairs c L)
      (fun block => (v.waveCounts[block * v.cellCount + c]?).getD 0)
      (fun pos => match (L c)[pos]? with
        | some p => ⟨p.1.1, p.1.2, (p.2 : Int)⟩
        | none => ⟨0, 0, 0⟩) where
  count := hv.counts c hc
  zero := fun h => hv.offsets 0 (by omega)
  this := fun _ => hv.offsets c hc
  next := fun h => hv.offsets (c + 1) (by omega)
  waves := fun block hb => by
    obtain ⟨nw, h, -⟩ := hv.waves c block hc hb
    rw [h]; rfl
  pairs := fun pos hp => by
    have h := List.getElem?_eq_getElem hp
    rw [blockRead_eq hv hc h, h]
    rfl

/-- The conditions for the blocks of a cell say that its pairs can be executed without races and
that no wave number is too large. -/
theorem good_iff {v : BlockView} {L : BlockList} (hv : Spec.BlockOk v v.cellCount v.blockSize L)
    (hbs : 0 < v.blockSize) {c : Nat} (hc : c < v.cellCount) :
    (∀ block, block * v.blockSize < (L c).length →
      BlockGood v.maxWaveCount ((v.waveCounts[block * v.cellCount + c]?).getD 0) (L c).length
        (block * v.blockSize) v.blockSize
        (fun pos => match (L c)[pos]? with
          | some p => ⟨p.1.1, p.1.2, (p.2 : Int)⟩
          | none => ⟨0, 0, 0⟩)) ↔
    RaceFree v.blockSize (L c) ∧ ∀ block, block * v.blockSize < (L c).length →
      ∃ (k : Nat) (p : Int × Int) (w : Nat), (L c)[k]? = some (p, w) ∧ k / v.blockSize = block ∧
        v.waveCounts[block * v.cellCount + c]? = some (w + 1) := by
  have hdiv : ∀ pos, pos / v.blockSize * v.blockSize ≤ pos ∧
      pos < pos / v.blockSize * v.blockSize + v.blockSize := fun pos =>
    ⟨Nat.div_mul_le_self _ _, Nat.lt_div_mul_add hbs⟩
  have hblk : ∀ {pos b}, b * v.blockSize ≤ pos → pos < b * v.blockSize + v.blockSize →
      pos / v.blockSize = b := fun {pos b} h1 h2 =>
    Nat.div_eq_of_lt_le h1 (by rw [Nat.add_mul, Nat.one_mul]; exact h2)
  constructor
  · intro h
    refine ⟨⟨?_, ?_⟩, ?_⟩
    · intro x hx
      obtain ⟨k, hk⟩ := List.mem_iff_getElem?.1 hx
      have hl := (List.getElem?_eq_some_iff.1 hk).1
      have := ((h (k / v.blockSize) (by have := hdiv k; omega)).each k (hdiv k).1 (hdiv k).2 hl).1
      rw [hk] at this
      exact this
    · have key : ∀ (k k' : Nat) (x y : Int × Int) (w : Nat), (L c)[k]? = some (x, w) →
          (L c)[k']? = some (y, w) → k / v.blockSize = k' / v.blockSize → k < k' →
          x.1 ≠ y.1 ∧ x.1 ≠ y.2 ∧ x.2 ≠ y.1 ∧ x.2 ≠ y.2 := by
        intro k k' x y w h1 h2 h3 h4
        have hl := (List.getElem?_eq_some_iff.1 h2).1
        have := (h (k' / v.blockSize) (by have := hdiv k'; omega)).apart k k'
          (by rw [← h3]; exact (hdiv k).1) h4 (hdiv k').2 hl
        simp only [h1, h2, true_imp_iff] at this
        exact ⟨this.1, this.2.2.1, this.2.2.2, this.2.1⟩
      intro k k' x y w h1 h2 h3 h4
      rcases Nat.lt_or_gt_of_ne h4 with h5 | h5
      · exact key k k' x y w h1 h2 h3 h5
      · obtain ⟨g1, g2, g3, g4⟩ := key k' k y x w h2 h1 h3.symm h5
        exact ⟨g1.symm, g3.symm, g2.symm, g4.symm⟩
    · intro block hb
      obtain ⟨pos, p1, p2, p3, p4⟩ := (h block hb).last
      obtain ⟨nw, hnw, -⟩ := hv.waves c block hc hb
      obtain ⟨⟨p, w⟩, hp⟩ : ∃ x, (L c)[pos]? = some x := ⟨_, List.getElem?_eq_getElem p3⟩
      refine ⟨pos, p, w, hp, hblk p1 p2, ?_⟩
      rw [hp, hnw] at p4
      simp only [Option.getD_some] at p4
      rw [hnw, show nw = w + 1 by omega]
  · rintro ⟨⟨h1, h2⟩, h3⟩ block hb
    obtain ⟨nw, hnw, hmax, hw⟩ := hv.waves c block hc hb
    rw [hnw, Option.getD_some]
    refine ⟨?_, ?_, ?_⟩
    · intro pos p1 p2 p3
      obtain ⟨⟨p, w⟩, hp⟩ : ∃ x, (L c)[pos]? = some x := ⟨_, List.getElem?_eq_getElem p3⟩
      have := hw pos p w hp (hblk p1 p2)
      rw [hp]
      dsimp only
      exact ⟨h1 _ (List.mem_of_getElem? hp), by omega, by omega, by omega⟩
    · obtain ⟨k, p, w, g1, g2, g3⟩ := h3 block hb
      rw [hnw] at g3
      have g3 := Option.some.inj g3
      have := hdiv k
      rw [g2] at this
      refine ⟨k, this.1, this.2, (List.getElem?_eq_some_iff.1 g1).1, ?_⟩
      rw [g1]
      dsimp only
      omega
    · intro pos pos' p1 p2 p3 p4
      obtain ⟨⟨p, w⟩, hp⟩ : ∃ x, (L c)[pos]? = some x :=
        ⟨_, List.getElem?_eq_getElem (by omega)⟩
      obtain ⟨⟨p', w'⟩, hp'⟩ : ∃ x, (L c)[pos']? = some x :=
        ⟨_, List.getElem?_eq_getElem (by omega)⟩
      rw [hp, hp']
      dsimp only
      intro hww
      have hww : w = w' := by omega
      subst hww
      obtain ⟨g1, g2, g3, g4⟩ := h2 pos pos' p p' w hp hp'
        (by rw [hblk p1 (by omega), hblk (by omega) p3]) (by omega)
      exact ⟨g1, g4, g2, g3⟩

/-- Of a device structure that describes the pairs `L`, `validate_pair_list` returns true exactly
if the pairs can be executed block by block and wave by wave without races, the numbers of waves
are not larger than needed, and are not larger than a block. -/
theorem C79_validate {v : BlockView} {L : BlockList} (hv : Spec.BlockOk v v.cellCount v.blockSize L)
    (hbs : 0 < v.blockSize) (sched : Sched) :
    ∃ b, v.validate sched = some b ∧
      (b = true ↔ v.maxWaveCount ≤ v.blockSize ∧
        (∀ c < v.cellCount, RaceFree v.blockSize (L c)) ∧
        WavesTight v v.cellCount v.blockSize L) := by
  unfold BlockView.validate
  by_cases hm : v.maxWaveCount > v.blockSize
  · rw [if_pos hm]
    exact ⟨false, rfl, by simp; omega⟩
  rw [if_neg hm]
  have hcell : ∀ c, c < v.cellCount → _ := fun c hc =>
    validateCell_eq hbs (cellReads_of_ok hv hc)
  choose! fe fc hf using hcell
  rw [runItems_sum (g := fun c => (fe c, fc c)) fun c hc =>
    (hf c (List.mem_range.1 ((sched.perm _).mem_iff.1 hc))).1]
  have hcnt : ∀ c < v.cellCount, fc c = (L c).length := by
    intro c hc
    refine (hf c hc).2.2 fun pos hp => ?_
    rw [List.getElem?_eq_getElem hp]
    dsimp only
    omega
  have hsum : ((sched.order (List.range v.cellCount)).map fun c => fc c).sum = v.pairCount := by
    rw [((sched.perm (List.range v.cellCount)).map _).sum_nat, hv.pairCount, ← numBlockPairs_sum]
    exact congrArg List.sum (List.map_congr_left fun c hc => hcnt c (List.mem_range.1 hc))
  simp only [Option.bind_some, Nat.zero_add, hsum, ne_eq, not_true_eq_false, if_false]
  have hz : ((sched.order (List.range v.cellCount)).map fun c => fe c).sum = 0 ↔
      (∀ c < v.cellCount, RaceFree v.blockSize (L c)) ∧
        WavesTight v v.cellCount v.blockSize L := by
    rw [sum_zero_iff]
    constructor
    · intro h
      have key : ∀ c < v.cellCount, _ := fun c hc =>
        (good_iff hv hbs hc).1 ((hf c hc).2.1.1 (h _ (List.mem_map.2
          ⟨c, (sched.perm _).mem_iff.2 (List.mem_range.2 hc), rfl⟩))).2.2
      exact ⟨fun c hc => (key c hc).1, fun c block hc hb => (key c hc).2 block hb⟩
    · rintro ⟨h1, h2⟩ x hx
      obtain ⟨c, hc, rfl⟩ := List.mem_map.1 hx
      have hc := List.mem_range.1 ((sched.perm _).mem_iff.1 hc)
      refine (hf c hc).2.1.2 ⟨fun _ => rfl, fun _ => numBlockPairs_succ c L, ?_⟩
      exact (good_iff hv hbs hc).2 ⟨h1 c hc, fun block hb => h2 c block hc hb⟩
  by_cases h : ((sched.order (List.range v.cellCount)).map fun c => fe c).sum = 0
  · rw [if_neg (by simpa using h)]
    exact ⟨true, rfl, by simp only [true_iff]; exact ⟨by omega, hz.1 h⟩⟩
  · rw [if_pos (by simpa using h)]
    refine ⟨false, rfl, ?_⟩
    simp only [Bool.false_eq_true, false_iff]
    rintro ⟨-, h1⟩
    exact h (hz.2 h1)

/-- If `validate_pair_list` returns true, whatever the device structure holds, then it describes
some pairs, and these can be executed without races. -/
theorem C79_validated {v : BlockView} (hbs : 0 < v.blockSize) {sched : Sched}
    (h : v.validate sched = some true) :
    ∃ L, Spec.BlockOk v v.cellCount v.blockSize L ∧ v.maxWaveCount ≤ v.blockSize ∧
      (∀ c < v.cellCount, RaceFree v.blockSize (L c)) ∧
      WavesTight v v.cellCount v.blockSize L := by
  suffices hs : ∃ L, Spec.BlockOk v v.cellCount v.blockSize L by
    obtain ⟨L, hL⟩ := hs
    obtain ⟨b, h1, h2⟩ := C79_validate hL hbs sched
    rw [h] at h1
    exact ⟨L, hL, h2.1 (Option.some.inj h1).symm⟩
  unfold BlockView.validate at h
  by_cases hm : v.maxWaveCount > v.blockSize
  · rw [if_pos hm] at h; simp at h
  rw [if_neg hm] at h
  obtain ⟨s, h1, h⟩ := Option.bind_eq_some_iff.1 h
  have hcell : ∀ c, c < v.cellCount → ∃ r, v.validateCell c = some r := fun c hc =>
    runItems_sum_some h1 c ((sched.perm _).mem_iff.2 (List.mem_range.2 hc))
  have hreads : ∀ c, c < v.cellCount → _ := fun c hc => validateCell_reads hbs (hcell c hc).choose_spec
  choose! n nw g hr using hreads
  have hall : ∀ c, c < v.cellCount → _ := fun c hc => validateCell_eq hbs (hr c hc)
  choose! fe fc hf using hall
  rw [runItems_sum (g := fun c => (fe c, fc c)) fun c hc =>
    (hf c (List.mem_range.1 ((sched.perm _).mem_iff.1 hc))).1] at h1
  obtain rfl := Option.some.inj h1
  simp only [Nat.zero_add] at h
  by_cases hc1 : ((sched.order (List.range v.cellCount)).map fun c => fc c).sum ≠ v.pairCount
  · rw [if_pos hc1] at h; simp at h
  rw [if_neg hc1] at h
  by_cases hc2 : ((sched.order (List.range v.cellCount)).map fun c => fe c).sum ≠ 0
  · rw [if_pos hc2] at h; simp at h
  have hc1 := not_ne_iff.1 hc1
  have hc2 := (sum_zero_iff _).1 (not_ne_iff.1 hc2)
  have hgood : ∀ c < v.cellCount, _ := fun c hc => (hf c hc).2.1.1 (hc2 _ (List.mem_map.2
    ⟨c, (sched.perm _).mem_iff.2 (List.mem_range.2 hc), rfl⟩))
  have hblk : ∀ pos, pos / v.blockSize * v.blockSize ≤ pos ∧
      pos < pos / v.blockSize * v.blockSize + v.blockSize := fun pos =>
    ⟨Nat.div_mul_le_self _ _, Nat.lt_div_mul_add hbs⟩
  have hwpos : ∀ c < v.cellCount, ∀ pos < n c, 0 ≤ (g c pos).w := fun c hc pos hp =>
    (((hgood c hc).2.2 (pos / v.blockSize) (by have := hblk pos; omega)).each pos (hblk pos).1
      (hblk pos).2 hp).2.1
  let L : BlockList := fun c => (List.range (n c)).map fun pos =>
    (((g c pos).i, (g c pos).j), (g c pos).w.toNat)
  have hlen : ∀ c, (L c).length = n c := fun c => by simp [L]
  have hpc : v.pairCount = numBlockPairs v.cellCount L := by
    rw [← hc1, ((sched.perm (List.range v.cellCount)).map _).sum_nat, ← numBlockPairs_sum]
    refine congrArg List.sum (List.map_congr_left fun c hc => ?_)
    have hc := List.mem_range.1 hc
    rw [hlen]
    exact (hf c hc).2.2 (hwpos c hc)
  have hes : ∀ c < v.cellCount, v.pairCountsEs[c]? = some (numBlockPairs c L) := by
    intro c
    induction c with
    | zero =>
      intro hc
      rw [(hr 0 hc).zero rfl, (hgood 0 hc).1 rfl]
      rfl
    | succ c ih =>
      intro hc
      have h1 := (hr c (by omega)).next (by omega)
      have h2 := (hr c (by omega)).this (by omega)
      have h3 := ih (by omega)
      rw [h1, (hgood c (by omega)).2.1 (by omega), numBlockPairs_succ, hlen]
      rw [h2] at h3
      rw [Option.some.inj h3]
  refine ⟨L, rfl, rfl, hpc, ?_, hes, ?_, ?_⟩
  · intro c hc
    rw [hlen]; exact (hr c hc).count
  · intro c k i j w hc hk
    simp only [L, List.getElem?_map, Option.map_eq_some_iff] at hk
    obtain ⟨k', hk1, hk2⟩ := hk
    obtain ⟨hk3, hk4⟩ := List.getElem?_eq_some_iff.1 hk1
    simp only [List.length_range] at hk3
    simp only [List.getElem_range] at hk4
    subst hk4
    have hp := (hr c hc).pairs k hk3
    have hw := hwpos c hc k hk3
    simp only [Prod.mk.injEq] at hk2
    obtain ⟨⟨e1, e2⟩, e3⟩ := hk2
    obtain ⟨r, q1, q2⟩ := Option.map_eq_some_iff.1 hp
    unfold BlockView.read at q1
    rw [← hpc]
    simp only [rd, hes c hc, Option.bind_some, Nat.zero_add] at q1
    obtain ⟨a1, b1, q1⟩ := Option.bind_eq_some_iff.1 q1
    obtain ⟨a2, b2, q1⟩ := Option.bind_eq_some_iff.1 q1
    obtain ⟨a3, b3, q1⟩ := Option.bind_eq_some_iff.1 q1
    obtain rfl := Option.some.inj q1
    rw [← q2] at e1 e2 e3 hw
    simp only [laneOf] at e1 e2 e3 hw
    rw [b1, b2, b3, e1, e2]
    exact ⟨rfl, rfl, congrArg some (by omega)⟩
  · intro c block hc hb
    rw [hlen] at hb
    have hg := (hgood c hc).2.2 block hb
    refine ⟨nw c block, (hr c hc).waves block hb, ?_, ?_⟩
    · obtain ⟨pos, p1, p2, p3, p4⟩ := hg.last
      have := (hg.each pos p1 p2 p3).2.2.1
      omega
    · intro k p w hk hkb
      simp only [L, List.getElem?_map, Option.map_eq_some_iff] at hk
      obtain ⟨k', hk1, hk2⟩ := hk
      obtain ⟨hk3, hk4⟩ := List.getElem?_eq_some_iff.1 hk1
      simp only [List.length_range] at hk3
      simp only [List.getElem_range] at hk4
      subst hk4
      have := hblk k
      rw [hkb] at this
      have h5 := (hg.each k this.1 this.2 hk3).2
      have h6 := (Prod.mk.inj hk2).2
      omega

/-- `get_host_pair_list` returns, for each cell, the particles and waves of its pairs in order. -/
theorem C79_host_list {v : BlockView} {L : BlockList}
    (hv : Spec.BlockOk v v.cellCount v.blockSize L) :
    v.hostPairs = some ((List.range v.cellCount).map fun c =>
      ((L c).map fun x => x.1.1, (L c).map fun x => x.1.2, (L c).map fun x => (x.2 : Int))) := by
  have hlen : v.cellCount ≤ v.pairCounts.length := by
    by_contra hlt
    have := hv.counts v.pairCounts.length (by omega)
    rw [List.getElem?_eq_none (Nat.le_refl _)] at this
    simp at this
  have hcounts : slice v.pairCounts 0 v.cellCount =
      some ((List.range' 0 v.cellCount).map fun c => (L c).length) := by
    obtain ⟨m, h1, h2⟩ := slice_some (Nat.zero_le _) hlen
    rw [h1]
    congr 1
    refine List.ext_getElem? fun k => ?_
    by_cases hk : k < v.cellCount
    · rw [slice_getElem? h1 (by omega), Nat.zero_add, hv.counts k hk, List.getElem?_map,
        List.getElem?_range' hk]
      simp
    · rw [List.getElem?_eq_none (by omega), List.getElem?_eq_none (by simp; omega)]
  have hpl : v.pairCount = 0 ∨ v.pairCount * 3 ≤ v.pairList.length := by
    rw [hv.pairCount]; exact numBlockPairs_lt hv
  have hsl : ∀ a, a ≤ 2 → ∃ m, slice v.pairList (v.pairCount * a)
      (v.pairCount * a + v.pairCount) = some m := by
    intro a ha
    have : v.pairCount * a ≤ v.pairCount * 2 := Nat.mul_le_mul_left _ ha
    obtain ⟨m, h, -⟩ := slice_some (l := v.pairList) (a := v.pairCount * a)
      (b := v.pairCount * a + v.pairCount) (by omega) (by omega)
    exact ⟨m, h⟩
  obtain ⟨is, h0⟩ := hsl 0 (by omega)
  obtain ⟨js, h1⟩ := hsl 1 (by omega)
  obtain ⟨ws, h2⟩ := hsl 2 (by omega)
  unfold BlockView.hostPairs
  rw [Nat.mul_zero, Nat.zero_add] at h0
  rw [Nat.mul_one] at h1
  rw [hcounts, h0, h1, h2]
  simp only [Option.bind_some]
  have key := hostCells_eq (L := L) (ncell := v.cellCount) (is := is) (js := js) (ws := ws) (by
    intro c k i j w hc hk
    obtain ⟨g1, g2, g3⟩ := hv.pairs c k i j w hc hk
    have hlt := (List.getElem?_eq_some_iff.1 hk).1
    have hle := numBlockPairs_le L hc
    rw [← hv.pairCount] at hle g2 g3
    refine ⟨?_, ?_, ?_⟩
    · rw [slice_getElem? h0 (by omega), Nat.zero_add, g1]
    · rw [slice_getElem? h1 (by omega), g2]
    · rw [slice_getElem? h2 (by omega), g3]) v.cellCount 0 (Nat.zero_add _)
  rw [List.range_eq_range']
  exact key

/-- The entry `k` of the occupancy counts is the number of waves, of all blocks of all cells, with
exactly `k` pairs. -/
theorem C79_occupancy {v : BlockView} {L : BlockList}
    (hv : Spec.BlockOk v v.cellCount v.blockSize L) (hbs : 0 < v.blockSize)
    (hmax : v.maxWaveCount ≤ v.blockSize) (cells : Sched) (sched : Nat → Nat → Sched) :
    v.occupancy cells sched = some ((List.range (v.blockSize + 1)).map fun k =>
      (waveSizes v v.cellCount v.blockSize L).count k) := by
  unfold BlockView.occupancy
  rw [counters_zero, items_counters (S := fun c =>
    (List.range (((L c).length + (v.blockSize - 1)) / v.blockSize)).flatMap fun b =>
      (List.range ((v.waveCounts[b * v.cellCount + c]?).getD 0)).map
        (waveSize v.blockSize (L c) b)) fun c hc F =>
    occupancyCell_eq hv hbs hmax sched (List.mem_range.1 ((cells.perm _).mem_iff.1 hc)) F]
  congr 1
  refine counters_congr fun k => ?_
  rw [Nat.zero_add]
  exact ((cells.perm _).flatMap_right _).count_eq k

/-- If the counts are those of waves with the sizes `S`, then the mean occupancy is the number of
pairs divided by the number of pairs that as many full waves have; it is between zero and one, and
zero if there are no waves. -/
theorem C79_mean {bs : Nat} (hbs : 0 < bs) (S : List Nat) (hS : ∀ x ∈ S, x ≤ bs) :
    ∃ m : Rat, meanOccupancy ((List.range (bs + 1)).map fun k => S.count k) = some m ∧
      0 ≤ m ∧ m ≤ 1 ∧ (S = [] → m = 0) ∧ m * (bs * S.length) = S.sum := by
  have h1 : ((List.range (bs + 1)).map fun k => S.count k).sum = S.length := by
    have := sum_weighted S hS fun _ => 1
    simp only [Nat.one_mul] at this
    rw [this]
    simp
  have h2 : (((List.range (bs + 1)).map fun k => S.count k).zipIdx.map fun x => x.2 * x.1).sum =
      S.sum := by
    have := sum_weighted S hS fun k => k
    rw [List.map_id'] at this
    rw [← this]
    refine congrArg List.sum (List.ext_getElem (by simp) fun k h1 h2 => ?_)
    simp
  have hle : S.sum ≤ bs * S.length := by
    clear h1 h2
    induction S with
    | nil => simp
    | cons a S ih =>
      have := ih fun x hx => hS x (List.mem_cons_of_mem _ hx)
      have := hS a List.mem_cons_self
      rw [List.sum_cons, List.length_cons, Nat.mul_add]
      omega
  unfold meanOccupancy
  simp only [h1, h2, List.length_map, List.length_range]
  by_cases h0 : S.length = 0
  · rw [if_pos h0]
    obtain rfl := List.length_eq_zero_iff.1 h0
    exact ⟨0, rfl, by decide, by decide, fun _ => rfl, by simp⟩
  · have e : (((bs + 1 : Nat) : Int) - 1) * (S.length : Int) = ((bs * S.length : Nat) : Int) := by
      push_cast
      rw [show (bs : Int) + 1 - 1 = bs by omega]
    have hpos : 0 < bs * S.length := Nat.mul_pos hbs (by omega)
    rw [if_neg h0, e, if_neg (by omega)]
    have hq : (0 : Rat) < ((bs * S.length : Nat) : Rat) := by exact_mod_cast hpos
    refine ⟨_, rfl, ?_, ?_, ?_, ?_⟩
    · rw [Int.cast_natCast]
      positivity
    · rw [Int.cast_natCast, div_le_one hq]
      exact_mod_cast hle
    · rintro rfl; simp at h0
    · rw [Int.cast_natCast]
      push_cast at hq ⊢
      exact div_mul_cancel₀ _ (ne_of_gt hq)

/-- The sizes of all waves add up to the number of pairs, so with `C79_occupancy` and `C79_mean`
the mean occupancy of a pair list is its number of pairs divided by that of as many full waves. -/
theorem C79_pairs_in_waves {v : BlockView} {L : BlockList}
    (hv : Spec.BlockOk v v.cellCount v.blockSize L) (hbs : 0 < v.blockSize) :
    (waveSizes v v.cellCount v.blockSize L).sum = numBlockPairs v.cellCount L :=
  sum_waveSizes hv hbs

/-- The reduction of counts over ranks: on rank zero the counts of the waves of all ranks, on the
others nothing. -/
theorem C79_global {bs : Nat} {S0 : List Nat} {Ss : List (List Nat)} :
    globalOccupancy ((S0 :: Ss).map fun S => (List.range (bs + 1)).map fun k => S.count k) =
      some (((List.range (bs + 1)).map fun k => (S0 :: Ss).flatten.count k) ::
        List.replicate Ss.length []) := by
  have hf : ∀ (l : List (List Nat)) (F : Nat → Nat),
      (l.map fun S => (List.range (bs + 1)).map fun k => S.count k).foldl
        (List.zipWith (· + ·)) (counters bs F) =
      counters bs fun k => F k + l.flatten.count k := by
    intro l
    induction l with
    | nil => intro F; simp
    | cons a l ih =>
      intro F
      rw [List.map_cons, List.foldl_cons]
      have := counters_add bs F fun k => a.count k
      rw [show counters bs (fun k => a.count k) = (List.range (bs + 1)).map fun k => a.count k from
        rfl] at this
      rw [this, ih]
      refine counters_congr fun k => ?_
      rw [List.flatten_cons, List.count_append, Nat.add_assoc]
  unfold globalOccupancy
  rw [List.map_cons]
  simp only [rd, List.getElem?_cons_zero, Option.bind_some]
  rw [if_pos (by simp)]
  simp only [List.length_map, List.length_range, counters_zero]
  rw [← List.map_cons (f := fun S : List Nat => (List.range (bs + 1)).map fun k => S.count k), hf]
  rw [List.map_cons, List.zipIdx_cons, List.map_cons, if_pos rfl]
  congr 2
  · exact counters_congr fun k => Nat.zero_add _
  · refine List.ext_getElem (by simp) fun k h1 h2 => ?_
    simp

/-- Ranks with counts of different block sizes are rejected. -/
theorem C79_global_sizes {l0 l : List Nat} {locals : List (List Nat)} (h0 : locals[0]? = some l0)
    (hl : l ∈ locals) (hne : l.length ≠ l0.length) : globalOccupancy locals = none := by
  unfold globalOccupancy
  simp only [rd, h0, Option.bind_some]
  exact if_neg fun h => hne (h l hl)

namespace Ex

/-- The order in which the lists of this file are processed. -/
def checkSched : Sched := Sched.inOrder

/-- `blockView` with the pairs of the first block in the same wave. -/
def conflictView : BlockView := ⟨3, 2, 1, 1, [1, 1], [3], [0], [0, 1, 0, 1, 2, 3, 0, 0, 0]⟩

end Ex

/-- Pairs (0, 1) and (1, 2) in two waves of one block are valid. -/
example : ∃ L, Spec.BlockOk Ex.blockView 1 2 L ∧ (∀ c < 1, RaceFree 2 (L c)) ∧
    WavesTight Ex.blockView 1 2 L := by
  obtain ⟨L, h1, -, h3, h4⟩ := C79_validated (v := Ex.blockView) (by decide)
    (sched := Ex.checkSched) (by decide +kernel)
  exact ⟨L, h1, h3, h4⟩

/-- They are not valid if they are in the same wave, or if there seem to be more waves or pairs than
there are, or if a pair has the same particle twice. -/
example : Ex.conflictView.validate Ex.checkSched = some false := by decide +kernel
example : ({ Ex.blockView with waveCounts := [2, 2] } : BlockView).validate Ex.checkSched =
    some false := by decide +kernel
example : ({ Ex.blockView with maxWaveCount := 3 } : BlockView).validate Ex.checkSched =
    some false := by decide +kernel
example : ({ Ex.blockView with pairCounts := [2] } : BlockView).validate Ex.checkSched =
    some false := by decide +kernel
example : ({ Ex.blockView with pairList := [0, 1, 3, 1, 2, 3, 0, 1, 0] } : BlockView).validate
    Ex.checkSched = some false := by decide +kernel

example (sched : Sched) : ∃ b, Ex.blockView.validate sched = some b ∧
    (b = true ↔ Ex.blockView.maxWaveCount ≤ 2 ∧ (∀ c < 1, RaceFree 2 (Ex.blockPairs c)) ∧
      WavesTight Ex.blockView 1 2 Ex.blockPairs) :=
  C79_validate (v := Ex.blockView) Ex.blockView_ok (by decide) sched

example : Ex.blockView.hostPairs = some [([0, 1, 0], [1, 2, 3], [0, 1, 0])] :=
  C79_host_list (v := Ex.blockView) Ex.blockView_ok

/-- Three waves with one pair. -/
example : Ex.blockView.occupancy Ex.checkSched (fun _ _ => Ex.checkSched) = some [0, 3, 0] := by
  decide +kernel

/-- One wave with two pairs and one with one. -/
example : Ex.conflictView.occupancy Ex.checkSched (fun _ _ => Ex.checkSched) = some [0, 1, 1] := by
  decide +kernel

example : meanOccupancy [0, 1, 1] = some (3 / 4) := by decide +kernel
example : globalOccupancy [[0, 3, 0], [0, 1, 1]] = some [[0, 4, 1], []] := by decide +kernel

end NP
