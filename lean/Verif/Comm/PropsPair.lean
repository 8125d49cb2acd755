import Verif.Comm.LemmasPair

/-!
# C112: communicators of nodes and the choice of devices
-/

set_option autoImplicit false

namespace NP

/-- **C112** The ranks of each node, in increasing order, have the intra ranks `0, 1, ...`, and their intra size is the number of ranks of
the node. -/
theorem C112_intra (P : Nat) (node : Nat → Nat) (k : Nat) :
    let ranks := (List.range P).filter fun r => node r = k
    ranks.map (fun r => (commPair P node r).map fun c => (c.rankParent, c.sizeParent, c.rankIntra, c.sizeIntra)) =
      (ranks.zip (List.range ranks.length)).map fun q => some (q.1, P, q.2, ranks.length) := by
  intro ranks
  have hg := mpiSplit_group P (fun q => some (node q)) k
  simp only [Option.some.injEq] at hg
  refine List.ext_getElem (by simp) fun i h1 h2 => ?_
  have hr : i < ranks.length := by simpa using h1
  have hi : (mpiSplit P (fun q => some (node q)) ranks[i]) = some (i, ranks.length) := by
    have := congrArg (fun l : List (Option (Nat × Nat)) => l[i]?) hg
    simpa [ranks, hr, List.getElem?_eq_getElem hr] using this
  simp [commPair, hi]

/-- **C112** A rank has an inter communicator exactly if it is the lowest rank of its node. These ranks are on different nodes and on all
nodes. In increasing order they have the inter ranks `0, 1, ...`, and the inter size is their number. -/
theorem C112_inter (P : Nat) (node : Nat → Nat) :
    let leaders := (List.range P).filter fun r => ∀ q < r, node q ≠ node r
    (∀ r < P, ∃ c, commPair P node r = some c ∧ (c.inter ≠ none ↔ r ∈ leaders)) ∧
    (leaders.map node).Nodup ∧ (∀ r < P, node r ∈ leaders.map node) ∧
    leaders.map (fun r => (commPair P node r).bind fun c => c.inter) =
      (List.range leaders.length).map fun i => some (i, leaders.length) := by
  intro leaders
  have hl : ∀ r, r ∈ leaders ↔ r < P ∧ ∀ q < r, node q ≠ node r := fun r => by simp [leaders]
  refine ⟨fun r hr => ⟨_, rfl, ?_⟩, ?_, fun r hr => ?_, ?_⟩
  · rw [hl]
    simp only [mpiSplit, colourInter_eq, ne_eq, Option.map_eq_none_iff]
    split_ifs with h
    · simp only [not_false_eq_true, true_iff]
      exact ⟨hr, h⟩
    · simp only [not_true_eq_false, false_iff]
      exact fun h' => h h'.2
  · refine List.Nodup.map_on ?_ (List.nodup_range.filter _)
    intro x hx y hy e
    rcases Nat.lt_trichotomy x y with h | h | h
    · exact absurd e (((hl y).mp hy).2 x h)
    · exact h
    · exact absurd e.symm (((hl x).mp hx).2 y h)
  · have hex : ∃ q, node q = node r := ⟨r, rfl⟩
    refine List.mem_map.mpr ⟨Nat.find hex, (hl _).mpr ⟨lt_of_le_of_lt (Nat.find_min' hex rfl) hr, fun q hq e => ?_⟩,
      Nat.find_spec hex⟩
    exact Nat.find_min hex hq (e.trans (Nat.find_spec hex))
  · have hg := mpiSplit_group P (colourInter P node) 1
    have he : ((List.range P).filter fun q => colourInter P node q = some 1) = leaders := by
      refine List.filter_congr fun q _ => ?_
      rw [colourInter_eq]
      by_cases h : ∀ q' < q, node q' ≠ node q
      · rw [if_pos h, decide_eq_true h]; rfl
      · rw [if_neg h, decide_eq_false h]; rfl
    rw [he] at hg
    rw [← hg]
    rfl

/-- **C112** If no local rank is given, by the caller or by the environment, the ranks of a node are spread evenly over its devices: each of
`n` devices has `s / n` of `s` ranks, and the first `s % n` devices have one more. -/
theorem C112_devices (P : Nat) (node : Nat → Nat) (k n d : Nat) (hd : d < n) (localRank : Int) (hlr : localRank < 0) :
    let ranks := (List.range P).filter fun r => node r = k
    (ranks.filter fun r => ((commPair P node r).bind fun c => deviceIndex localRank .unset .unset .unset c n) = some d).length =
      ranks.length / n + if d < ranks.length % n then 1 else 0 := by
  intro ranks
  rw [← count_range_mod n d _ hd]
  have hf := filter_rank_range (fun q => decide (node q = k)) P
  change ranks.map _ = List.range ranks.length at hf
  rw [← hf, List.filter_map, List.length_map]
  congr 1
  refine List.filter_congr fun r hr => ?_
  have hk : node r = k := by simpa using (List.mem_filter.mp hr).2
  have hn : n ≠ 0 := by omega
  have hdev : (commPair P node r).bind (fun c => deviceIndex localRank .unset .unset .unset c n) =
      some (((List.range r).filter fun q => decide (node q = k)).length % n) := by
    simp only [commPair, mpiSplit, Option.map_some, Option.bind_some, deviceIndex_unset _ _ _ hlr hn, hk, Option.some.injEq]
  simp only [hdev, Option.some.injEq, Function.comp]

/-- **C112** A local rank that is not negative, from the caller or else from the first variable that is set, picks the device with its
remainder. -/
theorem C112_local_rank (c : CommPairRank) (n v : Nat) (hn : n ≠ 0) (hv : v < 2 ^ 31) (e1 e2 e3 : EnvVar) (localRank : Int)
    (h : localRank = v ∨ (localRank < 0 ∧ (e1 = .number v ∨ (e1 = .unset ∧ e2 = .number v) ∨
      (e1 = .unset ∧ e2 = .unset ∧ e3 = .number v)))) :
    deviceIndex localRank e1 e2 e3 c n = some (v % n) := by
  have hst : stoiEnv (.number (v : Int)) = some (v : Int) := by
    simp only [stoiEnv]
    rw [if_pos ⟨by omega, by omega⟩]
  have key : (if localRank < 0 then getLocalMpiRank e1 e2 e3 c.rankIntra c.rankIntra else some localRank) = some (v : Int) := by
    rcases h with rfl | ⟨h0, rfl | ⟨rfl, rfl⟩ | ⟨rfl, rfl, rfl⟩⟩
    · rw [if_neg (by omega)]
    · rw [if_pos h0]; exact hst
    · rw [if_pos h0]; exact hst
    · rw [if_pos h0]; exact hst
  have ht : (v : Int).tmod n = ((v % n : Nat) : Int) := by
    rw [Int.tmod_eq_emod_of_nonneg (by omega)]
    rfl
  simp only [deviceIndex, key, Option.bind_some, hn, if_false, ht]
  rw [if_neg (by omega), Int.toNat_natCast]

/-- **C112** (finding) A negative local rank in the environment is not rejected: with two devices, minus one reads the vector of devices at
index minus one. -/
theorem C112_negative (c : CommPairRank) : deviceIndex (-1) (.number (-1)) .unset .unset c 2 = none := by
  have h : (-1 : Int).tmod 2 = -1 := by decide
  simp [deviceIndex, getLocalMpiRank, stoiEnv, h]

namespace Ex

/-- Five ranks on two nodes. -/
example : (List.range 5).map (commPair 5 fun r => if r = 1 ∨ r = 4 then 7 else 3) =
    [some ⟨0, 5, 0, 3, some (0, 2)⟩, some ⟨1, 5, 0, 2, some (1, 2)⟩, some ⟨2, 5, 1, 3, none⟩, some ⟨3, 5, 2, 3, none⟩,
      some ⟨4, 5, 1, 2, none⟩] := by
  decide +kernel

/-- Their devices, with two devices on each node. -/
example : (List.range 5).map (fun r => (commPair 5 (fun r => if r = 1 ∨ r = 4 then 7 else 3) r).bind fun c =>
    deviceIndex (-1) .unset .unset .unset c 2) = [some 0, some 0, some 1, some 0, some 1] := by
  decide +kernel

end Ex

end NP
