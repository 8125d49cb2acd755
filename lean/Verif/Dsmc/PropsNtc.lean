import Verif.Pair.SpecCheck
import Verif.Dsmc.LemmasNtc3
import Verif.Sub.Props
import Verif.Move.PropsLocal

/-!
# Sampling of pairs with the NTC sampler

Model: Dsmc/ModelNtc.lean. Specification: Dsmc/SpecNtc.lean, Pair/SpecLoop.lean (`BlockOk`),
Sub/Spec.lean (`InParent`).
-/

set_option autoImplicit false

namespace NP

open Spec

theorem numBlockPairs_take {counts : List Nat} {L : BlockList}
    (h : ∀ c n, counts[c]? = some n → (L c).length = n) (c : Nat) (hc : c ≤ counts.length) :
    numBlockPairs c L = (counts.take c).sum := by
  induction c with
  | zero => rfl
  | succ c ih =>
    have hn : counts[c]? = some counts[c] := List.getElem?_eq_getElem (by omega)
    rw [takeSum_succ hn, ← ih (by omega), ← h c _ hn]
    unfold numBlockPairs
    rw [List.range_succ, List.flatMap_append, List.length_append]
    simp

/-- The host checks pass if there are enough particles. -/
theorem enough_lengths {npart : List Nat} {A B : Parent} {aIsB : Bool} {LA LB : List (List Nat)}
    (hA : ParentLists npart A LA) (hB : ParentLists npart B LB) {c n : Nat} {ra rb : List Nat}
    (hra : LA[c]? = some ra) (hrb : LB[c]? = some rb) (h : EnoughForPairs npart A B aIsB c n) :
    if aIsB then ra.length ≥ 2 ∨ n = 0 else (ra.length ≥ 1 ∨ n = 0) ∧ (rb.length ≥ 1 ∨ n = 0) := by
  have memA : ∀ l, InParent npart A c l → l ∈ ra := by
    intro l hl
    obtain ⟨row, h1, h2⟩ := (inParent_iff hA c l).1 hl
    rw [hra] at h1
    rw [Option.some.inj h1]; exact h2
  have memB : ∀ l, InParent npart B c l → l ∈ rb := by
    intro l hl
    obtain ⟨row, h1, h2⟩ := (inParent_iff hB c l).1 hl
    rw [hrb] at h1
    rw [Option.some.inj h1]; exact h2
  rcases h with h | h
  · rw [h]
    cases aIsB <;> simp
  · cases aIsB with
    | true =>
      simp only [if_true] at h ⊢
      obtain ⟨l, l', hne, h1, h2⟩ := h
      refine Or.inl ?_
      have k1 := memA l h1
      have k2 := memA l' h2
      match ra, k1, k2 with
      | [], k1, _ => exact absurd k1 (by simp)
      | [a], k1, k2 =>
        rw [List.mem_singleton] at k1 k2
        exact absurd (k1.trans k2.symm) hne
      | a :: b :: rest, _, _ => simp
    | false =>
      simp only [Bool.false_eq_true, if_false] at h ⊢
      obtain ⟨⟨l, h1⟩, l', h2⟩ := h
      have := List.length_pos_of_mem (memA l h1)
      have := List.length_pos_of_mem (memB l' h2)
      omega

/-- `sample` makes a list with the requested number of pairs of each cell. Each pair has a particle
of each of the two sub groups, two different ones if the sub groups are the same. The device
structure describes the list, in blocks, with a number of waves for each block that is larger than
each of its waves. This number is the least possible one, and at most the number of pairs in a
block. Pairs in the same wave of the same block have no particle in common, and a pair
is in a later wave only if it has to be. This holds for the CPU and for the GPU algorithm and all
schedules. Missing: sub groups that are the whole group, see `C55_whole_group_fails`. -/
theorem C55_sample_partial {α : Type} (e : NtcEnv) (draw : Fresh α) {conv : α → Int → Int}
    (hconv : ∀ u n, 0 ≤ n → 0 ≤ conv u n) {blockSize localMem : Nat} (hbs : 0 < blockSize)
    {npart : List Nat} (hlocal : ∀ n ∈ npart, n + 1 ≤ localMem) (hpos : 0 < localMem)
    {sA sB : Selection} (hA : Built npart (.sub sA)) (hB : Built npart (.sub sB)) {aIsB : Bool}
    (hab : aIsB = true → sA = sB) {counts : List Nat} (hlen : counts.length = npart.length)
    (henough : ∀ (c n : Nat), counts[c]? = some n → EnoughForPairs npart (.sub sA) (.sub sB) aIsB c n) :
    ∃ (v : BlockView) (L : Nat → List ((Nat × Nat) × Nat)),
      ntcSample e draw conv npart.length blockSize localMem npart (.sub sA) (.sub sB) aIsB counts =
        some v ∧
      Spec.BlockOk v npart.length blockSize (fun c => storedWaves (L c)) ∧
      v.maxWaveCount ≤ blockSize ∧
      WavesTight v npart.length blockSize (fun c => storedWaves (L c)) ∧
      ∀ (c n : Nat), counts[c]? = some n → (L c).length = n ∧
        (∀ x ∈ L c, InParent npart (.sub sA) c x.1.1 ∧ InParent npart (.sub sB) c x.1.2 ∧
          (aIsB = true → x.1.1 ≠ x.1.2)) ∧
        ConflictFree blockSize (L c) ∧ WavesNeeded blockSize (L c) := by
  obtain ⟨LA, pA, sdA⟩ := built_spec hA
  obtain ⟨LB, pB, sdB⟩ := built_spec hB
  have fA := parent_facts pA
  have fB := parent_facts pB
  obtain ⟨h, h1, h2, h3, h4⟩ := ntcHost_spec (aIsB := aIsB) (counts := counts) hbs hlen sdA.1 sdB.1 fA fB
    (fun c n ra rb hc hra hrb => enough_lengths pA pB hra hrb (henough c n hc))
  have hmaxle : ∀ (l : List Nat) (a : Nat), a ≤ l.foldl max a ∧ ∀ n ∈ l, n ≤ l.foldl max a := by
    intro l
    induction l with
    | nil => simp
    | cons b l ih =>
      intro a
      obtain ⟨i1, i2⟩ := ih (max a b)
      rw [List.foldl_cons]
      refine ⟨by omega, fun n hn => ?_⟩
      rcases List.mem_cons.1 hn with rfl | hn
      · omega
      · exact i2 n hn
  have hmaxlt : ∀ (l : List Nat) (a : Nat), a < localMem → (∀ n ∈ l, n + 1 ≤ localMem) →
      l.foldl max a < localMem := by
    intro l
    induction l with
    | nil => intro a ha _; exact ha
    | cons b l ih =>
      intro a ha hl
      rw [List.foldl_cons]
      have := hl b (by simp)
      exact ih _ (by omega) fun n hn => hl n (by simp [hn])
  set x : NtcArgs α := ⟨npart, .sub sA, .sub sB, aIsB, counts, h.1, (draw (2 * h.2.1)).1, h.2.1,
    npart.length, blockSize⟩ with hx
  -- the pairs
  have hpick : ∀ c px : Nat, ∃ p : Nat × Nat, ∀ (n : Nat), counts[c]? = some n → px < n →
      ntcPick conv x c px = some p ∧ InParent npart (.sub sA) c p.1 ∧ InParent npart (.sub sB) c p.2 ∧
        (aIsB = true → p.1 ≠ p.2) ∧ ∀ np, npart[c]? = some np → p.1 < np ∧ p.2 < np := by
    intro c px
    by_cases hex : ∃ n, counts[c]? = some n ∧ px < n
    case neg => exact ⟨(0, 0), fun n h1 h2 => absurd ⟨n, h1, h2⟩ hex⟩
    case pos =>
    obtain ⟨n, hn, hpx⟩ := hex
    have hc : c < npart.length := by
      rw [← hlen]; exact (List.getElem?_eq_some_iff.1 hn).1
    obtain ⟨ra, hra⟩ : ∃ ra, LA[c]? = some ra := ⟨_, List.getElem?_eq_getElem (by rw [sdA.1]; exact hc)⟩
    obtain ⟨rb, hrb⟩ : ∃ rb, LB[c]? = some rb := ⟨_, List.getElem?_eq_getElem (by rw [sdB.1]; exact hc)⟩
    have hnp : npart[c]? = some npart[c] := List.getElem?_eq_getElem hc
    have hle := enough_lengths pA pB hra hrb (henough c n hn)
    have hsum : (counts.take c).sum + n ≤ counts.sum := by
      rw [← takeSum_succ hn]; exact takeSum_le _ _
    have hAB : aIsB = true → ra.length = rb.length := by
      intro hq
      obtain rfl := hab hq
      have e1 := fA.counts
      have e2 := fB.counts
      have e3 : (lens LA)[c]? = (lens LB)[c]? := by rw [← e1, ← e2]
      rw [lens, lens, List.getElem?_map, List.getElem?_map, hra, hrb] at e3
      exact Option.some.inj e3
    obtain ⟨p, q1, q2, q3, q4⟩ := ntcPick_spec hconv (x := x) (sA := sA) (sB := sB) rfl rfl fA fB hab
      (cell := c) (px := px) (es := (counts.take c).sum) hra hrb (sdA.2 c _ _ hra hnp).1 (h2 c hc)
      (by show _ < h.2.1; omega) ((draw (2 * h.2.1)).2)
      (by
        cases hq : aIsB with
        | true => rw [hq] at hle; simp only [if_true] at hle; omega
        | false => rw [hq] at hle; simp only [Bool.false_eq_true, if_false] at hle; omega)
      (by
        cases hq : aIsB with
        | true =>
          have := hAB hq
          rw [hq] at hle
          simp only [if_true] at hle
          omega
        | false => rw [hq] at hle; simp only [Bool.false_eq_true, if_false] at hle; omega)
      (by
        intro hq
        have hq' : aIsB = true := hq
        rw [hq'] at hle
        simp only [if_true] at hle
        omega)
    refine ⟨p, fun _ _ _ => ⟨q1, (inParent_iff pA c _).2 ⟨_, hra, q2⟩, (inParent_iff pB c _).2
      ⟨_, hrb, q3⟩, q4, ?_⟩⟩
    intro np hnp'
    exact ⟨(sdA.2 c _ _ hra hnp').2 _ q2, (sdB.2 c _ _ hrb hnp').2 _ q3⟩
  choose pk hpk using hpick
  -- the cells
  have hperm := e.cells.perm (List.range npart.length)
  have hmem : ∀ c, c ∈ e.cells.order (List.range npart.length) ↔ c < npart.length := fun c =>
    hperm.mem_iff.trans List.mem_range
  obtain ⟨m, m1, m2, m3⟩ := runItems_frames
    (step := ntcCell e conv x (npart.foldl max 0)) (items := e.cells.order (List.range npart.length))
    (fun m => h.2.1 * 3 ≤ m.list.length ∧ h.2.2 * npart.length ≤ m.waves.length ∧
      m.maxWave ≤ blockSize)
    (fun c m => ∀ n, counts[c]? = some n →
      CellDone (pk c) (counts.take c).sum h.2.1 n blockSize npart.length c m)
    (fun c m m' => ∀ n, counts[c]? = some n →
      CellFrame (counts.take c).sum h.2.1 n npart.length c m m')
    (hperm.nodup_iff.2 List.nodup_range)
    (by
      intro c hc m hm
      have hc := (hmem c).1 hc
      have hn : counts[c]? = some counts[c] := List.getElem?_eq_getElem (by omega)
      have hnp : npart[c]? = some npart[c] := List.getElem?_eq_getElem hc
      obtain ⟨m', c1, c2, c3, c4⟩ := ntcCell_spec e (x := x) (cell := c) (np := npart[c])
        (n := counts[c]) (es := (counts.take c).sum) (maxNpart := npart.foldl max 0) (maxBlocks := h.2.2)
        (pk := pk c) (conv := conv) hnp hn (h2 c hc) (fun px hpx => (hpk c px _ hn hpx).1)
        (fun px hpx => (hpk c px _ hn hpx).2.2.2.2 _ hnp)
        (by
          rw [← takeSum_succ hn]
          show _ ≤ h.2.1
          rw [h3]
          exact takeSum_le _ _) hbs ((hmaxle npart 0).2 _ (List.getElem_mem hc)) hc
        (fun b hb => h4 c _ hn b hb) hm.1 hm.2.1
      refine ⟨m', c1, ⟨?_, ?_, ?_⟩, ?_, ?_⟩
      · rw [c3.listLen]; exact hm.1
      · rw [c3.wavesLen]; exact hm.2.1
      · have h1 := hm.2.2
        have h2 : m'.maxWave ≤ max m.maxWave blockSize := c4
        omega
      · intro n hn'
        obtain rfl := Option.some.inj (hn.symm.trans hn')
        exact c2
      · intro n hn'
        obtain rfl := Option.some.inj (hn.symm.trans hn')
        exact c3)
    (by
      intro i hi j hj hij m m' hF hQ n hn b hb
      have hi := (hmem i).1 hi
      have hj := (hmem j).1 hj
      have hnj : counts[j]? = some counts[j] := List.getElem?_eq_getElem (by omega)
      have hf := hF _ hnj
      obtain ⟨W, hW⟩ := hQ n hn b hb
      have s1 : (counts.take i).sum + n ≤ counts.sum := by
        rw [← takeSum_succ hn]; exact takeSum_le _ _
      have s2 : (counts.take j).sum + counts[j] ≤ counts.sum := by
        rw [← takeSum_succ hnj]; exact takeSum_le _ _
      have s3 : (counts.take i).sum + n ≤ (counts.take j).sum ∨
          (counts.take j).sum + counts[j] ≤ (counts.take i).sum := by
        rcases Nat.lt_or_gt_of_ne hij with hlt | hlt
        · exact Or.inl (by rw [← takeSum_succ hn]; exact takeSum_mono _ hlt)
        · exact Or.inr (by rw [← takeSum_succ hnj]; exact takeSum_mono _ hlt)
      refine ⟨W, hW.keep ?_ ?_ hf.maxWave⟩
      · intro px hpx
        have hpn : px < n := Nat.lt_of_lt_of_le hpx.2 (Nat.min_le_right _ _)
        refine ⟨hf.list _ ?_, hf.list _ ?_, hf.list _ ?_⟩ <;> (intro py hpy; omega)
      · refine hf.waves _ ?_
        intro b' heq
        have e1 : (b * npart.length + i) % npart.length = i := by
          rw [Nat.mul_comm, Nat.mul_add_mod, Nat.mod_eq_of_lt hi]
        have e2 : (b' * npart.length + j) % npart.length = j := by
          rw [Nat.mul_comm, Nat.mul_add_mod, Nat.mod_eq_of_lt hj]
        rw [heq] at e1
        exact hij (e1.symm.trans e2))
    (s := ⟨(e.freshI (h.2.1 * 3 + e.over)).1, (e.freshN (h.2.2 * npart.length + e.over)).1, 0⟩)
    ⟨by rw [(e.freshI _).2]; omega, by rw [(e.freshN _).2]; omega, Nat.zero_le _⟩
  -- the waves
  have hwaves : ∀ c b : Nat, ∃ W : Nat → Nat, ∀ n, counts[c]? = some n → b * blockSize < n →
      BlockDone (pk c) (counts.take c).sum h.2.1 n blockSize npart.length c b W m := by
    intro c b
    by_cases hex : ∃ n, counts[c]? = some n ∧ b * blockSize < n
    case neg => exact ⟨fun _ => 0, fun n h1 h2 => absurd ⟨n, h1, h2⟩ hex⟩
    case pos =>
    obtain ⟨n, hn, hb⟩ := hex
    have hc : c < npart.length := by
      rw [← hlen]; exact (List.getElem?_eq_some_iff.1 hn).1
    obtain ⟨W, hW⟩ := m3 c ((hmem c).2 hc) n hn b hb
    refine ⟨W, fun n' hn' _ => ?_⟩
    obtain rfl := Option.some.inj (hn.symm.trans hn')
    exact hW
  choose W hW using hwaves
  set L : Nat → List ((Nat × Nat) × Nat) := fun c =>
    (List.range (counts.getD c 0)).map fun px => (pk c px, W c (px / blockSize) px) with hL
  have hLlen : ∀ c n, counts[c]? = some n → (L c).length = n := by
    intro c n hn
    simp [hL, hn]
  have hLget : ∀ c n, counts[c]? = some n → ∀ k, (L c)[k]? =
      if k < n then some (pk c k, W c (k / blockSize) k) else none := by
    intro c n hn k
    simp only [hL, List.getD_eq_getElem?_getD, hn, Option.getD_some, List.getElem?_map]
    by_cases hk : k < n
    · rw [List.getElem?_range hk, if_pos hk]; rfl
    · rw [if_neg hk, List.getElem?_eq_none (by simp; omega)]; rfl
  have hLslen : ∀ c n, counts[c]? = some n → (storedWaves (L c)).length = n := by
    intro c n hn
    rw [storedWaves, List.length_map, hLlen c n hn]
  have hnum : ∀ c, c ≤ npart.length → numBlockPairs c (fun c => storedWaves (L c)) =
      (counts.take c).sum := fun c hc => numBlockPairs_take hLslen c (by omega)
  have htot : numBlockPairs npart.length (fun c => storedWaves (L c)) = h.2.1 := by
    rw [hnum _ (Nat.le_refl _), h3, ← hlen, List.take_length]
  have hblk : ∀ k n, k < n → InBlk blockSize n (k / blockSize) k := by
    intro k n hk
    have h1 := Nat.div_add_mod k blockSize
    have h2 := Nat.mod_lt k hbs
    rw [Nat.mul_comm] at h1
    unfold InBlk
    omega
  have hblkd : ∀ k n b, InBlk blockSize n b k → k < n ∧ k / blockSize = b := by
    intro k n b hk
    obtain ⟨k1, k2⟩ := hk
    refine ⟨by omega, ?_⟩
    rw [Nat.div_eq_iff hbs]
    omega
  have hlow : ∀ k n, k < n → k / blockSize * blockSize < n := fun k n hk =>
    Nat.lt_of_le_of_lt (Nat.div_mul_le_self k blockSize) hk
  refine ⟨⟨h.2.1, blockSize, npart.length, m.maxWave, m.waves, counts, h.1, m.list⟩, L, ?_, ?_, m2.2.2, ?_,
    ?_⟩
  · unfold ntcSample
    rw [if_pos ⟨hlen, rfl⟩, h1, Option.bind_some]
    dsimp only
    rw [if_pos (show npart.foldl max 0 + 1 ≤ localMem from hmaxlt npart 0 hpos hlocal)]
    rw [← hx, m1, Option.bind_some]
  · refine ⟨rfl, rfl, htot.symm, ?_, ?_, ?_, ?_⟩
    · intro c hc
      have hn : counts[c]? = some counts[c] := List.getElem?_eq_getElem (by omega)
      dsimp only
      rw [hn, hLslen c _ hn]
    · intro c hc
      rw [hnum c (by omega)]
      exact h2 c hc
    · intro c k i j w hc hk
      have hn : counts[c]? = some counts[c] := List.getElem?_eq_getElem (by omega)
      rw [storedWaves, List.getElem?_map, hLget c _ hn k] at hk
      by_cases hkn : k < counts[c]
      · rw [if_pos hkn, Option.map_some, Option.some.injEq] at hk
        simp only [Prod.mk.injEq] at hk
        obtain ⟨⟨rfl, rfl⟩, rfl⟩ := hk
        rw [htot, hnum c (by omega)]
        exact (hW c (k / blockSize) _ hn (hlow k _ hkn)).1 k (hblk k _ hkn)
      · rw [if_neg hkn] at hk
        exact absurd hk (by simp)
    · intro c block hc hb
      have hn : counts[c]? = some counts[c] := List.getElem?_eq_getElem (by omega)
      rw [hLslen c _ hn] at hb
      obtain ⟨-, ⟨nw, w1, w2, w3, -⟩, -⟩ := hW c block _ hn hb
      refine ⟨nw, w1, w2, ?_⟩
      intro k p w hk hkb
      rw [storedWaves, List.getElem?_map, hLget c _ hn k] at hk
      by_cases hkn : k < counts[c]
      · rw [if_pos hkn, Option.map_some, Option.some.injEq] at hk
        simp only [Prod.mk.injEq] at hk
        obtain ⟨-, rfl⟩ := hk
        have := w3 k (hkb ▸ hblk k _ hkn)
        rw [hkb]
        exact this
      · rw [if_neg hkn] at hk
        exact absurd hk (by simp)
  · intro c block hc hb
    have hn : counts[c]? = some counts[c] := List.getElem?_eq_getElem (by omega)
    rw [hLslen c _ hn] at hb
    obtain ⟨-, ⟨nw, w1, -, -, w4⟩, -⟩ := hW c block _ hn hb
    obtain ⟨px, q1, q2⟩ := w4 hbs hb
    obtain ⟨q3, q4⟩ := hblkd _ _ _ q1
    refine ⟨px, (((pk c px).1 : Int), ((pk c px).2 : Int)), W c block px, ?_, q4, ?_⟩
    · show (storedWaves (L c))[px]? = _
      rw [storedWaves, List.getElem?_map, hLget c _ hn px, if_pos q3, q4]
      rfl
    · rw [q2]; exact w1
  · intro c n hn
    refine ⟨hLlen c n hn, ?_, ?_, ?_⟩
    · intro y hy
      obtain ⟨k, hk⟩ := List.getElem?_of_mem hy
      rw [hLget c n hn k] at hk
      by_cases hkn : k < n
      · rw [if_pos hkn] at hk
        obtain rfl := Option.some.inj hk
        obtain ⟨-, a1, a2, a3, -⟩ := hpk c k n hn hkn
        exact ⟨a1, a2, a3⟩
      · rw [if_neg hkn] at hk
        exact absurd hk (by simp)
    · intro k k' a a' w hk hk' hkk hne hsh
      rw [hLget c n hn] at hk hk'
      by_cases hkn : k < n
      case neg => rw [if_neg hkn] at hk; exact absurd hk (by simp)
      by_cases hkn' : k' < n
      case neg => rw [if_neg hkn'] at hk'; exact absurd hk' (by simp)
      rw [if_pos hkn, Option.some.injEq, Prod.mk.injEq] at hk
      rw [if_pos hkn', Option.some.injEq, Prod.mk.injEq] at hk'
      obtain ⟨rfl, rfl⟩ := hk
      obtain ⟨rfl, hw⟩ := hk'
      have := (hW c (k / blockSize) n hn (hlow k n hkn)).2.2.1 k k' (hblk k n hkn)
        (hkk ▸ hblk k' n hkn') hne hsh
      rw [← hkk] at hw
      exact this hw.symm
    · intro k a w hk
      rw [hLget c n hn] at hk
      by_cases hkn : k < n
      case neg => rw [if_neg hkn] at hk; exact absurd hk (by simp)
      rw [if_pos hkn, Option.some.injEq, Prod.mk.injEq] at hk
      obtain ⟨rfl, hw⟩ := hk
      obtain ⟨l', l1, l2, l3⟩ := (hW c (k / blockSize) n hn (hlow k n hkn)).2.2.2 k w (hblk k n hkn) hw
      obtain ⟨l4, l5⟩ := hblkd _ _ _ l1
      refine ⟨l', pk c l', ?_, l5, l3⟩
      rw [hLget c n hn, if_pos l4, l5, l2]

/-- `sample` rejects requests for cells without enough particles, and requests for a wrong number
of cells. -/
theorem C55_rejects {α : Type} (e : NtcEnv) (draw : Fresh α) (conv : α → Int → Int)
    {cellCount blockSize localMem : Nat} {npart : List Nat} {A B : Parent} (hA : Built npart A)
    (hB : Built npart B) {aIsB : Bool} {counts : List Nat}
    (h : counts.length ≠ cellCount ∨
      ∃ (c n : Nat), counts[c]? = some n ∧ ¬ EnoughForPairs npart A B aIsB c n) :
    ntcSample e draw conv cellCount blockSize localMem npart A B aIsB counts = none := by
  unfold ntcSample
  by_cases hlen : counts.length = cellCount ∧ npart.length = cellCount
  case neg => rw [if_neg hlen]
  rw [if_pos hlen]
  rcases h with h | ⟨c, n, hn, hno⟩
  · exact absurd hlen.1 h
  · obtain ⟨LA, pA, sdA⟩ := built_spec hA
    obtain ⟨LB, pB, sdB⟩ := built_spec hB
    have hc : c < npart.length := by
      have := (List.getElem?_eq_some_iff.1 hn).1
      omega
    obtain ⟨ra, hra⟩ : ∃ ra, LA[c]? = some ra := ⟨_, List.getElem?_eq_getElem (by rw [sdA.1]; exact hc)⟩
    obtain ⟨rb, hrb⟩ : ∃ rb, LB[c]? = some rb := ⟨_, List.getElem?_eq_getElem (by rw [sdB.1]; exact hc)⟩
    have hnp : npart[c]? = some npart[c] := List.getElem?_eq_getElem hc
    have hnd := (sdA.2 c _ _ hra hnp).1
    have hloop : forLoop 0 cellCount (ntcHost npart A B aIsB counts blockSize) ([], 0, 0) = none := by
      unfold forLoop
      refine runItems_none (i := c) (List.mem_range'_1.2 ⟨by omega, by omega⟩) ?_ _
      intro s
      unfold ntcHost
      simp only [rd]
      rw [hn, Option.bind_some, (parent_facts pA).counts, lens, List.getElem?_map, hra,
        Option.map_some, Option.bind_some, (parent_facts pB).counts, lens, List.getElem?_map, hrb,
        Option.map_some, Option.bind_some, if_neg]
      intro hok
      apply hno
      by_cases hn0 : n = 0
      · exact Or.inl hn0
      · refine Or.inr ?_
        cases aIsB with
        | true =>
          simp only [if_true] at hok ⊢
          have h2 : 2 ≤ ra.length := by omega
          refine ⟨ra[0], ra[1], ?_, (inParent_iff pA c _).2 ⟨_, hra, List.getElem_mem _⟩,
            (inParent_iff pA c _).2 ⟨_, hra, List.getElem_mem _⟩⟩
          intro he
          have := (List.Nodup.getElem_inj_iff hnd).1 he
          omega
        | false =>
          simp only [Bool.false_eq_true, if_false] at hok ⊢
          have h1 : 0 < ra.length := by omega
          have h2 : 0 < rb.length := by omega
          exact ⟨⟨ra[0], (inParent_iff pA c _).2 ⟨_, hra, List.getElem_mem _⟩⟩, rb[0],
            (inParent_iff pB c _).2 ⟨_, hrb, List.getElem_mem _⟩⟩
    rw [hloop]; rfl

/-- `get_pair_list` returns the list of the last call of `sample` if and only if there was one,
both sub groups still exist, and neither has changed since. -/
theorem C55_stale_list (stored : Option (BlockView × Nat × Nat)) (nowA nowB : Option Nat)
    (v : BlockView) : ntcGetPairList stored nowA nowB = some v ↔
      ∃ va vb, stored = some (v, va, vb) ∧ nowA = some va ∧ nowB = some vb := by
  constructor
  · intro h
    unfold ntcGetPairList at h
    obtain ⟨⟨s, va, vb⟩, h1, h⟩ := Option.bind_eq_some_iff.1 h
    obtain ⟨va', h2, h⟩ := Option.bind_eq_some_iff.1 h
    obtain ⟨vb', h3, h⟩ := Option.bind_eq_some_iff.1 h
    dsimp only at h
    by_cases hc : va' = va ∧ vb' = vb
    · rw [if_pos hc] at h
      obtain rfl := Option.some.inj h
      exact ⟨va, vb, h1, by rw [h2, hc.1], by rw [h3, hc.2]⟩
    · rw [if_neg hc] at h
      exact absurd h (by simp)
  · rintro ⟨va, vb, rfl, rfl, rfl⟩
    simp [ntcGetPairList]

/-- Limit: a sub group that is the whole group has no map of layers, so `sample` reads through a
null pointer as soon as a pair is requested of a cell with particles. -/
theorem C55_whole_group_fails {α : Type} (e : NtcEnv) (draw : Fresh α) {conv : α → Int → Int}
    {cellCount blockSize localMem : Nat} {npart : List Nat} {B : Parent} {aIsB : Bool}
    {counts : List Nat} {c n : Nat} (hn : counts[c]? = some n) (hpos : 0 < n) (hbs : 0 < blockSize) :
    ntcSample e draw conv cellCount blockSize localMem npart .whole B aIsB counts = none := by
  unfold ntcSample
  by_cases hlen : counts.length = cellCount ∧ npart.length = cellCount
  case neg => rw [if_neg hlen]
  rw [if_pos hlen]
  cases hh : forLoop 0 cellCount (ntcHost npart .whole B aIsB counts blockSize) ([], 0, 0) with
  | none => rfl
  | some h =>
    rw [Option.bind_some]
    dsimp only
    split
    case isFalse => rfl
    rw [runItems_none (i := c) ((e.cells.perm _).mem_iff.2 (List.mem_range.2 (by
      have := (List.getElem?_eq_some_iff.1 hn).1
      omega)))]
    · rfl
    intro m
    set x : NtcArgs α := ⟨npart, .whole, B, aIsB, counts, h.1, (draw (2 * h.2.1)).1, h.2.1, cellCount,
      blockSize⟩ with hx
    have hpick : ∀ px, ntcPick conv x c px = none := by
      intro px
      cases hp : ntcPick conv x c px with
      | none => rfl
      | some p =>
        exfalso
        unfold ntcPick at hp
        obtain ⟨_, -, hp⟩ := Option.bind_eq_some_iff.1 hp
        obtain ⟨_, -, hp⟩ := Option.bind_eq_some_iff.1 hp
        obtain ⟨_, -, hp⟩ := Option.bind_eq_some_iff.1 hp
        dsimp only at hp
        obtain ⟨_, -, hp⟩ := Option.bind_eq_some_iff.1 hp
        obtain ⟨_, -, hp⟩ := Option.bind_eq_some_iff.1 hp
        obtain ⟨_, -, hp⟩ := Option.bind_eq_some_iff.1 hp
        obtain ⟨_, -, hp⟩ := Option.bind_eq_some_iff.1 hp
        obtain ⟨_, -, hp⟩ := Option.bind_eq_some_iff.1 hp
        obtain ⟨_, hp', -⟩ := Option.bind_eq_some_iff.1 hp
        exact absurd hp' (by simp [Parent.mapLayer])
    cases hres : ntcCell e conv x (npart.foldl max 0) c m with
    | none => rfl
    | some m' =>
      exfalso
      unfold ntcCell at hres
      obtain ⟨np, -, hres⟩ := Option.bind_eq_some_iff.1 hres
      obtain ⟨n', h2, hres⟩ := Option.bind_eq_some_iff.1 hres
      obtain rfl := Option.some.inj (hn.symm.trans h2)
      obtain ⟨es, -, hres⟩ := Option.bind_eq_some_iff.1 hres
      obtain ⟨fl, -, hres⟩ := Option.bind_eq_some_iff.1 hres
      obtain ⟨nb, h5, hres⟩ := Option.bind_eq_some_iff.1 hres
      obtain ⟨s, h6, -⟩ := Option.bind_eq_some_iff.1 hres
      have hbs' : 0 < x.blockSize := hbs
      rw [divRoundUp_eq hbs'] at h5
      have hnb : 0 < nb := by
        rw [← Option.some.inj h5]
        exact (lt_divRoundUp hbs').2 (by omega)
      unfold forLoop at h6
      rw [runItems_none (i := 0) (by rw [List.mem_range']; exact ⟨0, by omega, by omega⟩)] at h6
      · exact absurd h6 (by simp)
      intro s
      cases e.cpu with
      | true =>
        simp only [if_true]
        unfold ntcCpuBlock
        dsimp only
        unfold forLoop
        rw [runItems_none (i := 0) (by rw [List.mem_range']; exact ⟨0, by omega, by omega⟩)]
        · rfl
        intro t
        unfold ntcCpuPair
        rw [hpick]; rfl
      | false =>
        simp only [Bool.false_eq_true, if_false]
        unfold ntcGpuBlock
        dsimp only
        rw [mapM_eq_none (f := fun l => ntcPick conv x c (0 * x.blockSize + l))
          ⟨0, List.mem_range.2 (by omega), hpick _⟩]
        rfl

/-! ## Examples -/

deriving instance DecidableEq for BlockView

namespace Ex

/-- Random numbers in tenths: 0, 3, 6, 9, 2, ... -/
def ntcDraw : Fresh Nat := fun n => ⟨(List.range n).map fun k => 3 * k % 10, by simp⟩

/-- `u / 10 * n` rounded towards zero. -/
def ntcConv (u : Nat) (n : Int) : Int := (u * n).tdiv 10

theorem ntcConv_ok (u : Nat) (n : Int) (h : 0 ≤ n) : 0 ≤ ntcConv u n :=
  Int.tdiv_nonneg (Int.mul_nonneg (by omega) h) (by omega)

/-- A CPU or GPU with reversed orders everywhere. -/
def ntcEnv (cpu : Bool) : NtcEnv :=
  ⟨cpu, Sched.reversed, fun _ _ => ⟨Sched.reversed, Sched.reversed, Sched.reversed, Sched.reversed,
    Sched.reversed⟩, fun n => ⟨List.replicate n 7, by simp⟩, fun n => ⟨List.replicate n (-3), by simp⟩, 2⟩

theorem subSel_enough (c n : Nat) (h : [5, 0, 0][c]? = some n) :
    EnoughForPairs subCounts (.sub subSel) (.sub subSel) true c n := by
  match c, h with
  | 0, h =>
    refine Or.inr ?_
    simp only [if_true]
    exact ⟨0, 2, by decide, ⟨2, 1, by decide, by decide, by decide⟩, ⟨2, 0, by decide, by decide, by decide⟩⟩
  | 1, h => exact Or.inl (by simpa using h.symm)
  | 2, h => exact Or.inl (by simpa using h.symm)
  | c + 3, h => exact absurd h (by simp)

end Ex

example (cpu : Bool) : ∃ (v : BlockView) (L : Nat → List ((Nat × Nat) × Nat)),
    ntcSample (Ex.ntcEnv cpu) Ex.ntcDraw Ex.ntcConv 3 2 100 Ex.subCounts (.sub Ex.subSel)
      (.sub Ex.subSel) true [5, 0, 0] = some v ∧
    Spec.BlockOk v 3 2 (fun c => storedWaves (L c)) ∧
    v.maxWaveCount ≤ 2 ∧ WavesTight v 3 2 (fun c => storedWaves (L c)) ∧
    ∀ (c n : Nat), [5, 0, 0][c]? = some n → (L c).length = n ∧
      (∀ x ∈ L c, InParent Ex.subCounts (.sub Ex.subSel) c x.1.1 ∧
        InParent Ex.subCounts (.sub Ex.subSel) c x.1.2 ∧ (true = true → x.1.1 ≠ x.1.2)) ∧
      ConflictFree 2 (L c) ∧ WavesNeeded 2 (L c) :=
  C55_sample_partial (Ex.ntcEnv cpu) Ex.ntcDraw Ex.ntcConv_ok (by decide) (by decide) (by decide)
    Ex.subSel_built Ex.subSel_built (fun _ => rfl) (by decide) Ex.subSel_enough

/-- Five pairs of two particles in blocks of two pairs: two waves in the first two blocks and one
wave in the last. -/
example : ntcSample (Ex.ntcEnv false) Ex.ntcDraw Ex.ntcConv 3 2 100 Ex.subCounts (.sub Ex.subSel)
    (.sub Ex.subSel) true [5, 0, 0] = some ⟨5, 2, 3, 2, [2, 7, 7, 2, 7, 7, 1, 7, 7, 7, 7], [5, 0, 0],
      [0, 5, 5], [2, 2, 0, 0, 2, 0, 0, 2, 2, 0, 1, 0, 1, 0, 0, -3, -3]⟩ := by decide +kernel

example : ntcSample (Ex.ntcEnv true) Ex.ntcDraw Ex.ntcConv 3 2 100 Ex.subCounts (.sub Ex.subSel)
    (.sub Ex.subSel) true [5, 0, 0] = some ⟨5, 2, 3, 2, [2, 7, 7, 2, 7, 7, 1, 7, 7, 7, 7], [5, 0, 0],
      [0, 5, 5], [2, 2, 0, 0, 2, 0, 0, 2, 2, 0, 0, 1, 0, 1, 0, -3, -3]⟩ := by decide +kernel

example : ntcSample (Ex.ntcEnv true) Ex.ntcDraw Ex.ntcConv 3 2 100 Ex.subCounts (.sub Ex.subSel)
    (.sub Ex.subSel) true [5, 1, 0] = none :=
  C55_rejects _ _ _ Ex.subSel_built Ex.subSel_built (Or.inr ⟨1, 1, rfl, by
    rintro (h | h)
    · exact absurd h (by decide)
    · simp only [if_true] at h
      obtain ⟨l, -, -, ⟨n, k, h1, h2, -⟩, -⟩ := h
      have : n = 0 := (Option.some.inj h1).symm
      omega⟩)

example : ntcSample (Ex.ntcEnv true) Ex.ntcDraw Ex.ntcConv 3 2 100 Ex.subCounts .whole
    (.sub Ex.subSel) false [1, 0, 0] = none :=
  C55_whole_group_fails (n := 1) (c := 0) _ _ rfl (by decide) (by decide)

/-- Limit: whether the two sub groups are the same is decided by comparing pointers. Two different
sub groups with a common particle, here two copies of the same selection, can give a pair of a
particle with itself. -/
theorem C55_overlapping_self_pair :
    ∃ v, ntcSample (Ex.ntcEnv true) Ex.ntcDraw Ex.ntcConv 3 2 100 Ex.subCounts (.sub Ex.subSel)
      (.sub Ex.subSel) false [1, 0, 0] = some v ∧ v.pairCount = 1 ∧ v.pairList[0]? = v.pairList[1]? ∧
      v.pairList[0]? = some 2 :=
  ⟨⟨1, 2, 3, 1, [1, 7, 7, 7, 7], [1, 0, 0], [0, 1, 1], [2, 2, 0, -3, -3]⟩, by decide +kernel, by decide,
    by decide, by decide⟩

end NP
