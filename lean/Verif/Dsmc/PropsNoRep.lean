import Verif.Dsmc.LemmasNoRep2
import Verif.Dsmc.PropsPartition
import Verif.Group.Examples

/-!
# Property C56: sampling of pairs without replacement
-/

set_option autoImplicit false

namespace NP

open Spec

/-- An element of a concatenation is in one of the parts. -/
theorem getElem?_flatMap_range {β : Type} {n : Nat} {f : Nat → List β} {k : Nat} {x : β}
    (h : ((List.range n).flatMap f)[k]? = some x) :
    ∃ q r, q < n ∧ (f q)[r]? = some x ∧
      k = ((List.range q).map fun i => (f i).length).sum + r := by
  induction n with
  | zero => simp at h
  | succ n ih =>
    rw [List.range_succ, List.flatMap_append] at h
    by_cases hk : k < ((List.range n).flatMap f).length
    · rw [List.getElem?_append_left hk] at h
      obtain ⟨q, r, h1, h2, h3⟩ := ih h
      exact ⟨q, r, by omega, h2, h3⟩
    · rw [List.getElem?_append_right (by omega)] at h
      simp only [List.flatMap_cons, List.flatMap_nil, List.append_nil] at h
      refine ⟨n, _, by omega, h, ?_⟩
      rw [List.length_flatMap] at hk ⊢
      omega

theorem sum_lengths_take {β : Type} {f : Nat → List β} {row : List Nat} {q : Nat}
    (hq : q ≤ row.length) (h : ∀ i, i < row.length → some (f i).length = row[i]?) :
    ((List.range q).map fun i => (f i).length).sum = (row.take q).sum := by
  congr 1
  apply List.ext_getElem?
  intro i
  by_cases hi : i < q
  · rw [List.getElem?_map, List.getElem?_range hi, Option.map_some, h i (by omega),
      List.getElem?_take_of_lt hi]
  · rw [List.getElem?_eq_none (by simp; omega), List.getElem?_eq_none (by simp; omega)]

/-- **C56** For every partition of the particles of a group or sub group into collision cells,
every sampler however often it was used before, all random numbers, all conversions of random
numbers to indices, all device sizes and all schedules: if no request is larger than the number of
disjoint pairs of its collision cell, `sample` succeeds. Every collision cell gets as many pairs as
were requested. The particles are of this collision cell and of the right species, and no particle
occurs twice. The device pair list and the host pair list hold exactly these pairs. -/
theorem C56_sample {α : Type} {ce : CollEnv} {npart : List Nat} (hce : CollEnvOk ce npart)
    (hnc : 0 < npart.length) {ids : List Int} {p : CollPart}
    (hr : PartitionReachable ce.width npart.length ids p) {par : Parent} (hp : Built npart par)
    {ccCounts : List Nat} (hcc : npart.length ≤ ccCounts.length) {sp cc : Nat → Nat → Int}
    (hok : CollLabelsOk npart par ids ccCounts sp cc) {part : CollPart}
    (hpart : p.construct ce npart par ccCounts sp cc = some part)
    {e : Env} (he : EnvOk e) (draw : Fresh α) (conv : α → Int → Int) {lss : Nat} (hlss : 0 < lss)
    (loc : Fresh Nat) {s : NoRep} (hs : NoRepReachable npart.length s) {a b : Int} (ha : a ∈ ids)
    (hb : b ∈ ids) {requests : List (List Nat)} {R : Nat → List Nat}
    (hR : ∀ c, c < npart.length → requests[c]? = some (R c) ∧
      ∃ n, ccCounts[c]? = some n ∧ (R c).length ≤ n)
    (hmax : ∀ (c q k : Nat) (lsA lsB : List Nat), c < npart.length → (R c)[q]? = some k →
      ListsLabelled npart par sp cc c a q lsA → ListsLabelled npart par sp cc c b q lsB →
      (k : Int) ≤ pairsPossible false (a = b) lsA.length lsB.length) :
    ∃ s' : NoRep, ∃ ps : Nat → Nat → List (Nat × Nat),
      s.sample e draw conv lss loc part a b requests = some s' ∧
      NoRepReachable npart.length s' ∧
      (∀ c q k, c < npart.length → (R c)[q]? = some k → (ps c q).length = k) ∧
      (∀ c q, c < npart.length → q < (R c).length →
        (∀ x ∈ ps c q, Labelled npart par sp cc c a q x.1 ∧ Labelled npart par sp cc c b q x.2) ∧
        ((ps c q).map Prod.fst ++ (ps c q).map Prod.snd).Nodup) ∧
      ViewOk s'.getPairList npart.length (fun c => [cellPairs ps (R c).length c]) ∧
      (∀ c, c < npart.length → s'.hostPairs c = some (cellPairs ps (R c).length c)) ∧
      s'.getPairList.pairCount = ((List.range npart.length).map fun c => (R c).sum).sum := by
  have hids : ids ≠ [] := List.ne_nil_of_mem ha
  obtain ⟨L, h1, h2⟩ := built_spec hp
  have hb0 := reach_base hr
  obtain ⟨p', a1, a2, a3⟩ := construct_spec hce hids hb0 h1 h2 hcc (labels_of h1 h2 hok)
  rw [hpart] at a1
  obtain rfl := Option.some.inj a1
  have hb' := reach_base (.construct rfl hr hpart)
  have hsa := (hb'.mem a).2 ha
  have hsb := (hb'.mem b).2 hb
  have hmaxcc : ∀ c, c < npart.length → (R c).length ≤ part.maxCC := by
    intro c hc
    obtain ⟨-, n, hn, hle⟩ := hR c hc
    rw [a3.maxCC]
    have := le_foldl_max0 (l := ccCounts.take npart.length) (c := c) (n := n)
      (by rw [List.getElem?_take_of_lt hc]; exact hn)
    omega
  -- the entries of the collision cells
  have hentry : ∀ (sv : Int) (c q : Nat), sv ∈ part.species → c < npart.length →
      q < (R c).length → ∃ ls, CellEntries part c q (part.species.idxOf sv) ls ∧
        ListsLabelled npart par sp cc c sv q ls ∧ ls.length ≤ part.maxOcc.toNat := by
    intro sv c q hsv hc hq
    have hqm : q < part.maxCC := by have := hmaxcc c hc; omega
    obtain ⟨row, hrow⟩ := exists_row (L := L) (c := c) (by rw [h2.1]; exact hc)
    obtain ⟨ls, b1, b2⟩ := a3.entries sv c q row hsv hrow hqm
    obtain ⟨hnd, -⟩ := h2.2 c row _ hrow (List.getElem?_eq_getElem hc)
    refine ⟨ls, b1, ⟨(b2.nodup_iff).2 (hnd.filter _), ?_⟩, ?_⟩
    · intro l
      rw [b2.mem_iff, List.mem_filter, inParent_iff h1]
      simp only [decide_eq_true_eq]
      constructor
      · rintro ⟨m1, m2⟩; exact ⟨⟨row, hrow, m1⟩, m2⟩
      · rintro ⟨⟨row', hr', m1⟩, m2⟩
        rw [hrow] at hr'
        obtain rfl := Option.some.inj hr'
        exact ⟨m1, m2⟩
    · obtain ⟨used, u1, u2, u3⟩ := a3.maxOcc
      have h5 := u3 c q (part.species.idxOf sv) hc hqm (List.idxOf_lt_length_of_mem hsv)
      rw [b1.1] at h5
      obtain ⟨y, hy, hye⟩ := Option.map_eq_some_iff.1 h5.symm
      have hye' : y = ls.length := by exact_mod_cast hye
      have hmem := List.mem_of_getElem? hy
      obtain ⟨m, m1, m2, m3⟩ := reduceMax_spec (List.ne_nil_of_mem hmem)
      have := m3 _ hmem
      rw [u1, m2, Int.toNat_natCast]
      omega
  choose! E hE1 hE2 hE3 using hentry
  have hab : part.species.idxOf a = part.species.idxOf b ↔ a = b := by
    constructor
    · intro h
      exact (List.idxOf_inj hsa).1 h
    · rintro rfl; rfl
  obtain ⟨s', is, r1, r2, r3, r4, r5, r6, r7, r8, r9, r10⟩ := noRep_sample_spec he draw conv hlss
    loc hnc (noRep_ok hs) (part := part) hb'.cellCount (linearId_eq hsa) (linearId_eq hsb)
    (requests := requests) (R := R) (fun c hc => ⟨(hR c hc).1, hmaxcc c hc⟩)
    (EA := E a) (EB := E b)
    (by
      intro c q k hc hk
      have hq := (List.getElem?_eq_some_iff.1 hk).1
      refine ⟨hE1 a c q hsa hc hq, hE1 b c q hsb hc hq, fun h => by rw [hab.1 h],
        hE3 a c q hsa hc hq, hE3 b c q hsb hc hq, ?_⟩
      have hm := hmax c q k _ _ hc hk (hE2 a c q hsa hc hq) (hE2 b c q hsb hc hq)
      unfold Enough
      by_cases h : a = b
      · rw [if_pos (by simp [h])]
        simp only [h, decide_true, pairsPossible] at hm ⊢
        omega
      · rw [if_neg (by simpa using fun h' => h (hab.1 h'))]
        simp only [h, decide_false, pairsPossible] at hm
        omega)
  -- the pairs of particles
  set f : Nat → Nat → Nat × Nat → Nat × Nat := fun c q y =>
    ((E a c q).getD y.1 0, (E b c q).getD y.2 0) with hf
  have hlen : ∀ c q, c < npart.length → q < (R c).length →
      some ((is c q).map (f c q)).length = (R c)[q]? := by
    intro c q hc hq
    rw [List.length_map]
    exact (r3 c q hc hq).1
  have hget : ∀ c q (y : Nat × Nat), c < npart.length → q < (R c).length → y ∈ is c q →
      (E a c q)[y.1]? = some (f c q y).1 ∧ (E b c q)[y.2]? = some (f c q y).2 := by
    intro c q y hc hq hy
    obtain ⟨y1, y2⟩ := (r3 c q hc hq).2.1 y hy
    simp only [hf, List.getD_eq_getElem?_getD, List.getElem?_eq_getElem y1,
      List.getElem?_eq_getElem y2, Option.getD_some, and_self]
  -- the pairs in memory
  have hmemory : ∀ (c k : Nat) (u v : Int), c < npart.length →
      (cellPairs (fun c q => (is c q).map (f c q)) (R c).length c)[k]? = some (u, v) →
      s'.mem ⟨0, c, 0, k⟩ = some u ∧ s'.mem ⟨0, c, 1, k⟩ = some v := by
    intro c k u v hc hk
    unfold cellPairs at hk
    rw [List.getElem?_map] at hk
    obtain ⟨z, hz, hzs⟩ := Option.map_eq_some_iff.1 hk
    obtain ⟨q, r, hq, hqr, hkr⟩ := getElem?_flatMap_range hz
    rw [List.getElem?_map] at hqr
    obtain ⟨y, hy, rfl⟩ := Option.map_eq_some_iff.1 hqr
    rw [sum_lengths_take (by omega) (fun i hi => hlen c i hc hi)] at hkr
    obtain ⟨m1, m2⟩ := (r3 c q hc hq).2.2.2.2.2 r y.1 y.2 hy
    obtain ⟨g1, g2⟩ := hget c q y hc hq (List.mem_of_getElem? hy)
    rw [g1, Option.map_some] at m1
    rw [g2, Option.map_some] at m2
    simp only [storedPair, Prod.mk.injEq] at hzs
    rw [hkr, m1, m2, ← hzs.1, ← hzs.2]
    exact ⟨rfl, rfl⟩
  have hcl : ∀ c, c < npart.length →
      (cellPairs (fun c q => (is c q).map (f c q)) (R c).length c).length = (R c).sum := by
    intro c hc
    unfold cellPairs
    rw [List.length_map, List.length_flatMap,
      sum_lengths_take (Nat.le_refl _) (fun i hi => hlen c i hc hi), List.take_length]
  have hsum : s'.pairCounts = (List.range npart.length).map fun c => (R c).sum := by
    apply List.ext_getElem?
    intro c
    by_cases hc : c < npart.length
    · rw [r5 c hc, List.getElem?_map, List.getElem?_range hc]; rfl
    · rw [List.getElem?_eq_none (by omega), List.getElem?_eq_none (by simp; omega)]
  have htotal : Spec.numPairs npart.length
      (fun c => [cellPairs (fun c q => (is c q).map (f c q)) (R c).length c]) =
      s'.pairCounts.sum := by
    unfold Spec.numPairs
    rw [List.length_flatMap, hsum]
    congr 1
    apply List.map_congr_left
    intro c hc
    simp only [List.flatten_cons, List.flatten_nil, List.append_nil]
    exact hcl c (List.mem_range.1 hc)
  refine ⟨s', fun c q => (is c q).map (f c q), r1, .sample he hs r1, ?_, ?_, ?_, ?_, ?_⟩
  · intro c q k hc hk
    have := hlen c q hc (List.getElem?_eq_some_iff.1 hk).1
    rw [hk] at this
    exact Option.some.inj this
  · intro c q hc hq
    obtain ⟨-, q2, q3, q4, q5, -⟩ := r3 c q hc hq
    have hA := hE2 a c q hsa hc hq
    have hB := hE2 b c q hsb hc hq
    have hlab : ∀ y ∈ is c q, Labelled npart par sp cc c a q (f c q y).1 ∧
        Labelled npart par sp cc c b q (f c q y).2 := by
      intro y hy
      obtain ⟨g1, g2⟩ := hget c q y hc hq hy
      exact ⟨(hA.2 _).1 (List.mem_of_getElem? g1), (hB.2 _).1 (List.mem_of_getElem? g2)⟩
    have inj : ∀ (ls : List Nat), ls.Nodup → ∀ l : List Nat, (∀ i ∈ l, i < ls.length) → l.Nodup →
        (l.map fun i => ls.getD i 0).Nodup := by
      intro ls hls l hl hnd
      refine hnd.map_on ?_
      intro i hi j hj h
      rw [List.getD_eq_getElem?_getD, List.getD_eq_getElem?_getD,
        List.getElem?_eq_getElem (hl i hi), List.getElem?_eq_getElem (hl j hj)] at h
      exact (hls.getElem_inj_iff).1 h
    have m1 : ((is c q).map (f c q)).map Prod.fst = ((is c q).map Prod.fst).map
        fun i => (E a c q).getD i 0 := by
      rw [List.map_map, List.map_map]; rfl
    have m2 : ((is c q).map (f c q)).map Prod.snd = ((is c q).map Prod.snd).map
        fun i => (E b c q).getD i 0 := by
      rw [List.map_map, List.map_map]; rfl
    refine ⟨?_, ?_⟩
    · intro x hx
      obtain ⟨y, hy, rfl⟩ := List.mem_map.1 hx
      exact hlab y hy
    · by_cases h : a = b
      · dsimp only
        rw [m1, m2, ← h, ← List.map_append]
        refine inj _ hA.1 _ ?_ (q5 (hab.2 h))
        intro i hi
        rcases List.mem_append.1 hi with hi | hi
        · obtain ⟨y, hy, rfl⟩ := List.mem_map.1 hi
          exact (q2 y hy).1
        · obtain ⟨y, hy, rfl⟩ := List.mem_map.1 hi
          have := (q2 y hy).2
          rwa [← h] at this
      · rw [List.nodup_append]
        refine ⟨?_, ?_, ?_⟩
        · dsimp only
          rw [m1]
          refine inj _ hA.1 _ ?_ q3
          intro i hi
          obtain ⟨y, hy, rfl⟩ := List.mem_map.1 hi
          exact (q2 y hy).1
        · dsimp only
          rw [m2]
          refine inj _ hB.1 _ ?_ q4
          intro i hi
          obtain ⟨y, hy, rfl⟩ := List.mem_map.1 hi
          exact (q2 y hy).2
        · intro i hi j hj hij
          obtain ⟨x', hx', rfl⟩ := List.mem_map.1 hi
          obtain ⟨y', hy', rfl⟩ := List.mem_map.1 hj
          obtain ⟨x, hx, rfl⟩ := List.mem_map.1 hx'
          obtain ⟨y, hy, rfl⟩ := List.mem_map.1 hy'
          have h3 := (hlab x hx).1.2.1
          have h4 := (hlab y hy).2.2.1
          rw [hij, h4] at h3
          exact h h3.symm
  · have hwave : ∀ (c w : Nat) (qs : List (Int × Int)),
        ([cellPairs (fun c q => (is c q).map (f c q)) (R c).length c])[w]? = some qs →
        w = 0 ∧ qs = cellPairs (fun c q => (is c q).map (f c q)) (R c).length c := by
      intro c w qs h
      match w with
      | 0 => exact ⟨rfl, (Option.some.inj h).symm⟩
      | w + 1 => simp at h
    refine ⟨r2.cells, ?_, ?_, ?_, ?_, ?_, ?_⟩
    · intro c hc
      simp [NoRep.getPairList, r2.waveCount, hc]
    · intro c w qs hc h
      obtain ⟨rfl, rfl⟩ := hwave c w qs h
      rw [hcl c hc]
      simpa [NoRep.getPairList] using r5 c hc
    · intro c w qs k u v hc h hk
      obtain ⟨rfl, rfl⟩ := hwave c w qs h
      refine ⟨0, by simp [NoRep.getPairList, r2.waveOffsets, hc], ?_⟩
      rw [Nat.zero_add]
      show s'.mem ⟨s'.dat.sym, c, 0, k⟩ = _ ∧ s'.mem ⟨s'.dat.sym, c, 1, k⟩ = _
      rw [r2.sym]
      exact hmemory c k u v hc hk
    · refine ⟨fun c _ k => (s'.pairCounts.take c).sum + k, ?_, ?_⟩
      · intro c w qs k hc h hk
        obtain ⟨rfl, rfl⟩ := hwave c w qs h
        rw [hcl c hc] at hk
        refine ⟨((s'.pairCounts.take c).sum : Nat), ?_, by push_cast; rfl, ?_⟩
        · simp only [NoRep.getPairList, Nat.zero_mul, Nat.zero_add, List.getElem?_map, r7 c hc]
          rfl
        · rw [htotal]
          dsimp only
          have e1 := takeSum_succ (r5 c hc)
          have e2 := takeSum_le s'.pairCounts (c + 1)
          omega
      · intro c w qs k c' w' qs' k' hc h hk hc' h' hk' heq
        obtain ⟨rfl, rfl⟩ := hwave c w qs h
        obtain ⟨rfl, rfl⟩ := hwave c' w' qs' h'
        rw [hcl c hc] at hk
        rw [hcl c' hc'] at hk'
        dsimp only at heq
        have e1 := takeSum_succ (r5 c hc)
        have e2 := takeSum_succ (r5 c' hc')
        rcases Nat.lt_trichotomy c c' with hlt | rfl | hlt
        · have := takeSum_mono s'.pairCounts (show c + 1 ≤ c' from hlt); omega
        · exact ⟨rfl, rfl, by omega⟩
        · have := takeSum_mono s'.pairCounts (show c' + 1 ≤ c from hlt); omega
    · intro c hc _
      exact Int.le_refl _
    · intro c w qs hc h hne
      obtain ⟨rfl, rfl⟩ := hwave c w qs h
      have hpos := List.length_pos_of_ne_nil hne
      rw [hcl c hc] at hpos
      show 0 < s'.maxPairCount
      rw [r9]
      have hmem := List.mem_of_getElem? (r5 c hc)
      obtain ⟨m, m1, m2, m3⟩ := reduceMax_spec (List.ne_nil_of_mem hmem)
      have := m3 _ hmem
      rw [m2]
      omega
  · intro c hc
    obtain ⟨nr, hnr⟩ : ∃ nr, s'.dat.nrow[c]? = some nr :=
      ⟨_, List.getElem?_eq_getElem (by rw [r2.mem.nrow_len]; exact hc)⟩
    have hle := r10 c nr hc hnr
    unfold NoRep.hostPairs
    simp only [rd]
    rw [r6, r5 c hc, Option.bind_some, hnr, Option.bind_some]
    have hm : ∀ k ∈ List.range (R c).sum, (if k < nr then
        (s'.mem ⟨s'.dat.sym, c, 0, k⟩).bind fun a =>
        (s'.mem ⟨s'.dat.sym, c, 1, k⟩).bind fun b => some (a, b)
        else none) = some ((cellPairs (fun c q => (is c q).map (f c q)) (R c).length c).getD k
          (0, 0)) := by
      intro k hk
      have hk := List.mem_range.1 hk
      have hk2 : k < (cellPairs (fun c q => (is c q).map (f c q)) (R c).length c).length := by
        rw [hcl c hc]; exact hk
      obtain ⟨m1, m2⟩ := hmemory c k _ _ hc (List.getElem?_eq_getElem hk2)
      rw [if_pos (by omega), r2.sym, m1, Option.bind_some, m2, Option.bind_some,
        List.getD_eq_getElem?_getD, List.getElem?_eq_getElem hk2]
      rfl
    rw [mapM_of_forall hm]
    congr 1
    apply List.ext_getElem?
    intro k
    by_cases hk : k < (R c).sum
    · rw [List.getElem?_map, List.getElem?_range hk, Option.map_some,
        List.getD_eq_getElem?_getD, List.getElem?_eq_getElem (by rw [hcl c hc]; exact hk)]
      rfl
    · rw [List.getElem?_eq_none (by simp; omega),
        List.getElem?_eq_none (by rw [hcl c hc]; omega)]
  · show (s'.numPairs : Int) = _
    rw [r8, hsum]

/-- **C56** `sample` rejects a species that was not registered, a partition for another number of
cells, and a list of requests that is longer than the largest number of collision cells. -/
theorem C56_rejects {α : Type} {n ncell ncell' : Nat} {ids : List Int} {part : CollPart}
    (hr : PartitionReachable n ncell' ids part) {s : NoRep} (hs : NoRepReachable ncell s) (e : Env)
    (draw : Fresh α) (conv : α → Int → Int) (lss : Nat) (loc : Fresh Nat) (a b : Int)
    (requests : List (List Nat))
    (h : a ∉ ids ∨ b ∉ ids ∨ ncell ≠ ncell' ∨
      ∃ (c : Nat) (row : List Nat), c < ncell ∧ requests[c]? = some row ∧ part.maxCC < row.length) :
    s.sample e draw conv lss loc part a b requests = none := by
  have hb := reach_base hr
  have hno : ∀ s, s ∉ ids → part.linearId s = none :=
    fun s hs => if_neg fun h => hs ((hb.mem s).1 h)
  have hcells := (noRep_ok hs).cells
  cases hrun : s.sample e draw conv lss loc part a b requests with
  | none => rfl
  | some s' =>
    exfalso
    unfold NoRep.sample at hrun
    obtain ⟨la, h1, hrun⟩ := Option.bind_eq_some_iff.1 hrun
    obtain ⟨lb, h2, hrun⟩ := Option.bind_eq_some_iff.1 hrun
    rcases h with h | h | h | ⟨c, row, hc, hrow, hlen⟩
    · rw [hno a h] at h1; exact absurd h1 (by simp)
    · rw [hno b h] at h2; exact absurd h2 (by simp)
    · rw [if_neg (by rw [hcells, hb.cellCount]; exact h)] at hrun
      exact absurd hrun (by simp)
    · by_cases hcc : s.cellCount = part.cellCount
      · rw [if_pos hcc] at hrun
        dsimp only at hrun
        obtain ⟨t, h3, -⟩ := Option.bind_eq_some_iff.1 hrun
        have hno2 : ∀ t : List Nat × List Nat, copyRequests part.maxCC requests c t = none := by
          intro t
          unfold copyRequests
          simp only [rd]
          rw [hrow, Option.bind_some, if_neg (by omega)]
        unfold forLoop at h3
        rw [runItems_none (i := c) (by
          rw [List.mem_range'_1]; rw [hcells]; omega) hno2] at h3
        exact absurd h3 (by simp)
      · rw [if_neg hcc] at hrun
        exact absurd hrun (by simp)

/-! ## Concrete cases -/

namespace Ex

/-- Random numbers are natural numbers and the index is the remainder. -/
def noRepConv (u : Nat) (n : Int) : Int := (u : Int) % n

/-- The random numbers 5, 6, 7, ... -/
def noRepDraw : Fresh Nat := fun n => ⟨List.range' 5 n, by simp⟩

def noRepLoc : Fresh Nat := fun n => ⟨List.replicate n 77, by simp⟩

-- The hypotheses of the theorem hold: species 7 with itself, one pair in collision cell 0 of cell
-- 0. The requests of the other collision cells are 0.
example : ∃ p part s' ps, collPartCreate collEnv 2 [7, -3, 7] = some p ∧
    p.construct collEnv collCounts .whole [2, 1] collSp collCc = some part ∧
    (NoRep.new env 2).sample env noRepDraw noRepConv 2 noRepLoc part 7 7 [[1, 0], [0]] = some s' ∧
    s'.getPairList.pairCount = 1 ∧
    ViewOk s'.getPairList 2 (fun c => [cellPairs ps ([[1, 0], [0]].getD c []).length c]) := by
  have he := collEnv_ok collCounts (by decide)
  obtain ⟨p, h1, h2, -⟩ := C57_create he (by decide) [7, -3, 7]
  obtain ⟨part, a1, -⟩ := C57_entries he (by decide) h2 .whole (by decide) coll_labels
  obtain ⟨s', ps, b1, -, -, -, b2, -, b3⟩ := C56_sample he (by decide) h2 .whole (by decide)
    coll_labels a1 env_ok noRepDraw noRepConv (lss := 2) (by decide) noRepLoc (.new env) (a := 7)
    (b := 7) (by decide) (by decide) (requests := [[1, 0], [0]])
    (R := fun c => [[1, 0], [0]].getD c [])
    (by
      intro c hc
      match c, hc with
      | 0, _ => exact ⟨rfl, 2, rfl, by decide⟩
      | 1, _ => exact ⟨rfl, 1, rfl, by decide⟩)
    (by
      intro c q k lsA lsB hc hk hA hB
      match c, q, hc, hk with
      | 0, 0, _, hk =>
        obtain rfl := Option.some.inj hk
        have hin : ∀ l ∈ [0, 3], l ∈ lsA := by
          intro l hl
          refine (hA.2 l).2 ⟨⟨5, rfl, ?_⟩, ?_⟩ <;>
          · simp only [List.mem_cons, List.not_mem_nil, or_false] at hl
            rcases hl with rfl | rfl <;> decide
        have hsub : [0, 3].length ≤ lsA.length :=
          ((List.subperm_of_subset (by decide) hin)).length_le
        simp only [decide_true, pairsPossible]
        simp at hsub
        omega
      | 0, 1, _, hk =>
        obtain rfl := Option.some.inj hk
        simp only [decide_true, pairsPossible]; omega
      | 1, 0, _, hk =>
        obtain rfl := Option.some.inj hk
        simp only [decide_true, pairsPossible]; omega)
  exact ⟨p, part, s', ps, h1, a1, b1, by rw [b3]; rfl, b2⟩

-- Cell 0 holds the pair of the layers 0 and 3.
example : (collResult.bind fun part =>
    ((NoRep.new env 2).sample env noRepDraw noRepConv 2 noRepLoc part 7 7 [[1, 0], [0]]).bind
      fun s => s.hostPairs 0) = some [(0, 3)] := by decide +kernel

-- Species 7 with species -3: collision cell 1 of cell 0 and collision cell 0 of cell 1.
example : (collResult.bind fun part =>
    ((NoRep.new env 2).sample env noRepDraw noRepConv 2 noRepLoc part 7 (-3) [[0, 1], [1]]).bind
      fun s => [0, 1].mapM s.hostPairs) = some [[(2, 1)], [(1, 0)]] := by decide +kernel

end Ex

/-- **C56, limits of the property** The requests are not checked: one pair of a species that has
one particle in the collision cell is accepted by the checks on the host, and the sampling kernel
reads an index at position -1. -/
theorem C56_requests_not_checked :
    ((collPartCreate Ex.collEnv 1 [7]).bind fun p =>
      p.construct Ex.collEnv [1] .whole [1] (fun _ _ => 7) (fun _ _ => 0)).isSome = true ∧
    ((collPartCreate Ex.collEnv 1 [7]).bind fun p =>
      (p.construct Ex.collEnv [1] .whole [1] (fun _ _ => 7) (fun _ _ => 0)).bind fun part =>
      (NoRep.new Ex.env 1).sample Ex.env Ex.noRepDraw Ex.noRepConv 2 Ex.noRepLoc part 7 7
        [[1]]).isNone = true ∧
    (∀ u : Nat, sampleIndex Ex.noRepConv u 0 [0] = none) := by
  refine ⟨by decide +kernel, by decide +kernel, ?_⟩
  intro u
  simp [sampleIndex, index]

end NP
