import Verif.Move.LemmasIdentify
import Mathlib.Tactic.Set

/-!
# C26: identification of the particles that leave a rank
-/

set_option autoImplicit false

namespace NP

open Spec

theorem sendCount_eq_keyCount {size own comp : Nat} {g : Group} {items : List (Nat × Nat)}
    (hp : items.Perm (particlesOf g)) (r : Nat) :
    keyCount (fun p => destination size own comp g p.1 p.2) items r =
      sendCount size own comp g r := by
  rw [keyCount_perm hp]
  unfold keyCount sendCount
  congr 1
  apply List.filter_congr
  intro p _
  by_cases h : destination size own comp g p.1 p.2 = some r <;> simp [h]

theorem count_of_getElem? {g : Group} {c n : Nat} (h : g.hNpart[c]? = some n) :
    count g c = n := by
  unfold count; rw [List.getD_eq_getElem?_getD, h]; rfl

theorem isParticle_iff_lt {g : Group} (h : g.hNpart.length = g.ncell) {c k : Nat} :
    IsParticle g.hNpart c k ↔ c < g.ncell ∧ k < count g c := by
  constructor
  · rintro ⟨n, hn, hk⟩
    rw [count_of_getElem? hn]
    exact ⟨by rw [← h]; exact (List.getElem?_eq_some_iff.1 hn).1, hk⟩
  · rintro ⟨hc, hk⟩
    obtain ⟨n, hn⟩ := exists_at h hc
    rw [count_of_getElem? hn] at hk
    exact ⟨n, hn, hk⟩

theorem length_particlesOf {g : Group} (h : g.hNpart.length = g.ncell) :
    (particlesOf g).length = g.hNpart.sum := by
  unfold particlesOf
  rw [List.length_flatMap]
  congr 1
  apply List.ext_getElem?
  intro i
  rw [List.getElem?_map]
  by_cases hi : i < g.ncell
  · obtain ⟨n, hn⟩ := exists_at h hi
    rw [List.getElem?_range hi, Option.map_some, List.length_map, List.length_range,
      count_of_getElem? hn, hn]
  · rw [List.getElem?_eq_none (by simpa using hi), List.getElem?_eq_none (by omega)]
    rfl

theorem identify_visits {e : Env} (hE : EnvOk e) {g : Group} (h : Consistent g)
    (hs : SmallCounts g) : ∃ rank vis, g.dat? g.rankSym = some rank ∧
      submitVisits e.loop rank.hNpart false rank.hNpart.sum none none = some vis ∧
      vis.Perm (particlesOf g) ∧ rank.hNpart.sum = (particlesOf g).length := by
  obtain ⟨rank, hr, hr1, hr2⟩ := dat?_of_mem_syms h.rank
  have hN : rank.hNpart = g.hNpart := (h.dats rank hr).host
  have hlaunch : LaunchOk e.loop g.hNpart false g.hNpart.sum :=
    ⟨hE.localSize_pos, hE.localSize_int, hE.nbin_pos, hs, by simp⟩
  obtain ⟨vis, h1, h2, h3⟩ := C07_each_particle_once hlaunch (cs := none) (ce := none) trivial
  refine ⟨rank, vis, hr1, by rw [hN]; exact h1, ?_, by rw [hN, length_particlesOf h.len]⟩
  rw [List.perm_ext_iff_of_nodup h2 (nodup_particlesOf g)]
  rintro ⟨c, k⟩
  rw [h3, mem_particlesOf, ← isParticle_iff_lt h.len]
  simp [CellRequested]

/-- `identify` finds exactly the particles that have to be sent, with the right counts and
packing layers, for every order of the work items. For component 0 it also gives the ranks to
send to, for another component it leaves the rank map as it was. -/
theorem C26_identify {e : Env} (hE : EnvOk e) {g : Group} (h : Consistent g)
    (hs : SmallCounts g) {size own comp : Nat} (hsize : 0 < size)
    (hcomp : ∃ d ∈ g.dats, d.sym = g.rankSym ∧ comp < d.ncomp) {map0 : List Nat}
    (hmap : map0.length = size) :
    ∃ d sel, identify e size own g comp map0 = some d ∧ Identified size own comp g d sel ∧
      (comp = 0 → RanksListed size own comp g d) ∧
      (comp ≠ 0 → d.numRanks = 0 ∧ d.rankMap = map0) := by
  obtain ⟨rank, vis, hr, hv, hvp, htot⟩ := identify_visits hE h hs
  obtain ⟨dr, hdr, hdr1, hdr2⟩ := hcomp
  let dst : Nat × Nat → Option Nat := fun p => destination size own comp g p.1 p.2
  have hval : ∀ p ∈ particlesOf g, departRank size own g.mem g.rankSym comp p = some (dst p) := by
    rintro ⟨c, k⟩ hp
    obtain ⟨hc, hk⟩ := mem_particlesOf.1 hp
    obtain ⟨n, hn, hk⟩ := (isParticle_iff_lt h.len).2 ⟨hc, hk⟩
    obtain ⟨v, hv⟩ := Option.isSome_iff_exists.1 (h.datsOk.isSome (sj := (g.rankSym, comp))
      (mem_flatComps.2 ⟨dr, hdr, hdr1, hdr2⟩) hn hk)
    exact departRank_eq hv
  have hdlt : ∀ p r, dst p = some r → r < size := fun p r hp => (destination_eq_some.1 hp).1
  have hndp := nodup_particlesOf g
  -- packing layers
  set items1 := (e.sched 30).order vis with hi1
  have hp1 : items1.Perm (particlesOf g) := ((e.sched 30).perm vis).trans hvp
  have hnd1 : items1.Nodup := hp1.nodup_iff.2 hndp
  obtain ⟨layer, ha1, ha2⟩ := fetch_record (key := dst) hnd1 (n := size)
    (fun p _ r hr => hdlt p r hr) (fun _ => 0)
  have hcount : ∀ r, keyCount dst items1 r = sendCount size own comp g r :=
    fun r => sendCount_eq_keyCount hp1 r
  have hpass1 : runItems (departLayerStep size own g.mem g.rankSym comp) items1
      (List.replicate size 0, fun _ => 0) =
      some (addCounts dst items1 (List.replicate size 0), layer) := by
    rw [← ha1]
    apply runItems_congr
    intro p hp s
    unfold departLayerStep fetchStep
    rw [hval p (hp1.subset hp), Option.bind_some]
    cases hd : dst p with
    | none => rfl
    | some r => rfl
  have hlay : ∀ p ∈ particlesOf g, ∀ r, dst p = some r → layer p = NP.rank dst items1 p :=
    fun p hp r hr => ha2 p (hp1.symm.subset hp) r hr
  have hlaylt : ∀ p ∈ particlesOf g, ∀ r, dst p = some r → layer p < sendCount size own comp g r := by
    intro p hp r hr
    rw [hlay p hp r hr, ← hcount]
    exact rank_lt (hp1.symm.subset hp) hr
  have hlayinj : ∀ p ∈ particlesOf g, ∀ q ∈ particlesOf g, ∀ r, dst p = some r → dst q = some r →
      layer p = layer q → p = q := by
    intro p hp q hq r hr hr' he
    rw [hlay p hp r hr, hlay q hq r hr'] at he
    exact rank_inj (hp1.symm.subset hp) hr hr' he
  have hlaysurj : ∀ r l, l < sendCount size own comp g r → ∃ p ∈ particlesOf g, dst p = some r ∧
      layer p = l := by
    intro r l hl
    rw [← hcount] at hl
    obtain ⟨p, hp, h1, h2⟩ := rank_surj hnd1 hl
    exact ⟨p, hp1.subset hp, h1, by rw [hlay p (hp1.subset hp) r h1, h2]⟩
  -- list of particles
  set items2 := (e.sched 31).order vis with hi2
  have hp2 : items2.Perm (particlesOf g) := ((e.sched 31).perm vis).trans hvp
  have hnd2 : items2.Nodup := hp2.nodup_iff.2 hndp
  let key2 : Nat × Nat → Option Nat := fun p => (dst p).map fun _ => 0
  have hkey2 : ∀ p, key2 p = some 0 ↔ ∃ r, dst p = some r := by
    intro p; simp only [key2]; cases dst p <;> simp
  have hle2 : keyCount key2 items2 0 ≤ rank.hNpart.sum := by
    rw [htot, ← hp2.length_eq]; exact List.length_filter_le _ _
  obtain ⟨cells, hb1, hb2, hb3⟩ := put_list hnd2 (key := key2) (fun p => (p.1 : Int))
    (x := (e.freshI 30 rank.hNpart.sum).1) (by rw [(e.freshI 30 rank.hNpart.sum).2]; exact hle2)
  obtain ⟨src, hc1, hc2, hc3⟩ := put_list hnd2 (key := key2) (fun p => (p.2 : Int))
    (x := (e.freshI 31 rank.hNpart.sum).1) (by rw [(e.freshI 31 rank.hNpart.sum).2]; exact hle2)
  obtain ⟨dstl, hd1, hd2, hd3⟩ := put_list hnd2 (key := key2) layer
    (x := (e.freshN 30 rank.hNpart.sum).1) (by rw [(e.freshN 30 rank.hNpart.sum).2]; exact hle2)
  have hpass2 : runItems (departListStep size own g.mem g.rankSym comp layer) items2
      ([0], (e.freshI 30 rank.hNpart.sum).1, (e.freshI 31 rank.hNpart.sum).1,
        (e.freshN 30 rank.hNpart.sum).1) =
      some (addCounts key2 items2 [0], cells, src, dstl) := by
    have hf := runItems_fetch (key := key2) (store := fun p off (s : List Int × List Int × List Nat) =>
        (st s.1 off (p.1 : Int)).bind fun c => (st s.2.1 off (p.2 : Int)).bind fun l =>
        (st s.2.2 off (layer p)).bind fun d => some (c, l, d))
      (skip := fun _ s => some s) hnd2 (ctr := [0]) (by
        intro p hp c hk
        simp only [key2, Option.map_eq_some_iff] at hk
        obtain ⟨_, _, rfl⟩ := hk
        simp) ((e.freshI 30 rank.hNpart.sum).1, (e.freshI 31 rank.hNpart.sum).1,
        (e.freshN 30 rank.hNpart.sum).1)
    rw [runItems_congr (step' := fetchStep key2 (fun p off (s : List Int × List Int × List Nat) =>
        (st s.1 off (p.1 : Int)).bind fun c => (st s.2.1 off (p.2 : Int)).bind fun l =>
        (st s.2.2 off (layer p)).bind fun d => some (c, l, d)) (fun _ s => some s)) ?_]
    · refine hf.trans ?_
      rw [runItems_congr (step' := fun p (s : List Int × List Int × List Nat) =>
        (putStep (fun p => if key2 p = some 0 then some (NP.rank key2 items2 p) else none)
          (fun p => (p.1 : Int)) p s.1).bind fun x =>
        ((putStep (fun p => if key2 p = some 0 then some (NP.rank key2 items2 p) else none)
          (fun p => (p.2 : Int)) p s.2.1).bind fun y =>
        (putStep (fun p => if key2 p = some 0 then some (NP.rank key2 items2 p) else none)
          layer p s.2.2).bind fun z => some (y, z)).bind fun yz => some (x, yz)) ?_]
      · have hcd := runItems_prod (step := fun p (s : List Int × List Nat) =>
          (putStep (fun p => if key2 p = some 0 then some (NP.rank key2 items2 p) else none)
            (fun p => (p.2 : Int)) p s.1).bind fun y =>
          (putStep (fun p => if key2 p = some 0 then some (NP.rank key2 items2 p) else none)
            layer p s.2).bind fun z => some (y, z)) (fun p _ s t => rfl) hc1 hd1
        rw [runItems_prod (fun p _ s t => rfl) hb1 hcd]
        rfl
      · intro p hp s
        cases hdp : dst p with
        | none =>
          have : key2 p = none := by simp [key2, hdp]
          simp [this, putStep]
        | some r =>
          have : key2 p = some 0 := by simp [key2, hdp]
          simp only [this, putStep, if_true, List.getD_cons_zero, Nat.zero_add, Option.bind_assoc,
            Option.bind_some]
    · intro p hp s
      unfold departListStep fetchStep
      rw [hval p (hp2.subset hp), Option.bind_some]
      cases hdp : dst p with
      | none =>
        have : key2 p = none := by simp [key2, hdp]
        simp only [this]; rfl
      | some r =>
        have : key2 p = some 0 := by simp [key2, hdp]
        simp only [this, Option.bind_assoc, Option.bind_some]
  -- list of ranks
  set items3 := (e.sched 32).order vis with hi3
  have hp3 : items3.Perm (particlesOf g) := ((e.sched 32).perm vis).trans hvp
  have hnd3 : items3.Nodup := hp3.nodup_iff.2 hndp
  let key3 : Nat × Nat → Option Nat := fun p =>
    if (dst p).isSome ∧ layer p = 0 ∧ comp = 0 then some 0 else none
  have hkey3 : ∀ p, key3 p = some 0 ↔ (dst p).isSome ∧ layer p = 0 ∧ comp = 0 := by
    intro p; simp only [key3]; split <;> simp_all
  let sel3 := items3.filter fun p => key3 p = some 0
  have hsel3 : ∀ p, p ∈ sel3 ↔ p ∈ particlesOf g ∧ (dst p).isSome ∧ layer p = 0 ∧ comp = 0 := by
    intro p
    simp only [sel3, List.mem_filter, decide_eq_true_eq, hkey3, hp3.mem_iff]
  have hnds3 : (sel3.map fun p => (dst p).getD 0).Nodup := by
    refine (List.nodup_map_iff_inj_on (hnd3.filter _)).2 ?_
    intro p hp q hq he
    obtain ⟨h1, h2, h3, -⟩ := (hsel3 p).1 hp
    obtain ⟨h1', h2', h3', -⟩ := (hsel3 q).1 hq
    obtain ⟨r, hr⟩ := Option.isSome_iff_exists.1 h2
    obtain ⟨r', hr'⟩ := Option.isSome_iff_exists.1 h2'
    rw [hr, hr'] at he
    simp only [Option.getD_some] at he
    subst he
    exact hlayinj p h1 q h1' r hr hr' (by rw [h3, h3'])
  have hle3 : keyCount key3 items3 0 ≤ size := by
    have h1 : (sel3.map fun p => (dst p).getD 0) ⊆ List.range size := by
      intro x hx
      obtain ⟨p, hp, rfl⟩ := List.mem_map.1 hx
      obtain ⟨r, hr⟩ := Option.isSome_iff_exists.1 ((hsel3 p).1 hp).2.1
      rw [hr, List.mem_range]; exact hdlt p r hr
    have h2 := (hnds3.subperm h1).length_le
    rw [List.length_map, List.length_range] at h2
    exact h2
  obtain ⟨sr, he1, he2, he3⟩ := put_list hnd3 (key := key3) (fun p => (dst p).getD 0)
    (x := List.replicate size 0) (by simpa using hle3)
  obtain ⟨mp, hm1, hm2, hm3, hm4⟩ := runItems_putStep (items := items3) (m := map0)
    (fun p => if key3 p = some 0 then dst p else none) (fun p => NP.rank key3 items3 p)
    (by
      intro p hp q hq r h1 h2
      by_cases hpk : key3 p = some 0
      · by_cases hqk : key3 q = some 0
        · rw [if_pos hpk] at h1
          rw [if_pos hqk] at h2
          have := hlayinj p (hp3.subset hp) q (hp3.subset hq) r h1 h2
            (by rw [((hkey3 p).1 hpk).2.1, ((hkey3 q).1 hqk).2.1])
          rw [this]
        · rw [if_neg hqk] at h2; cases h2
      · rw [if_neg hpk] at h1; cases h1)
    (by
      intro p hp r h1
      by_cases hpk : key3 p = some 0
      · rw [if_pos hpk] at h1
        rw [hmap]; exact hdlt p r h1
      · rw [if_neg hpk] at h1; cases h1)
  have hpass3 : runItems (departRankStep size own g.mem g.rankSym comp layer) items3
      ([0], List.replicate size 0, map0) = some (addCounts key3 items3 [0], sr, mp) := by
    have hf := runItems_fetch (key := key3) (store := fun p off (s : List Nat × List Nat) =>
        (st s.1 off ((dst p).getD 0)).bind fun c => (st s.2 ((dst p).getD 0) off).bind fun l =>
          some (c, l))
      (skip := fun _ s => some s) hnd3 (ctr := [0]) (by
        intro p hp c hk
        by_cases hpk : (dst p).isSome ∧ layer p = 0 ∧ comp = 0
        · simp only [key3, if_pos hpk, Option.some.injEq] at hk
          simp [← hk]
        · simp only [key3, if_neg hpk] at hk; cases hk) (List.replicate size 0, map0)
    rw [runItems_congr (step' := fetchStep key3 (fun p off (s : List Nat × List Nat) =>
        (st s.1 off ((dst p).getD 0)).bind fun c => (st s.2 ((dst p).getD 0) off).bind fun l =>
          some (c, l)) (fun _ s => some s)) ?_]
    · refine hf.trans ?_
      rw [runItems_congr (step' := fun p (s : List Nat × List Nat) =>
        (putStep (fun p => if key3 p = some 0 then some (NP.rank key3 items3 p) else none)
          (fun p => (dst p).getD 0) p s.1).bind fun x =>
        (putStep (fun p => if key3 p = some 0 then dst p else none)
          (fun p => NP.rank key3 items3 p) p s.2).bind fun y => some (x, y)) ?_]
      · rw [runItems_prod (fun p _ s t => rfl) he1 hm1]
        rfl
      · intro p hp s
        by_cases hpk : key3 p = some 0
        · obtain ⟨r, hr⟩ := Option.isSome_iff_exists.1 ((hkey3 p).1 hpk).1
          simp only [hpk, putStep, if_true, List.getD_cons_zero, Nat.zero_add, hr, Option.getD_some]
        · have : key3 p = none := by
            simp only [key3]; rw [if_neg (fun h => hpk ((hkey3 p).2 h))]
          simp [this, putStep]
    · intro p hp s
      unfold departRankStep fetchStep
      rw [hval p (hp3.subset hp), Option.bind_some]
      cases hdp : dst p with
      | none =>
        have : key3 p = none := by simp [key3, hdp]
        simp only [this]; rfl
      | some r =>
        by_cases hl : layer p = 0 ∧ comp = 0
        · have : key3 p = some 0 := by simp [key3, hdp, hl]
          simp only [this, if_pos hl, Option.bind_assoc, Option.bind_some, hdp, Option.getD_some]
        · have : key3 p = none := by
            simp only [key3]; rw [if_neg (fun h => hl h.2)]
          simp only [this, if_neg hl]; rfl
  let sel := items2.filter fun p => key2 p = some 0
  have hsel : ∀ c k, (c, k) ∈ sel ↔ c < g.ncell ∧ k < count g c ∧
      ∃ r, destination size own comp g c k = some r := by
    intro c k
    simp only [sel, List.mem_filter, decide_eq_true_eq, hkey2, hp2.mem_iff, mem_particlesOf, dst,
      and_assoc]
  have hgetd : ∀ (i : Nat) (p : Nat × Nat), sel[i]? = some p → dstl[i]? = some (layer p) := by
    intro i p hi
    have hlt : i < keyCount key2 items2 0 := (List.getElem?_eq_some_iff.1 hi).1
    have h2 : (dstl.take (keyCount key2 items2 0))[i]? = some (layer p) := by
      rw [hd3, List.getElem?_map]
      change (sel[i]?).map layer = _
      rw [hi]; rfl
    rw [List.getElem?_take, if_pos hlt] at h2
    exact h2
  have hselp : ∀ (i c k : Nat), sel[i]? = some (c, k) → (c, k) ∈ particlesOf g := by
    intro i c k hi
    obtain ⟨h1, h2, -⟩ := (hsel c k).1 (List.mem_of_getElem? hi)
    exact mem_particlesOf.2 ⟨h1, h2⟩
  refine ⟨⟨sr, addCounts dst items1 (List.replicate size 0), mp, cells, src, dstl,
    keyCount key3 items3 0, keyCount key2 items2 0⟩, sel, ?_, ?_, ?_, ?_⟩
  · unfold identify
    rw [if_neg (by omega), hr]
    simp only [Option.bind_some]
    rw [hv]
    simp only [Option.bind_some]
    rw [← hi1, hpass1]
    simp only [Option.bind_some]
    rw [← hi2, hpass2]
    simp only [Option.bind_some]
    rw [← hi3, hpass3]
    simp [addCounts]
  · refine ⟨?_, ?_, ?_, rfl, hnd2.filter _, hsel, by simp [addCounts], ?_, ?_, ?_, ?_⟩
    · dsimp only; rw [hb2, (e.freshI 30 rank.hNpart.sum).2]; exact hle2
    · dsimp only; rw [hc2, (e.freshI 31 rank.hNpart.sum).2]; exact hle2
    · dsimp only
      rw [List.zip, List.take_zipWith, hb3, hc3]
      exact List.zip_map' ..
    · intro r hr
      dsimp only
      rw [getElem?_addCounts, hcount]
      simp [hr]
    · intro i c k r hi hr
      exact ⟨_, hgetd i _ hi, hlaylt _ (hselp i c k hi) r hr⟩
    · intro i c k i' c' k' r l hi hi' hr hr' hl hl'
      have h1 := hgetd i _ hi
      have h2 := hgetd i' _ hi'
      dsimp only at hl hl'
      rw [hl, Option.some.injEq] at h1
      rw [hl', Option.some.injEq] at h2
      have := hlayinj _ (hselp i c k hi) _ (hselp i' c' k' hi') r hr hr' (h1.symm.trans h2)
      rw [← this] at hi'
      exact (List.getElem?_inj (List.getElem?_eq_some_iff.1 hi).1 (hnd2.filter _)).1
        (hi.trans hi'.symm)
    · intro r l hl
      obtain ⟨⟨c, k⟩, hp, h1, h2⟩ := hlaysurj r l hl
      obtain ⟨hc, hk⟩ := mem_particlesOf.1 hp
      obtain ⟨i, hi⟩ := List.mem_iff_getElem?.1 ((hsel c k).2 ⟨hc, hk, r, h1⟩)
      exact ⟨i, c, k, hi, h1, by rw [hgetd i _ hi, h2]⟩
  · intro hc0
    have htake : sr.take (keyCount key3 items3 0) = sel3.map fun p => (dst p).getD 0 := he3
    refine ⟨by dsimp only; rw [he2]; simpa using hle3, ?_, ?_, ?_⟩
    · dsimp only; rw [htake]; exact hnds3
    · intro r
      dsimp only
      rw [htake]
      constructor
      · intro hr
        obtain ⟨p, hp, rfl⟩ := List.mem_map.1 hr
        obtain ⟨h1, h2, h3, -⟩ := (hsel3 p).1 hp
        obtain ⟨r, hr⟩ := Option.isSome_iff_exists.1 h2
        rw [hr, Option.getD_some]
        have := hlaylt p h1 r hr
        exact ⟨hdlt p r hr, by omega⟩
      · rintro ⟨hr, hpos⟩
        obtain ⟨p, hp, h1, h2⟩ := hlaysurj r 0 hpos
        exact List.mem_map.2 ⟨p, (hsel3 p).2 ⟨hp, by simp [h1], h2, hc0⟩, by simp [h1]⟩
    · intro i r hi
      dsimp only at hi ⊢
      rw [htake, List.getElem?_map, Option.map_eq_some_iff] at hi
      obtain ⟨p, hpi, hpr⟩ := hi
      have hps := List.mem_of_getElem? hpi
      have hp3' : p ∈ items3 := (List.mem_filter.1 hps).1
      have hk3 : key3 p = some 0 := by simpa using (List.mem_filter.1 hps).2
      obtain ⟨r', hr'⟩ := Option.isSome_iff_exists.1 ((hkey3 p).1 hk3).1
      rw [hr', Option.getD_some] at hpr
      subst hpr
      rw [hm3 p hp3' r' (by rw [if_pos hk3, hr'])]
      congr 1
      exact rank_of_getElem? hnd3 hpi
  · intro hc0
    have hk3 : ∀ p, key3 p = none := by
      intro p; simp [key3, hc0]
    refine ⟨?_, ?_⟩
    · dsimp only
      unfold keyCount
      simp [hk3]
    · dsimp only
      apply List.ext_getElem?
      intro k
      exact hm4 k (by intro p _; simp [hk3])

end NP
