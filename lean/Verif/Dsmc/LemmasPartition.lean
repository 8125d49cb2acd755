import Verif.Dsmc.SpecPartition
import Verif.Sub.LemmasPartition
import Verif.Sub.LemmasBuilt
import Verif.Comm.LemmasSet
import Verif.Containers.PropsTree
import Verif.Group.LemmasCellMove

/-! Helper lemmas for the partition into collision cells. -/

set_option autoImplicit false

namespace NP

open Spec

theorem lastAdded_zipIdx {l : List Int} (hnd : l.Nodup) (n : Nat) (key : Int) :
    lastAdded (l.zipIdx n) key = if key ∈ l then some (n + l.idxOf key) else none := by
  induction l generalizing n with
  | nil => simp [lastAdded]
  | cons x xs ih =>
    rw [List.nodup_cons] at hnd
    rw [List.zipIdx_cons]
    simp only [lastAdded, ih hnd.2]
    by_cases hx : key ∈ xs
    · have hne : x ≠ key := fun h => hnd.1 (h ▸ hx)
      simp only [hx, if_true, List.mem_cons, or_true]
      rw [List.idxOf_cons_ne _ hne]
      congr 1
      omega
    · by_cases hk : x = key
      · subst hk; simp [hx]
      · simp [hx, hk, Ne.symm hk]

/-- What holds of a partition object after it was made. -/
structure PartBase (n ncell : Nat) (ids : List Int) (p : CollPart) : Prop where
  pos : 0 < ncell
  cellCount : p.cellCount = ncell
  nodup : p.species.Nodup
  mem : ∀ s, s ∈ p.species ↔ s ∈ ids
  lookup : ids ≠ [] → ∀ key, p.linearIndex n key =
    some (if key ∈ p.species then some (p.species.idxOf key) else none)

theorem base_create {e : CollEnv} {n ncell : Nat} {ids : List Int} {p : CollPart}
    (hn : e.width = n) (hw : 0 < n) (hg : ∀ i, NodeSized n (e.garbage i))
    (h : collPartCreate e ncell ids = some p) : PartBase n ncell ids p := by
  subst hn
  unfold collPartCreate at h
  split at h
  · rename_i hpos
    obtain ⟨t, h1, h2⟩ := Option.bind_eq_some_iff.1 h
    obtain rfl := Option.some.inj h2
    have hset : IsSet (rankSetInsertAll [] ids) := isSet_rankSetInsertAll (by simp [IsSet])
    have hnd : (rankSetInsertAll [] ids).Nodup := by
      refine List.Pairwise.imp ?_ hset
      intro a b hab; omega
    have hmem : ∀ s, s ∈ rankSetInsertAll [] ids ↔ s ∈ ids := by
      intro s; rw [mem_rankSetInsertAll]; simp
    refine ⟨hpos, rfl, hnd, hmem, ?_⟩
    intro hids key
    have hne : (rankSetInsertAll [] ids).zipIdx ≠ [] := by
      intro hc
      obtain ⟨s, hs⟩ := List.exists_mem_of_ne_nil _ hids
      have h0 := (hmem s).2 hs
      rw [show rankSetInsertAll [] ids = [] by simpa using hc] at h0
      cases h0
    obtain ⟨t', root, a1, a2, a3⟩ := C47_device_lookup e.width hw e.garbage hg _ hne
    rw [a1] at h1
    obtain rfl := Option.some.inj h1
    simp only [CollPart.linearIndex, a2, Option.bind_some]
    have := a3 key
    rw [lastAdded_zipIdx hnd] at this
    simpa using this
  · cases h

theorem construct_keeps {e : CollEnv} {p p' : CollPart} {npart : List Nat} {par : Parent}
    {ccCounts : List Nat} {sp cc : Nat → Nat → Int}
    (h : p.construct e npart par ccCounts sp cc = some p') :
    p'.cellCount = p.cellCount ∧ p'.species = p.species ∧ p'.tree = p.tree := by
  unfold CollPart.construct at h
  split at h
  · obtain ⟨_, -, h⟩ := Option.bind_eq_some_iff.1 h
    obtain ⟨_, -, h⟩ := Option.bind_eq_some_iff.1 h
    obtain ⟨_, -, h⟩ := Option.bind_eq_some_iff.1 h
    obtain ⟨_, -, h⟩ := Option.bind_eq_some_iff.1 h
    obtain ⟨_, -, h⟩ := Option.bind_eq_some_iff.1 h
    obtain ⟨_, -, h⟩ := Option.bind_eq_some_iff.1 h
    obtain ⟨_, -, h⟩ := Option.bind_eq_some_iff.1 h
    obtain rfl := Option.some.inj h
    exact ⟨rfl, rfl, rfl⟩
  · cases h

theorem reach_base {n ncell : Nat} {ids : List Int} {p : CollPart}
    (h : PartitionReachable n ncell ids p) : PartBase n ncell ids p := by
  induction h with
  | create hn hw hg h => exact base_create hn hw hg h
  | construct hn hp h ih =>
    obtain ⟨a, b, c⟩ := construct_keeps h
    refine ⟨ih.pos, by rw [a, ih.cellCount], by rw [b]; exact ih.nodup,
      by rw [b]; exact ih.mem, ?_⟩
    intro hids key
    have := ih.lookup hids key
    rw [b]
    unfold CollPart.linearIndex at this ⊢
    rw [c]; exact this

/-- The visits of a loop over a sub group. -/
theorem visits_spec {e : CollEnv} {npart : List Nat} (he : CollEnvOk e npart) {par : Parent}
    {L : List (List Nat)} (hp : ParentFacts npart par L) (hL : SoundListing npart L) :
    ∃ v, parentVisits e.P npart par = some v ∧ v.Nodup ∧ v.length ≤ par.total npart ∧
      ∀ c k, (c, k) ∈ v ↔ ∃ row, L[c]? = some row ∧ k < row.length := by
  let m : LayerMap := ⟨List.replicate npart.length 0, [], 0⟩
  let z := List.replicate (npart.length + npart.length * 1) 0
  obtain ⟨v, h1, h2, h3⟩ := parentVisits_spec
    (e := ⟨e.P, e.s0, e.s0, e.s0, e.s0, fun n => ⟨List.replicate n 0, by simp⟩, e.fresh, 1, m, z, z,
      List.replicate npart.length 0, 1⟩)
    (npart := npart) ⟨by simp [m], by simp [z], by simp [z], by simp, Nat.one_pos, Nat.one_pos, he.loopLocal,
      he.loopLocalInt, he.nbin, he.counts⟩ hp hL
  refine ⟨v, h1, h2, ?_, h3⟩
  rw [hp.total]
  refine visits_length_le h2 ?_
  rintro ⟨c, k⟩ hm
  obtain ⟨row, hr, hk⟩ := (h3 c k).1 hm
  exact ⟨row.length, lens_get hr, hk⟩

theorem le_foldl_max0 {l : List Nat} {c n : Nat} (h : l[c]? = some n) : n ≤ l.foldl max 0 := by
  have : ∀ (l : List Nat) (a : Nat), a ≤ l.foldl max a ∧ ∀ x ∈ l, x ≤ l.foldl max a := by
    intro l
    induction l with
    | nil => intro a; simp
    | cons y ys ih =>
      intro a
      obtain ⟨i1, i2⟩ := ih (max a y)
      simp only [List.foldl_cons, List.mem_cons]
      refine ⟨by omega, ?_⟩
      rintro x (rfl | hx)
      · omega
      · exact i2 x hx
  exact (this l 0).2 n (List.mem_of_getElem? h)

/-- The position of a collision cell and species. -/
def slotN (M S c q lin : Nat) : Nat := (c * M + q) * S + lin

theorem slotN_inj {M S c q l c' q' l' : Nat} (hq : q < M) (hq' : q' < M) (hl : l < S)
    (hl' : l' < S) (h : slotN M S c q l = slotN M S c' q' l') : c = c' ∧ q = q' ∧ l = l' := by
  unfold slotN at h
  obtain ⟨h1, h2⟩ := slot2_inj hl hl' h
  obtain ⟨h3, h4⟩ := slot2_inj hq hq' h1
  exact ⟨h3, h4, h2⟩

theorem slotN_lt {M S N c q l : Nat} (hc : c < N) (hq : q < M) (hl : l < S) :
    slotN M S c q l < M * N * S := by
  have h1 := slot2_lt (n := M) (p := c) (m := N) (c := q) hq hc
  have h2 := slot2_lt (n := S) (p := c * M + q) (m := M * N) (c := l) hl h1
  unfold slotN
  rw [Nat.mul_comm (M * N) S]; exact h2

theorem slot_eq (p : CollPart) (c q lin : Nat) :
    index (p.slot c q lin) = some (slotN p.maxCC p.numSpecies c q lin) := by
  have : p.slot c q lin = ((slotN p.maxCC p.numSpecies c q lin : Nat) : Int) := by
    unfold CollPart.slot slotN
    push_cast
    rw [Int.add_mul, Int.mul_assoc]
  rw [this]
  simp [index]

theorem reduceMax_spec {l : List Nat} (hne : l ≠ []) :
    ∃ n ∈ l, reduceMax l = n ∧ ∀ m ∈ l, m ≤ n := by
  have H : ∀ (l : List Nat) (a : Int), (l.foldl (fun (a : Int) (n : Nat) => max a (n : Int)) a = a ∧ ∀ m ∈ l, (m : Int) ≤ a) ∨
      ∃ n ∈ l, l.foldl (fun (a : Int) (n : Nat) => max a (n : Int)) a = n ∧ a ≤ n ∧ ∀ m ∈ l, m ≤ n := by
    intro l
    induction l with
    | nil => intro a; simp
    | cons x xs ih =>
      intro a
      rw [List.foldl_cons]
      rcases ih (max a x) with ⟨h1, h2⟩ | ⟨n, h1, h2, h3, h4⟩
      · by_cases hx : (x : Int) ≤ a
        · left
          refine ⟨by rw [h1]; omega, ?_⟩
          intro m hm
          rcases List.mem_cons.1 hm with rfl | hm
          · exact hx
          · have := h2 m hm; omega
        · right
          refine ⟨x, List.mem_cons_self, by rw [h1]; omega, by omega, ?_⟩
          intro m hm
          rcases List.mem_cons.1 hm with rfl | hm
          · omega
          · have := h2 m hm; omega
      · right
        refine ⟨n, List.mem_cons_of_mem _ h1, h2, by omega, ?_⟩
        intro m hm
        rcases List.mem_cons.1 hm with rfl | hm
        · omega
        · exact h4 m hm
  rcases H l (-2 ^ 63) with ⟨h1, h2⟩ | ⟨n, h1, h2, -, h4⟩
  · exfalso
    obtain ⟨m, hm⟩ := List.exists_mem_of_ne_nil _ hne
    have := h2 m hm
    omega
  · exact ⟨n, h1, h2, h4⟩

/-- The result of a construct in terms of the listing of the sub group. -/
structure PartResult (L : List (List Nat)) (ccCounts : List Nat) (sp cc : Nat → Nat → Int)
    (ncell : Nat) (p' : CollPart) : Prop where
  cells : p'.ccCounts = ccCounts.take ncell
  maxCC : p'.maxCC = (ccCounts.take ncell).foldl max 0
  offsetsLen : p'.maxCC * ncell * p'.numSpecies + 1 ≤ p'.offsets.length
  entries : ∀ (s : Int) (c q : Nat) (row : List Nat), s ∈ p'.species → L[c]? = some row →
    q < p'.maxCC → ∃ ls, CellEntries p' c q (p'.species.idxOf s) ls ∧
      ls.Perm (row.filter fun l => decide (sp c l = s ∧ cc c l = q))
  maxOcc : ∃ used : List Nat, p'.maxOcc = reduceMax used ∧
    used.length = p'.maxCC * ncell * p'.numSpecies ∧
    ∀ (c q lin : Nat), c < ncell → q < p'.maxCC → lin < p'.numSpecies →
      p'.numParticles c q lin = (used[slotN p'.maxCC p'.numSpecies c q lin]?).map Nat.cast

theorem construct_spec {e : CollEnv} {npart : List Nat} (he : CollEnvOk e npart) {ids : List Int}
    (hids : ids ≠ []) {p : CollPart} (hb : PartBase e.width npart.length ids p) {par : Parent}
    {L : List (List Nat)} (hp : ParentLists npart par L) (hL : SoundListing npart L)
    {ccCounts : List Nat} (hcc : npart.length ≤ ccCounts.length) {sp cc : Nat → Nat → Int}
    (hok : ∀ c row l, L[c]? = some row → l ∈ row → sp c l ∈ ids →
      0 ≤ cc c l ∧ cc c l < (ccCounts.take npart.length).foldl max 0) :
    ∃ p', p.construct e npart par ccCounts sp cc = some p' ∧ p'.species = p.species ∧
      PartResult L ccCounts sp cc npart.length p' := by
  have pf := parent_facts hp
  obtain ⟨v, hv, hvnd, hvl, hvm⟩ := visits_spec he pf hL
  set M := (ccCounts.take npart.length).foldl max 0 with hM
  set S := p.species.length with hS
  set items := e.s0.order v with hitems
  have hperm : items.Perm v := e.s0.perm v
  have hind : items.Nodup := hperm.nodup_iff.2 hvnd
  have hmemi : ∀ c k, (c, k) ∈ items ↔ ∃ row, L[c]? = some row ∧ k < row.length := fun c k =>
    (hperm.mem_iff).trans (hvm c k)
  set key : Nat × Nat → Option Nat := fun it =>
    if sp it.1 (layOf L it) ∈ p.species then
      some (slotN M S it.1 (cc it.1 (layOf L it)).toNat (p.species.idxOf (sp it.1 (layOf L it))))
    else none with hkey
  have hvis : ∀ it ∈ items, ∃ row, L[it.1]? = some row ∧ it.1 < L.length ∧
      (lens L)[it.1]? = some row.length ∧ it.1 < npart.length ∧
      it.2 < row.length ∧ row[it.2]? = some (layOf L it) ∧
      par.layerAt it.1 it.2 = some (layOf L it) := by
    rintro ⟨c, k⟩ hit
    obtain ⟨row, hrow, hk⟩ := (hmemi c k).1 hit
    have hl := layOf_eq hrow hk
    exact ⟨row, hrow, lt_of_row hrow, lens_get hrow, by rw [← hL.1]; exact lt_of_row hrow, hk, hl,
      by rw [pf.layer c row k hrow hk, hl]⟩
  have hlab : ∀ it ∈ items, sp it.1 (layOf L it) ∈ p.species →
      0 ≤ cc it.1 (layOf L it) ∧ (cc it.1 (layOf L it)).toNat < M ∧
      p.species.idxOf (sp it.1 (layOf L it)) < S := by
    intro it hi hs
    obtain ⟨row, r1, -, -, -, r5, r6, -⟩ := hvis it hi
    obtain ⟨h1, h2⟩ := hok it.1 row _ r1 (List.mem_of_getElem? r6) ((hb.mem _).1 hs)
    exact ⟨h1, by omega, List.idxOf_lt_length_of_mem hs⟩
  have hkey_iff : ∀ it ∈ items, ∀ (c q : Nat) (s : Int), q < M → s ∈ p.species →
      (key it = some (slotN M S c q (p.species.idxOf s)) ↔
        it.1 = c ∧ sp it.1 (layOf L it) = s ∧ cc it.1 (layOf L it) = q) := by
    intro it hi c q s hq hs
    simp only [hkey]
    by_cases h : sp it.1 (layOf L it) ∈ p.species
    · rw [if_pos h]
      obtain ⟨h1, h2, h3⟩ := hlab it hi h
      constructor
      · intro heq
        obtain ⟨g1, g2, g3⟩ := slotN_inj h2 hq h3 (List.idxOf_lt_length_of_mem hs)
          (Option.some.inj heq)
        exact ⟨g1, (List.idxOf_inj h).1 g3, by omega⟩
      · rintro ⟨rfl, g2, g3⟩
        rw [g2, g3]; rfl
    · rw [if_neg h]
      constructor
      · intro h; cases h
      · rintro ⟨-, h2, -⟩; rw [h2] at h; exact absurd hs h
  set total := M * npart.length * S with htotal
  have hkeylt : ∀ it ∈ items, ∀ k, key it = some k → k < total := by
    intro it hi k hk
    obtain ⟨row, -, -, -, r4, -⟩ := hvis it hi
    simp only [hkey] at hk
    split at hk
    · rename_i h
      obtain ⟨h1, h2, h3⟩ := hlab it hi h
      rw [← Option.some.inj hk]
      exact slotN_lt r4 h2 h3
    · cases hk
  -- the filled counters
  obtain ⟨ctr, hctr, hctrl, hctrt⟩ := stRange_zero (m := (e.fresh (total + 1 + e.over)).1)
    (vs := List.replicate (total + 1) 0) (by rw [(e.fresh _).2]; simp)
  rw [List.length_replicate] at hctrt
  have hctrg : ∀ k, k < total + 1 → ctr[k]? = some 0 := by
    intro k hk
    rw [getElem?_of_take hctrt hk, List.getElem?_replicate, if_pos hk]
  rw [(e.fresh _).2] at hctrl
  set lay := (e.fresh (par.total npart + e.over)).1 with hlay
  have hlayl : lay.length = par.total npart + e.over := (e.fresh _).2
  -- first loop
  obtain ⟨pl, hpl, hpll, hplv, -⟩ := runItems_put (items := items)
    (step := fun it (m : List Nat) => match key it with
      | none => some m
      | some c => st m (before (lens L) it.1 + it.2) (ctr.getD c 0 + rank key items it))
    (m := lay)
    (fun it => (key it).map fun _ => before (lens L) it.1 + it.2)
    (fun it => rank key items it)
    (by
      intro it hi a _
      beta_reduce
      cases hk : key it with
      | none => rfl
      | some c =>
        have : ctr.getD c 0 = 0 := by
          rw [List.getD_eq_getElem?_getD, hctrg c (by have := hkeylt it hi c hk; omega)]
          rfl
        simp only [this, Nat.zero_add, Option.map_some])
    (by
      intro i hi j hj d hd hd'
      obtain ⟨row, r1, r2, r3, r4, r5, r6, r7⟩ := hvis i hi
      obtain ⟨row', q1, q2, q3, q4, q5, q6, q7⟩ := hvis j hj
      simp only [Option.map_eq_some_iff] at hd hd'
      obtain ⟨_, -, h1⟩ := hd
      obtain ⟨_, -, h2⟩ := hd'
      obtain ⟨g1, g2⟩ := lin_inj r3 q3 r5 q5 (h1.trans h2.symm)
      have : i = j := Prod.ext g1 g2
      rw [this])
    (by
      intro i hi d hd
      obtain ⟨row, r1, r2, r3, r4, r5, r6, r7⟩ := hvis i hi
      simp only [Option.map_eq_some_iff] at hd
      obtain ⟨_, -, h1⟩ := hd
      rw [hlayl, ← h1, pf.total]
      have := lin_lt r3 r5
      omega)
  set p1 : CollPart := { p with ccCounts := ccCounts.take npart.length, maxCC := M } with hp1
  have hlook : ∀ key, p1.linearIndex e.width key =
      some (if key ∈ p.species then some (p.species.idxOf key) else none) := hb.lookup hids
  have hslot : ∀ it ∈ items, sp it.1 (layOf L it) ∈ p.species →
      index (p1.slot it.1 (cc it.1 (layOf L it)) (p.species.idxOf (sp it.1 (layOf L it)))) =
      some (slotN M S it.1 (cc it.1 (layOf L it)).toNat
        (p.species.idxOf (sp it.1 (layOf L it)))) := by
    intro it hi hs
    have := (hlab it hi hs).1
    have h2 := slot_eq p1 it.1 (cc it.1 (layOf L it)).toNat
      (p.species.idxOf (sp it.1 (layOf L it)))
    rw [Int.toNat_of_nonneg this] at h2
    exact h2
  have hloop0 : runItems (detStep p1 e.width npart par sp cc) items (ctr, lay) =
      some (addCounts key items ctr, pl) := by
    rw [runItems_congr (step' := fetchStep key
      (fun it l m => st m (before (lens L) it.1 + it.2) l) (fun _ m => some m))]
    · rw [runItems_fetch hind]
      · exact congrArg (Option.map fun t => (addCounts key items ctr, t)) hpl
      · intro it hi c hc
        have := hkeylt it hi c hc
        omega
    · intro it hi s
      obtain ⟨row, r1, r2, r3, r4, r5, r6, r7⟩ := hvis it hi
      unfold detStep fetchStep
      rw [r7, Option.bind_some, hlook, Option.bind_some]
      by_cases hs : sp it.1 (layOf L it) ∈ p.species
      · have hk : key it = some _ := if_pos hs
        rw [if_pos hs, hk, pf.es]
        dsimp only
        rw [loopIdx_eq r2, Option.bind_some]
        have h3 := hslot it hi hs
        unfold CollPart.slot at h3
        rw [show (it.1 : Int) * ((p1.maxCC * p1.numSpecies : Nat) : Int) =
          (it.1 : Int) * p1.maxCC * p1.numSpecies by push_cast; rw [Int.mul_assoc]] at h3
        rw [h3]
        rfl
      · have hk : key it = none := if_neg hs
        rw [if_neg hs, hk]
        rfl
  set counts := addCounts key items ctr with hcounts
  have hclen : counts.length = total + 1 + e.over := by simp [hcounts, addCounts, hctrl]
  have hcget : ∀ k, k < total + 1 → counts[k]? = some (keyCount key items k) := by
    intro k hk
    rw [hcounts, getElem?_addCounts, hctrg k hk]
    simp
  set C := (List.range total).map (keyCount key items) with hC
  have hClen : C.length = total := by simp [hC]
  have hCget : ∀ k, k < total → C[k]? = some (keyCount key items k) := by
    intro k hk
    simp only [hC]
    rw [List.getElem?_map, List.getElem?_range hk]; rfl
  have htake : counts.take total = C := by
    apply List.ext_getElem?
    intro k
    by_cases hk : k < total
    · rw [List.getElem?_take_of_lt hk, hcget k (by omega), hCget k hk]
    · rw [List.getElem?_eq_none (by simp; omega), List.getElem?_eq_none (by omega)]
  have hslice : slice counts 0 total = some C := by
    rw [slice_eq_some (by omega) (by omega)]
    simp [htake]
  obtain ⟨off, hoff, hoffl, hoffv, -⟩ := C03_exclusive_scan_blocking e.t0 e.t1 e.t2 e.scanLocal
    e.units (total + 1) he.scanLocal e.fresh counts (e.fresh (total + 1 + e.over)).1 (by omega)
    (by rw [(e.fresh _).2]; omega)
  rw [(e.fresh _).2] at hoffl
  have hoffg : ∀ k, k ≤ total → off[k]? = some (before C k) := by
    intro k hk
    have := hoffv k (by omega)
    rw [Nat.zero_add, List.drop_zero] at this
    rw [this, before, ← htake, List.take_take, Nat.min_eq_left hk]
  -- second loop
  have hmem2 : ∀ it, it ∈ e.s1.order v ↔ it ∈ items := fun it =>
    ((e.s1.perm v).mem_iff).trans (hperm.mem_iff).symm
  have hCsum : C.sum ≤ par.total npart := by
    refine Nat.le_trans (sum_keyCount_le _ _ _) ?_
    rw [hperm.length_eq]; exact hvl
  obtain ⟨ent, hent, hentl, hentv, -⟩ := runItems_put (items := e.s1.order v)
    (step := popStep p1 e.width npart par sp cc off pl)
    (m := lay)
    (fun it => (key it).map fun k => before C k + rank key items it)
    (fun it => layOf L it)
    (by
      intro it hi2 a _
      have hi := (hmem2 it).1 hi2
      obtain ⟨row, r1, r2, r3, r4, r5, r6, r7⟩ := hvis it hi
      unfold popStep
      rw [r7, Option.bind_some, hlook, Option.bind_some]
      by_cases hs : sp it.1 (layOf L it) ∈ p.species
      · have hk : key it = some (slotN M S it.1 (cc it.1 (layOf L it)).toNat
          (p.species.idxOf (sp it.1 (layOf L it)))) := if_pos hs
        have hplr := hplv it hi (before (lens L) it.1 + it.2) (by rw [hk]; rfl)
        rw [if_pos hs, hk, pf.es]
        dsimp only [Option.map_some]
        rw [hslot it hi hs, Option.bind_some]
        simp only [rd]
        rw [hoffg _ (Nat.le_of_lt (hkeylt it hi _ hk)), Option.bind_some, loopIdx_eq r2,
          Option.bind_some, hplr, Option.bind_some]
      · have hk : key it = none := if_neg hs
        rw [if_neg hs, hk]
        rfl)
    (by
      intro i hi2 j hj2 d hd hd'
      have hi := (hmem2 i).1 hi2
      have hj := (hmem2 j).1 hj2
      simp only [Option.map_eq_some_iff] at hd hd'
      obtain ⟨k, h1, h2⟩ := hd
      obtain ⟨k', h1', h2'⟩ := hd'
      obtain ⟨g1, g2⟩ := lin_inj (hCget k (hkeylt i hi k h1)) (hCget k' (hkeylt j hj k' h1'))
        (rank_lt hi h1) (rank_lt hj h1') (h2.trans h2'.symm)
      subst g1
      rw [rank_inj hi h1 h1' g2])
    (by
      intro i hi2 d hd
      have hi := (hmem2 i).1 hi2
      simp only [Option.map_eq_some_iff] at hd
      obtain ⟨k, h1, h2⟩ := hd
      have := lin_lt (hCget k (hkeylt i hi k h1)) (rank_lt hi h1)
      rw [hlayl]
      omega)
  refine ⟨{ p1 with maxOcc := reduceMax C, offsets := off, entries := ent }, ?_, rfl, ?_⟩
  · unfold CollPart.construct
    rw [hb.cellCount, if_pos hcc]
    dsimp only
    rw [← hM]
    change ((stRange (e.fresh (total + 1 + e.over)).1 0 (List.replicate (total + 1) 0)).bind _) = _
    rw [hctr, Option.bind_some, hv, Option.bind_some]
    refine (congrArg (fun x => Option.bind x _) hloop0).trans ?_
    rw [Option.bind_some]
    dsimp only
    refine (congrArg (fun x => Option.bind x _) hslice).trans ?_
    rw [Option.bind_some]
    refine (congrArg (fun x => Option.bind x _) hoff).trans ?_
    rw [Option.bind_some, Option.bind_some]
    refine (congrArg (fun x => Option.bind x _) hent).trans ?_
    rfl
  · have hnum : ∀ k, k < total → off[k + 1]? = some (before C (k + 1)) ∧ off[k]? = some (before C k) ∧
        before C (k + 1) = before C k + keyCount key items k := fun k hk =>
      ⟨hoffg _ (by omega), hoffg _ (by omega), before_succ (hCget k hk)⟩
    have hnp : ∀ c q lin, c < npart.length → q < M → lin < S →
        CollPart.numParticles { p1 with maxOcc := reduceMax C, offsets := off, entries := ent } c q lin
          = some (keyCount key items (slotN M S c q lin) : Int) := by
      intro c q lin hc hq hlin
      obtain ⟨n1, n2, n3⟩ := hnum _ (slotN_lt hc hq hlin)
      unfold CollPart.numParticles
      refine (congrArg (fun x => Option.bind x _) (slot_eq _ c q lin)).trans ?_
      rw [Option.bind_some]
      simp only [rd]
      refine (congrArg (fun x => Option.bind x _) n1).trans ?_
      rw [Option.bind_some]
      refine (congrArg (fun x => Option.bind x _) n2).trans ?_
      rw [Option.bind_some, n3]
      congr 1
      omega
    refine ⟨rfl, rfl, ?_, ?_, ⟨C, rfl, hClen, ?_⟩⟩
    · change total + 1 ≤ off.length
      omega
    · intro s c q row hs hrow hq
      have hc : c < npart.length := by rw [← hL.1]; exact lt_of_row hrow
      have hlin := List.idxOf_lt_length_of_mem hs
      refine ⟨selRow L key (fun c => slotN M S c q (p.species.idxOf s)) items c, ⟨?_, ?_⟩, ?_⟩
      · rw [selRow_length]
        exact hnp c q _ hc hq hlin
      · intro i hi
        rw [selRow_length] at hi
        obtain ⟨it, i1, i2, i3⟩ := rank_surj hind hi
        have h4 := hentv it ((hmem2 it).2 i1) _ (by rw [i2]; rfl)
        unfold CollPart.particleLayer
        refine (congrArg (fun x => Option.bind x _) (slot_eq _ c q (p.species.idxOf s))).trans ?_
        rw [Option.bind_some]
        simp only [rd]
        refine (congrArg (fun x => Option.bind x _)
          (hoffg _ (Nat.le_of_lt (slotN_lt hc hq hlin)))).trans ?_
        rw [Option.bind_some, ← i3,
          selRow_rank (slot := fun c => slotN M S c q (p.species.idxOf s)) i1 i2]
        exact h4
      · obtain ⟨hrnd, -⟩ := hL.2 c row _ hrow (List.getElem?_eq_getElem hc)
        refine selRow_perm hind hmemi hrow hrnd _ ?_
        intro it hi
        rw [hkey_iff it hi c q s hq hs]
        simp only [decide_eq_true_eq]
        constructor
        · rintro ⟨rfl, h2, h3⟩; exact ⟨rfl, h2, h3⟩
        · rintro ⟨rfl, h2, h3⟩; exact ⟨rfl, h2, h3⟩
    · intro c q lin hc hq hlin
      refine (hnp c q lin hc hq hlin).trans ?_
      change _ = Option.map _ C[slotN M S c q lin]?
      rw [hCget _ (slotN_lt hc hq hlin)]
      rfl

end NP
