import Verif.Sub.LemmasDerived
import Verif.Sub.ModelPartition

/-! `ParticleGroupPartitioner::create`. -/

set_option autoImplicit false

namespace NP

open Spec

theorem partPrep_spec (s : Sched) (fresh : Fresh Nat) {scanLocal : Nat} (hs : 0 < scanLocal)
    {ncell : Nat} {counts : List Nat} {px : Nat} {b : PartBuf} (hb : PartSizes ncell b)
    (hcell : 0 < ncell) {vs : List Nat} (hvs : vs.length = ncell)
    (hin : px * ncell + ncell ≤ counts.length)
    (hv : ∀ c, c < ncell → counts[px * ncell + c]? = vs[c]?) :
    ∃ mid, partPrep s fresh scanLocal ncell counts px b = some mid ∧ mid.d.take ncell = vs ∧
      mid.h.take ncell = vs ∧ mid.es = npartCellEs vs ∧ mid.m.starts = npartCellEs vs ∧
      mid.m.layers.length = vs.sum ∧ mid.m.total = vs.sum := by
  obtain ⟨d, h1, h1l, h1t⟩ := putRow2 (vs := vs) (ws := List.replicate ncell 0) (m := b.d0)
    (m2 := b.es0)
    (step := fun idx (t : List Nat × List Nat) => (rd counts (ncell * px + idx)).bind fun n =>
      (st t.1 idx n).bind fun d => (st t.2 idx 0).bind fun es => some (d, es)) s
    (by simp [hvs])
    (by
      intro c x y hx hy a b
      have hc : c < ncell := by rw [← hvs]; exact (List.getElem?_eq_some_iff.1 hx).1
      rw [List.getElem?_replicate, if_pos hc] at hy
      obtain rfl := Option.some.inj hy
      simp only [rd]
      rw [Nat.mul_comm ncell px, hv c hc, hx]
      rfl)
    (by rw [hvs]; exact hb.d0) (by simp [hb.es0])
  have hslice : slice counts (px * ncell) (px * ncell + ncell) = some vs := by
    rw [slice_eq_some (by omega) hin]
    congr 1
    apply List.ext_getElem?
    intro c
    by_cases hc : c < ncell
    · rw [List.getElem?_take_of_lt (by omega), List.getElem?_drop, hv c hc]
    · rw [List.getElem?_eq_none (by simp; omega), List.getElem?_eq_none (by omega)]
  obtain ⟨es, h3, h3l, h3s, -⟩ := jointExclusiveScanGroup_spec (N := ncell) hs vs
    (List.replicate ncell 0) (by omega) (by simp)
  have hes : es = npartCellEs vs := by
    apply List.ext_getElem?
    intro c
    by_cases hc : c < ncell
    · have a2 := rd_npartCellEs (npart := vs) (c := c) (by omega)
      simp only [rd] at a2
      rw [h3s c hc, a2]; rfl
    · rw [List.getElem?_eq_none (by rw [h3l]; simp; omega),
        List.getElem?_eq_none (by rw [length_npartCellEs]; omega)]
  obtain ⟨h2, hh2, hh2l, hh2t⟩ := stRange_zero (m := b.h0) (vs := vs) (by rw [hvs]; exact hb.h0)
  obtain ⟨m, hmc, hms, hml2⟩ := mapCreate_spec fresh (m := b.map) (counts := vs) (h := h2)
    (by rw [hb.starts, hvs]) hh2t
  rw [hvs] at h1 h1t hh2t hmc hml2
  refine ⟨⟨d, h2, npartCellEs vs, m⟩, ?_, h1t, hh2t, rfl, hms, (hml2 hcell).1, (hml2 hcell).2⟩
  unfold partPrep
  simp only [h1, Option.bind_some, hslice, h3, h1t, hh2, hes, hmc]

theorem partPrepAll_spec (s : Sched) (fresh : Fresh Nat) {scanLocal : Nat} (hs : 0 < scanLocal)
    {ncell : Nat} (hcell : 0 < ncell) {counts : List Nat} (vs : Nat → List Nat)
    (hvs : ∀ px, (vs px).length = ncell) (bufs : List PartBuf) (hb : ∀ b ∈ bufs, PartSizes ncell b)
    (px0 : Nat) (hin : (px0 + bufs.length) * ncell ≤ counts.length)
    (hv : ∀ px c, px < px0 + bufs.length → c < ncell →
      counts[px * ncell + c]? = (vs px)[c]?) :
    ∃ mids, partPrepAll s fresh scanLocal ncell counts px0 bufs = some mids ∧
      mids.length = bufs.length ∧ ∀ (i : Nat) (b : PartBuf), bufs[i]? = some b →
        (b.alive = false → mids[i]? = some none) ∧ (b.alive = true →
          ∃ mid, mids[i]? = some (some mid) ∧ mid.d.take ncell = vs (px0 + i) ∧
          mid.h.take ncell = vs (px0 + i) ∧ mid.es = npartCellEs (vs (px0 + i)) ∧
          mid.m.starts = npartCellEs (vs (px0 + i)) ∧
          mid.m.layers.length = (vs (px0 + i)).sum ∧ mid.m.total = (vs (px0 + i)).sum) := by
  induction bufs generalizing px0 with
  | nil => exact ⟨[], rfl, rfl, by simp⟩
  | cons b bs ih =>
    simp only [List.length_cons] at hin hv
    obtain ⟨mids, m1, m2, m3⟩ := ih (fun b hb' => hb b (List.mem_cons_of_mem _ hb')) (px0 + 1)
      (by rw [show px0 + 1 + bs.length = px0 + (bs.length + 1) by omega]; exact hin)
      (fun px c h => hv px c (by omega))
    have hmono : px0 * ncell + ncell ≤ counts.length := by
      have : (px0 + 1) * ncell ≤ (px0 + (bs.length + 1)) * ncell :=
        Nat.mul_le_mul_right _ (by omega)
      rw [Nat.add_mul, Nat.one_mul] at this
      omega
    obtain ⟨mid, d0, d1, d2, d3, d4, d5, d6⟩ := partPrep_spec s fresh hs (px := px0)
      (hb b List.mem_cons_self) hcell (hvs px0) hmono (fun c hc => hv px0 c (by omega) hc)
    refine ⟨(if b.alive then some mid else none) :: mids, ?_, by simp [m2], ?_⟩
    · unfold partPrepAll
      by_cases ha : b.alive = true
      · rw [if_pos ha, if_pos ha, d0, m1]; rfl
      · rw [if_neg ha, if_neg ha, m1]; rfl
    · intro i b' hi
      cases i with
      | zero =>
        simp only [List.getElem?_cons_zero, Option.some.injEq] at hi
        subst hi
        refine ⟨fun ha => by simp [ha], fun ha => ⟨mid, by simp [ha], d1, d2, d3, d4, d5, d6⟩⟩
      | succ i =>
        rw [List.getElem?_cons_succ] at hi
        have := m3 i b' hi
        rw [show px0 + 1 + i = px0 + (i + 1) by omega] at this
        rw [List.getElem?_cons_succ]
        exact this

theorem slot2_inj {n p q c d : Nat} (hc : c < n) (hd : d < n) (h : p * n + c = q * n + d) :
    p = q ∧ c = d := by
  have h1 : (p * n + c) / n = p := by
    rw [Nat.mul_comm, Nat.mul_add_div (by omega), Nat.div_eq_of_lt hc, Nat.add_zero]
  have h2 : (q * n + d) / n = q := by
    rw [Nat.mul_comm, Nat.mul_add_div (by omega), Nat.div_eq_of_lt hd, Nat.add_zero]
  have : p = q := by rw [← h1, h, h2]
  subst this
  exact ⟨rfl, by omega⟩

theorem slot2_lt {n p m c : Nat} (hc : c < n) (hp : p < m) : p * n + c < n * m := by
  have : (p + 1) * n ≤ m * n := Nat.mul_le_mul_right _ (by omega)
  rw [Nat.add_mul, Nat.one_mul] at this
  rw [Nat.mul_comm n m]
  omega

theorem sum_le_of_get {l l' : List Nat} (h : l.length = l'.length)
    (hle : ∀ (c : Nat) (a b : Nat), l[c]? = some a → l'[c]? = some b → a ≤ b) : l.sum ≤ l'.sum := by
  induction l generalizing l' with
  | nil => simp
  | cons x xs ih =>
    cases l' with
    | nil => simp at h
    | cons y ys =>
      simp only [List.sum_cons]
      have h0 := hle 0 x y rfl rfl
      have := ih (l' := ys) (by simpa using h) (fun c a b ha hb => hle (c + 1) a b ha hb)
      omega

theorem sound_sum_le {npart : List Nat} {L : List (List Nat)} (hL : SoundListing npart L) :
    (lens L).sum ≤ npart.sum := by
  apply sum_le_of_get (by simp only [lens, List.length_map, hL.1])
  intro c a b ha hb
  simp only [lens, List.getElem?_map, Option.map_eq_some_iff] at ha
  obtain ⟨row, hr, rfl⟩ := ha
  obtain ⟨h1, h2⟩ := hL.2 c row b hr hb
  exact row_length_le h1 h2

theorem partIndex_eq {n p : Nat} {v : Int} : partIndex n v = some p ↔ p < n ∧ v = p := by
  unfold partIndex
  split
  · rename_i h
    constructor
    · intro h2
      have := Option.some.inj h2
      omega
    · rintro ⟨h1, rfl⟩
      simp
  · rename_i h
    constructor
    · intro h2; cases h2
    · rintro ⟨h1, rfl⟩
      exact absurd ⟨by omega, by omega⟩ h

theorem partition_spec {e : SelEnv} {npart : List Nat} (he : SelOk e npart) {scanLocal : Nat}
    (hs : 0 < scanLocal) (hcell : 0 < npart.length) {par : Parent}
    {L : List (List Nat)} (hp : ParentLists npart par L) (hL : SoundListing npart L)
    (f : Nat → Nat → Int) (bufs : List PartBuf) (hb : ∀ b ∈ bufs, PartSizes npart.length b) :
    ∃ sels, partitionCreate e scanLocal npart par f bufs = some sels ∧
      sels.length = bufs.length ∧ ∀ (px : Nat) (b : PartBuf), bufs[px]? = some b →
        (b.alive = false → sels[px]? = some none) ∧ (b.alive = true →
          ∃ sel L', sels[px]? = some (some sel) ∧ Lists sel L' ∧
          Cellwise (fun c row row' => row'.Perm (row.filter fun l => decide (f c l = px))) L L') := by
  by_cases hb0 : bufs.length = 0
  · have : bufs = [] := List.length_eq_zero_iff.1 hb0
    subst this
    exact ⟨[], rfl, rfl, by simp⟩
  have pf := parent_facts hp
  obtain ⟨v, hv, hvnd, hvm⟩ := parentVisits_spec he pf hL
  set items := e.s0.order v with hitems
  have hperm : items.Perm v := e.s0.perm v
  have hind : items.Nodup := hperm.nodup_iff.2 hvnd
  have hmemi : ∀ c k, (c, k) ∈ items ↔ ∃ row, L[c]? = some row ∧ k < row.length := fun c k =>
    (hperm.mem_iff).trans (hvm c k)
  set alive := bufs.map PartBuf.alive with halive
  have halen : alive.length = bufs.length := by simp [halive]
  set part : Nat × Nat → Option Nat := fun it =>
    (partIndex alive.length (f it.1 (layOf L it))).filter fun p => alive[p]? = some true with hpart
  have hpart_iff : ∀ it p, part it = some p ↔
      p < bufs.length ∧ f it.1 (layOf L it) = p ∧ alive[p]? = some true := by
    intro it p
    simp only [hpart, Option.filter_eq_some_iff, partIndex_eq, halen, decide_eq_true_eq, and_assoc]
  set key : Nat × Nat → Option Nat := fun it => (part it).map fun p => p * npart.length + it.1
    with hkey
  have hvis : ∀ it ∈ items, ∃ row, L[it.1]? = some row ∧ it.1 < L.length ∧
      (lens L)[it.1]? = some row.length ∧ it.1 < npart.length ∧
      it.2 < row.length ∧ row[it.2]? = some (layOf L it) ∧
      par.layerAt it.1 it.2 = some (layOf L it) := by
    rintro ⟨c, k⟩ hit
    obtain ⟨row, hrow, hk⟩ := (hmemi c k).1 hit
    have hl := layOf_eq hrow hk
    exact ⟨row, hrow, lt_of_row hrow, lens_get hrow, by rw [← hL.1]; exact lt_of_row hrow, hk, hl,
      by rw [pf.layer c row k hrow hk, hl]⟩
  have hkey_iff : ∀ it ∈ items, ∀ px c, c < npart.length →
      (key it = some (px * npart.length + c) ↔ part it = some px ∧ it.1 = c) := by
    intro it hi px c hc
    obtain ⟨row, -, -, -, r4, -⟩ := hvis it hi
    simp only [hkey, Option.map_eq_some_iff]
    constructor
    · rintro ⟨p, h1, h2⟩
      obtain ⟨g1, g2⟩ := slot2_inj r4 hc h2
      exact ⟨by rw [h1, g1], g2⟩
    · rintro ⟨h1, rfl⟩
      exact ⟨px, h1, rfl⟩
  -- loop_0
  obtain ⟨pl, hpl, hpll, hplv, -⟩ := runItems_put (items := items)
    (step := fun it (m : List Nat) => match key it with
      | none => some m
      | some c => st m (before (lens L) it.1 + it.2)
        ((List.replicate (npart.length * bufs.length) 0).getD c 0 + rank key items it))
    (m := (e.fn npart.sum).val)
    (fun it => (key it).map fun _ => before (lens L) it.1 + it.2)
    (fun it => rank key items it)
    (by
      intro it hi a _
      beta_reduce
      cases hk : key it with
      | none => rfl
      | some c =>
        have : (List.replicate (npart.length * bufs.length) 0).getD c 0 = 0 := by
          rw [List.getD_eq_getElem?_getD, List.getElem?_replicate]
          split <;> rfl
        simp only [this, Nat.zero_add, Option.map_some])
    (by
      intro i hi j hj d hd hd'
      obtain ⟨row, r1, r2, r3, r4, r5, r6, r7⟩ := hvis i hi
      obtain ⟨row', q1, q2, q3, q4, q5, q6, q7⟩ := hvis j hj
      simp only [Option.map_eq_some_iff] at hd hd'
      obtain ⟨_, -, h1⟩ := hd
      obtain ⟨_, -, h2⟩ := hd'
      obtain ⟨g1, g2⟩ := lin_inj r3 q3 r5 q5 (h1.trans h2.symm)
      have : i = j := Prod.ext g1 g2
      rw [this])
    (by
      intro i hi d hd
      obtain ⟨row, r1, r2, r3, r4, r5, r6, r7⟩ := hvis i hi
      simp only [Option.map_eq_some_iff] at hd
      obtain ⟨_, -, h1⟩ := hd
      rw [(e.fn _).property, ← h1]
      exact Nat.lt_of_lt_of_le (lin_lt r3 r5) (sound_sum_le hL))
  have hloop0 : runItems (partLoop0 npart par f alive) items
      (List.replicate (npart.length * bufs.length) 0, (e.fn npart.sum).val) =
      some (addCounts key items (List.replicate (npart.length * bufs.length) 0), pl) := by
    rw [runItems_congr (step' := fetchStep key
      (fun it l m => st m (before (lens L) it.1 + it.2) l) (fun _ m => some m))]
    · rw [runItems_fetch hind]
      · exact congrArg (Option.map fun t =>
          (addCounts key items (List.replicate (npart.length * bufs.length) 0), t)) hpl
      · intro it hi c hc
        obtain ⟨row, r1, r2, r3, r4, r5, r6, r7⟩ := hvis it hi
        simp only [hkey, Option.map_eq_some_iff] at hc
        obtain ⟨p, h1, rfl⟩ := hc
        rw [List.length_replicate]
        exact slot2_lt r4 ((hpart_iff it p).1 h1).1
    · intro it hi s
      obtain ⟨row, r1, r2, r3, r4, r5, r6, r7⟩ := hvis it hi
      unfold partLoop0 fetchStep
      rw [r7, Option.bind_some]
      cases hpi : partIndex alive.length (f it.1 (layOf L it)) with
      | none =>
        have : key it = none := by simp [hkey, hpart, hpi]
        rw [this]; rfl
      | some p =>
        have hpl := (partIndex_eq.1 hpi).1
        have ha := List.getElem?_eq_getElem hpl
        simp only [rd]
        rw [ha, Option.bind_some]
        cases hal : alive[p] with
        | false =>
          have : key it = none := by
            simp only [hkey, hpart, hpi, Option.map_eq_none_iff, Option.filter_eq_none_iff]
            intro a h
            obtain rfl := Option.some.inj h
            rw [ha, hal]
            simp
          rw [this]; rfl
        | true =>
          have : key it = some (p * npart.length + it.1) := by
            simp [hkey, hpart, hpi, ha, hal]
          rw [this, pf.es, loopIdx_eq r2]; rfl
  set counts := addCounts key items (List.replicate (npart.length * bufs.length) 0) with hcounts
  have hclen : counts.length = npart.length * bufs.length := by simp [hcounts, addCounts]
  set Lp : Nat → List (List Nat) := fun px => (List.range npart.length).map
    (selRow L key (fun c => px * npart.length + c) items) with hLp
  have hLplen : ∀ px, (Lp px).length = npart.length := by intro px; simp [hLp]
  have hLpget : ∀ px c, c < npart.length → (Lp px)[c]? =
      some (selRow L key (fun c => px * npart.length + c) items c) := by
    intro px c hc
    simp only [hLp]
    rw [List.getElem?_map, List.getElem?_range hc]; rfl
  have hlenslen : ∀ px, (lens (Lp px)).length = npart.length := by
    intro px; simp only [lens, List.length_map, hLplen]
  have hcv : ∀ px c, px < 0 + bufs.length → c < npart.length →
      counts[px * npart.length + c]? = (lens (Lp px))[c]? := by
    intro px c hpx hc
    rw [lens_get (hLpget px c hc), selRow_length, hcounts, getElem?_addCounts,
      List.getElem?_replicate, if_pos (slot2_lt hc (by omega))]
    simp
  obtain ⟨mids, hm1, hm2, hm3⟩ := partPrepAll_spec e.s1 e.fn hs hcell (fun px => lens (Lp px))
    hlenslen bufs hb 0 (by rw [hclen, Nat.mul_comm, Nat.zero_add]) hcv
  simp only [Nat.zero_add] at hm3
  -- loop_1
  have hmem2 : ∀ it, it ∈ e.s2.order v ↔ it ∈ items := fun it =>
    ((e.s2.perm v).mem_iff).trans (hperm.mem_iff).symm
  have hrow : ∀ it ∈ items, ∀ px, part it = some px →
      (lens (Lp px))[it.1]? = some (selRow L key (fun c => px * npart.length + c) items it.1).length ∧
      rank key items it < (selRow L key (fun c => px * npart.length + c) items it.1).length ∧
      (selRow L key (fun c => px * npart.length + c) items it.1)[rank key items it]? =
        some (layOf L it) := by
    intro it hi px hpx
    obtain ⟨row, r1, r2, r3, r4, r5, r6, r7⟩ := hvis it hi
    have hk := (hkey_iff it hi px it.1 r4).2 ⟨hpx, rfl⟩
    refine ⟨lens_get (hLpget px it.1 r4), ?_, selRow_rank hi hk⟩
    rw [selRow_length]
    exact rank_lt hi hk
  obtain ⟨maps, hmaps, hmapsl, hmapsn, hmapsv⟩ := runItems_invariant
    (step := partLoop1 npart par f bufs.length pl (mids.map (Option.map PartMid.es)))
    (items := e.s2.order v) (s := mids.map (Option.map fun m => m.m.layers))
    (P := fun pre (maps : List (Option (List Nat))) => maps.length = bufs.length ∧
      (∀ (px : Nat) (b : PartBuf), bufs[px]? = some b → b.alive = false → maps[px]? = some none) ∧
      (∀ (px : Nat) (b : PartBuf), bufs[px]? = some b → b.alive = true → ∃ a, maps[px]? = some (some a) ∧
        a.length = (lens (Lp px)).sum ∧ ∀ it ∈ pre, part it = some px →
          a[before (lens (Lp px)) it.1 + rank key items it]? = some (layOf L it)))
    (by
      rintro pre it post maps hitems' ⟨a1, a2, a3⟩
      have hi2 : it ∈ e.s2.order v := by rw [hitems']; simp
      have hsub : ∀ jt ∈ pre, jt ∈ items := fun jt hj => (hmem2 jt).1 (by
        rw [hitems']; exact List.mem_append_left _ hj)
      have hi := (hmem2 it).1 hi2
      obtain ⟨row, r1, r2, r3, r4, r5, r6, r7⟩ := hvis it hi
      have hplr : ∃ l, pl[before (lens L) it.1 + it.2]? = some l := by
        refine ⟨_, List.getElem?_eq_getElem ?_⟩
        rw [hpll, (e.fn _).property]
        exact Nat.lt_of_lt_of_le (lin_lt r3 r5) (sound_sum_le hL)
      obtain ⟨l, hl⟩ := hplr
      unfold partLoop1
      rw [r7, Option.bind_some, pf.es, loopIdx_eq r2, Option.bind_some]
      simp only [rd, hl, Option.bind_some]
      have keep : part it = none → ∃ s' : List (Option (List Nat)), some maps = some s' ∧
          s'.length = bufs.length ∧
          (∀ (px : Nat) (b : PartBuf), bufs[px]? = some b → b.alive = false → s'[px]? = some none) ∧
          (∀ (px : Nat) (b : PartBuf), bufs[px]? = some b → b.alive = true → ∃ a, s'[px]? = some (some a) ∧
            a.length = (lens (Lp px)).sum ∧ ∀ jt ∈ pre ++ [it], part jt = some px →
              a[before (lens (Lp px)) jt.1 + rank key items jt]? = some (layOf L jt)) := by
        intro hnone
        refine ⟨maps, rfl, a1, a2, ?_⟩
        intro px b hpx hal
        obtain ⟨a, b1, b2, b3⟩ := a3 px b hpx hal
        refine ⟨a, b1, b2, ?_⟩
        intro jt hj hpj
        rcases List.mem_append.1 hj with h | h
        · exact b3 jt h hpj
        · rw [List.mem_singleton.1 h, hnone] at hpj
          cases hpj
      cases hpi : partIndex bufs.length (f it.1 (layOf L it)) with
      | none => exact keep (by simp [hpart, halen, hpi])
      | some p =>
        have hp1 := (partIndex_eq.1 hpi).1
        have hbp := List.getElem?_eq_getElem hp1
        have hmp : (mids.map (Option.map PartMid.es))[p]? = (mids[p]?).map (Option.map PartMid.es) := by
          rw [List.getElem?_map]
        cases hal : bufs[p].alive with
        | false =>
          dsimp only
          rw [a2 p _ hbp hal, hmp, (hm3 p _ hbp).1 hal]
          apply keep
          have hap : alive[p]? = some false := by
            simp only [halive, List.getElem?_map, hbp, Option.map_some, hal]
          simp only [hpart, halen, hpi, Option.filter_eq_none_iff]
          intro q hq
          obtain rfl := Option.some.inj hq
          rw [hap]
          simp
        | true =>
          obtain ⟨mid, n1, n2, n3, n4, n5, n6, n7⟩ := (hm3 p _ hbp).2 hal
          obtain ⟨a, b1, b2, b3⟩ := a3 p _ hbp hal
          have hpart_it : part it = some p := (hpart_iff it p).2
            ⟨hp1, (partIndex_eq.1 hpi).2, by
              simp only [halive, List.getElem?_map, hbp, Option.map_some, hal]⟩
          obtain ⟨w1, w2, w3⟩ := hrow it hi p hpart_it
          have hlr : l = rank key items it := by
            have := hplv it hi (before (lens L) it.1 + it.2) (by simp [hkey, hpart_it])
            rw [hl] at this
            exact Option.some.inj this
          have hbe := rd_npartCellEs (npart := lens (Lp p)) (c := it.1)
            (by rw [hlenslen]; exact r4)
          simp only [rd] at hbe
          have hlt : before (lens (Lp p)) it.1 + rank key items it < a.length := by
            rw [b2]; exact lin_lt w1 w2
          dsimp only
          rw [b1, hmp, n1]
          simp only [Option.map_some, Option.bind_some, n4]
          rw [hbe, Option.bind_some, hlr, st_eq_some hlt, Option.bind_some,
            st_eq_some (by omega)]
          refine ⟨_, rfl, by simpa using a1, ?_, ?_⟩
          · intro px b hpx hal'
            by_cases hpp : p = px
            · subst hpp
              rw [hbp] at hpx
              rw [← Option.some.inj hpx, hal] at hal'
              cases hal'
            · rw [List.getElem?_set_ne hpp]
              exact a2 px b hpx hal'
          · intro px b hpx hal'
            by_cases hpp : p = px
            · subst hpp
              refine ⟨_, List.getElem?_set_self (by omega), by simpa using b2, ?_⟩
              intro jt hj hpj
              have hjmem : jt ∈ items := by
                rcases List.mem_append.1 hj with h | h
                · exact hsub jt h
                · rw [List.mem_singleton.1 h]; exact hi
              obtain ⟨u1, u2, u3⟩ := hrow jt hjmem p hpj
              by_cases heq : before (lens (Lp p)) it.1 + rank key items it =
                  before (lens (Lp p)) jt.1 + rank key items jt
              · obtain ⟨g1, g2⟩ := lin_inj w1 u1 w2 u2 heq
                rw [← heq, List.getElem?_set_self hlt]
                rw [← g1, ← g2, w3] at u3
                exact u3
              · rw [List.getElem?_set_ne heq]
                rcases List.mem_append.1 hj with h | h
                · exact b3 jt h hpj
                · exact absurd (by rw [List.mem_singleton.1 h]) heq
            · rw [List.getElem?_set_ne hpp]
              obtain ⟨a', b1', b2', b3'⟩ := a3 px b hpx hal'
              refine ⟨a', b1', b2', ?_⟩
              intro jt hj hpj
              rcases List.mem_append.1 hj with h | h
              · exact b3' jt h hpj
              · rw [List.mem_singleton.1 h, hpart_it] at hpj
                exact absurd (Option.some.inj hpj) hpp)
    (by
      refine ⟨by simp [hm2], ?_, ?_⟩
      · intro px b hpx hal
        rw [List.getElem?_map, (hm3 px b hpx).1 hal]; rfl
      · intro px b hpx hal
        obtain ⟨mid, n1, n2, n3, n4, n5, n6, n7⟩ := (hm3 px b hpx).2 hal
        exact ⟨_, by rw [List.getElem?_map, n1]; rfl, n6, by simp⟩)
  refine ⟨List.zipWith (fun m a => m.bind fun m => a.map fun a =>
    partSelection npart.length m a) mids maps, ?_, ?_, ?_⟩
  · unfold partitionCreate
    simp only
    rw [if_neg hb0]
    simp only [hv, Option.bind_some, ← hitems, ← halive, hloop0, hm1, hmaps]
  · simp [hm2, hmapsl]
  · intro px b hpx
    refine ⟨?_, ?_⟩
    · intro hal
      rw [List.getElem?_zipWith, (hm3 px b hpx).1 hal, hmapsn px b hpx hal]
      rfl
    · intro hal
      obtain ⟨mid, n1, n2, n3, n4, n5, n6, n7⟩ := (hm3 px b hpx).2 hal
      obtain ⟨a, b1, b2, b3⟩ := hmapsv px b hpx hal
      have hpxl : px < bufs.length := (List.getElem?_eq_some_iff.1 hpx).1
      have halp : alive[px]? = some true := by
        simp only [halive, List.getElem?_map, hpx, Option.map_some, hal]
      refine ⟨_, Lp px, by rw [List.getElem?_zipWith, n1, b1]; rfl, ?_, ?_⟩
      · simp only [partSelection, n2, n3, n4, n5, n7]
        apply lists_of
        intro c row' k hr' hk
        have hc : c < npart.length := by rw [← hLplen px]; exact lt_of_row hr'
        rw [hLpget px c hc] at hr'
        obtain rfl := Option.some.inj hr'
        rw [selRow_length] at hk
        obtain ⟨it, i1, i2, i3⟩ := rank_surj hind hk
        obtain ⟨g1, rfl⟩ := (hkey_iff it i1 px c hc).1 i2
        have := b3 it ((hmem2 it).2 i1) g1
        rw [← i3, this, selRow_rank i1 i2]
      · refine ⟨by rw [hLplen, hL.1], ?_⟩
        intro c row row' hr hr'
        have hc : c < npart.length := by rw [← hL.1]; exact lt_of_row hr
        rw [hLpget px c hc] at hr'
        obtain rfl := Option.some.inj hr'
        obtain ⟨hrnd, -⟩ := hL.2 c row _ hr (List.getElem?_eq_getElem hc)
        refine selRow_perm hind hmemi hr hrnd _ ?_
        intro it hi
        rw [hkey_iff it hi px c hc, hpart_iff]
        simp only [decide_eq_true_eq]
        constructor
        · rintro ⟨⟨h1, h2, h3⟩, rfl⟩; exact ⟨rfl, h2⟩
        · rintro ⟨rfl, h2⟩; exact ⟨⟨hpxl, h2, halp⟩, rfl⟩

end NP
