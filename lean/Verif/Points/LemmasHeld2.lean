import Verif.Points.LemmasHeld

/-! # Where each point that another rank added is stored -/

set_option autoImplicit false

namespace NP

variable {α : Type}

/-- What the loops of `add_points_finalise` find. -/
structure HeldOk (n me : Nat) (pts : List (QPoint α)) (h : QpHeld) : Prop where
  wlen : h.write.length = pts.length
  nodup : h.ranks.Nodup
  lt : ∀ r ∈ h.ranks, r < n
  mem : ∀ r, r ∈ h.ranks ↔ r ≠ me ∧ ∃ p ∈ pts, p.rank = r
  clen : h.counts.length = h.ranks.length
  sum : h.counts.sum = h.nremote
  ilen : h.sendIdx.length = h.nremote
  loc : ∀ (i : Nat) (p : QPoint α), pts[i]? = some p → p.rank = me → h.write[i]? = some p.index
  rem : ∀ (i : Nat) (p : QPoint α), pts[i]? = some p → p.rank ≠ me →
    ∃ j k c, h.ranks[j]? = some p.rank ∧ h.counts[j]? = some c ∧ k < c ∧
      h.write[i]? = some ((h.counts.take j).sum + k)
  inj : ∀ (i i' : Nat) (p p' : QPoint α) (w : Nat), pts[i]? = some p → pts[i']? = some p' →
    p.rank ≠ me → p'.rank ≠ me → h.write[i]? = some w → h.write[i']? = some w → i = i'
  surj : ∀ j k c r, h.ranks[j]? = some r → h.counts[j]? = some c → k < c →
    ∃ (i : Nat) (p : QPoint α), pts[i]? = some p ∧ p.rank = r ∧
      h.write[i]? = some ((h.counts.take j).sum + k)
  idx : ∀ (i : Nat) (p : QPoint α) (w : Nat), pts[i]? = some p → p.rank ≠ me →
    h.write[i]? = some w → h.sendIdx[w]? = some p.index

theorem loop1_spec (me : Nat) (pts : List (QPoint α)) {items : List Nat}
    (hp : items.Perm (List.range pts.length)) {starts : List Nat} {remote : List QpRemote}
    {tmp write : List Nat} (hr : remote.length = pts.length) (hw : write.length = pts.length)
    (ht : ∀ (i : Nat) (p : QPoint α), pts[i]? = some p → p.rank ≠ me →
      ∃ t, t < pts.length ∧ tmp[i]? = some t)
    (hs : ∀ p ∈ pts, p.rank < starts.length) :
    ∃ remote' write', runItems (qpStep1 me pts tmp) items (starts, remote, write) =
        some (addCounts (qpKey me pts) items starts, remote', write') ∧
      write'.length = pts.length ∧
      (∀ (i : Nat) (p : QPoint α), pts[i]? = some p → p.rank = me → write'[i]? = some p.index) ∧
      ∀ (i : Nat) (p : QPoint α), pts[i]? = some p → p.rank ≠ me →
        write'[i]? = some (starts.getD p.rank 0 + rank (qpKey me pts) items i) := by
  have hnd : items.Nodup := hp.nodup_iff.2 List.nodup_range
  have hmem : ∀ i ∈ items, ∃ p, pts[i]? = some p := by
    intro i hi
    have := List.mem_range.1 (hp.mem_iff.1 hi)
    exact ⟨pts[i], List.getElem?_eq_getElem this⟩
  have hkn : ∀ i p, pts[i]? = some p → p.rank = me → qpKey me pts i = none := by
    intro i p h1 h2
    unfold qpKey
    rw [h1]; simp [h2]
  let store : Nat → Nat → List QpRemote × List Nat → Option (List QpRemote × List Nat) :=
    fun i v s => (rd tmp i).bind fun t => (rd s.1 t).bind fun q =>
      (st s.1 t { q with write := v }).bind fun remote =>
      (st s.2 i v).bind fun write => some (remote, write)
  let skip : Nat → List QpRemote × List Nat → Option (List QpRemote × List Nat) :=
    fun i s => (rd pts i).bind fun p => (st s.2 i p.index).bind fun write => some (s.1, write)
  have e1 : runItems (qpStep1 me pts tmp) items (starts, remote, write) =
      runItems (fetchStep (qpKey me pts) store skip) items (starts, remote, write) := by
    refine runItems_congr ?_ _
    intro i hi s
    obtain ⟨p, hp1⟩ := hmem i hi
    unfold qpStep1 fetchStep
    by_cases hr : p.rank ≠ me
    · rw [qpKey_some.2 ⟨p, hp1, rfl, hr⟩]
      simp only [rd, hp1, Option.bind_some, if_pos hr, store]
      cases fetchAdd s.1 p.rank with
      | none => rfl
      | some x =>
        simp only [Option.bind_some]
        cases tmp[i]? with
        | none => rfl
        | some t =>
          simp only [Option.bind_some]
          cases s.2.1[t]? with
          | none => rfl
          | some q =>
            simp only [Option.bind_some]
            cases st s.2.1 t { q with write := x.1 } with
            | none => rfl
            | some y =>
              simp only [Option.bind_some]
              cases st s.2.2 i x.1 <;> rfl
    · rw [hkn i p hp1 (by simpa using hr)]
      simp only [rd, hp1, Option.bind_some, if_neg hr, skip]
      cases st s.2.2 i p.index <;> rfl
  rw [e1, runItems_fetch hnd (by
    intro i hi c hc
    obtain ⟨p, p1, p2, p3⟩ := qpKey_some.1 hc
    have := hs p (List.mem_of_getElem? p1)
    omega)]
  let F : Nat → List QpRemote → Option (List QpRemote) := fun i s =>
    match qpKey me pts i with
      | none => some s
      | some c => (rd tmp i).bind fun t => (rd s t).bind fun q =>
        st s t { q with write := starts.getD c 0 + rank (qpKey me pts) items i }
  let W : Nat → Nat := fun i => match qpKey me pts i with
      | none => ((pts[i]?).map QPoint.index).getD 0
      | some c => starts.getD c 0 + rank (qpKey me pts) items i
  obtain ⟨remote', f1, -⟩ := runItems_invariant (step := F) (items := items) (s := remote)
    (P := fun _ s => s.length = pts.length) (by
      intro pre i post s hsplit hs
      cases h : qpKey me pts i with
      | none => exact ⟨s, by simp [F, h], hs⟩
      | some c =>
        obtain ⟨p, p1, p2, p3⟩ := qpKey_some.1 h
        obtain ⟨t, t1, t2⟩ := ht i p p1 (p2 ▸ p3)
        have hts : t < s.length := by omega
        refine ⟨s.set t { s[t] with
            write := starts.getD c 0 + rank (qpKey me pts) items i }, ?_, ?_⟩
        · simp only [F, h, rd, t2, Option.bind_some, List.getElem?_eq_getElem hts]
          exact st_eq_some hts
        · simpa using hs) hr
  obtain ⟨write', g1, g2, g3, -⟩ := runItems_put (items := items) (m := write)
    (step := fun i s => st s i (W i)) (fun i => some i) W (by
      intro i hi a ha; rfl) (by
      intro i hi j hj d h1 h2
      simp only [Option.some.injEq] at h1 h2
      rw [h1, h2]) (by
      intro i hi d h1
      simp only [Option.some.injEq] at h1
      have := List.mem_range.1 (hp.mem_iff.1 hi)
      omega)
  rw [runItems_prod (f := F) (g := fun i s => st s i (W i)) (s' := remote') (t' := write') (by
      intro i hi s t
      obtain ⟨p, hp1⟩ := hmem i hi
      cases h : qpKey me pts i with
      | none =>
        simp only [skip, rd, hp1, Option.bind_some, F, W, h, Option.map_some, Option.getD_some]
      | some c =>
        simp only [store, rd, Option.bind_some, F, W, h]
        cases tmp[i]? with
        | none => rfl
        | some u =>
          simp only [Option.bind_some]
          cases s[u]? with
          | none => rfl
          | some q => rfl) f1 g1]
  refine ⟨remote', write', rfl, by omega, ?_, ?_⟩
  · intro i p h1 h2
    have hi : i ∈ items := hp.mem_iff.2 (List.mem_range.2 (List.getElem?_eq_some_iff.1 h1).1)
    rw [g3 i hi i rfl]
    simp [W, hkn i p h1 h2, h1]
  · intro i p h1 h2
    have hi : i ∈ items := hp.mem_iff.2 (List.mem_range.2 (List.getElem?_eq_some_iff.1 h1).1)
    rw [g3 i hi i rfl]
    simp [W, qpKey_some.2 ⟨p, h1, rfl, h2⟩]

theorem keyCount_eq_filterMap {ι : Type} (key : ι → Option Nat) (items : List ι) (r : Nat) :
    keyCount key items r = ((items.filterMap key).filter fun x => x = r).length := by
  unfold keyCount
  induction items with
  | nil => rfl
  | cons i is ih =>
    cases h : key i with
    | none => rw [List.filterMap_cons_none h, List.filter_cons_of_neg (by simp [h]), ih]
    | some c =>
      rw [List.filterMap_cons_some h]
      by_cases hc : c = r
      · subst hc
        rw [List.filter_cons_of_pos (by simp [h]), List.filter_cons_of_pos (by simp),
          List.length_cons, List.length_cons, ih]
      · rw [List.filter_cons_of_neg (by simp [h, hc]), List.filter_cons_of_neg (by simp [hc]), ih]

/-- The loops succeed and find what is needed. -/
theorem qpHeld_ok (e : QpEnv α) {n me : Nat} {pts : List (QPoint α)}
    (hlt : ∀ p ∈ pts, p.rank < n) : ∃ h, qpHeld e n me pts = some h ∧ HeldOk n me pts h := by
  have hp0 := e.s0.perm (List.range pts.length)
  have hp1 := e.s1.perm (List.range pts.length)
  have hp2 := e.s2.perm (List.range pts.length)
  obtain ⟨remote, tmp, a1, a2, a3, a4, a5, L, a6, a7, a8⟩ := loop0_spec me pts hp0
    (e.remote pts.length).2 (e.tmp pts.length).2
  generalize hK : keyCount (qpKey0 me pts) (e.s0.order (List.range pts.length)) 0 = K at *
  obtain ⟨m, hm⟩ : ∃ m, m = L.foldl (fun m p => mapPush p.rank p.index m) [] := ⟨_, rfl⟩
  obtain ⟨m1, m2, m3, m4⟩ := group_spec L hm
  -- ranks and counts
  have hranks : ∀ r, r ∈ m.map Prod.fst ↔ r ≠ me ∧ ∃ p ∈ pts, p.rank = r := by
    intro r
    rw [m2]
    have : (∃ p ∈ L, p.rank = r) ↔ r ∈ L.map QpRemote.rank := by
      rw [List.mem_map]
    rw [this, a8, List.mem_filterMap]
    constructor
    · rintro ⟨i, hi, hk⟩
      obtain ⟨p, q1, q2, q3⟩ := qpKey_some.1 hk
      exact ⟨q3, p, List.mem_of_getElem? q1, q2⟩
    · rintro ⟨h1, p, h2, h3⟩
      obtain ⟨i, hi⟩ := List.mem_iff_getElem?.1 h2
      exact ⟨i, hp0.mem_iff.2 (List.mem_range.2 (List.getElem?_eq_some_iff.1 hi).1),
        qpKey_some.2 ⟨p, hi, h3, h1⟩⟩
  have hrlt : ∀ r ∈ m.map Prod.fst, r < n := by
    intro r hr
    obtain ⟨-, p, h1, rfl⟩ := (hranks r).1 hr
    exact hlt p h1
  have hndm : (m.map Prod.fst).Nodup := m1.imp (fun h => Nat.ne_of_lt h)
  have hcnt : ∀ (j r c : Nat), (m.map Prod.fst)[j]? = some r → (m.map fun x => x.2.length)[j]? = some c →
      c = keyCount (qpKey me pts) (e.s1.order (List.range pts.length)) r := by
    intro j r c h1 h2
    rw [List.getElem?_map] at h1 h2
    obtain ⟨x, x1, rfl⟩ := Option.map_eq_some_iff.1 h1
    rw [x1] at h2
    simp only [Option.map_some, Option.some.injEq] at h2
    rw [← h2, mapCount_of_mem m1 (List.mem_of_getElem? x1), m3,
      keyCount_perm (hp1.trans hp0.symm), keyCount_eq_filterMap, ← a8]
    rw [List.filter_map, List.length_map]
    rfl
  obtain ⟨ranks, hrk⟩ : ∃ ranks, ranks = m.map Prod.fst := ⟨_, rfl⟩
  obtain ⟨counts, hct⟩ : ∃ counts, counts = m.map fun x => x.2.length := ⟨_, rfl⟩
  have hlen : counts.length = ranks.length := by rw [hct, hrk]; simp
  rw [← hrk] at hranks hrlt hndm hcnt
  rw [← hct] at hcnt m4
  have hstart : ∀ j, j < ranks.length → (exclusiveFrom 0 counts)[j]? = some ((counts.take j).sum) := by
    intro j hj
    rw [getElem?_exclusiveFrom _ _ _ (by omega), Nat.zero_add]
  -- the starts
  obtain ⟨starts, s1, s2, s3, -⟩ := runItems_put (items := List.range ranks.length)
    (m := List.replicate n 0)
    (step := fun rx arr => (rd ranks rx).bind fun r => (rd (exclusiveFrom 0 counts) rx).bind
      fun s => st arr r s)
    (fun j => ranks[j]?) (fun j => (counts.take j).sum) (by
      intro j hj a ha
      have hj := List.mem_range.1 hj
      simp only [rd, hstart j hj, List.getElem?_eq_getElem hj, Option.bind_some]) (by
      intro i hi j hj d h1 h2
      have : i = j := (List.getElem?_inj (List.getElem?_eq_some_iff.1 h1).1 hndm).1 (h1.trans h2.symm)
      rw [this]) (by
      intro i hi d h1
      simpa using hrlt d (List.mem_of_getElem? h1))
  obtain ⟨remote', write, b1, b2, b3, b4⟩ := loop1_spec me pts hp1 (starts := starts)
    (remote := remote) (tmp := tmp) (write := (e.write pts.length).1) a2 (e.write pts.length).2
    (fun i p h1 h2 => by
      obtain ⟨t, t1, t2⟩ := a5 i p h1 h2
      exact ⟨t, by omega, t2⟩)
    (fun p hp => by rw [s2]; simpa using hlt p hp)
  have hs3 : ∀ (j r : Nat), ranks[j]? = some r → starts[r]? = some ((counts.take j).sum) := by
    intro j r h1
    exact s3 j (List.mem_range.2 (List.getElem?_eq_some_iff.1 h1).1) r h1
  have hrem : ∀ (i : Nat) (p : QPoint α), pts[i]? = some p → p.rank ≠ me →
      ∃ j c, ranks[j]? = some p.rank ∧ counts[j]? = some c ∧
        rank (qpKey me pts) (e.s1.order (List.range pts.length)) i < c ∧
        write[i]? = some ((counts.take j).sum +
          rank (qpKey me pts) (e.s1.order (List.range pts.length)) i) := by
    intro i p h1 h2
    obtain ⟨j, hj⟩ := List.mem_iff_getElem?.1 ((hranks p.rank).2 ⟨h2, p, List.mem_of_getElem? h1, rfl⟩)
    have hj' : j < counts.length := by rw [hlen]; exact (List.getElem?_eq_some_iff.1 hj).1
    have hi : i ∈ e.s1.order (List.range pts.length) :=
      hp1.mem_iff.2 (List.mem_range.2 (List.getElem?_eq_some_iff.1 h1).1)
    refine ⟨j, counts[j], hj, List.getElem?_eq_getElem hj', ?_, ?_⟩
    · rw [hcnt j p.rank _ hj (List.getElem?_eq_getElem hj')]
      exact rank_lt hi (qpKey_some.2 ⟨p, h1, rfl, h2⟩)
    · rw [b4 i p h1 h2, List.getD_eq_getElem?_getD, hs3 j p.rank hj]
      rfl
  have hinj : ∀ (i i' : Nat) (p p' : QPoint α) (w : Nat), pts[i]? = some p → pts[i']? = some p' →
      p.rank ≠ me → p'.rank ≠ me → write[i]? = some w → write[i']? = some w → i = i' := by
    intro i i' p p' w h1 h2 h3 h4 h5 h6
    obtain ⟨j, c, j1, j2, j3, j4⟩ := hrem i p h1 h3
    obtain ⟨j', c', k1, k2, k3, k4⟩ := hrem i' p' h2 h4
    rw [h5] at j4; rw [h6] at k4
    have hh := (Option.some.inj j4).symm.trans (Option.some.inj k4)
    obtain ⟨q1, q2⟩ := segment_unique j2 k2 j3 k3 hh
    subst q1
    rw [j1] at k1
    have hrr := Option.some.inj k1
    refine rank_inj ?_ (qpKey_some.2 ⟨p, h1, rfl, h3⟩) (qpKey_some.2 ⟨p', h2, hrr.symm, h3⟩) q2
    exact hp1.mem_iff.2 (List.mem_range.2 (List.getElem?_eq_some_iff.1 h1).1)
  -- the ends
  have hends : (ranks.mapM fun r => rd (addCounts (qpKey me pts)
      (e.s1.order (List.range pts.length)) starts) r) =
      some (List.zipWith (· + ·) (exclusiveFrom 0 counts) counts) := by
    rw [mapM_of_forall (g := fun r => starts.getD r 0 + keyCount (qpKey me pts)
      (e.s1.order (List.range pts.length)) r)]
    · congr 1
      apply List.ext_getElem?
      intro j
      by_cases hj : j < ranks.length
      · have hj' : j < counts.length := by omega
        have hjr := List.getElem?_eq_getElem hj
        rw [List.getElem?_map, hjr, Option.map_some, List.getElem?_zipWith, hstart j hj,
          List.getElem?_eq_getElem hj', List.getD_eq_getElem?_getD, hs3 j _ hjr,
          ← hcnt j _ _ hjr (List.getElem?_eq_getElem hj')]
        rfl
      · rw [List.getElem?_eq_none (by simp; omega), List.getElem?_eq_none (by simp; omega)]
    · intro r hr
      obtain ⟨j, hj⟩ := List.mem_iff_getElem?.1 hr
      rw [rd, getElem?_addCounts, hs3 j r hj, List.getD_eq_getElem?_getD, hs3 j r hj]
      rfl
  -- the indices
  obtain ⟨sendIdx, d1, d2, d3, -⟩ := runItems_put
    (items := e.s2.order (List.range pts.length)) (m := (e.idx K).1)
    (step := qpStep2 me pts write)
    (fun i => (qpKey me pts i).bind fun _ => write[i]?)
    (fun i => ((pts[i]?).map QPoint.index).getD 0) (by
      intro i hi a ha
      have hi := List.mem_range.1 (hp2.mem_iff.1 hi)
      have h1 := List.getElem?_eq_getElem hi
      unfold qpStep2
      simp only [rd, h1, Option.bind_some, Option.map_some, Option.getD_some]
      by_cases hr : pts[i].rank ≠ me
      · rw [if_pos hr, qpKey_some.2 ⟨_, h1, rfl, hr⟩]
        have hw : i < write.length := by omega
        rw [List.getElem?_eq_getElem hw]
        rfl
      · rw [if_neg hr]
        have : qpKey me pts i = none := by unfold qpKey; rw [h1, Option.bind_some, if_neg hr]
        rw [this]; rfl) (by
      intro i hi j hj d h1 h2
      obtain ⟨r, r1, r2⟩ := Option.bind_eq_some_iff.1 h1
      obtain ⟨r', r3, r4⟩ := Option.bind_eq_some_iff.1 h2
      obtain ⟨p, p1, p2, p3⟩ := qpKey_some.1 r1
      obtain ⟨p', p4, p5, p6⟩ := qpKey_some.1 r3
      rw [hinj i j p p' d p1 p4 (p2 ▸ p3) (p5 ▸ p6) r2 r4]) (by
      intro i hi d h1
      obtain ⟨r, r1, r2⟩ := Option.bind_eq_some_iff.1 h1
      obtain ⟨p, p1, p2, p3⟩ := qpKey_some.1 r1
      obtain ⟨j, c, j1, j2, j3, j4⟩ := hrem i p p1 (p2 ▸ p3)
      rw [r2] at j4
      have := segment_lt j2 j3
      rw [(e.idx K).2]
      rw [← Option.some.inj j4] at this
      omega)
  refine ⟨⟨write, K, ranks, counts, sendIdx⟩, ?_, ?_⟩
  · unfold qpHeld
    dsimp only
    rw [a1, Option.bind_some]
    simp only [rd, List.getElem?_cons_zero, Option.bind_some]
    rw [a6, Option.bind_some, ← hm, ← hrk, ← hct]
    simp only [rd] at s1
    rw [s1, Option.bind_some, b1, Option.bind_some]
    simp only [rd] at hends
    rw [hends, Option.bind_some, if_pos rfl, d1]
    rfl
  · refine ⟨b2, hndm, hrlt, hranks, hlen, ?_, ?_, b3, ?_, hinj, ?_, ?_⟩
    · show counts.sum = K
      omega
    · rw [d2, (e.idx K).2]
    · intro i p h1 h2
      obtain ⟨j, c, j1, j2, j3, j4⟩ := hrem i p h1 h2
      exact ⟨j, _, c, j1, j2, j3, j4⟩
    · intro j k c r h1 h2 h3
      change ranks[j]? = some r at h1
      change counts[j]? = some c at h2
      rw [hcnt j r c h1 h2] at h3
      obtain ⟨i, i1, i2, i3⟩ := rank_surj (hp1.nodup_iff.2 List.nodup_range) h3
      obtain ⟨p, p1, p2, p3⟩ := qpKey_some.1 i2
      refine ⟨i, p, p1, p2, ?_⟩
      show write[i]? = some ((counts.take j).sum + k)
      rw [b4 i p p1 (p2 ▸ p3), i3, p2, List.getD_eq_getElem?_getD, hs3 j r h1]
      rfl
    · intro i p w h1 h2 h3
      have hi : i ∈ e.s2.order (List.range pts.length) :=
        hp2.mem_iff.2 (List.mem_range.2 (List.getElem?_eq_some_iff.1 h1).1)
      have := d3 i hi w (by rw [qpKey_some.2 ⟨p, h1, rfl, h2⟩]; exact h3)
      rw [h1] at this
      exact this

end NP
