import Verif.Move.LemmasPrepare
import Verif.Comm.LemmasSet
import Mathlib.Data.List.Nodup

/-! # Lemmas about `LocalMove` -/

set_option autoImplicit false

namespace NP

open Spec

/-! ## Construction -/

theorem localSendRanks_spec {n own : Nat} {ranks : List Int}
    (h : ∀ x ∈ ranks, 0 ≤ x ∧ x < (n : Int)) :
    ∃ s, localSendRanks n own ranks = some s ∧ s.Nodup ∧
      ∀ t : Nat, t ∈ s ↔ t ≠ own ∧ (t : Int) ∈ ranks := by
  obtain ⟨s, h1, h2, h3⟩ := runItems_invariant (items := ranks) (s := ([] : List Int))
    (step := fun (x : Int) (s : List Int) =>
      if x ≥ 0 ∧ x < (n : Int) then some (if x ≠ (own : Int) then rankSetInsert x s else s)
      else none)
    (P := fun pre s => IsSet s ∧ ∀ x, x ∈ s ↔ x ∈ pre ∧ x ≠ (own : Int))
    (by
      intro pre x post s he ⟨k1, k2⟩
      have hx := h x (by rw [he]; simp)
      refine ⟨_, if_pos ⟨hx.1, hx.2⟩, ?_⟩
      by_cases ho : x = (own : Int)
      · rw [if_neg (by simpa using ho)]
        refine ⟨k1, ?_⟩
        intro y
        rw [k2, List.mem_append, List.mem_singleton]
        constructor
        · rintro ⟨a, b⟩; exact ⟨Or.inl a, b⟩
        · rintro ⟨a | a, b⟩
          · exact ⟨a, b⟩
          · exact absurd (a.trans ho) b
      · rw [if_pos ho]
        refine ⟨isSet_rankSetInsert k1, ?_⟩
        intro y
        rw [mem_rankSetInsert, k2, List.mem_append, List.mem_singleton]
        constructor
        · rintro (rfl | ⟨a, b⟩)
          · exact ⟨Or.inr rfl, ho⟩
          · exact ⟨Or.inl a, b⟩
        · rintro ⟨a | a, b⟩
          · exact Or.inr ⟨a, b⟩
          · exact Or.inl a)
    ⟨List.Pairwise.nil, by simp⟩
  have hpos : ∀ x ∈ s, 0 ≤ x := fun x hx => (h x ((h3 x).1 hx).1).1
  refine ⟨s.map Int.toNat, ?_, ?_, ?_⟩
  · unfold localSendRanks
    rw [h1, Option.bind_some]
    exact mapM_of_forall fun x hx => by simp [index, hpos x hx]
  · refine List.Nodup.map_on ?_ (h2.imp fun hab => by omega)
    intro x hx y hy hxy
    have := hpos x hx
    have := hpos y hy
    omega
  · intro t
    rw [List.mem_map]
    constructor
    · rintro ⟨x, hx, rfl⟩
      have h0 := hpos x hx
      obtain ⟨a, b⟩ := (h3 x).1 hx
      rw [Int.toNat_of_nonneg h0]
      exact ⟨fun hc => b (by omega), a⟩
    · rintro ⟨a, b⟩
      exact ⟨(t : Int), (h3 _).2 ⟨b, by omega⟩, by simp⟩

/-- A rank that does not exist ends the program. -/
theorem localSendRanks_none {n own : Nat} {ranks : List Int}
    (h : ∃ x ∈ ranks, ¬ (0 ≤ x ∧ x < (n : Int))) : localSendRanks n own ranks = none := by
  unfold localSendRanks
  have key : ∀ (l : List Int) (s : List Int), (∃ x ∈ l, ¬ (0 ≤ x ∧ x < (n : Int))) →
      runItems (fun (x : Int) (s : List Int) =>
        if x ≥ 0 ∧ x < (n : Int) then some (if x ≠ (own : Int) then rankSetInsert x s else s)
        else none) l s = none := by
    intro l
    induction l with
    | nil => intro s hs; simp at hs
    | cons a l ih =>
      intro s hs
      rw [runItems_cons]
      by_cases ha : a ≥ 0 ∧ a < (n : Int)
      · rw [if_pos ha, Option.bind_some]
        refine ih _ ?_
        obtain ⟨x, hx, hb⟩ := hs
        rcases List.mem_cons.1 hx with rfl | hx
        · exact absurd ha hb
        · exact ⟨x, hx, hb⟩
      · rw [if_neg ha]; rfl
  rw [key ranks [] h]
  rfl

theorem localRankMap_spec {n : Nat} {fresh sendRanks : List Nat} (hf : fresh.length = n)
    (hlt : ∀ t ∈ sendRanks, t < n) (hnd : sendRanks.Nodup) :
    ∃ map, localRankMap fresh sendRanks = some map ∧
      ∀ i t : Nat, sendRanks[i]? = some t → map[t]? = some i := by
  obtain ⟨map, h1, h2, h3, -⟩ := runItems_put (items := sendRanks.zipIdx) (m := fresh)
    (step := fun (ri : Nat × Nat) map => st map ri.1 ri.2) (fun ri => some ri.1) (fun ri => ri.2)
    (fun _ _ _ _ => rfl)
    (by
      rintro ⟨a, i⟩ hi ⟨b, j⟩ hj d h1 h2
      have h1' := List.mem_zipIdx_iff_getElem?.1 hi
      have h2' := List.mem_zipIdx_iff_getElem?.1 hj
      simp only [Option.some.injEq] at h1 h2
      dsimp only at h1' h2'
      rw [h1] at h1'
      rw [h2] at h2'
      exact (List.getElem?_inj (List.getElem?_eq_some_iff.1 h1').1 hnd).1 (h1'.trans h2'.symm))
    (by
      rintro ⟨a, i⟩ hi d h1
      simp only [Option.some.injEq] at h1
      have h1' := List.mem_zipIdx_iff_getElem?.1 hi
      have := hlt a (List.mem_of_getElem? h1')
      omega)
  refine ⟨map, h1, ?_⟩
  intro i t ht
  exact h3 (t, i) (List.mem_zipIdx_iff_getElem?.2 ht) t rfl

/-- The sends that tell other ranks about this one. -/
def rankSends (sendRanks : Nat → List Nat) (f : Nat × Nat → Nat) (s : Nat) : List (OutMsg Nat) :=
  (sendRanks s).zipIdx.map fun ri => ⟨ri.1, f (s, ri.2), s⟩

theorem mem_rankSends {sendRanks : Nat → List Nat} {f : Nat × Nat → Nat} {s : Nat}
    {o : OutMsg Nat} : o ∈ rankSends sendRanks f s ↔
      ∃ i, (sendRanks s)[i]? = some o.dst ∧ o.tag = f (s, i) ∧ o.data = s := by
  unfold rankSends
  rw [List.mem_map]
  constructor
  · rintro ⟨⟨t, i⟩, hm, rfl⟩
    exact ⟨i, List.mem_zipIdx_iff_getElem?.1 hm, rfl, rfl⟩
  · rintro ⟨i, h1, h2, h3⟩
    refine ⟨(o.dst, i), List.mem_zipIdx_iff_getElem?.2 h1, ?_⟩
    obtain ⟨a, b, c⟩ := o
    dsimp only at h1 h2 h3 ⊢
    rw [h2, h3]

theorem length_inbox_rankSends (n : Nat) (sendRanks : Nat → List Nat) (f : Nat × Nat → Nat)
    (r : Nat) : (inbox n (rankSends sendRanks f) r).length =
      ((List.range n).map fun s => (sendRanks s).count r).sum := by
  unfold inbox rankSends
  rw [List.length_flatMap]
  congr 1
  apply List.map_congr_left
  intro s _
  have key : ∀ (l : List Nat) (k : Nat), (((l.zipIdx k).map fun ri =>
      (⟨ri.1, f (s, ri.2), s⟩ : OutMsg Nat)).filterMap fun m =>
        if m.dst = r then some (⟨s, m.tag, m.data⟩ : InMsg Nat) else none).length = l.count r := by
    intro l
    induction l with
    | nil => intro k; rfl
    | cons a l ih =>
      intro k
      rw [List.zipIdx_cons, List.map_cons, List.count_cons, List.filterMap_cons]
      by_cases ha : a = r
      · rw [if_pos ha]
        simp only [List.length_cons]
        rw [ih]
        simp [ha]
      · rw [if_neg ha]
        simp only
        rw [ih]
        simp [ha]
  exact key _ 0

theorem localSetup_spec {n : Nat} (order : Sched) (arrive : Nat → Sched) {fresh : Nat → List Nat}
    (hf : ∀ r, r < n → (fresh r).length = n) {ranks : Nat → List Int}
    (h : ∀ r, r < n → ∀ x ∈ ranks r, 0 ≤ x ∧ x < (n : Int)) :
    ∃ out, localSetup n order arrive fresh ranks = some out ∧ out.length = n ∧
      ∀ r, r < n → ∃ p, out[r]? = some p ∧ PatternOk n ranks r p := by
  have hs : ∀ r, r < n → ∃ s, localSendRanks n r (ranks r) = some s ∧ s.Nodup ∧
      ∀ t : Nat, t ∈ s ↔ t ≠ r ∧ (t : Int) ∈ ranks r := fun r hr => localSendRanks_spec (h r hr)
  choose! sr s1 s2 s3 using hs
  let S : Nat → List Nat := fun r => ((List.range n).map sr).getD r []
  have hS : ∀ r, r < n → S r = sr r := by intro r hr; simp [S, hr]
  have hlt : ∀ s, s < n → ∀ t ∈ S s, t < n := by
    intro s hs t ht
    rw [hS s hs] at ht
    have := h s hs t ((s3 s hs t).1 ht).2
    omega
  have hnd : ∀ s, s < n → (S s).Nodup := fun s hs => by rw [hS s hs]; exact s2 s hs
  obtain ⟨ctr, f, c1, c2, c3, c4, c5⟩ := rmaCount_spec order hlt
  -- the messages
  have hdel : ∀ r, r < n → ∃ got, exchange n arrive
      (fun r => (List.range (ctr.getD r 0)).map fun i => (⟨none, i⟩ : Slot)) (rankSends S f) r =
        some got ∧ got.Perm (inbox n (rankSends S f) r) := by
    intro r hr
    have hc : ctr.getD r 0 = ((List.range n).map fun s => (S s).count r).sum := by
      rw [List.getD_eq_getElem?_getD, c3 r hr]; rfl
    have hin : ∀ m ∈ inbox n (rankSends S f) r, m.src < n ∧ ∃ i, (S m.src)[i]? = some r ∧
        m.tag = f (m.src, i) ∧ m.data = m.src := by
      intro m hm
      obtain ⟨a, b⟩ := mem_inbox.1 hm
      exact ⟨a, mem_rankSends.1 b⟩
    have hkn : ((inbox n (rankSends S f) r).map fun m => (m.src, m.tag)).Nodup := by
      refine inbox_keys_nodup ?_
      intro s hs
      unfold rankSends
      rw [List.map_map]
      refine List.Nodup.map_on ?_ (List.Nodup.of_map Prod.fst (by
        rw [List.zipIdx_map_fst]; exact hnd s hs))
      rintro ⟨a, i⟩ ha ⟨b, j⟩ hb hab
      simp only [Function.comp_apply, Prod.mk.injEq] at hab
      have ha' := List.mem_zipIdx_iff_getElem?.1 ha
      have hb' := List.mem_zipIdx_iff_getElem?.1 hb
      dsimp only at ha' hb'
      rw [← hab.1] at hb'
      have := (c5 s i s j a hs ha' hs hb' hab.2).2
      rw [hab.1, this]
    have htag : ((inbox n (rankSends S f) r).map InMsg.tag).Nodup := by
      refine List.Nodup.map_on ?_ (List.Nodup.of_map _ hkn)
      intro m hm m' hm' he
      obtain ⟨a1, i, a2, a3, a4⟩ := hin m hm
      obtain ⟨b1, j, b2, b3, b4⟩ := hin m' hm'
      have := c5 _ _ _ _ r a1 a2 b1 b2 (by rw [← a3, ← b3, he])
      obtain ⟨x1, x2, x3⟩ := m
      obtain ⟨y1, y2, y3⟩ := m'
      dsimp only at *
      simp only [InMsg.mk.injEq]
      exact ⟨this.1, he, by rw [a4, b4, this.1]⟩
    have hperm : ((inbox n (rankSends S f) r).map InMsg.tag).Perm (List.range (ctr.getD r 0)) := by
      refine (htag.subperm ?_).perm_of_length_le ?_
      · intro t ht
        obtain ⟨m, hm, rfl⟩ := List.mem_map.1 ht
        obtain ⟨a1, i, a2, a3, a4⟩ := hin m hm
        rw [List.mem_range, hc, a3]
        exact c4 _ _ r a1 a2
      · rw [List.length_range, List.length_map, length_inbox_rankSends, hc]
    obtain ⟨got, d1, d2, -⟩ := deliver_keys (kf := fun m : InMsg Nat => m.tag)
      (ks := fun s : Slot => s.tag)
      (slots := (List.range (ctr.getD r 0)).map fun i => (⟨none, i⟩ : Slot))
      (arr := (arrive r).order (inbox n (rankSends S f) r))
      (by
        intro s hs m _
        obtain ⟨i, -, rfl⟩ := List.mem_map.1 hs
        simp only [Slot.accepts, Bool.true_and, beq_iff_eq]
        exact eq_comm)
      (by
        rw [List.map_map]
        simpa [Function.comp_def] using List.nodup_range)
      (by
        rw [List.map_map]
        refine (((arrive r).perm _).map _).trans (hperm.trans (List.Perm.of_eq ?_))
        simp [Function.comp_def])
    exact ⟨got, d1, d2.trans ((arrive r).perm _)⟩
  choose! got g1 g2 using hdel
  have hmap : ∀ r, r < n → ∃ map, localRankMap (fresh r) (S r) = some map ∧
      ∀ i t : Nat, (S r)[i]? = some t → map[t]? = some i :=
    fun r hr => localRankMap_spec (hf r hr) (hlt r hr) (hnd r hr)
  choose! mp m1 m2 using hmap
  refine ⟨(List.range n).map fun r => ⟨S r, (got r).map InMsg.data, mp r⟩, ?_, by simp, ?_⟩
  · unfold localSetup
    rw [mapM_of_forall (g := sr) fun r hr => s1 r (List.mem_range.1 hr), Option.bind_some]
    show (rmaCount n order S).bind _ = _
    rw [c1, Option.bind_some]
    show (exchangeAll n arrive (fun r => (List.range (ctr.getD r 0)).map fun i => ⟨none, i⟩)
      (rankSends S f)).bind _ = _
    rw [exchangeAll_of (got := got) ?_ g1, Option.bind_some]
    · apply mapM_of_forall
      intro r hr
      rw [List.mem_range] at hr
      simp only [rd, List.getElem?_map, List.getElem?_range hr, Option.map_some, Option.bind_some]
      show (localRankMap (fresh r) (S r)).bind _ = _
      rw [m1 r hr]
      rfl
    · intro s hs o ho
      obtain ⟨i, hi, -, -⟩ := mem_rankSends.1 ho
      exact hlt s hs _ (List.mem_of_getElem? hi)
  · intro r hr
    refine ⟨_, by rw [List.getElem?_map, List.getElem?_range hr]; rfl, ?_⟩
    refine ⟨hnd r hr, ?_, ?_, ?_, m2 r hr⟩
    · intro t
      show t ∈ S r ↔ _
      rw [hS r hr]
      exact s3 r hr t
    · show ((got r).map InMsg.data).Nodup
      refine (((g2 r hr).map _).nodup_iff).2 ?_
      have : (inbox n (rankSends S f) r).map InMsg.data =
          ((inbox n (rankSends S f) r).map fun m => (m.src, m.tag)).map Prod.fst := by
        rw [List.map_map]
        apply List.map_congr_left
        intro m hm
        obtain ⟨-, b⟩ := mem_inbox.1 hm
        obtain ⟨i, -, -, b4⟩ := mem_rankSends.1 b
        exact b4
      rw [this]
      have hsrc : ∀ m ∈ inbox n (rankSends S f) r, m.src < n ∧ ∃ i, (S m.src)[i]? = some r ∧
          m.tag = f (m.src, i) := by
        intro m hm
        obtain ⟨a, b⟩ := mem_inbox.1 hm
        obtain ⟨i, b1, b2, -⟩ := mem_rankSends.1 b
        exact ⟨a, i, b1, b2⟩
      refine List.Nodup.map_on ?_ ?_
      · intro x hx y hy hxy
        obtain ⟨m, hm, rfl⟩ := List.mem_map.1 hx
        obtain ⟨m', hm', rfl⟩ := List.mem_map.1 hy
        obtain ⟨a1, i, a2, a3⟩ := hsrc m hm
        obtain ⟨b1, j, b2, b3⟩ := hsrc m' hm'
        dsimp only at hxy
        rw [← hxy] at b2 b3
        have : i = j := (List.getElem?_inj (List.getElem?_eq_some_iff.1 a2).1 (hnd _ a1)).1
          (a2.trans b2.symm)
        rw [Prod.mk.injEq]
        exact ⟨hxy, by rw [a3, b3, this]⟩
      · refine inbox_keys_nodup ?_
        intro s hs
        unfold rankSends
        rw [List.map_map]
        refine List.Nodup.map_on ?_ (List.Nodup.of_map Prod.fst (by
          rw [List.zipIdx_map_fst]; exact hnd s hs))
        rintro ⟨a, i⟩ ha ⟨b, j⟩ hb hab
        simp only [Function.comp_apply, Prod.mk.injEq] at hab
        have ha' := List.mem_zipIdx_iff_getElem?.1 ha
        have hb' := List.mem_zipIdx_iff_getElem?.1 hb
        dsimp only at ha' hb'
        rw [← hab.1] at hb'
        have := (c5 s i s j a hs ha' hs hb' hab.2).2
        rw [hab.1, this]
    · intro s
      show s ∈ (got r).map InMsg.data ↔ _
      rw [((g2 r hr).map _).mem_iff, List.mem_map]
      constructor
      · rintro ⟨m, hm, rfl⟩
        obtain ⟨a, b⟩ := mem_inbox.1 hm
        obtain ⟨i, b1, -, b3⟩ := mem_rankSends.1 b
        dsimp only at b1 b3
        rw [b3]
        have := (s3 _ a r).1 (by rw [← hS _ a]; exact List.mem_of_getElem? b1)
        exact ⟨a, fun hc => this.1 hc.symm, this.2⟩
      · rintro ⟨hs, hne, hm⟩
        have hm' := (s3 s hs r).2 ⟨fun hc => hne hc.symm, hm⟩
        rw [← hS s hs] at hm'
        obtain ⟨i, hi⟩ := List.mem_iff_getElem?.1 hm'
        refine ⟨⟨s, f (s, i), s⟩, mem_inbox.2 ⟨hs, mem_rankSends.2 ⟨i, hi, rfl, rfl⟩⟩, rfl⟩

/-! ## Preparation -/

/-- The counters that are left when those of the known ranks are set to zero. -/
theorem zeroCounts_spec {sendRanks counts : List Nat} (hlt : ∀ t ∈ sendRanks, t < counts.length) :
    ∃ rest, runItems (fun r a => st a r 0) sendRanks counts = some rest ∧
      rest.length = counts.length ∧ (∀ t ∈ sendRanks, rest[t]? = some 0) ∧
      ∀ t, t ∉ sendRanks → rest[t]? = counts[t]? := by
  obtain ⟨rest, h1, h2, h3, h4⟩ := runItems_put (items := sendRanks) (m := counts)
    (step := fun r a => st a r 0) (fun r => some r) (fun _ => 0) (fun _ _ _ _ => rfl)
    (fun _ _ _ _ _ _ _ => rfl)
    (by
      intro i hi d hd
      simp only [Option.some.injEq] at hd
      have := hlt i hi
      omega)
  refine ⟨rest, h1, h2, fun t ht => h3 t ht t rfl, fun t ht => h4 t ?_⟩
  intro i hi he
  simp only [Option.some.injEq] at he
  exact ht (he ▸ hi)

theorem localPrepare_spec {e : Env} {size own : Nat} {map0 : List Nat} {g : Group}
    (h : CanMove size own 1 e map0 g) (hsize : 0 < size) (aware : Bool) (nReal : Nat)
    {pat : LocalPattern} (hnd : pat.sendRanks.Nodup) (hlt : ∀ t ∈ pat.sendRanks, t < size)
    (hmap : ∀ i t : Nat, pat.sendRanks[i]? = some t → pat.rankMap[t]? = some i) :
    ((∀ r, 0 < sendCount size own 1 g r → r ∈ pat.sendRanks) →
      ∃ prep, localPrepare e aware size own nReal map0 pat g = some prep ∧
        Prepared size own 1 g prep ∧ prep.ranks = pat.sendRanks) ∧
    ((∃ r, 0 < sendCount size own 1 g r ∧ r ∉ pat.sendRanks) →
      localPrepare e aware size own nReal map0 pat g = none) := by
  obtain ⟨d, sel, h1, hid, -, -⟩ :=
    C26_identify (own := own) h.env h.consistent h.small hsize h.comps h.map
  have hnp : (pat.sendRanks.mapM fun r => rd d.sendCounts r) =
      some (pat.sendRanks.map (sendCount size own 1 g)) :=
    mapM_of_forall fun r hr => hid.counts r (hlt r hr)
  obtain ⟨rest, z1, z2, z3, z4⟩ := zeroCounts_spec (sendRanks := pat.sendRanks)
    (counts := d.sendCounts) (by rw [hid.counts_len]; exact hlt)
  have hsz : ∀ r, 0 < sendCount size own 1 g r → r < size := by
    intro r hr
    obtain ⟨i, c, k, -, hd, -⟩ := hid.layer_surj r 0 hr
    exact (destination_eq_some.1 hd).1
  constructor
  · intro hall
    have hsend : SendOk size own 1 g pat.sendRanks (pat.sendRanks.map (sendCount size own 1 g))
        pat.rankMap := by
      refine ⟨by rw [List.length_map], hlt, ?_, hmap, hall⟩
      intro i r hr
      rw [List.getElem?_map, hr]; rfl
    obtain ⟨packs, msgs, p1, p2, p3, p4⟩ := pack_messages (e := e) h.consistent hid hsend nReal
      aware
    refine ⟨⟨d, pat.sendRanks, pat.sendRanks.map (sendCount size own 1 g), msgs⟩, ?_,
      ⟨⟨sel, hid⟩, hnd, hlt, hall, rfl, p3, p4⟩, rfl⟩
    unfold localPrepare
    rw [h1, Option.bind_some, hnp, Option.bind_some, z1, Option.bind_some, if_pos, p1,
      Option.bind_some, p2]
    · rfl
    · intro r hr
      by_cases hm : r ∈ pat.sendRanks
      · exact z3 r hm
      · rw [z4 r hm, hid.counts r hr]
        congr 1
        rcases Nat.eq_zero_or_pos (sendCount size own 1 g r) with h0 | h0
        · exact h0
        · exact absurd (hall r h0) hm
  · rintro ⟨r, hr, hm⟩
    unfold localPrepare
    rw [h1, Option.bind_some, hnp, Option.bind_some, z1, Option.bind_some, if_neg]
    intro hc
    have := hc r (hsz r hr)
    rw [z4 r hm, hid.counts r (hsz r hr), Option.some.injEq] at this
    omega

/-! ## Messages without particles -/

theorem fillMessages_spec {senders : List Nat} {f : Nat → Nat} {v : Nat → List Int}
    (h : ∀ s ∈ senders, f s = 0 → v s = []) :
    fillMessages (senders.map f) ((senders.filter fun s => decide (f s > 0)).map v) =
      some (senders.map v) := by
  induction senders with
  | nil => rfl
  | cons s l ih =>
    have ih' := ih fun s hs => h s (List.mem_cons_of_mem _ hs)
    rw [List.map_cons, List.map_cons, List.filter_cons]
    cases hf : f s with
    | zero =>
      rw [if_neg (by simp), fillMessages, ih', h s List.mem_cons_self hf]
      rfl
    | succ k =>
      rw [if_pos (by simp), List.map_cons, fillMessages, ih']
      rfl

theorem exists_map_of_nodup {β γ : Type} [DecidableEq β] [Inhabited γ] {l : List β} {m : List γ}
    (hnd : l.Nodup) (hl : m.length = l.length) : ∃ f : β → γ, m = l.map f := by
  refine ⟨fun b => m.getD (l.idxOf b) default, ?_⟩
  apply List.ext_getElem?
  intro i
  rw [List.getElem?_map]
  by_cases hi : i < l.length
  · have hx : List.idxOf l[i] l = i := List.get_idxOf hnd ⟨i, hi⟩
    rw [List.getElem?_eq_getElem hi, Option.map_some, hx,
      List.getD_eq_getElem?_getD, List.getElem?_eq_getElem (by omega)]
    rfl
  · rw [List.getElem?_eq_none (by omega), List.getElem?_eq_none (by omega)]
    rfl

/-- Only the arguments of the existing ranks matter. -/
theorem exchangeData_congr {β : Type} {n : Nat} (arrive : Nat → Sched) (tag : Nat)
    {rr rr' rc rc' : Nat → List Nat} {rd0 rd1 : Nat → List (List β)} {sr sr' sc sc' : Nat → List Nat}
    (h : ∀ r, r < n → rr r = rr' r ∧ rc r = rc' r ∧ rd0 r = rd1 r ∧ sr r = sr' r ∧ sc r = sc' r) :
    exchangeData n arrive tag rr rc rd0 sr sc = exchangeData n arrive tag rr' rc' rd1 sr' sc' := by
  unfold exchangeData
  rw [mapM_congr_mem (g := fun r =>
    (((rr' r).zipIdx.mapM fun ri => (rd (rc' r) ri.2).bind fun c =>
      (rd (rd1 r) ri.2).bind fun d => slice d 0 c)).bind fun ds =>
    countSends tag (rr' r) ds)]
  · congr 1
    funext sends
    have hx : exchangeAll n arrive (fun r => (sr r).map fun s => (⟨some s, tag⟩ : Slot))
        (fun s => sends.getD s []) =
        exchangeAll n arrive (fun r => (sr' r).map fun s => (⟨some s, tag⟩ : Slot))
        (fun s => sends.getD s []) := by
      unfold exchangeAll
      congr 1
      apply mapM_congr_mem
      intro r hr
      unfold exchange
      dsimp only
      rw [(h r (List.mem_range.1 hr)).2.2.2.1]
    rw [hx]
    congr 1
    funext got
    apply mapM_congr_mem
    intro r hr
    rw [(h r (List.mem_range.1 hr)).2.2.2.2]
  · intro r hr
    obtain ⟨a, b, c, -, -⟩ := h r (List.mem_range.1 hr)
    rw [a, b, c]

theorem zip_map_self {β γ : Type} (l : List β) (f : β → γ) :
    l.zip (l.map f) = l.map fun b => (b, f b) := by
  induction l with
  | nil => rfl
  | cons a l ih => rw [List.map_cons, List.zip_cons_cons, ih]; rfl

theorem zip_map_both {β γ δ : Type} (l : List β) (f : β → γ) (g : β → δ) :
    (l.map f).zip (l.map g) = l.map fun b => (f b, g b) := by
  induction l with
  | nil => rfl
  | cons a l ih => rw [List.map_cons, List.map_cons, List.zip_cons_cons, ih]; rfl

end NP
