import Verif.Points.LemmasHeld2
import Verif.Comm.PropsEdges

/-! # The exchange of the values of points -/

set_option autoImplicit false

namespace NP

variable {α β : Type}

theorem sum_sizes (counts : List Nat) (ncomp : Nat) :
    (counts.map fun c => c * ncomp).sum = counts.sum * ncomp := by
  induction counts with
  | nil => simp
  | cons a l ih => rw [List.map_cons, List.sum_cons, List.sum_cons, ih, Nat.add_mul]

theorem take_sizes (counts : List Nat) (ncomp j : Nat) :
    ((counts.map fun c => c * ncomp).take j).sum = (counts.take j).sum * ncomp := by
  rw [← List.map_take, sum_sizes]

theorem offsets_at {counts : List Nat} {ncomp j c : Nat} (h : counts[j]? = some c) :
    (exclusiveFrom 0 (counts.map fun c => c * ncomp))[j]? = some ((counts.take j).sum * ncomp) := by
  rw [getElem?_exclusiveFrom _ _ _ (by
    rw [List.length_map]; exact (List.getElem?_eq_some_iff.1 h).1), take_sizes, Nat.zero_add]

theorem sizes_end {counts : List Nat} {ncomp j c : Nat} (h : counts[j]? = some c) :
    (counts.take j).sum * ncomp + c * ncomp ≤ counts.sum * ncomp := by
  rw [← Nat.add_mul]
  have := take_sum_succ h
  have := take_sum_le counts (j + 1)
  exact Nat.mul_le_mul_right _ (by omega)

/-- An entry of a zip. -/
theorem mem_zip_index {γ : Type} {l : List β} {l' : List γ} {x : β × γ} (h : x ∈ l.zip l') :
    ∃ j : Nat, l[j]? = some x.1 ∧ l'[j]? = some x.2 := by
  obtain ⟨j, hj⟩ := List.mem_iff_getElem?.1 h
  exact ⟨j, (List.getElem?_zip_eq_some.1 hj)⟩

theorem qpMessages_spec {ncomp : Nat} {counts : List Nat} {buf : List β}
    (h : counts.sum * ncomp ≤ buf.length) :
    ∃ ms, qpMessages ncomp counts buf = some ms ∧
      ms.map List.length = counts.map (fun c => c * ncomp) ∧
      ∀ (j c : Nat), counts[j]? = some c → ∃ d, ms[j]? = some d ∧ d.length = c * ncomp ∧
        ∀ t, t < c * ncomp → d[t]? = buf[(counts.take j).sum * ncomp + t]? := by
  have hz : ∀ os ∈ (exclusiveFrom 0 (counts.map fun c => c * ncomp)).zip
      (counts.map fun c => c * ncomp), os.1 + os.2 ≤ buf.length := by
    intro os hos
    obtain ⟨j, h1, h2⟩ := mem_zip_index hos
    rw [List.getElem?_map] at h2
    obtain ⟨c, h3, h4⟩ := Option.map_eq_some_iff.1 h2
    rw [offsets_at h3] at h1
    have := sizes_end (ncomp := ncomp) h3
    rw [← Option.some.inj h1, ← h4]
    omega
  refine ⟨((exclusiveFrom 0 (counts.map fun c => c * ncomp)).zip
      (counts.map fun c => c * ncomp)).map fun os => (buf.drop os.1).take os.2, ?_, ?_, ?_⟩
  · unfold qpMessages
    dsimp only
    rw [if_pos (by rw [sum_sizes]; exact h)]
    refine mapM_of_forall fun os hos => ?_
    rw [slice_eq_some (by omega) (hz os hos), Nat.add_sub_cancel_left]
  · rw [List.map_map]
    have : ((exclusiveFrom 0 (counts.map fun c => c * ncomp)).zip
        (counts.map fun c => c * ncomp)).map Prod.snd = counts.map fun c => c * ncomp :=
      List.map_snd_zip (by rw [length_exclusiveFrom])
    refine Eq.trans (List.map_congr_left fun os hos => ?_) this
    have := hz os hos
    simp
    omega
  · intro j c hc
    have hj : ((exclusiveFrom 0 (counts.map fun c => c * ncomp)).zip
        (counts.map fun c => c * ncomp))[j]? =
        some ((counts.take j).sum * ncomp, c * ncomp) := by
      rw [List.getElem?_zip_eq_some]
      exact ⟨offsets_at hc, by rw [List.getElem?_map, hc]; rfl⟩
    rw [List.getElem?_map, hj]
    have := hz _ (List.mem_of_getElem? hj)
    dsimp only at this
    refine ⟨_, rfl, by simp; omega, ?_⟩
    intro t ht
    rw [List.getElem?_take_of_lt ht, List.getElem?_drop]

theorem qpPlace_spec [Inhabited β] {ncomp : Nat} {counts : List Nat} {data : List (List β)}
    {buf : List β} (hd : data.map List.length = counts.map fun c => c * ncomp)
    (h : counts.sum * ncomp ≤ buf.length) :
    ∃ out, qpPlace ncomp counts data buf = some out ∧ out.length = buf.length ∧
      ∀ (j c : Nat) (d : List β) (t : Nat), counts[j]? = some c → data[j]? = some d →
        t < c * ncomp → out[(counts.take j).sum * ncomp + t]? = d[t]? := by
  have hlen : ∀ (j : Nat) (d : List β), data[j]? = some d → ∃ c, counts[j]? = some c ∧
      d.length = c * ncomp := by
    intro j d hj
    have := congrArg (fun l => l[j]?) hd
    simp only [List.getElem?_map, hj, Option.map_some] at this
    obtain ⟨c, c1, c2⟩ := Option.map_eq_some_iff.1 this.symm
    exact ⟨c, c1, c2.symm⟩
  have hz : ∀ od ∈ (exclusiveFrom 0 (counts.map fun c => c * ncomp)).zip data,
      ∃ (j c : Nat), counts[j]? = some c ∧ data[j]? = some od.2 ∧ od.1 = (counts.take j).sum * ncomp ∧
        od.2.length = c * ncomp := by
    intro od hod
    obtain ⟨j, h1, h2⟩ := mem_zip_index hod
    obtain ⟨c, c1, c2⟩ := hlen j _ h2
    rw [offsets_at c1] at h1
    exact ⟨j, c, c1, h2, (Option.some.inj h1).symm, c2⟩
  obtain ⟨out, o1, o2, o3, -⟩ := runItems_region (step := fun od buf => stRange buf od.1 od.2)
    (items := (exclusiveFrom 0 (counts.map fun c => c * ncomp)).zip data) (m := buf)
    (region := fun od k => od.1 ≤ k ∧ k < od.1 + od.2.length)
    (val := fun od k => od.2.getD (k - od.1) default) (by
      intro od hod s hs
      obtain ⟨j, c, c1, c2, c3, c4⟩ := hz od hod
      have := sizes_end (ncomp := ncomp) c1
      have e := stRange_eq_some (m := s) (vs := od.2) (a := od.1) (by omega)
      refine ⟨_, e, (length_of_stRange e).1, ?_, ?_⟩
      · intro k hk
        rw [getElem?_of_stRange e, if_pos hk, List.getD_eq_getElem?_getD,
          List.getElem?_eq_getElem (by omega : k - od.1 < od.2.length)]
        rfl
      · intro k hk
        rw [getElem?_of_stRange e, if_neg hk]) (by
      intro x hx y hy k h1 h2
      obtain ⟨j, c, c1, c2, c3, c4⟩ := hz x hx
      obtain ⟨j', c', d1, d2, d3, d4⟩ := hz y hy
      have hs1 : (counts.map fun c => c * ncomp)[j]? = some (c * ncomp) := by
        rw [List.getElem?_map, c1]; rfl
      have hs2 : (counts.map fun c => c * ncomp)[j']? = some (c' * ncomp) := by
        rw [List.getElem?_map, d1]; rfl
      obtain ⟨rfl, -⟩ := segment_unique (k := k - x.1) (m := k - y.1) hs1 hs2 (by omega) (by omega)
        (by rw [take_sizes, take_sizes]; omega)
      rw [c2] at d2
      rw [Option.some.inj d2, c3, d3])
  refine ⟨out, o1, o2, ?_⟩
  intro j c d t h1 h2 h3
  obtain ⟨c', e1, e2⟩ := hlen j d h2
  rw [h1] at e1
  obtain rfl := Option.some.inj e1
  rw [o3 ((counts.take j).sum * ncomp, d) (by
    rw [List.mem_iff_getElem?]
    exact ⟨j, by rw [List.getElem?_zip_eq_some]; exact ⟨offsets_at h1, h2⟩⟩) _ (by
    dsimp only; omega)]
  dsimp only
  rw [Nat.add_sub_cancel_left, List.getD_eq_getElem?_getD,
    List.getElem?_eq_getElem (by omega : t < d.length)]
  rfl

/-- Each value arrives where it belongs. -/
theorem qpExchange_spec [Inhabited β] {n : Nat} (arrive : Nat → Sched) {ncomp : Nat}
    {ranks counts owners ownCounts : Nat → List Nat} {send recv : Nat → List β}
    (hr : ∀ s, s < n → ∀ t ∈ ranks s, t < n) (hnd : ∀ s, s < n → (ranks s).Nodup)
    (hl : ∀ s, s < n → (counts s).length = (ranks s).length)
    (hsnd : ∀ r, r < n → (owners r).Nodup)
    (hmem : ∀ r, r < n → ∀ s, s ∈ owners r ↔ s < n ∧ r ∈ ranks s)
    (hol : ∀ r, r < n → (ownCounts r).length = (owners r).length)
    (hcount : ∀ (r i j s : Nat), r < n → (owners r)[i]? = some s →
      (ranks s)[j]? = some r → (ownCounts r)[i]? = (counts s)[j]?)
    (hs : ∀ r, r < n → (counts r).sum * ncomp ≤ (send r).length)
    (hv : ∀ r, r < n → (ownCounts r).sum * ncomp ≤ (recv r).length) :
    ∃ out : Nat → List β, qpExchange n arrive ncomp ranks counts owners ownCounts send recv =
        some ((List.range n).map out) ∧
      ∀ r, r < n → (out r).length = (recv r).length ∧
        ∀ (i j s c t : Nat), (owners r)[i]? = some s → (ranks s)[j]? = some r →
          (counts s)[j]? = some c → t < c * ncomp →
          (out r)[((ownCounts r).take i).sum * ncomp + t]? =
            (send s)[((counts s).take j).sum * ncomp + t]? := by
  have hms : ∀ r, ∃ ms, r < n → qpMessages ncomp (counts r) (send r) = some ms ∧
      ms.map List.length = (counts r).map (fun c => c * ncomp) ∧
      ∀ (j c : Nat), (counts r)[j]? = some c → ∃ d, ms[j]? = some d ∧ d.length = c * ncomp ∧
        ∀ t, t < c * ncomp → d[t]? = (send r)[((counts r).take j).sum * ncomp + t]? := by
    intro r
    by_cases hrn : r < n
    · obtain ⟨ms, h1, h2, h3⟩ := qpMessages_spec (hs r hrn)
      exact ⟨ms, fun _ => ⟨h1, h2, h3⟩⟩
    · exact ⟨[], fun h => absurd h hrn⟩
  obtain ⟨ms, hms⟩ := Classical.axiomOfChoice hms
  have hmsl : ∀ s, s < n → (ms s).length = (counts s).length := by
    intro s hsn
    have := congrArg List.length (hms s hsn).2.1
    simpa using this
  have hgd : ∀ s, s < n → ((List.range n).map ms).getD s [] = ms s := by
    intro s hsn
    simp [List.getD_eq_getElem?_getD, List.getElem?_range hsn]
  obtain ⟨got, g1, g2, g3⟩ := C29_data arrive 126 (recvRanks := ranks) (sendRanks := owners)
    (recvCounts := fun r => (counts r).map fun c => c * ncomp)
    (sendCounts := fun r => (ownCounts r).map fun c => c * ncomp)
    (recvData := fun r => ((List.range n).map ms).getD r []) hr hnd
    (by intro s hsn; rw [hgd s hsn, hmsl s hsn, hl s hsn])
    (by intro s hsn; rw [hgd s hsn, (hms s hsn).2.1]) hsnd hmem
    (by
      intro r i j s hrn h1 h2
      rw [List.getElem?_map, List.getElem?_map, hcount r i j s hrn h1 h2])
  have hout : ∀ r, ∃ o, r < n → ((rd got r).bind fun data =>
      qpPlace ncomp (ownCounts r) data (recv r)) = some o ∧ o.length = (recv r).length ∧
        ∀ (i j s c t : Nat), (owners r)[i]? = some s → (ranks s)[j]? = some r →
          (counts s)[j]? = some c → t < c * ncomp →
          o[((ownCounts r).take i).sum * ncomp + t]? =
            (send s)[((counts s).take j).sum * ncomp + t]? := by
    intro r
    by_cases hrn : r < n
    · obtain ⟨data, d1, d2, d3⟩ := g3 r hrn
      have hpair : ∀ (i s : Nat), (owners r)[i]? = some s → ∃ (j c : Nat) (d : List β), s < n ∧
          (ranks s)[j]? = some r ∧ (counts s)[j]? = some c ∧ (ownCounts r)[i]? = some c ∧
          data[i]? = some d ∧ (ms s)[j]? = some d ∧ d.length = c * ncomp := by
        intro i s h1
        obtain ⟨h2, h3⟩ := (hmem r hrn s).1 (List.mem_of_getElem? h1)
        obtain ⟨j, hj⟩ := List.mem_iff_getElem?.1 h3
        have hjl : j < (counts s).length := by
          rw [hl s h2]; exact (List.getElem?_eq_some_iff.1 hj).1
        obtain ⟨d, e1, e2, e3⟩ := (hms s h2).2.2 j _ (List.getElem?_eq_getElem hjl)
        refine ⟨j, _, d, h2, hj, List.getElem?_eq_getElem hjl, ?_, ?_, e1, e2⟩
        · rw [hcount r i j s hrn h1 hj, List.getElem?_eq_getElem hjl]
        · rw [d3 i j s h1 hj, hgd s h2, e1]
      obtain ⟨o, o1, o2, o3⟩ := qpPlace_spec (data := data) (buf := recv r) (ncomp := ncomp)
        (counts := ownCounts r) (by
          apply List.ext_getElem?
          intro i
          by_cases hi : i < (owners r).length
          · obtain ⟨j, c, d, p1, p2, p3, p4, p5, p6, p7⟩ :=
              hpair i _ (List.getElem?_eq_getElem hi)
            rw [List.getElem?_map, List.getElem?_map, p4, p5, Option.map_some, Option.map_some, p7]
          · rw [List.getElem?_eq_none (by simp; omega),
              List.getElem?_eq_none (by rw [List.length_map, hol r hrn]; omega)])
        (hv r hrn)
      refine ⟨o, fun _ => ⟨by rw [rd, d1]; exact o1, o2, ?_⟩⟩
      intro i j s c t h1 h2 h3 h4
      obtain ⟨j', c', d, p1, p2, p3, p4, p5, p6, p7⟩ := hpair i s h1
      obtain rfl : j = j' := (List.getElem?_inj (List.getElem?_eq_some_iff.1 h2).1
        (hnd s p1)).1 (h2.trans p2.symm)
      rw [h3] at p3
      obtain rfl := Option.some.inj p3
      rw [o3 i c d t p4 p5 h4]
      obtain ⟨d', e1, e2, e3⟩ := (hms s p1).2.2 j c h3
      rw [p6] at e1
      obtain rfl := Option.some.inj e1
      exact e3 t h4
    · exact ⟨[], fun h => absurd h hrn⟩
  obtain ⟨out, hout⟩ := Classical.axiomOfChoice hout
  refine ⟨out, ?_, fun r hrn => (hout r hrn).2⟩
  unfold qpExchange
  rw [mapM_of_forall (g := ms) (fun r hr => (hms r (List.mem_range.1 hr)).1), Option.bind_some,
    if_pos (by intro r hr; rw [sum_sizes]; exact hv r (List.mem_range.1 hr)), g1, Option.bind_some]
  exact mapM_of_forall fun r hr => (hout r (List.mem_range.1 hr)).1

/-- What `add_points_finalise` gives on all ranks. -/
structure FinOk (n : Nat) (npoint : Nat → Nat) (pts : Nat → List (QPoint α))
    (q : Nat → QpRank α) : Prop where
  np : ∀ a, a < n → (q a).npoint = npoint a
  same : ∀ a, a < n → (q a).pts = pts a
  held : ∀ a, a < n → HeldOk n a (pts a) (q a).held
  ond : ∀ a, a < n → (q a).owners.Nodup
  omem : ∀ a, a < n → ∀ b, b ∈ (q a).owners ↔ b < n ∧ a ∈ (q b).held.ranks
  olen : ∀ a, a < n → (q a).ownCounts.length = (q a).owners.length
  ocnt : ∀ (a i j b : Nat), a < n → (q a).owners[i]? = some b → (q b).held.ranks[j]? = some a →
    (q a).ownCounts[i]? = (q b).held.counts[j]?
  xlen : ∀ a, a < n → (q a).ownIdx.length = (q a).ownCounts.sum
  xidx : ∀ (a i j b c t : Nat), a < n → (q a).owners[i]? = some b →
    (q b).held.ranks[j]? = some a → (q b).held.counts[j]? = some c → t < c →
    (q a).ownIdx[((q a).ownCounts.take i).sum + t]? =
      (q b).held.sendIdx[((q b).held.counts.take j).sum + t]?

theorem FinOk.congr {n : Nat} {npoint : Nat → Nat} {pts : Nat → List (QPoint α)}
    {q q' : Nat → QpRank α} (h : FinOk n npoint pts q) (e : ∀ a, a < n → q' a = q a) :
    FinOk n npoint pts q' := by
  have hb : ∀ a, a < n → ∀ (i b : Nat), (q' a).owners[i]? = some b → b < n := by
    intro a han i b h1
    rw [e a han] at h1
    exact ((h.omem a han b).1 (List.mem_of_getElem? h1)).1
  refine ⟨fun a han => ?_, fun a han => ?_, fun a han => ?_, fun a han => ?_, fun a han b => ?_,
    fun a han => ?_, fun a i j b han h1 h2 => ?_, fun a han => ?_,
    fun a i j b c t han h1 h2 h3 h4 => ?_⟩
  · rw [e a han]; exact h.np a han
  · rw [e a han]; exact h.same a han
  · rw [e a han]; exact h.held a han
  · rw [e a han]; exact h.ond a han
  · rw [e a han, h.omem a han b]
    constructor
    · rintro ⟨h1, h2⟩; exact ⟨h1, by rw [e b h1]; exact h2⟩
    · rintro ⟨h1, h2⟩; exact ⟨h1, by rw [e b h1] at h2; exact h2⟩
  · rw [e a han]; exact h.olen a han
  · have hbn := hb a han i b h1
    rw [e a han] at h1 ⊢; rw [e b hbn] at h2 ⊢
    exact h.ocnt a i j b han h1 h2
  · rw [e a han]; exact h.xlen a han
  · have hbn := hb a han i b h1
    rw [e a han] at h1 ⊢; rw [e b hbn] at h2 h3 ⊢
    exact h.xidx a i j b c t han h1 h2 h3 h4

theorem qpFinalise_ok {n : Nat} (e : Nat → QpEnv α) (order : Sched) (arrive arrive' : Nat → Sched)
    (npoint : Nat → Nat) {pts : Nat → List (QPoint α)}
    (hlt : ∀ b, b < n → ∀ p ∈ pts b, p.rank < n) :
    ∃ qs, qpFinalise n e order arrive arrive' npoint pts = some qs ∧ qs.length = n ∧
      FinOk n npoint pts fun r => qs.getD r default := by
  have hh : ∀ r, ∃ h, r < n → qpHeld (e r) n r (pts r) = some h ∧ HeldOk n r (pts r) h := by
    intro r
    by_cases hrn : r < n
    · obtain ⟨h, h1, h2⟩ := qpHeld_ok (e r) (me := r) (hlt r hrn)
      exact ⟨h, fun _ => ⟨h1, h2⟩⟩
    · exact ⟨default, fun h => absurd h hrn⟩
  obtain ⟨h, hh⟩ := Classical.axiomOfChoice hh
  obtain ⟨hs, hhs⟩ : ∃ hs, hs = (List.range n).map h := ⟨_, rfl⟩
  have hg : ∀ s, s < n → hs.getD s default = h s := by
    intro s hsn
    rw [hhs]
    simp [List.getD_eq_getElem?_getD, List.getElem?_range hsn]
  have hok : ∀ s, s < n → HeldOk n s (pts s) (hs.getD s default) := by
    intro s hsn; rw [hg s hsn]; exact (hh s hsn).2
  obtain ⟨own, w1, w2, w3⟩ := C29_each_once (n := n) order arrive
    (recvRanks := fun r => (hs.getD r default).ranks)
    (recvData := fun r => (hs.getD r default).counts.map Int.ofNat)
    (fun s hsn => (hok s hsn).lt) (fun s hsn => (hok s hsn).nodup)
    (fun s hsn => by rw [List.length_map, (hok s hsn).clen])
  have hw : ∀ r, r < n → (own.getD r default).1.length = (own.getD r default).2.length ∧
      (own.getD r default).1.Nodup ∧
      (∀ s, s ∈ (own.getD r default).1 ↔ s < n ∧ r ∈ (hs.getD s default).ranks) ∧
      ∀ (i j s : Nat), (own.getD r default).1[i]? = some s →
        (hs.getD s default).ranks[j]? = some r →
        (own.getD r default).2[i]? = ((hs.getD s default).counts.map Int.ofNat)[j]? := by
    intro r hrn
    obtain ⟨ranks, data, x1, x2, x3, x4, x5⟩ := w3 r hrn
    have : own.getD r default = (ranks, data) := by
      rw [List.getD_eq_getElem?_getD, x1]; rfl
    rw [this]
    exact ⟨x2, x3, x4, x5⟩
  have hcnt : ∀ (r i j s : Nat), r < n → (own.getD r default).1[i]? = some s →
      (hs.getD s default).ranks[j]? = some r →
      ((own.getD r default).2.map Int.toNat)[i]? = (hs.getD s default).counts[j]? := by
    intro r i j s hrn h1 h2
    rw [List.getElem?_map, (hw r hrn).2.2.2 i j s h1 h2, List.getElem?_map, Option.map_map]
    cases (hs.getD s default).counts[j]? <;> simp
  obtain ⟨idx, x1, x2⟩ := qpExchange_spec (n := n) arrive' (ncomp := 1)
    (ranks := fun r => (hs.getD r default).ranks) (counts := fun r => (hs.getD r default).counts)
    (owners := fun r => (own.getD r default).1)
    (ownCounts := fun r => (own.getD r default).2.map Int.toNat)
    (send := fun r => (hs.getD r default).sendIdx)
    (recv := fun r => ((e r).recvIdx ((own.getD r default).2.map Int.toNat).sum).1)
    (fun s hsn => (hok s hsn).lt) (fun s hsn => (hok s hsn).nodup)
    (fun s hsn => (hok s hsn).clen) (fun r hrn => (hw r hrn).2.1) (fun r hrn => (hw r hrn).2.2.1)
    (fun r hrn => by rw [List.length_map, (hw r hrn).1]) hcnt
    (fun r hrn => by rw [(hok r hrn).ilen, (hok r hrn).sum, Nat.mul_one])
    (fun r hrn => by rw [((e r).recvIdx _).2, Nat.mul_one])
  refine ⟨(List.range n).map fun r => ⟨npoint r, pts r, hs.getD r default,
    (own.getD r default).1, (own.getD r default).2.map Int.toNat, idx r⟩, ?_, by simp, ?_⟩
  · unfold qpFinalise
    rw [mapM_of_forall (g := h) (fun r hr => (hh r (List.mem_range.1 hr)).1), Option.bind_some,
      ← hhs]
    dsimp only
    rw [w1, Option.bind_some, if_pos (by
      intro r hr
      have hrn := List.mem_range.1 hr
      rw [(hok r hrn).ilen, (hok r hrn).sum]), x1, Option.bind_some]
    refine mapM_of_forall fun r hr => ?_
    have hrn := List.mem_range.1 hr
    simp [rd, List.getElem?_range hrn]
  · refine FinOk.congr (q := fun r => ⟨npoint r, pts r, hs.getD r default,
      (own.getD r default).1, (own.getD r default).2.map Int.toNat, idx r⟩) ?_ (by
        intro a han
        simp [List.getD_eq_getElem?_getD, List.getElem?_range han])
    refine ⟨fun _ _ => rfl, fun _ _ => rfl, hok, fun a han => (hw a han).2.1,
      fun a han => (hw a han).2.2.1, fun a han => by
        dsimp only; rw [List.length_map, (hw a han).1], fun a i j b han => hcnt a i j b han, ?_, ?_⟩
    · intro a han
      dsimp only
      rw [(x2 a han).1, ((e a).recvIdx _).2]
    · intro a i j b c t han h1 h2 h3 h4
      have := (x2 a han).2 i j b c t h1 h2 h3 (by omega)
      simpa only [Nat.mul_one] using this

end NP
