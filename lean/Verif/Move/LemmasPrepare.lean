import Verif.Move.LemmasMove

/-! # What a rank prepares before the exchange -/

set_option autoImplicit false

namespace NP

open Spec

/-- What a rank has prepared: the departing particles, and for every rank it sends to the number
of particles and a buffer that begins with their values. -/
structure Prepared (size own comp : Nat) (g : Group) (prep : MovePrep) : Prop where
  ident : ∃ sel, Identified size own comp g prep.dep sel
  nodup : prep.ranks.Nodup
  lt : ∀ r ∈ prep.ranks, r < size
  all : ∀ r, 0 < sendCount size own comp g r → r ∈ prep.ranks
  nparts : prep.nparts = prep.ranks.map (sendCount size own comp g)
  msgs_len : prep.msgs.length = prep.ranks.length
  msgs : ∀ i r : Nat, prep.ranks[i]? = some r → ∃ (ws : List (List Int)) (msg : List Int),
    prep.msgs[i]? = some msg ∧
    slice msg 0 (sendCount size own comp g r * numWords g.dats) = some ws.flatten ∧
    (∀ w ∈ ws, w.length = numWords g.dats) ∧ ws.length = sendCount size own comp g r ∧
    (ws.map fun w => w.map some).Perm (leavingTo size own comp g r)

theorem pack_messages {e : Env} {g : Group} (h : Consistent g) {size own comp : Nat} {d : Depart}
    {sel : List (Nat × Nat)} (hid : Identified size own comp g d sel)
    {rks nparts rankMap : List Nat} (hs : SendOk size own comp g rks nparts rankMap) (nReal : Nat)
    (aware : Bool) :
    ∃ packs msgs, pack e g nReal comp rks.length nparts rankMap d = some packs ∧
      packedPointers e aware (numWords g.dats) nparts packs = some msgs ∧
      msgs.length = rks.length ∧
      ∀ i r : Nat, rks[i]? = some r → ∃ (ws : List (List Int)) (msg : List Int),
        msgs[i]? = some msg ∧
        slice msg 0 (sendCount size own comp g r * numWords g.dats) = some ws.flatten ∧
        (∀ w ∈ ws, w.length = numWords g.dats) ∧ ws.length = sendCount size own comp g r ∧
        (ws.map fun w => w.map some).Perm (leavingTo size own comp g r) := by
  obtain ⟨packs, h1, h2, h3⟩ := pack_spec (e := e) h hid hs nReal
  obtain ⟨msgs, h4, h5, h6⟩ := packedPointers_spec e aware (W := numWords g.dats)
    (nparts := nparts) (packs := packs) (by rw [h2, hs.len])
    (by
      intro i n hn
      have hi : i < rks.length := by rw [← hs.len]; exact (List.getElem?_eq_some_iff.1 hn).1
      have hr := List.getElem?_eq_getElem hi
      obtain ⟨ws, a1, a2, a3, -⟩ := h3 i _ hr
      rw [hs.count i _ hr, Option.some.injEq] at hn
      exact ⟨_, a1, by rw [length_flatten_uniform a2, a3, hn]⟩)
  refine ⟨packs, msgs, h1, h4, by rw [h5, h2], ?_⟩
  intro i r hr
  obtain ⟨ws, a1, a2, a3, a4⟩ := h3 i r hr
  obtain ⟨msg, b1, b2⟩ := h6 i _ _ (hs.count i r hr) a1
  exact ⟨ws, msg, b1, b2, a2, a3, a4⟩

theorem globalPrepare_spec {e : Env} {size own : Nat} {map0 : List Nat} {g : Group}
    (h : CanMove size own 0 e map0 g) (hsize : 0 < size) (aware : Bool) (nReal : Nat) :
    ∃ prep, globalPrepare e aware size own nReal map0 g = some prep ∧
      Prepared size own 0 g prep ∧ ∀ r ∈ prep.ranks, 0 < sendCount size own 0 g r := by
  obtain ⟨d, sel, h1, hid, h3, -⟩ :=
    C26_identify (own := own) h.env h.consistent h.small hsize h.comps h.map
  have hrl := h3 rfl
  set rks := d.sendRanks.take d.numRanks with hrks
  have hlen : rks.length = d.numRanks := by
    rw [hrks, List.length_take]; have := hrl.le; omega
  have hcnt : ∀ i, i < d.numRanks → ∃ r, d.sendRanks[i]? = some r ∧ rks[i]? = some r ∧ r < size ∧
      d.sendCounts[r]? = some (sendCount size own 0 g r) := by
    intro i hi
    have hr : rks[i]? = some rks[i] := List.getElem?_eq_getElem (by omega)
    have hm := (hrl.mem _).1 (List.mem_of_getElem? hr)
    refine ⟨rks[i], ?_, hr, hm.1, hid.counts _ hm.1⟩
    rw [← hr, hrks, List.getElem?_take, if_pos hi]
  obtain ⟨np, k1, k2, k3, -⟩ := runItems_fill
    (step := fun i a => (rd d.sendRanks i).bind fun r => (rd d.sendCounts r).bind fun n =>
      st a i n)
    (m := (e.freshN 31 d.numRanks).1) ((e.sched 35).perm (List.range d.numRanks))
    (by rw [(e.freshN 31 d.numRanks).2])
    (fun i => sendCount size own 0 g (rks.getD i 0))
    (by
      intro i hi a _
      obtain ⟨r, a1, a2, -, a4⟩ := hcnt i hi
      simp only [rd, a1, Option.bind_some, a4, List.getD_eq_getElem?_getD, a2, Option.getD_some])
  have hnp : np = rks.map (sendCount size own 0 g) := by
    apply List.ext_getElem?
    intro i
    rw [List.getElem?_map]
    by_cases hi : i < d.numRanks
    · obtain ⟨r, -, a2, -, -⟩ := hcnt i hi
      rw [k3 i hi, List.getD_eq_getElem?_getD, a2]
      rfl
    · rw [List.getElem?_eq_none (by rw [k2, (e.freshN 31 d.numRanks).2]; omega),
        List.getElem?_eq_none (by omega)]
      rfl
  have hsend : SendOk size own 0 g rks np d.rankMap := by
    refine ⟨by rw [hnp, List.length_map], fun r hr => ((hrl.mem r).1 hr).1, ?_, hrl.map, ?_⟩
    · intro i r hr
      rw [hnp, List.getElem?_map, hr]; rfl
    · intro r hr
      refine (hrl.mem r).2 ⟨?_, hr⟩
      obtain ⟨i, c, k, -, hd, -⟩ := hid.layer_surj r 0 hr
      exact (destination_eq_some.1 hd).1
  obtain ⟨packs, msgs, p1, p2, p3, p4⟩ := pack_messages (e := e) h.consistent hid hsend nReal aware
  refine ⟨⟨d, rks, np, msgs⟩, ?_, ⟨⟨sel, hid⟩, hrl.nodup, hsend.lt, hsend.all, hnp, p3, p4⟩,
    fun r hr => ((hrl.mem r).1 hr).2⟩
  unfold globalPrepare
  rw [h1, Option.bind_some, k1, Option.bind_some, ← hlen, p1, Option.bind_some,
    slice_eq_some (Nat.zero_le _) (by rw [hlen]; exact hrl.le), Option.bind_some, List.drop_zero,
    Nat.sub_zero, hlen, ← hrks, if_pos, p2]
  · rfl
  · refine ⟨hsend.lt, ?_⟩
    intro n hn
    rw [hnp] at hn
    obtain ⟨r, hr, rfl⟩ := List.mem_map.1 hn
    exact ((hrl.mem r).1 hr).2

theorem leavingTo_nil {size own comp : Nat} {g : Group} {r : Nat}
    (h : sendCount size own comp g r = 0) : leavingTo size own comp g r = [] := by
  unfold leavingTo
  unfold sendCount at h
  rw [List.length_eq_zero_iff.1 h]
  rfl

/-- The senders of a rank may be listed in any order. -/
theorem arriving_perm {n comp : Nat} {g : Nat → Group} {r : Nat} {senders : List Nat}
    (hnd : senders.Nodup) (hlt : ∀ s ∈ senders, s < n)
    (hall : ∀ s, s < n → 0 < sendCount n s comp (g s) r → s ∈ senders) :
    (senders.flatMap fun s => leavingTo n s comp (g s) r).Perm (arriving n comp g r) := by
  have hp : senders.Perm ((List.range n).filter fun s => decide (s ∈ senders)) := by
    rw [List.perm_ext_iff_of_nodup hnd (List.nodup_range.filter _)]
    intro s
    rw [List.mem_filter, List.mem_range, decide_eq_true_iff]
    exact ⟨fun h => ⟨hlt s h, h⟩, fun h => h.2⟩
  refine (hp.flatMap_right _).trans (List.Perm.of_eq ?_)
  unfold arriving
  have key : ∀ l : List Nat, (∀ s ∈ l, s < n) →
      ((l.filter fun s => decide (s ∈ senders)).flatMap fun s => leavingTo n s comp (g s) r) =
        l.flatMap fun s => leavingTo n s comp (g s) r := by
    intro l
    induction l with
    | nil => intro _; rfl
    | cons a l ih =>
      intro hl
      rw [List.flatMap_cons, List.filter_cons]
      by_cases ha : a ∈ senders
      · rw [if_pos (by simpa using ha), List.flatMap_cons,
          ih fun s hs => hl s (List.mem_cons_of_mem _ hs)]
      · rw [if_neg (by simpa using ha), ih fun s hs => hl s (List.mem_cons_of_mem _ hs)]
        have h0 : sendCount n a comp (g a) r = 0 := by
          rcases Nat.eq_zero_or_pos (sendCount n a comp (g a) r) with h | h
          · exact h
          · exact absurd (hall a (hl a List.mem_cons_self) h) ha
        rw [leavingTo_nil h0, List.nil_append]
  exact key _ fun s hs => List.mem_range.1 hs

theorem perm_flatMap_of {β γ : Type} {l : List β} {f g : β → List γ}
    (h : ∀ x ∈ l, (f x).Perm (g x)) : (l.flatMap f).Perm (l.flatMap g) := by
  induction l with
  | nil => exact List.Perm.refl _
  | cons a l ih =>
    rw [List.flatMap_cons, List.flatMap_cons]
    exact (h a List.mem_cons_self).append (ih fun x hx => h x (List.mem_cons_of_mem _ hx))

/-- The end of a move on one rank that has received the messages of `senders`. -/
theorem finish_rank {n comp r : Nat} {e : Env} {map0 : List Nat} {g : Nat → Group}
    (h : CanMove n r comp e map0 (g r)) {prep : MovePrep} (hp : Prepared n r comp (g r) prep)
    {senders : List Nat} (hnd : senders.Nodup) (hlt : ∀ s ∈ senders, s < n)
    (hall : ∀ s, s < n → 0 < sendCount n s comp (g s) r → s ∈ senders)
    {ws : Nat → List (List Int)}
    (hws : ∀ s ∈ senders, (∀ w ∈ ws s, w.length = numWords (g r).dats) ∧
      ((ws s).map fun w => w.map some).Perm (leavingTo n s comp (g s) r)) (nReal : Nat) :
    ∃ g', moveFinish e nReal (g r) prep (senders.map fun s => (ws s).length)
        (senders.map fun s => (ws s).flatten) = some g' ∧
      Consistent g' ∧ SameShape (g r) g' ∧ g'.version = (g r).version + 2 ∧
      ∀ c, c < (g r).ncell → (contents g' c).Perm
        (staying n r comp (g r) c ++ if c = 0 then arriving n comp g r else []) := by
  obtain ⟨sel, hid⟩ := hp.ident
  obtain ⟨g', h1, h2, h3, h4, h5⟩ := moveFinish_spec h hid (wss := senders.map ws)
    (by
      intro x hx
      obtain ⟨s, hs, rfl⟩ := List.mem_map.1 hx
      exact (hws s hs).1) nReal
  rw [List.map_map, List.map_map] at h1
  refine ⟨g', h1, h2, h3, h4, ?_⟩
  intro c hc
  refine (h5 c hc).trans ((List.Perm.refl _).append ?_)
  by_cases h0 : c = 0
  · rw [if_pos h0, if_pos h0]
    refine List.Perm.trans ?_ (arriving_perm hnd hlt hall)
    rw [← List.flatMap_def, List.map_flatMap]
    exact perm_flatMap_of fun s hs => (hws s hs).2
  · rw [if_neg h0, if_neg h0]

end NP
