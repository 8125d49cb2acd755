import Verif.Move.LemmasLocal
import Verif.Move.PropsGlobal

/-!
# C30: local move
-/

set_option autoImplicit false

namespace NP

open Spec

/-- Constructing the communication on all ranks succeeds when all named ranks exist, and gives
every rank the pattern of the specification: rank `r` receives from rank `s` exactly if `s` named
`r`. -/
theorem C30_setup {n : Nat} (order : Sched) (arrive : Nat → Sched) {fresh : Nat → List Nat}
    (hf : ∀ r, r < n → (fresh r).length = n) {ranks : Nat → List Int}
    (h : ∀ r, r < n → ∀ x ∈ ranks r, 0 ≤ x ∧ x < (n : Int)) :
    ∃ out, localSetup n order arrive fresh ranks = some out ∧ out.length = n ∧
      ∀ r, r < n → ∃ p, out[r]? = some p ∧ PatternOk n ranks r p :=
  localSetup_spec order arrive hf h

theorem mapM_eq_none {β γ : Type} {f : β → Option γ} {l : List β} (h : ∃ x ∈ l, f x = none) :
    l.mapM f = none := by
  induction l with
  | nil => simp at h
  | cons a l ih =>
    rw [List.mapM_cons]
    cases ha : f a with
    | none => rfl
    | some b =>
      have : l.mapM f = none := by
        refine ih ?_
        obtain ⟨x, hx, hn⟩ := h
        rcases List.mem_cons.1 hx with rfl | hx
        · rw [ha] at hn; exact absurd hn (by simp)
        · exact ⟨x, hx, hn⟩
      rw [this]
      rfl

/-- A neighbour rank that does not exist is rejected. -/
theorem C30_setup_rejects {n : Nat} (order : Sched) (arrive : Nat → Sched) (fresh : Nat → List Nat)
    {ranks : Nat → List Int} (h : ∃ r, r < n ∧ ∃ x ∈ ranks r, ¬ (0 ≤ x ∧ x < (n : Int))) :
    localSetup n order arrive fresh ranks = none := by
  obtain ⟨r, hr, hx⟩ := h
  unfold localSetup
  rw [mapM_eq_none ⟨r, List.mem_range.2 hr, localSendRanks_none hx⟩]
  rfl

/-- `local_move` on all ranks delivers every particle to the rank named by component 1 of its rank
property and keeps all others in their cells, provided that every such rank was named in the
construction. -/
theorem C30_local_move {n : Nat} (arrive1 arrive2 : Nat → Sched) {e : Nat → Env}
    (aware : Bool) (nReal : Nat) {maps : Nat → List Nat} {g : Nat → Group}
    (h : ∀ r, r < n → CanMove n r 1 (e r) (maps r) (g r))
    (hsame : ∀ r s, r < n → s < n → flatComps (g r).dats = flatComps (g s).dats)
    {ranks : Nat → List Int} (hranks : ∀ r, r < n → ∀ x ∈ ranks r, 0 ≤ x ∧ x < (n : Int))
    {pat : Nat → LocalPattern} (hpat : ∀ r, r < n → PatternOk n ranks r (pat r))
    (hdest : ∀ r c k t, r < n → c < (g r).ncell → k < count (g r) c →
      destination n r 1 (g r) c k = some t → (t : Int) ∈ ranks r) :
    ∃ out, localMove n arrive1 arrive2 e aware nReal maps pat g = some out ∧ Moved n 1 g out := by
  have hslt : ∀ r, r < n → ∀ t ∈ (pat r).sendRanks, t < n := by
    intro r hr t ht
    have := hranks r hr t (((hpat r hr).send_mem t).1 ht).2
    omega
  have hprep : ∀ r, r < n → ∃ prep,
      localPrepare (e r) aware n r nReal (maps r) (pat r) (g r) = some prep ∧
      Prepared n r 1 (g r) prep ∧ prep.ranks = (pat r).sendRanks := by
    intro r hr
    refine (localPrepare_spec (h r hr) (by omega) aware nReal (hpat r hr).send_nodup (hslt r hr)
      (hpat r hr).map).1 ?_
    intro t ht
    obtain ⟨⟨c, k⟩, hm⟩ : ∃ p, p ∈ (particlesOf (g r)).filter fun p =>
        destination n r 1 (g r) p.1 p.2 == some t := List.exists_mem_of_length_pos ht
    rw [List.mem_filter] at hm
    have hd : destination n r 1 (g r) c k = some t := by simpa using hm.2
    obtain ⟨hc, hk⟩ := mem_particlesOf.1 hm.1
    exact ((hpat r hr).send_mem t).2 ⟨(destination_eq_some.1 hd).2.1, hdest r c k t hr hc hk hd⟩
  choose! prep p1 p2 p3 using hprep
  have hnw : ∀ r s, r < n → s < n → numWords (g r).dats = numWords (g s).dats := by
    intro r s hr hs
    rw [← length_flatComps, hsame r s hr hs, length_flatComps]
  have hpreps : ((List.range n).mapM fun r =>
      localPrepare (e r) aware n r nReal (maps r) (pat r) (g r)) =
      some ((List.range n).map prep) :=
    mapM_of_forall fun r hr => p1 r (List.mem_range.1 hr)
  have hget : ∀ r, r < n → ((List.range n).map prep).getD r default = prep r := by
    intro r hr; simp [hr]
  have hmem : ∀ r, r < n → ∀ s, s ∈ (pat r).recvRanks ↔ s < n ∧ r ∈ (prep s).ranks := by
    intro r hr s
    rw [(hpat r hr).recv_mem]
    constructor
    · rintro ⟨hs, hne, hm⟩
      exact ⟨hs, by rw [p3 s hs, (hpat s hs).send_mem]; exact ⟨fun hc => hne hc.symm, hm⟩⟩
    · rintro ⟨hs, hm⟩
      rw [p3 s hs, (hpat s hs).send_mem] at hm
      exact ⟨hs, fun hc => hm.1 hc.symm, hm.2⟩
  -- the messages
  have hM : ∀ s, s < n → ∃ M : Nat → List Int, (prep s).msgs = (prep s).ranks.map M :=
    fun s hs => exists_map_of_nodup (p2 s hs).nodup (p2 s hs).msgs_len
  choose! M hM using hM
  have hmsg : ∀ s, s < n → ∀ t, t ∈ (prep s).ranks → ∃ ws : List (List Int),
      slice (M s t) 0 (sendCount n s 1 (g s) t * numWords (g s).dats) = some ws.flatten ∧
      (∀ w ∈ ws, w.length = numWords (g s).dats) ∧ ws.length = sendCount n s 1 (g s) t ∧
      (ws.map fun w => w.map some).Perm (leavingTo n s 1 (g s) t) := by
    intro s hs t ht
    obtain ⟨i, hi⟩ := List.mem_iff_getElem?.1 ht
    obtain ⟨ws, msg, a1, a2, a3, a4, a5⟩ := (p2 s hs).msgs i t hi
    rw [hM s hs, List.getElem?_map, hi, Option.map_some, Option.some.injEq] at a1
    exact ⟨ws, by rw [a1]; exact a2, a3, a4, a5⟩
  choose! ws w1 w2 w3 w4 using hmsg
  let P : Nat → MovePrep := fun r => ((List.range n).map prep).getD r default
  have hP : ∀ r, r < n → P r = prep r := hget
  -- the counts
  have hlt : ∀ s, s < n → ∀ t ∈ (P s).ranks, t < n := by
    intro s hs t ht; rw [hP s hs] at ht; exact (p2 s hs).lt t ht
  have hnd : ∀ s, s < n → (P s).ranks.Nodup := by
    intro s hs; rw [hP s hs]; exact (p2 s hs).nodup
  have hlen : ∀ s, s < n → (P s).nparts.length = (P s).ranks.length := by
    intro s hs
    rw [hP s hs, (p2 s hs).nparts, List.length_map]
  have hmemP : ∀ r, r < n → ∀ s, s ∈ (pat r).recvRanks ↔ s < n ∧ r ∈ (P s).ranks := by
    intro r hr s
    rw [hmem r hr]
    constructor
    · rintro ⟨hs, hm⟩; rw [← hP s hs] at hm; exact ⟨hs, hm⟩
    · rintro ⟨hs, hm⟩; rw [hP s hs] at hm; exact ⟨hs, hm⟩
  obtain ⟨got1, d1, d2⟩ := exchange_ranks arrive1 (tag := 43) (targets := fun s => (P s).ranks)
    (values := fun s => (P s).nparts) (sendRanks := fun r => (pat r).recvRanks) hlt hnd hlen
    (fun r hr => (hpat r hr).recv_nodup) hmemP _ rfl
  have hsends : ((List.range n).mapM fun r => countSends 43 (P r).ranks (P r).nparts) =
      some ((List.range n).map (namedSends 43 (fun s => (P s).ranks) fun s => (P s).nparts)) :=
    mapM_of_forall fun r hr => countSends_eq (hlen r (List.mem_range.1 hr))
  let recvNparts : Nat → List Nat := fun r =>
    (((List.range n).map got1).getD r []).map InMsg.data
  have hsl : ∀ r, r < n → ∀ s ∈ (pat r).recvRanks, s < n ∧ r ∈ (prep s).ranks :=
    fun r hr s hs => (hmem r hr s).1 hs
  have hnparts : ∀ r, r < n → recvNparts r =
      (pat r).recvRanks.map fun s => sendCount n s 1 (g s) r := by
    intro r hr
    obtain ⟨a1, a2⟩ := d2 r hr
    have : recvNparts r = (got1 r).map InMsg.data := by simp [recvNparts, hr]
    rw [this]
    apply List.ext_getElem?
    intro i
    rw [List.getElem?_map, List.getElem?_map]
    by_cases hi : i < (pat r).recvRanks.length
    · have hi' := List.getElem?_eq_getElem hi
      have hs := hsl r hr _ (List.mem_of_getElem? hi')
      obtain ⟨j, hj⟩ := List.mem_iff_getElem?.1 hs.2
      rw [a2 i j _ hi' (by rw [hP _ hs.1]; exact hj), hi',
        hP _ hs.1, (p2 _ hs.1).nparts, List.getElem?_map, hj]
      rfl
    · have hl : (got1 r).length = (pat r).recvRanks.length := by
        rw [← a1, List.length_map]
      rw [List.getElem?_eq_none (by omega), List.getElem?_eq_none (by omega)]
      rfl
  -- the data
  let sendTo : Nat → List Nat := fun s =>
    (prep s).ranks.filter fun t => decide (sendCount n s 1 (g s) t > 0)
  let recvFrom : Nat → List Nat := fun r =>
    (pat r).recvRanks.filter fun s => decide (sendCount n s 1 (g s) r > 0)
  have hsp : ∀ s, s < n → ((P s).ranks.zip ((P s).nparts.zip (P s).msgs)).filter
      (fun x => decide (x.2.1 > 0)) =
        (sendTo s).map fun t => (t, sendCount n s 1 (g s) t, M s t) := by
    intro s hs
    rw [hP s hs, (p2 s hs).nparts, hM s hs, zip_map_both, zip_map_self, List.filter_map]
    rfl
  have hrp : ∀ r, r < n → ((pat r).recvRanks.zip (recvNparts r)).filter
      (fun x => decide (x.2 > 0)) = (recvFrom r).map fun s => (s, sendCount n s 1 (g s) r) := by
    intro r hr
    rw [hnparts r hr, zip_map_self, List.filter_map]
    rfl
  have hfrom : ∀ r, r < n → ∀ s, s ∈ recvFrom r ↔ s < n ∧ r ∈ sendTo s := by
    intro r hr s
    simp only [recvFrom, sendTo, List.mem_filter, hmem r hr]
    tauto
  let data : Nat → List (List Int) := fun s => (sendTo s).map fun t => (ws s t).flatten
  have hwl : ∀ s t, s < n → t ∈ (prep s).ranks →
      (ws s t).flatten.length = sendCount n s 1 (g s) t * numWords (g s).dats := by
    intro s t hs ht
    rw [length_flatten_uniform (w2 s hs t ht), w3 s hs t ht]
  have hto : ∀ s t, t ∈ sendTo s → t ∈ (prep s).ranks := fun s t ht => (List.mem_filter.1 ht).1
  have hdl : ∀ s, s < n → (data s).length = (sendTo s).length := by
    intro s hs; simp [data]
  have hdc : ∀ s, s < n → (data s).map List.length =
      (sendTo s).map fun t => sendCount n s 1 (g s) t * numWords (g s).dats := by
    intro s hs
    rw [List.map_map]
    apply List.map_congr_left
    intro t ht
    exact hwl s t hs (hto s t ht)
  have hpre := exchangeData_prefix arrive2 43 (recvRanks := sendTo) (sendRanks := recvFrom)
    (recvCounts := fun s => (sendTo s).map fun t => sendCount n s 1 (g s) t * numWords (g s).dats)
    (sendCounts := fun r => (recvFrom r).map fun s =>
      sendCount n s 1 (g s) r * numWords (g r).dats)
    (bufs := fun s => (sendTo s).map (M s)) (data := data) hdl hdc
    (by
      intro s i d hs hd
      simp only [data, List.getElem?_map] at hd
      obtain ⟨t, ht, rfl⟩ := Option.map_eq_some_iff.1 hd
      have htm := hto s t (List.mem_of_getElem? ht)
      refine ⟨M s t, by rw [List.getElem?_map, ht]; rfl, ?_⟩
      rw [hwl s t hs htm]
      exact w1 s hs t htm)
  obtain ⟨got, q1, q2, q3⟩ := C29_data arrive2 43 (recvRanks := sendTo) (sendRanks := recvFrom)
    (recvCounts := fun s => (sendTo s).map fun t => sendCount n s 1 (g s) t * numWords (g s).dats)
    (sendCounts := fun r => (recvFrom r).map fun s =>
      sendCount n s 1 (g s) r * numWords (g r).dats) (recvData := data)
    (fun s hs t ht => (p2 s hs).lt t (hto s t ht))
    (fun s hs => (p2 s hs).nodup.filter _) hdl hdc
    (fun r hr => (hpat r hr).recv_nodup.filter _) hfrom
    (by
      intro r i j s hr hi hj
      have hs := (hfrom r hr s).1 (List.mem_of_getElem? hi)
      simp only [List.getElem?_map, hi, hj, Option.map_some]
      rw [hnw r s hr hs.1])
  have hgot : ∀ r, r < n → got[r]? = some ((recvFrom r).map fun s => (ws s r).flatten) := by
    intro r hr
    obtain ⟨dat, e1, e2, e3⟩ := q3 r hr
    rw [e1]
    congr 1
    apply List.ext_getElem?
    intro i
    rw [List.getElem?_map]
    by_cases hi : i < (recvFrom r).length
    · have hi' := List.getElem?_eq_getElem hi
      have hs := (hfrom r hr _).1 (List.mem_of_getElem? hi')
      obtain ⟨j, hj⟩ := List.mem_iff_getElem?.1 hs.2
      have := e3 i j _ hi' hj
      rw [this, hi']
      simp only [data, List.getElem?_map, hj, Option.map_some]
    · rw [List.getElem?_eq_none (by omega), List.getElem?_eq_none (by omega)]
      rfl
  have hfill : ∀ r, r < n → fillMessages (recvNparts r)
      ((recvFrom r).map fun s => (ws s r).flatten) =
        some ((pat r).recvRanks.map fun s => (ws s r).flatten) := by
    intro r hr
    rw [hnparts r hr]
    refine fillMessages_spec ?_
    intro s hs h0
    have := hsl r hr s hs
    have hl := hwl s r this.1 this.2
    rw [h0, Nat.zero_mul] at hl
    exact List.length_eq_zero_iff.1 hl
  -- the end
  have hfin : ∀ r, r < n → ∃ g', moveFinish (e r) nReal (g r) (P r) (recvNparts r)
      ((pat r).recvRanks.map fun s => (ws s r).flatten) = some g' ∧
      Consistent g' ∧ SameShape (g r) g' ∧ g'.version = (g r).version + 2 ∧
      ∀ c, c < (g r).ncell → (contents g' c).Perm
        (staying n r 1 (g r) c ++ if c = 0 then arriving n 1 g r else []) := by
    intro r hr
    have hnp : recvNparts r = (pat r).recvRanks.map fun s => (ws s r).length := by
      rw [hnparts r hr]
      apply List.map_congr_left
      intro s hs
      have := hsl r hr s hs
      rw [w3 s this.1 r this.2]
    rw [hnp, hP r hr]
    refine finish_rank (h r hr) (p2 r hr) (hpat r hr).recv_nodup (fun s hs => (hsl r hr s hs).1)
      ?_ ?_ nReal
    · intro s hs hpos
      exact (hmem r hr s).2 ⟨hs, (p2 s hs).all r hpos⟩
    · intro s hs
      have := hsl r hr s hs
      refine ⟨?_, w4 s this.1 r this.2⟩
      intro w hw
      rw [hnw r s hr this.1]
      exact w2 s this.1 r this.2 w hw
  haveI : Inhabited Group := ⟨g 0⟩
  choose! res r1 r2 r3 r4 r5 using hfin
  refine ⟨(List.range n).map res, ?_, by simp, ?_⟩
  · unfold localMove
    rw [hpreps, Option.bind_some]
    show ((List.range n).mapM fun r => countSends 43 (P r).ranks (P r).nparts).bind _ = _
    rw [hsends, Option.bind_some, d1, Option.bind_some]
    have hex : exchangeData n arrive2 43
        (fun r => (((P r).ranks.zip ((P r).nparts.zip (P r).msgs)).filter
          fun x => decide (x.2.1 > 0)).map fun x => x.1)
        (fun r => (((P r).ranks.zip ((P r).nparts.zip (P r).msgs)).filter
          fun x => decide (x.2.1 > 0)).map fun x => x.2.1 * numWords (g r).dats)
        (fun r => (((P r).ranks.zip ((P r).nparts.zip (P r).msgs)).filter
          fun x => decide (x.2.1 > 0)).map fun x => x.2.2)
        (fun r => (((pat r).recvRanks.zip (recvNparts r)).filter
          fun x => decide (x.2 > 0)).map fun x => x.1)
        (fun r => (((pat r).recvRanks.zip (recvNparts r)).filter
          fun x => decide (x.2 > 0)).map fun x => x.2 * numWords (g r).dats) = some got := by
      rw [← q1, ← hpre]
      apply exchangeData_congr
      intro r hr
      rw [hsp r hr, hrp r hr]
      simp [List.map_map, Function.comp_def]
    refine (congrArg (fun x => Option.bind x _) hex).trans ?_
    rw [Option.bind_some]
    apply mapM_of_forall
    intro r hr
    rw [List.mem_range] at hr
    simp only [rd]
    rw [hgot r hr, Option.bind_some]
    refine (congrArg (fun x => Option.bind x _) (hfill r hr)).trans ?_
    exact r1 r hr
  · intro r hr
    exact ⟨res r, by rw [List.getElem?_map, List.getElem?_range hr]; rfl, r2 r hr, r3 r hr,
      r4 r hr, r5 r hr⟩

/-- `local_move` loses, duplicates and changes no particle. -/
theorem C30_conserves {n : Nat} (arrive1 arrive2 : Nat → Sched) {e : Nat → Env}
    (aware : Bool) (nReal : Nat) {maps : Nat → List Nat} {g : Nat → Group}
    (h : ∀ r, r < n → CanMove n r 1 (e r) (maps r) (g r))
    (hsame : ∀ r s, r < n → s < n → flatComps (g r).dats = flatComps (g s).dats)
    {ranks : Nat → List Int} (hranks : ∀ r, r < n → ∀ x ∈ ranks r, 0 ≤ x ∧ x < (n : Int))
    {pat : Nat → LocalPattern} (hpat : ∀ r, r < n → PatternOk n ranks r (pat r))
    (hdest : ∀ r c k t, r < n → c < (g r).ncell → k < count (g r) c →
      destination n r 1 (g r) c k = some t → (t : Int) ∈ ranks r) :
    ∃ out, localMove n arrive1 arrive2 e aware nReal maps pat g = some out ∧
      (out.flatMap allParticles).Perm ((List.range n).flatMap fun r => allParticles (g r)) := by
  obtain ⟨out, h1, h2⟩ := C30_local_move arrive1 arrive2 aware nReal h hsame hranks hpat hdest
  exact ⟨out, h1, moved_conserves (fun r hr => (h r hr).cells) h2⟩

/-- A particle bound for a rank that was not named ends the program on its rank: it is never sent
to a wrong rank and never lost silently. -/
theorem C30_unreachable {n : Nat} (arrive1 arrive2 : Nat → Sched) {e : Nat → Env}
    (aware : Bool) (nReal : Nat) {maps : Nat → List Nat} {g : Nat → Group}
    {ranks : Nat → List Int} (hranks : ∀ r, r < n → ∀ x ∈ ranks r, 0 ≤ x ∧ x < (n : Int))
    {pat : Nat → LocalPattern} (hpat : ∀ r, r < n → PatternOk n ranks r (pat r)) {r : Nat}
    (hr : r < n) (h : CanMove n r 1 (e r) (maps r) (g r)) {c k t : Nat} (hc : c < (g r).ncell)
    (hk : k < count (g r) c) (hd : destination n r 1 (g r) c k = some t)
    (hnot : (t : Int) ∉ ranks r) :
    localMove n arrive1 arrive2 e aware nReal maps pat g = none := by
  have hslt : ∀ t ∈ (pat r).sendRanks, t < n := by
    intro t ht
    have := hranks r hr t (((hpat r hr).send_mem t).1 ht).2
    omega
  have := (localPrepare_spec h (by omega) aware nReal (hpat r hr).send_nodup hslt
    (hpat r hr).map).2 ⟨t, ?_, ?_⟩
  · unfold localMove
    rw [mapM_eq_none ⟨r, List.mem_range.2 hr, this⟩]
    rfl
  · refine List.length_pos_of_mem (a := (c, k)) ?_
    rw [List.mem_filter]
    exact ⟨mem_particlesOf.2 ⟨hc, hk⟩, by simp [hd]⟩
  · intro hm
    exact hnot (((hpat r hr).send_mem t).1 hm).2

end NP
