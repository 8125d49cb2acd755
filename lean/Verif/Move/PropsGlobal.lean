import Verif.Move.LemmasPrepare
import Mathlib.Data.List.Perm.Basic

/-!
# C28: global move
-/

set_option autoImplicit false

namespace NP

open Spec

/-- `global_move` on all ranks delivers every particle to the rank named by component 0 of its
rank property and keeps all others in their cells, for every order of the remote increments, of
the arrival of messages and of the work items of the kernels. -/
theorem C28_global_move {n : Nat} (order : Sched) (arrive1 arrive2 : Nat → Sched) {e : Nat → Env}
    (aware : Bool) (nReal : Nat) {maps : Nat → List Nat} {g : Nat → Group}
    (h : ∀ r, r < n → CanMove n r 0 (e r) (maps r) (g r))
    (hsame : ∀ r s, r < n → s < n → flatComps (g r).dats = flatComps (g s).dats) :
    ∃ out, globalMove n order arrive1 arrive2 e aware nReal maps g = some out ∧
      Moved n 0 g out := by
  have hprep : ∀ r, r < n → ∃ prep, globalPrepare (e r) aware n r nReal (maps r) (g r) = some prep ∧
      Prepared n r 0 (g r) prep ∧ ∀ t ∈ prep.ranks, 0 < sendCount n r 0 (g r) t :=
    fun r hr => globalPrepare_spec (h r hr) (by omega) aware nReal
  choose! prep p1 p2 p3 using hprep
  have hnw : ∀ r s, r < n → s < n → numWords (g r).dats = numWords (g s).dats := by
    intro r s hr hs
    rw [← length_flatComps, hsame r s hr hs, length_flatComps]
  have hpreps : ((List.range n).mapM fun r => globalPrepare (e r) aware n r nReal (maps r) (g r)) =
      some ((List.range n).map prep) :=
    mapM_of_forall fun r hr => p1 r (List.mem_range.1 hr)
  have hget : ∀ r, r < n → ((List.range n).map prep).getD r default = prep r := by
    intro r hr; simp [hr]
  -- the messages
  have hmsg : ∀ s, s < n → ∀ t, t ∈ (prep s).ranks → ∃ ws : List (List Int),
      (∀ i : Nat, (prep s).ranks[i]? = some t → ∃ msg, (prep s).msgs[i]? = some msg ∧
        slice msg 0 (sendCount n s 0 (g s) t * numWords (g s).dats) = some ws.flatten) ∧
      (∀ w ∈ ws, w.length = numWords (g s).dats) ∧ ws.length = sendCount n s 0 (g s) t ∧
      (ws.map fun w => w.map some).Perm (leavingTo n s 0 (g s) t) := by
    intro s hs t ht
    obtain ⟨i, hi⟩ := List.mem_iff_getElem?.1 ht
    obtain ⟨ws, msg, a1, a2, a3, a4, a5⟩ := (p2 s hs).msgs i t hi
    refine ⟨ws, ?_, a3, a4, a5⟩
    intro j hj
    have : i = j := (List.getElem?_inj (List.getElem?_eq_some_iff.1 hi).1 (p2 s hs).nodup).1
      (hi.trans hj.symm)
    subst this
    exact ⟨msg, a1, a2⟩
  choose! ws w1 w2 w3 w4 using hmsg
  -- the counts
  let P : Nat → MovePrep := fun r => ((List.range n).map prep).getD r default
  have hP : ∀ r, r < n → P r = prep r := hget
  have hlt : ∀ s, s < n → ∀ t ∈ (P s).ranks, t < n := by
    intro s hs t ht; rw [hP s hs] at ht; exact (p2 s hs).lt t ht
  have hnd : ∀ s, s < n → (P s).ranks.Nodup := by
    intro s hs; rw [hP s hs]; exact (p2 s hs).nodup
  obtain ⟨ctr, f, c1, c2, c3, -, -⟩ := rmaCount_spec order (targets := fun r => (P r).ranks) hlt
  have hlen : ∀ s, s < n → ((P s).nparts.map fun (x : Nat) => (x : Int)).length =
      (P s).ranks.length := by
    intro s hs
    rw [hP s hs, List.length_map, (p2 s hs).nparts, List.length_map]
  obtain ⟨recv, d1, d2, d3⟩ := exchangeCountsAny_once arrive1 42 (counts := fun r => ctr.getD r 0)
    (recvRanks := fun r => (P r).ranks)
    (recvData := fun r => (P r).nparts.map fun (x : Nat) => (x : Int)) hlt hnd hlen
    (by
      intro r hr
      rw [length_namedBy hlen]
      simp [c3 r hr])
  have hrecv : ∀ r, r < n → (recv.getD r default).1.Nodup ∧
      (∀ s, s ∈ (recv.getD r default).1 ↔ s < n ∧ r ∈ (prep s).ranks) ∧
      (recv.getD r default).2 = (recv.getD r default).1.map
        fun s => ((sendCount n s 0 (g s) r : Nat) : Int) := by
    intro r hr
    obtain ⟨ranks, data, e1, e2, e3, e4, e5⟩ := d3 r hr
    have hg : recv.getD r default = (ranks, data) := by
      rw [List.getD_eq_getElem?_getD, e1]; rfl
    rw [hg]
    have e4' : ∀ s, s ∈ ranks ↔ s < n ∧ r ∈ (prep s).ranks := by
      intro s
      rw [e4]
      constructor
      · rintro ⟨hs, hm⟩; rw [hP s hs] at hm; exact ⟨hs, hm⟩
      · rintro ⟨hs, hm⟩; rw [← hP s hs] at hm; exact ⟨hs, hm⟩
    refine ⟨e3, e4', ?_⟩
    apply List.ext_getElem?
    intro i
    rw [List.getElem?_map]
    by_cases hi : i < ranks.length
    · have hi' := List.getElem?_eq_getElem hi
      have hs := (e4' _).1 (List.mem_of_getElem? hi')
      obtain ⟨j, hj⟩ := List.mem_iff_getElem?.1 hs.2
      have := e5 i j _ hi' (by rw [hP _ hs.1]; exact hj)
      rw [this, hi', hP _ hs.1, (p2 _ hs.1).nparts, List.getElem?_map, List.getElem?_map, hj]
      rfl
    · dsimp only
      rw [List.getElem?_eq_none (by omega), List.getElem?_eq_none (by omega)]
      rfl
  -- the data
  let recvRanks : Nat → List Nat := fun r => (recv.getD r default).1
  let recvNparts : Nat → List Nat := fun r => (recv.getD r default).2.map Int.toNat
  have hnparts : ∀ r, r < n → recvNparts r =
      (recvRanks r).map fun s => sendCount n s 0 (g s) r := by
    intro r hr
    simp only [recvNparts, recvRanks]
    rw [(hrecv r hr).2.2, List.map_map]
    apply List.map_congr_left
    intro s _
    simp
  have hsl : ∀ r, r < n → ∀ s ∈ recvRanks r, s < n ∧ r ∈ (prep s).ranks :=
    fun r hr s hs => ((hrecv r hr).2.1 s).1 hs
  let data : Nat → List (List Int) := fun s => (prep s).ranks.map fun t => (ws s t).flatten
  have hwl : ∀ s t, s < n → t ∈ (prep s).ranks →
      (ws s t).flatten.length = sendCount n s 0 (g s) t * numWords (g s).dats := by
    intro s t hs ht
    rw [length_flatten_uniform (w2 s hs t ht), w3 s hs t ht]
  have hdl : ∀ s, s < n → (data s).length = (P s).ranks.length := by
    intro s hs; rw [hP s hs]; simp [data]
  have hdc : ∀ s, s < n → (data s).map List.length =
      (P s).nparts.map (· * numWords (g s).dats) := by
    intro s hs
    rw [hP s hs, (p2 s hs).nparts, List.map_map, List.map_map]
    apply List.map_congr_left
    intro t ht
    exact hwl s t hs ht
  have hpre := exchangeData_prefix arrive2 43 (recvRanks := fun r => (P r).ranks)
    (sendRanks := recvRanks)
    (recvCounts := fun r => (P r).nparts.map (· * numWords (g r).dats))
    (sendCounts := fun r => (recvNparts r).map (· * numWords (g r).dats))
    (bufs := fun r => (P r).msgs) (data := data) hdl hdc
    (by
      intro s i d hs hd
      simp only [data, List.getElem?_map] at hd
      obtain ⟨t, ht, rfl⟩ := Option.map_eq_some_iff.1 hd
      obtain ⟨msg, a1, a2⟩ := w1 s hs t (List.mem_of_getElem? ht) i ht
      refine ⟨msg, by rw [hP s hs]; exact a1, ?_⟩
      rw [hwl s t hs (List.mem_of_getElem? ht)]
      exact a2)
  obtain ⟨got, q1, q2, q3⟩ := C29_data arrive2 43 (recvRanks := fun r => (P r).ranks)
    (sendRanks := recvRanks)
    (recvCounts := fun r => (P r).nparts.map (· * numWords (g r).dats))
    (sendCounts := fun r => (recvNparts r).map (· * numWords (g r).dats)) (recvData := data)
    hlt hnd hdl hdc (fun r hr => (hrecv r hr).1)
    (by
      intro r hr s
      rw [(hrecv r hr).2.1]
      constructor
      · rintro ⟨hs, hm⟩; rw [← hP s hs] at hm; exact ⟨hs, hm⟩
      · rintro ⟨hs, hm⟩; rw [hP s hs] at hm; exact ⟨hs, hm⟩)
    (by
      intro r i j s hr hi hj
      have hs := hsl r hr s (List.mem_of_getElem? hi)
      rw [hP s hs.1] at hj ⊢
      rw [hnparts r hr, (p2 s hs.1).nparts]
      simp only [List.getElem?_map, hi, hj, Option.map_some]
      rw [hnw r s hr hs.1])
  have hgot : ∀ r, r < n → got[r]? = some ((recvRanks r).map fun s => (ws s r).flatten) := by
    intro r hr
    obtain ⟨dat, e1, e2, e3⟩ := q3 r hr
    rw [e1]
    congr 1
    apply List.ext_getElem?
    intro i
    rw [List.getElem?_map]
    by_cases hi : i < (recvRanks r).length
    · have hi' := List.getElem?_eq_getElem hi
      have hs := hsl r hr _ (List.mem_of_getElem? hi')
      obtain ⟨j, hj⟩ := List.mem_iff_getElem?.1 hs.2
      have := e3 i j _ hi' (by rw [hP _ hs.1]; exact hj)
      rw [this, hi']
      simp only [data, List.getElem?_map, hj, Option.map_some]
    · rw [List.getElem?_eq_none (by omega), List.getElem?_eq_none (by omega)]
      rfl
  -- the end
  have hfin : ∀ r, r < n → ∃ g', moveFinish (e r) nReal (g r) (P r) (recvNparts r)
      ((recvRanks r).map fun s => (ws s r).flatten) = some g' ∧
      Consistent g' ∧ SameShape (g r) g' ∧ g'.version = (g r).version + 2 ∧
      ∀ c, c < (g r).ncell → (contents g' c).Perm
        (staying n r 0 (g r) c ++ if c = 0 then arriving n 0 g r else []) := by
    intro r hr
    have hnp : recvNparts r = (recvRanks r).map fun s => (ws s r).length := by
      rw [hnparts r hr]
      apply List.map_congr_left
      intro s hs
      have := hsl r hr s hs
      rw [w3 s this.1 r this.2]
    rw [hnp, hP r hr]
    refine finish_rank (h r hr) (p2 r hr) (hrecv r hr).1 (fun s hs => (hsl r hr s hs).1) ?_ ?_ nReal
    · intro s hs hpos
      exact ((hrecv r hr).2.1 s).2 ⟨hs, (p2 s hs).all r hpos⟩
    · intro s hs
      have := hsl r hr s hs
      refine ⟨?_, w4 s this.1 r this.2⟩
      intro w hw
      rw [hnw r s hr this.1]
      exact w2 s this.1 r this.2 w hw
  haveI : Inhabited Group := ⟨g 0⟩
  choose! res r1 r2 r3 r4 r5 using hfin
  refine ⟨(List.range n).map res, ?_, by simp, ?_⟩
  · unfold globalMove
    rw [hpreps, Option.bind_some]
    show (rmaCount n order fun r => (P r).ranks).bind _ = _
    rw [c1, Option.bind_some]
    show (exchangeCountsAny n arrive1 42 (fun r => ctr.getD r 0) (fun r => (P r).ranks)
      (fun r => (P r).nparts.map fun (x : Nat) => (x : Int))).bind _ = _
    rw [d1, Option.bind_some]
    dsimp only
    rw [if_pos]
    · show (exchangeData n arrive2 43 (fun r => (P r).ranks)
        (fun r => (P r).nparts.map (· * numWords (g r).dats)) (fun r => (P r).msgs) recvRanks
        (fun r => (recvNparts r).map (· * numWords (g r).dats))).bind _ = _
      rw [hpre, q1, Option.bind_some]
      apply mapM_of_forall
      intro r hr
      rw [List.mem_range] at hr
      simp only [rd]
      rw [hgot r hr, Option.bind_some, if_pos]
      · exact r1 r hr
      · show _ = (recvNparts r).map _
        rw [hnparts r hr, List.map_map, List.map_map]
        apply List.map_congr_left
        intro s hs
        have := hsl r hr s hs
        simp only [Function.comp_apply]
        rw [hwl s r this.1 this.2, hnw r s hr this.1]
    · intro r hr
      refine ⟨fun s hs => (hsl r hr s hs).1, ?_⟩
      intro x hx
      rw [(hrecv r hr).2.2] at hx
      obtain ⟨s, hs, rfl⟩ := List.mem_map.1 hx
      have := hsl r hr s hs
      have := p3 s this.1 r this.2
      omega
  · intro r hr
    exact ⟨res r, by rw [List.getElem?_map, List.getElem?_range hr]; rfl, r2 r hr, r3 r hr,
      r4 r hr, r5 r hr⟩

/-! ## Conservation -/

theorem flatMap_swap_perm {β γ δ : Type} (l : List β) (m : List γ) (f : β → γ → List δ) :
    (l.flatMap fun a => m.flatMap fun b => f a b).Perm
      (m.flatMap fun b => l.flatMap fun a => f a b) := by
  induction l with
  | nil => simp
  | cons a l ih =>
    simp only [List.flatMap_cons]
    refine ((List.Perm.refl _).append ih).trans ?_
    exact List.flatMap_append_perm m (f a) (fun b => l.flatMap fun a => f a b)

theorem flatMap_if_zero {β : Type} (n : Nat) (hn : 0 < n) (x : List β) :
    ((List.range n).flatMap fun c => if c = 0 then x else []) = x := by
  obtain ⟨m, rfl⟩ : ∃ m, n = m + 1 := ⟨n - 1, by omega⟩
  rw [List.range_succ_eq_map, List.flatMap_cons, List.flatMap_map]
  simp

/-- The particles of a group are those that stay and those that leave for some rank. -/
theorem allParticles_split (size own comp : Nat) (g : Group) :
    (allParticles g).Perm (((List.range g.ncell).flatMap (staying size own comp g)) ++
      (List.range size).flatMap (leavingTo size own comp g)) := by
  let dst : Nat × Nat → Option Nat := fun p => destination size own comp g p.1 p.2
  let val : Nat × Nat → List (Option Int) := fun p => particle g p.1 p.2
  have h1 : allParticles g = (particlesOf g).map val := by
    unfold allParticles particlesOf contents
    rw [List.map_flatMap]
    simp [val, List.map_map, Function.comp_def]
  have h2 : (List.range g.ncell).flatMap (staying size own comp g) =
      ((particlesOf g).filter fun p => (dst p).isNone).map val := by
    unfold particlesOf staying
    rw [List.filter_flatMap, List.map_flatMap]
    apply List.flatMap_congr
    intro c _
    rw [List.filter_map, List.map_map]
    rfl
  have h3 : ∀ l : List (Nat × Nat), (∀ p ∈ l, ∃ r, dst p = some r ∧ r < size) →
      l.Perm ((List.range size).flatMap fun r => l.filter fun p => dst p == some r) := by
    intro l
    induction l with
    | nil => intro _; simp
    | cons p l ih =>
      intro hl
      obtain ⟨r, hr, hlt⟩ := hl p List.mem_cons_self
      have := ih fun q hq => hl q (List.mem_cons_of_mem _ hq)
      have hs : ((List.range size).flatMap fun r' => (p :: l).filter fun p => dst p == some r') =
          (List.range size).flatMap fun r' => (if r' = r then [p] else []) ++
            l.filter fun p => dst p == some r' := by
        apply List.flatMap_congr
        intro r' _
        rw [List.filter_cons]
        by_cases he : r' = r
        · subst he; simp [hr]
        · have he' : ¬ r = r' := fun h => he h.symm
          simp [hr, he, he']
      rw [hs]
      refine List.Perm.trans ?_ (List.flatMap_append_perm _ _ _)
      have hone : ((List.range size).flatMap fun r' => if r' = r then [p] else []) = [p] := by
        have : ∀ k, ((List.range k).flatMap fun r' => if r' = r then [p] else []) =
            if r < k then [p] else [] := by
          intro k
          induction k with
          | zero => simp
          | succ k ih =>
            rw [List.range_succ, List.flatMap_append, ih]
            by_cases h1 : r < k
            · have : k ≠ r := by omega
              simp [h1, this, Nat.lt_succ_of_lt h1]
            · by_cases h2 : k = r
              · simp [h2]
              · have : ¬ r < k + 1 := by omega
                simp [h1, h2, this]
        rw [this, if_pos hlt]
      rw [hone]
      exact this.cons p
  have h4 : (List.range size).flatMap (leavingTo size own comp g) =
      ((List.range size).flatMap fun r =>
        ((particlesOf g).filter fun p => (dst p).isSome).filter fun p => dst p == some r).map
          val := by
    rw [List.map_flatMap]
    apply List.flatMap_congr
    intro r _
    unfold leavingTo
    rw [List.filter_filter]
    congr 1
    apply List.filter_congr
    intro p _
    show (dst p == some r) = _
    cases hd : dst p with
    | none => simp
    | some x => simp
  rw [h1, h2, h4, ← List.map_append]
  apply List.Perm.map
  refine List.Perm.trans ?_ ((List.Perm.refl _).append (h3 _ ?_))
  · have := List.filter_append_perm (fun p => (dst p).isNone) (particlesOf g)
    refine this.symm.trans (List.Perm.of_eq ?_)
    congr 1
    apply List.filter_congr
    intro p _
    cases dst p <;> rfl
  · intro p hp
    rw [List.mem_filter] at hp
    obtain ⟨r, hr⟩ := Option.isSome_iff_exists.1 hp.2
    exact ⟨r, hr, (destination_eq_some.1 hr).1⟩

/-- A move loses, duplicates and changes no particle. -/
theorem moved_conserves {n comp : Nat} {g : Nat → Group} {out : List Group}
    (hc : ∀ r, r < n → 0 < (g r).ncell) (h : Moved n comp g out) :
    (out.flatMap allParticles).Perm ((List.range n).flatMap fun r => allParticles (g r)) := by
  obtain ⟨hl, h⟩ := h
  haveI : Inhabited Group := ⟨g 0⟩
  choose! res h1 h2 h3 h4 h5 using h
  have hout : out = (List.range n).map res := by
    apply List.ext_getElem?
    intro i
    rw [List.getElem?_map]
    by_cases hi : i < n
    · rw [h1 i hi, List.getElem?_range hi]; rfl
    · rw [List.getElem?_eq_none (by omega), List.getElem?_eq_none (by simpa using hi)]; rfl
  rw [hout, List.flatMap_map]
  have hA : ((List.range n).flatMap fun r => allParticles (res r)).Perm
      ((List.range n).flatMap fun r =>
        ((List.range (g r).ncell).flatMap (staying n r comp (g r))) ++ arriving n comp g r) := by
    refine perm_flatMap_of fun r hr => ?_
    rw [List.mem_range] at hr
    unfold allParticles
    rw [(h3 r hr).ncell]
    refine (perm_flatMap_of fun c hcr => h5 r hr c (List.mem_range.1 hcr)).trans ?_
    refine (List.flatMap_append_perm _ _ _).symm.trans ?_
    rw [flatMap_if_zero _ (hc r hr)]
  have hB : ((List.range n).flatMap fun r => allParticles (g r)).Perm
      ((List.range n).flatMap fun r =>
        ((List.range (g r).ncell).flatMap (staying n r comp (g r))) ++
          (List.range n).flatMap (leavingTo n r comp (g r))) :=
    perm_flatMap_of fun r _ => allParticles_split n r comp (g r)
  refine hA.trans (List.Perm.trans ?_ hB.symm)
  refine (List.flatMap_append_perm _ _ _).symm.trans
    (List.Perm.trans ?_ (List.flatMap_append_perm _ _ _))
  refine (List.Perm.refl _).append ?_
  unfold arriving
  exact flatMap_swap_perm (List.range n) (List.range n) fun r s => leavingTo n s comp (g s) r

/-- `global_move` loses, duplicates and changes no particle. -/
theorem C28_conserves {n : Nat} (order : Sched) (arrive1 arrive2 : Nat → Sched) {e : Nat → Env}
    (aware : Bool) (nReal : Nat) {maps : Nat → List Nat} {g : Nat → Group}
    (h : ∀ r, r < n → CanMove n r 0 (e r) (maps r) (g r))
    (hsame : ∀ r s, r < n → s < n → flatComps (g r).dats = flatComps (g s).dats) :
    ∃ out, globalMove n order arrive1 arrive2 e aware nReal maps g = some out ∧
      (out.flatMap allParticles).Perm ((List.range n).flatMap fun r => allParticles (g r)) := by
  obtain ⟨out, h1, h2⟩ := C28_global_move order arrive1 arrive2 aware nReal h hsame
  exact ⟨out, h1, moved_conserves (fun r hr => (h r hr).cells) h2⟩

end NP
