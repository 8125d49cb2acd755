import Verif.Group.LemmasCellMove

/-! `CellMove::move`: the whole function. -/

set_option autoImplicit false

namespace NP

open Spec

/-- Every particle has a destination cell. -/
structure HasDest (g : Group) (dst : Nat × Nat → Nat) : Prop where
  mem : ∀ p : Nat × Nat, IsParticle g.hNpart p.1 p.2 →
    g.mem ⟨g.cellSym, p.1, 0, p.2⟩ = some (dst p : Int)
  lt : ∀ p : Nat × Nat, IsParticle g.hNpart p.1 p.2 → dst p < g.ncell

/-- The counter used by a particle that changes cell. -/
def moveKey (dst : Nat × Nat → Nat) (p : Nat × Nat) : Option Nat :=
  if p.1 = dst p then none else some (dst p)

theorem identify_spec {g : Group} {dst : Nat × Nat → Nat} (hd : HasDest g dst)
    {items : List (Nat × Nat)} (hnd : items.Nodup)
    (hin : ∀ c k, (c, k) ∈ items ↔ IsParticle g.hNpart c k) {tmp : List Int}
    (ht : tmp.length = g.hNpart.sum) :
    ∃ tmp', runItems (cmIdentifyStep g.ncell g.cellSym g.hNpart g.mem) items
        (List.replicate g.ncell 0, tmp) =
        some (addCounts (moveKey dst) items (List.replicate g.ncell 0), tmp') ∧
      ∀ p ∈ items, tmp'[before g.hNpart p.1 + p.2]? =
        some (if p.1 = dst p then -1 else (rank (moveKey dst) items p : Int)) := by
  have hp : ∀ p ∈ items, IsParticle g.hNpart p.1 p.2 := fun p h => (hin p.1 p.2).1 h
  have h1 := runItems_fetch (key := moveKey dst)
    (store := fun (p : Nat × Nat) off (l : List Int) =>
      st l (before g.hNpart p.1 + p.2) (off : Int))
    (skip := fun p l => st l (before g.hNpart p.1 + p.2) (-1)) hnd
    (ctr := List.replicate g.ncell 0) (by
      intro p hpm c hk
      unfold moveKey at hk
      by_cases h : p.1 = dst p
      · rw [if_pos h] at hk; cases hk
      · rw [if_neg h] at hk
        simp only [Option.some.injEq] at hk
        rw [← hk, List.length_replicate]
        exact hd.lt p (hp p hpm)) tmp
  obtain ⟨tmp', h2, h3, h4, -⟩ := runItems_put (items := items) (m := tmp)
    (step := fun p l => match moveKey dst p with
        | none => st l (before g.hNpart p.1 + p.2) (-1)
        | some c => st l (before g.hNpart p.1 + p.2)
          (((List.replicate g.ncell 0).getD c 0 + rank (moveKey dst) items p : Nat) : Int))
    (fun p => some (before g.hNpart p.1 + p.2))
    (fun p => if p.1 = dst p then -1 else (rank (moveKey dst) items p : Int))
    (by
      intro p hpm a _
      unfold moveKey
      by_cases h : p.1 = dst p
      · simp only [if_pos h]
      · simp only [if_neg h]
        have : ∀ c, (List.replicate g.ncell 0).getD c 0 = 0 := by
          intro c; simp [List.getD, List.getElem?_replicate]; split <;> rfl
        rw [this, Nat.zero_add])
    (by
      intro p hpm q hqm d e1 e2
      rw [← e2] at e1
      simp only [Option.some.injEq] at e1
      obtain ⟨a, b⟩ := before_inj (hp p hpm) (hp q hqm) e1
      rw [Prod.ext a b])
    (by
      intro p hpm d e1
      simp only [Option.some.injEq] at e1
      rw [← e1, ht, ← before_all]
      exact before_le (hp p hpm) (lt_length_of_isParticle (hp p hpm)))
  refine ⟨tmp', ?_, fun p hpm => h4 p hpm _ rfl⟩
  rw [runItems_congr (step' := fetchStep (moveKey dst)
    (fun (p : Nat × Nat) off (l : List Int) => st l (before g.hNpart p.1 + p.2) (off : Int))
    (fun p l => st l (before g.hNpart p.1 + p.2) (-1))) ?_, h1]
  · exact congrArg (Option.map _) h2
  · intro p hpm s
    have hpp := hp p hpm
    have hlt := hd.lt p hpp
    unfold cmIdentifyStep fetchStep moveKey
    simp only [hd.mem p hpp, Option.bind_some, loopLinearIndex_eq hpp, index]
    rw [if_neg (by omega), if_pos (by omega)]
    simp only [Option.bind_some, Int.toNat_natCast]
    by_cases h : p.1 = dst p
    · have : ¬ ((p.1 : Int) ≠ (dst p : Int)) := by omega
      simp only [if_neg this, if_pos h]
    · have : ((p.1 : Int) ≠ (dst p : Int)) := by omega
      simp only [if_pos this, if_neg h]

/-- Counting kernel, then exclusive sums. -/
theorem cmCounts_spec {ncell : Nat} {s : Sched} {K N : List Nat} (hK : K.length = ncell)
    (hN : N.length = ncell) {a b : List Nat} (ha : a.length = ncell) (hb : b.length = ncell + 1) :
    ∃ x y, runItems (fun c (s : List Nat × List Nat) => (rd K c).bind fun off =>
      (rd N c).bind fun n =>
      (st s.1 c (off + n)).bind fun a => (st s.2 c off).bind fun b => some (a, b))
        (s.order (List.range ncell)) (a, b) = some (x, y) ∧
      x.length = ncell ∧ y.length = ncell + 1 ∧
      (∀ c, c < ncell → x[c]? = some (K.getD c 0 + N.getD c 0)) ∧
      (∀ c, c < ncell → y[c]? = some (K.getD c 0)) := by
  obtain ⟨x, h1, h2, h3, -⟩ := runItems_fill (step := fun c (x : List Nat) =>
      st x c (K.getD c 0 + N.getD c 0)) (m := a) (s.perm (List.range ncell)) (by omega)
    (fun c => K.getD c 0 + N.getD c 0) (fun _ _ _ _ => rfl)
  obtain ⟨y, k1, k2, k3, -⟩ := runItems_fill (step := fun c (x : List Nat) =>
      st x c (K.getD c 0)) (m := b) (s.perm (List.range ncell)) (by omega)
    (fun c => K.getD c 0) (fun _ _ _ _ => rfl)
  refine ⟨x, y, ?_, by omega, by omega, h3, k3⟩
  refine runItems_prod ?_ h1 k1
  intro c hc s' t
  rw [(s.perm (List.range ncell)).mem_iff, List.mem_range] at hc
  simp only [rd, get_getD hK hc, get_getD hN hc, Option.bind_some]

/-- Four arrays written at the same index. -/
theorem runItems_put4 {ι : Type} {items : List ι} {n : Nat} (dst : ι → Option Nat)
    (f1 f2 f3 f4 : ι → Int) {step : ι → MoveArrays → Option MoveArrays}
    (hstep : ∀ i ∈ items, ∀ a, step i a = match dst i with
      | none => some a
      | some d => (st a.1 d (f1 i)).bind fun a1 => (st a.2.1 d (f2 i)).bind fun a2 =>
          (st a.2.2.1 d (f3 i)).bind fun a3 => (st a.2.2.2 d (f4 i)).bind fun a4 =>
            some (a1, a2, a3, a4))
    (hinj : ∀ i ∈ items, ∀ j ∈ items, ∀ d, dst i = some d → dst j = some d → i = j)
    (hin : ∀ i ∈ items, ∀ d, dst i = some d → d < n) {a1 a2 a3 a4 : List Int}
    (h1 : a1.length = n) (h2 : a2.length = n) (h3 : a3.length = n) (h4 : a4.length = n) :
    ∃ b1 b2 b3 b4, runItems step items (a1, a2, a3, a4) = some (b1, b2, b3, b4) ∧
      b1.length = n ∧ b2.length = n ∧ b3.length = n ∧ b4.length = n ∧
      ∀ i ∈ items, ∀ d, dst i = some d → b1[d]? = some (f1 i) ∧ b2[d]? = some (f2 i) ∧
        b3[d]? = some (f3 i) ∧ b4[d]? = some (f4 i) := by
  have one : ∀ (f : ι → Int) (a : List Int), a.length = n →
      ∃ b, runItems (putStep dst f) items a = some b ∧ b.length = n ∧
        ∀ i ∈ items, ∀ d, dst i = some d → b[d]? = some (f i) := by
    intro f a ha
    obtain ⟨b, q1, q2, q3, -⟩ := runItems_putStep (items := items) (m := a) dst f
      (fun i hi j hj d e1 e2 => by rw [hinj i hi j hj d e1 e2])
      (fun i hi d e1 => by rw [ha]; exact hin i hi d e1)
    exact ⟨b, q1, by omega, q3⟩
  obtain ⟨b1, p1, l1, g1⟩ := one f1 a1 h1
  obtain ⟨b2, p2, l2, g2⟩ := one f2 a2 h2
  obtain ⟨b3, p3, l3, g3⟩ := one f3 a3 h3
  obtain ⟨b4, p4, l4, g4⟩ := one f4 a4 h4
  refine ⟨b1, b2, b3, b4, ?_, l1, l2, l3, l4,
    fun i hi d e1 => ⟨g1 i hi d e1, g2 i hi d e1, g3 i hi d e1, g4 i hi d e1⟩⟩
  have q34 := runItems_prod (f := putStep dst f3) (g := putStep dst f4)
    (step := fun i (s : List Int × List Int) => (putStep dst f3 i s.1).bind fun x =>
      (putStep dst f4 i s.2).bind fun y => some (x, y)) (items := items)
    (fun _ _ _ _ => rfl) p3 p4
  have q234 := runItems_prod (f := putStep dst f2)
    (g := fun i (s : List Int × List Int) => (putStep dst f3 i s.1).bind fun x =>
      (putStep dst f4 i s.2).bind fun y => some (x, y))
    (step := fun i (s : List Int × List Int × List Int) => (putStep dst f2 i s.1).bind fun x =>
      ((putStep dst f3 i s.2.1).bind fun x =>
      (putStep dst f4 i s.2.2).bind fun y => some (x, y)).bind fun y => some (x, y))
    (items := items) (fun _ _ _ _ => rfl) p2 q34
  refine runItems_prod (f := putStep dst f1) ?_ p1 q234
  rintro i hi s ⟨t1, t2, t3⟩
  rw [hstep i hi]
  unfold putStep
  cases hdi : dst i with
  | none => rfl
  | some d =>
    simp only
    cases st s d (f1 i) with
    | none => rfl
    | some x1 =>
      simp only [Option.bind_some]
      cases st t1 d (f2 i) with
      | none => rfl
      | some x2 =>
        simp only [Option.bind_some]
        cases st t2 d (f3 i) with
        | none => rfl
        | some x3 =>
          simp only [Option.bind_some]
          cases st t3 d (f4 i) with
          | none => rfl
          | some x4 => rfl

/-- Position in the list of moves of a particle that changes cell. -/
def moveIx (dst : Nat × Nat → Nat) (items : List (Nat × Nat)) (Y : List Nat) (p : Nat × Nat) : Nat :=
  before Y (dst p) + rank (moveKey dst) items p

theorem collect_spec {g : Group} {dst : Nat × Nat → Nat} (hd : HasDest g dst)
    {items items' : List (Nat × Nat)} (hnd : items.Nodup)
    (hin : ∀ c k, (c, k) ∈ items ↔ IsParticle g.hNpart c k)
    (hp : items'.Perm items) {tmp : List Int}
    (htmp : ∀ p ∈ items, tmp[before g.hNpart p.1 + p.2]? =
        some (if p.1 = dst p then -1 else (rank (moveKey dst) items p : Int)))
    {es Y : List Nat} (hes : ∀ c, c < g.ncell → es[c]? = some (before Y c))
    (hY : ∀ c, c < g.ncell → Y[c]? = some (keyCount (moveKey dst) items c))
    (hlen : g.hNpart.length = g.ncell) {n : Nat} (hn : before Y g.ncell ≤ n)
    {a1 a2 a3 a4 : List Int}
    (h1 : a1.length = n) (h2 : a2.length = n) (h3 : a3.length = n) (h4 : a4.length = n) :
    ∃ b1 b2 b3 b4, runItems (cmCollectStep g.cellSym g.hNpart g.hNpart g.mem tmp es) items'
        (a1, a2, a3, a4) = some (b1, b2, b3, b4) ∧
      b1.length = n ∧ b2.length = n ∧ b3.length = n ∧ b4.length = n ∧
      ∀ p ∈ items, p.1 ≠ dst p → b1[moveIx dst items Y p]? = some (p.1 : Int) ∧
        b2[moveIx dst items Y p]? = some (dst p : Int) ∧
        b3[moveIx dst items Y p]? = some (p.2 : Int) ∧
        b4[moveIx dst items Y p]? =
          some (((rank (moveKey dst) items p + g.hNpart.getD (dst p) 0 : Nat) : Int)) := by
  have hpi : ∀ p ∈ items, IsParticle g.hNpart p.1 p.2 := fun p h => (hin p.1 p.2).1 h
  have hkey : ∀ p, p.1 ≠ dst p → moveKey dst p = some (dst p) := fun p h => if_neg h
  have hYP : ∀ p ∈ items, p.1 ≠ dst p → IsParticle Y (dst p) (rank (moveKey dst) items p) :=
    fun p hpm hne => ⟨_, hY _ (hd.lt p (hpi p hpm)), rank_lt hpm (hkey p hne)⟩
  obtain ⟨b1, b2, b3, b4, q1, q2, q3, q4, q5, q6⟩ := runItems_put4 (items := items') (n := n)
    (fun p => if p.1 = dst p then none else some (moveIx dst items Y p))
    (fun p => (p.1 : Int)) (fun p => (dst p : Int)) (fun p => (p.2 : Int))
    (fun p => ((rank (moveKey dst) items p + g.hNpart.getD (dst p) 0 : Nat) : Int))
    (step := cmCollectStep g.cellSym g.hNpart g.hNpart g.mem tmp es)
    (by
      intro p hpm a
      rw [hp.mem_iff] at hpm
      have hpp := hpi p hpm
      have hlt := hd.lt p hpp
      unfold cmCollectStep
      rw [loopLinearIndex_eq hpp]
      simp only [Option.bind_some, index]
      rw [if_pos (by omega)]
      simp only [Option.bind_some, Int.toNat_natCast, rd, htmp p hpm]
      by_cases h : p.1 = dst p
      · simp only [if_pos h]
        rw [if_neg (by omega)]
      · simp only [if_neg h]
        rw [if_pos (by omega), hd.mem p hpp]
        simp only [Option.bind_some]
        rw [if_pos (by omega)]
        simp only [Option.bind_some, Int.toNat_natCast, hes _ hlt]
        rw [if_pos (by omega)]
        simp only [Option.bind_some, get_getD hlen hlt]
        have e1 : ((rank (moveKey dst) items p : Int) + (before Y (dst p) : Int)).toNat =
            moveIx dst items Y p := by unfold moveIx; omega
        rw [e1]
        simp only [Nat.cast_add])
    (by
      intro p hpm q hqm d e1 e2
      rw [hp.mem_iff] at hpm hqm
      by_cases h : p.1 = dst p
      · rw [if_pos h] at e1; cases e1
      · by_cases h' : q.1 = dst q
        · rw [if_pos h'] at e2; cases e2
        · rw [if_neg h] at e1
          rw [if_neg h', ← e1] at e2
          simp only [Option.some.injEq, moveIx] at e2
          obtain ⟨x1, x2⟩ := before_inj (hYP q hqm h') (hYP p hpm h) e2
          exact (rank_inj hqm (hkey q h') (by rw [hkey p h, x1]) x2).symm)
    (by
      intro p hpm d e1
      rw [hp.mem_iff] at hpm
      by_cases h : p.1 = dst p
      · rw [if_pos h] at e1; cases e1
      · rw [if_neg h] at e1
        simp only [Option.some.injEq, moveIx] at e1
        have := before_le (hYP p hpm h) (hd.lt p (hpi p hpm))
        omega) h1 h2 h3 h4
  refine ⟨b1, b2, b3, b4, q1, q2, q3, q4, q5, ?_⟩
  intro p hpm hne
  exact q6 p (hp.mem_iff.2 hpm) _ (if_neg hne)

theorem cellMove_spec {e e' : Env} (hE : EnvOk e) (hE' : EnvOk e') {g : Group}
    (hg : Consistent g) (hsmall : g.hNpart.sum < 2 ^ 31)
    (hids : ∀ c k, c < g.ncell → k < count g c →
      ∃ v, cellId g c k = some v ∧ 0 ≤ v ∧ v < g.ncell) :
    ∃ g', cellMove e e' g = some g' ∧ Consistent g' ∧ SameShape g g' ∧
      g'.version = g.version + 2 ∧
      ∀ c, c < g.ncell → (contents g' c).Perm
        (((particles g).filter fun p => cellId g p.1 p.2 == some (c : Int)).map
          fun p => particle g p.1 p.2) := by
  have hsm : ∀ n ∈ g.hNpart, n < 2 ^ 31 := fun n hn => by have := le_sum_of_mem hn; omega
  have hPiff : ∀ c k, IsParticle g.hNpart c k ↔ c < g.ncell ∧ k < g.hNpart.getD c 0 :=
    fun c k => isParticle_iff hg.len
  obtain ⟨dst, hd⟩ : ∃ dst, HasDest g dst := by
    have : ∀ p : Nat × Nat, ∃ d : Nat, IsParticle g.hNpart p.1 p.2 →
        g.mem ⟨g.cellSym, p.1, 0, p.2⟩ = some (d : Int) ∧ d < g.ncell := by
      intro p
      by_cases hp : IsParticle g.hNpart p.1 p.2
      · obtain ⟨h1, h2⟩ := (hPiff _ _).1 hp
        obtain ⟨v, hv, hv0, hv1⟩ := hids p.1 p.2 h1 h2
        refine ⟨v.toNat, fun _ => ⟨?_, by omega⟩⟩
        rw [show ((v.toNat : Nat) : Int) = v by omega]
        exact hv
      · exact ⟨0, fun h => absurd h hp⟩
    choose dst hdst using this
    exact ⟨dst, fun p hp => (hdst p hp).1, fun p hp => (hdst p hp).2⟩
  obtain ⟨rank, hrm, hr, -⟩ := dat?_of_mem_syms hg.rank
  obtain ⟨dc, hdc1, hdc2, hdc3⟩ := hg.cell
  obtain ⟨cid, hcm, hc, -⟩ := dat?_of_mem_syms (g := g) (List.mem_map.2 ⟨dc, hdc1, hdc2⟩)
  have hcellmem : (g.cellSym, 0) ∈ flatComps g.dats := mem_flatComps.2 ⟨dc, hdc1, hdc2, hdc3⟩
  have hlaunch : LaunchOk e.loop g.hNpart false 0 :=
    ⟨hE.localSize_pos, hE.localSize_int, hE.nbin_pos, hsm, by simp⟩
  obtain ⟨vis, hv1, hv2, hv3⟩ := C07_each_particle_once hlaunch (cs := none) (ce := none) trivial
  have hv3' : ∀ c k, (c, k) ∈ vis ↔ IsParticle g.hNpart c k := by
    intro c k; rw [hv3]; simp [CellRequested]
  unfold cellMove cellMoveInner
  rw [hr, hc]
  simp only [Option.bind_some, (hg.dats rank hrm).host, (hg.dats rank hrm).device,
    (hg.dats cid hcm).host, hv1]
  -- identify
  have hp0 := (e.sched 0).perm vis
  have hp5 := (e.sched 5).perm vis
  have hnd0 := hp0.nodup_iff.2 hv2
  have hin0 : ∀ c k, (c, k) ∈ (e.sched 0).order vis ↔ IsParticle g.hNpart c k := fun c k => by
    rw [hp0.mem_iff, hv3']
  have hp50 : ((e.sched 5).order vis).Perm ((e.sched 0).order vis) := hp5.trans hp0.symm
  generalize (e.sched 0).order vis = items at hnd0 hin0 hp50 ⊢
  rw [(hg.dats rank hrm).host]
  obtain ⟨tmp, i1, i2⟩ := identify_spec hd hnd0 hin0 (e.freshI 0 g.hNpart.sum).2
  rw [i1]
  simp only [Option.bind_some]
  have hpi : ∀ p ∈ items, IsParticle g.hNpart p.1 p.2 := fun p h => (hin0 p.1 p.2).1 h
  -- counts
  have hKl : (addCounts (moveKey dst) items (List.replicate g.ncell 0)).length = g.ncell := by
    simp [addCounts]
  have hKc : ∀ c, c < g.ncell → (addCounts (moveKey dst) items
      (List.replicate g.ncell 0)).getD c 0 = keyCount (moveKey dst) items c := by
    intro c hc
    have : (addCounts (moveKey dst) items (List.replicate g.ncell 0))[c]? =
        some (keyCount (moveKey dst) items c) := by
      rw [getElem?_addCounts, List.getElem?_replicate, if_pos hc]; simp
    exact getD_eq this
  obtain ⟨N1, Y, c1, c2, c3, c4, c5⟩ := cmCounts_spec (s := e.sched 1) hKl hg.len
    (a := (e.freshN 0 g.ncell).1) (b := (e.freshN 1 (g.ncell + 1)).1) (e.freshN 0 g.ncell).2
    (e.freshN 1 (g.ncell + 1)).2
  rw [c1]
  simp only [Option.bind_some]
  have hN1 : ∀ c, c < g.ncell → N1[c]? =
      some (g.hNpart.getD c 0 + keyCount (moveKey dst) items c) := by
    intro c hc; rw [c4 c hc, hKc c hc, Nat.add_comm]
  have hY : ∀ c, c < g.ncell → Y[c]? = some (keyCount (moveKey dst) items c) := by
    intro c hc; rw [c5 c hc, hKc c hc]
  -- exclusive sums
  obtain ⟨es, s1, s2, s3, -⟩ := C03_exclusive_scan_blocking (e.sched 2) (e.sched 3) (e.sched 4)
    e.scanLocalSize e.computeUnits (g.ncell + 1) hE.scan_pos (e.freshN 2) Y
    (List.replicate (g.ncell + 1) 0) (by omega) (by simp)
  rw [s1]
  simp only [Option.bind_some]
  have hes : ∀ c, c ≤ g.ncell → es[c]? = some (before Y c) := by
    intro c hc
    have := s3 c (by omega)
    simpa [before] using this
  simp only [rd, hes g.ncell (Nat.le_refl _), Option.bind_some]
  have hYsum : before Y g.ncell ≤ g.hNpart.sum := by
    have : Y.take g.ncell = (List.range g.ncell).map (keyCount (moveKey dst) items) := by
      apply List.ext_getElem?
      intro c
      rw [List.getElem?_take]
      by_cases hc : c < g.ncell
      · rw [if_pos hc, hY c hc]; simp [hc]
      · rw [if_neg hc, List.getElem?_eq_none (by simp; omega)]
    unfold before
    rw [this]
    exact Nat.le_trans (sum_keyCount_le _ _ _) (visits_length_le hnd0 hpi)
  rw [if_neg (by omega)]
  -- collect
  obtain ⟨b1, b2, b3, b4, j1, j2, j3, j4, j5, j6⟩ := collect_spec hd hnd0 hin0 hp50 i2
    (es := es) (Y := Y) (fun c hc => hes c (by omega)) hY hg.len hYsum
    (a1 := (e.freshI 1 g.hNpart.sum).1) (a2 := (e.freshI 2 g.hNpart.sum).1)
    (a3 := (e.freshI 3 g.hNpart.sum).1) (a4 := (e.freshI 4 g.hNpart.sum).1)
    (e.freshI 1 g.hNpart.sum).2 (e.freshI 2 g.hNpart.sum).2
    (e.freshI 3 g.hNpart.sum).2 (e.freshI 4 g.hNpart.sum).2
  rw [j1]
  simp only [Option.bind_some]
  -- index of a moving particle and back
  have hkey : ∀ p, p.1 ≠ dst p → moveKey dst p = some (dst p) := fun p h => if_neg h
  have hkey' : ∀ p c, moveKey dst p = some c → p.1 ≠ dst p ∧ dst p = c := by
    intro p c h
    unfold moveKey at h
    by_cases hx : p.1 = dst p
    · rw [if_pos hx] at h; cases h
    · rw [if_neg hx] at h; simp only [Option.some.injEq] at h; exact ⟨hx, h⟩
  have hYP : ∀ p ∈ items, p.1 ≠ dst p → IsParticle Y (dst p) (NP.rank (moveKey dst) items p) :=
    fun p hpm hne => ⟨_, hY _ (hd.lt p (hpi p hpm)), rank_lt hpm (hkey p hne)⟩
  have hixlt : ∀ p ∈ items, p.1 ≠ dst p → moveIx dst items Y p < before Y g.ncell :=
    fun p hpm hne => before_le (hYP p hpm hne) (hd.lt p (hpi p hpm))
  have hback : ∀ i, i < before Y g.ncell → ∃ p, p ∈ items ∧ p.1 ≠ dst p ∧
      moveIx dst items Y p = i := by
    intro i hi
    obtain ⟨c, k, -, hcn, ⟨n, hn, hk⟩, hbk⟩ := before_exists (npart := Y) (cs := 0) (ce := g.ncell)
      (by omega) (by simp [before]) hi
    rw [hY c hcn] at hn
    simp only [Option.some.injEq] at hn
    rw [← hn] at hk
    obtain ⟨p, hp, hpk, hrk⟩ := rank_surj hnd0 hk
    obtain ⟨x1, x2⟩ := hkey' p c hpk
    exact ⟨p, hp, x1, by unfold moveIx; rw [x2, hrk, hbk]⟩
  choose! pt hpt1 hpt2 hpt3 using hback
  -- rows
  obtain ⟨m2, dats2, k1, k2, k3, k4, k5⟩ := mapDats_realloc (e := e) (counts := N1) (m := g.mem)
    (dats := g.dats) (ncell := g.ncell) (fun d hd => (hg.dats d hd).mem) hg.nodup c2
  rw [k1]
  simp only [Option.bind_some]
  have hs2 : SameSyms g.dats dats2 := k2.imp (fun d d' h => ⟨h.sym, h.ncomp⟩)
  have hfl := flatComps_congr hs2
  have hdat2 : ∀ d' ∈ dats2, DatMem g.ncell m2 d' ∧ d'.hNpart = g.hNpart ∧
      d'.dNpart = g.hNpart ∧ d'.nrow = N1 := by
    intro d' hd'
    obtain ⟨d, hdm, hr⟩ := forall₂_mem_right k2 hd'
    have := hg.dats d hdm
    exact ⟨k3 d' hd', by rw [hr.host, this.host], by rw [hr.device, this.device], hr.nrow⟩
  have hkeep : ∀ sj ∈ flatComps g.dats, ∀ c k, IsParticle g.hNpart c k →
      m2 ⟨sj.1, c, sj.2, k⟩ = g.mem ⟨sj.1, c, sj.2, k⟩ := by
    intro sj hsj c k hp
    obtain ⟨hcn, hk⟩ := (hPiff c k).1 hp
    obtain ⟨d, hdm, hd1, hd2⟩ := mem_flatComps.1 hsj
    have hdo := hg.dats d hdm
    obtain ⟨r, hr⟩ := exists_at hdo.mem.nrow_len hcn
    have := hdo.rows c _ r (get_getD hg.len hcn) hr
    exact k5 d hdm _ r _ hd1.symm hd2 hr (by simp only; omega) (hN1 c hcn) (by simp only; omega)
  have hsome : ∀ sj ∈ flatComps g.dats, ∀ c k, IsParticle g.hNpart c k →
      ∃ v, g.mem ⟨sj.1, c, sj.2, k⟩ = some v := by
    rintro sj hsj c k ⟨n, hn, hk⟩
    exact Option.isSome_iff_exists.1 (hg.datsOk.isSome hsj hn hk)
  obtain ⟨m3, r1, r2, r3, r4⟩ := runItems_newRows (step := cmCopyStep (b1, b2, b3, b4))
    (dats := dats2) (N := before Y g.ncell) (m := m2)
    ((e.sched 6).perm (compItems dats2 (before Y g.ncell)))
    (fun i => dst (pt i))
    (fun i => g.hNpart.getD (dst (pt i)) 0 + NP.rank (moveKey dst) items (pt i))
    (fun it => (g.mem ⟨it.1.1, (pt it.2).1, it.1.2, (pt it.2).2⟩).getD 0)
    (by
      rintro ⟨sj, i⟩ hsj hi m' hm'
      simp only at hsj hi hm'
      rw [hfl] at hsj
      have hpm := hpt1 i hi
      have hne := hpt2 i hi
      obtain ⟨x1, x2, x3, x4⟩ := j6 _ hpm hne
      rw [hpt3 i hi] at x1 x2 x3 x4
      unfold cmCopyStep
      simp only [rd, x1, x2, x3, x4, Option.bind_some, index]
      rw [if_pos (by omega), if_pos (by omega), if_pos (by omega), if_pos (by omega)]
      simp only [Int.toNat_natCast, Option.bind_some]
      have hpp := hpi _ hpm
      rw [hm' _ (by
        rintro j hj ⟨y1, y2⟩
        simp only at y1 y2
        have := ((hPiff _ _).1 hpp).2
        rw [← y1] at y2
        omega), hkeep sj hsj _ _ hpp]
      obtain ⟨v, hv⟩ := hsome sj hsj _ _ hpp
      rw [hv]
      simp only [Option.bind_some, Option.getD_some]
      rw [Nat.add_comm])
    (by
      intro i j hi hj h1 h2
      rw [h1] at h2
      have e1 := hpt3 i hi
      have e2 := hpt3 j hj
      rw [← e1, ← e2]
      unfold moveIx
      rw [h1]; omega)
    (by
      intro sj hsj i hi
      have hlt := hd.lt _ (hpi _ (hpt1 i hi))
      have := rank_lt (hpt1 i hi) (hkey _ (hpt2 i hi))
      exact rows_isSome c2 (fun d hd => ⟨(hdat2 d hd).1, (hdat2 d hd).2.2.2⟩) hsj
        (hN1 _ hlt) (by omega))
  rw [r1]
  simp only [Option.bind_some]
  obtain ⟨dats3, u1, u2⟩ := updDats_npart (g := { g with mem := m3, dats := dats2 }) (N := N1) c2
    (fun d hdm => by rw [(hdat2 d hdm).2.1]; exact hg.len)
    (fun d hdm => by rw [(hdat2 d hdm).2.2.1]; exact hg.len)
  simp only at u1 u2
  rw [u1]
  simp only [Option.bind_some]
  have hs3 : SameSyms g.dats dats3 := SameSyms.trans hs2
    (u2.imp (fun d d' h => by rw [h]; exact ⟨rfl, rfl⟩))
  have hfl3 := flatComps_congr hs3
  have hdat3 : ∀ d' ∈ dats3, DatMem g.ncell m3 d' ∧ d'.hNpart = N1 ∧ d'.dNpart = N1 ∧
      d'.nrow = N1 := by
    intro d' hd'
    obtain ⟨d, hdm, rfl⟩ := forall₂_mem_right u2 hd'
    obtain ⟨q1, q2, q3, q4⟩ := hdat2 d hdm
    exact ⟨⟨q1.nrow_len, q1.alloc_len, q1.le,
      fun c a j k h1 h2 h3 => r4 _ (q1.alloc c a j k h1 h2 h3)⟩, rfl, rfl, q4⟩
  have hdok : DatsOk g.ncell N1 m3 dats3 := by
    refine ⟨c2, by rw [syms_congr hs3]; exact hg.nodup, fun d hd => (hdat3 d hd).1,
      fun d hd => (hdat3 d hd).2.1, fun d hd => (hdat3 d hd).2.2.1, ?_⟩
    intro d hdm c n r hn hr
    rw [(hdat3 d hdm).2.2.2, hn] at hr
    simp only [Option.some.injEq] at hr
    omega
  -- contents of the rows before the old positions are removed
  have hold : ∀ sj ∈ flatComps g.dats, ∀ c k, IsParticle g.hNpart c k →
      m3 ⟨sj.1, c, sj.2, k⟩ = g.mem ⟨sj.1, c, sj.2, k⟩ := by
    intro sj hsj c k hp
    rw [r3 _ (by
      rintro i hi ⟨y1, y2⟩
      simp only at y1 y2
      have := ((hPiff _ _).1 hp).2
      rw [← y1] at y2
      omega)]
    exact hkeep sj hsj c k hp
  have hnew : ∀ sj ∈ flatComps g.dats, ∀ p ∈ items, p.1 ≠ dst p →
      m3 ⟨sj.1, dst p, sj.2, g.hNpart.getD (dst p) 0 + NP.rank (moveKey dst) items p⟩ =
        g.mem ⟨sj.1, p.1, sj.2, p.2⟩ := by
    intro sj hsj p hpm hne
    have hlt := hixlt p hpm hne
    have hpe : pt (moveIx dst items Y p) = p := by
      have e1 := hpt3 _ hlt
      have hm1 := hpt1 _ hlt
      have hm2 := hpt2 _ hlt
      unfold moveIx at e1
      obtain ⟨x1, x2⟩ := before_inj (hYP _ hm1 hm2) (hYP p hpm hne) e1
      exact rank_inj hm1 (hkey _ hm2) (by rw [hkey p hne]; exact congrArg some x1.symm) x2
    have := r2 sj (by rw [hfl]; exact hsj) _ hlt
    simp only [hpe] at this
    rw [this]
    obtain ⟨v, hv⟩ := hsome sj hsj _ _ (hpi p hpm)
    rw [hv]; rfl
  have hlist : ∀ c k, Listed (before Y g.ncell) b1 b3 c k ↔
      IsParticle g.hNpart c k ∧ c ≠ dst (c, k) := by
    intro c k
    rw [listed_iff_get]
    constructor
    · rintro ⟨i, hi, h1, h2⟩
      have hpm := hpt1 i hi
      have hne := hpt2 i hi
      obtain ⟨x1, -, x3, -⟩ := j6 _ hpm hne
      rw [hpt3 i hi] at x1 x3
      rw [h1] at x1
      rw [h2] at x3
      simp only [Option.some.injEq, Nat.cast_inj] at x1 x3
      have : (c, k) = pt i := Prod.ext x1 x3
      have hpp := hpi _ hpm
      rw [← this] at hpp hne
      exact ⟨hpp, hne⟩
    · rintro ⟨hp, hne⟩
      have hpm := (hin0 c k).2 hp
      obtain ⟨x1, -, x3, -⟩ := j6 _ hpm hne
      exact ⟨_, hixlt _ hpm hne, x1, x3⟩
  have hrow : ∀ c k, c < g.ncell → k < g.hNpart.getD c 0 + keyCount (moveKey dst) items c →
      IsParticle g.hNpart c k ∨ ∃ p ∈ items, p.1 ≠ dst p ∧ dst p = c ∧
        k = g.hNpart.getD c 0 + NP.rank (moveKey dst) items p := by
    intro c k hc hk
    by_cases hlt : k < g.hNpart.getD c 0
    · exact Or.inl ((hPiff c k).2 ⟨hc, hlt⟩)
    · obtain ⟨p, hp, hpk, hrk⟩ := rank_surj (key := moveKey dst) (items := items) (c := c)
        (r := k - g.hNpart.getD c 0) hnd0 (by omega)
      obtain ⟨x1, x2⟩ := hkey' p c hpk
      exact Or.inr ⟨p, hp, x1, x2, by omega⟩
  have hN1small : ∀ n ∈ N1, n < 2 ^ 31 := by
    intro n hn
    obtain ⟨c, hcn⟩ := List.mem_iff_getElem?.1 hn
    have hc : c < g.ncell := by
      have := (List.getElem?_eq_some_iff.1 hcn).1
      omega
    rw [hN1 c hc] at hcn
    simp only [Option.some.injEq] at hcn
    have hnd : ((List.range (g.hNpart.getD c 0)).map (fun k => (c, k)) ++
        items.filter (fun p => moveKey dst p = some c)).Nodup := by
      rw [List.nodup_append]
      refine ⟨List.Nodup.map (fun a b h => (Prod.mk.inj h).2) List.nodup_range,
        hnd0.filter _, ?_⟩
      rintro x hx y hy rfl
      rw [List.mem_map] at hx
      obtain ⟨k, -, rfl⟩ := hx
      rw [List.mem_filter] at hy
      obtain ⟨x1, x2⟩ := hkey' _ _ (by simpa using hy.2)
      exact x1 x2.symm
    have := visits_length_le (N := g.hNpart) hnd (by
      intro p hp
      rcases List.mem_append.1 hp with h | h
      · rw [List.mem_map] at h
        obtain ⟨k, hk, rfl⟩ := h
        exact (hPiff _ _).2 ⟨hc, List.mem_range.1 hk⟩
      · exact hpi p (List.mem_filter.1 h).1)
    rw [List.length_append, List.length_map, List.length_range] at this
    have e1 : keyCount (moveKey dst) items c =
      (items.filter (fun p => moveKey dst p = some c)).length := rfl
    omega
  -- remove the old positions
  obtain ⟨N', m', dats', src, w1, w2, w3, w4, w6, w7⟩ := compressorRemove_spec' hE'
    (g := { g with mem := m3, dats := dats3 }) (npart := before Y g.ncell) (cells := b1)
    (layers := b3) hdok (fun d hd => (hdat3 d hd).2.2.2) hN1small
    (mem_syms_congr hs3 hg.rank) (cell_congr hs3 hg.cell) (by omega) (by omega)
    (by
      intro c k hc hl
      obtain ⟨hp, -⟩ := (hlist c k).1 hl
      have := ((hPiff c k).1 hp).2
      exact ⟨_, hN1 c hc, by omega⟩)
    (by
      intro c n k v hn hk hl hv
      simp only at hv
      have hc : c < g.ncell := by
        have := (List.getElem?_eq_some_iff.1 hn).1
        omega
      rw [hN1 c hc] at hn
      simp only [Option.some.injEq] at hn
      rcases hrow c k hc (by omega) with h | ⟨p, hp, hne, hdp, rfl⟩
      · have := hold (g.cellSym, 0) hcellmem c k h
        simp only at this
        rw [this, hd.mem (c, k) h] at hv
        simp only [Option.some.injEq] at hv
        omega
      · have := hnew (g.cellSym, 0) hcellmem p hp hne
        simp only [hdp] at this
        rw [this, hd.mem p (hpi p hp)] at hv
        simp only [Option.some.injEq] at hv
        omega)
  simp only at w1 w2 w3 w6 w7
  rw [w1]
  simp only [Option.bind_some]
  obtain ⟨es', z1, z2, z3⟩ := setNpartCellFromDat_spec (g := { g with mem := m', dats := dats' })
    hg.len hg.es_len w3.len (mem_syms_congr w2 (mem_syms_congr hs3 hg.pos)) w3.host
  rw [z1]
  simp only [Option.bind_some]
  have hs4 := SameSyms.trans hs3 w2
  refine ⟨_, rfl, ?_, SameShape.of_sameSyms hs4 rfl rfl rfl rfl rfl, rfl, ?_⟩
  · exact consistent_of_datsOk (N := N') w3 (fun _ => w4) rfl rfl rfl z2 z3 rfl
      (mem_syms_congr hs4 hg.pos) (mem_syms_congr hs4 hg.rank) (cell_congr hs4 hg.cell)
  · intro c hc
    have hcp := contents_perm (g := { g with mem := m3, dats := dats3 })
      (g' := invalidateVersion (invalidateVersion { g with
        mem := m', dats := dats', hNpart := N', dNpart := N', npartEs := es', npartLocal := N'.sum }))
      (src := src c) (flatComps_congr w2) (by
        intro k hk sj hsj
        exact w6 c _ (get_getD w3.len hc) k hk sj hsj) (w7 c hc)
    refine hcp.trans ?_
    have hN1c : N1.getD c 0 = g.hNpart.getD c 0 + keyCount (moveKey dst) items c :=
      getD_eq (hN1 c hc)
    have hin' : ∀ p ∈ (particles g).filter fun p => cellId g p.1 p.2 == some (c : Int),
        p ∈ items ∧ dst p = c := by
      intro p hp
      rw [List.mem_filter, mem_particles] at hp
      have hpp := (hPiff p.1 p.2).2 hp.1
      refine ⟨(hin0 p.1 p.2).2 hpp, ?_⟩
      have h2 := hp.2
      unfold cellId at h2
      rw [hd.mem p hpp] at h2
      simpa using h2
    refine map_bij_perm (f := fun p : Nat × Nat => if p.1 = c then p.2 else
        g.hNpart.getD c 0 + NP.rank (moveKey dst) items p)
      ((particles_nodup g).filter _) (List.nodup_range.filter _) ?_ ?_ ?_ ?_
    · intro p hp q hq hpq
      obtain ⟨p1, p2⟩ := hin' p hp
      obtain ⟨q1, q2⟩ := hin' q hq
      have hpl := ((hPiff _ _).1 (hpi p p1)).2
      have hql := ((hPiff _ _).1 (hpi q q1)).2
      by_cases h1 : p.1 = c
      · by_cases h2 : q.1 = c
        · simp only [if_pos h1, if_pos h2] at hpq
          exact Prod.ext (h1.trans h2.symm) hpq
        · simp only [if_pos h1, if_neg h2] at hpq
          rw [h1] at hpl
          omega
      · by_cases h2 : q.1 = c
        · simp only [if_neg h1, if_pos h2] at hpq
          rw [h2] at hql
          omega
        · simp only [if_neg h1, if_neg h2] at hpq
          exact rank_inj p1 (hkey p (by rw [p2]; exact h1))
            (by rw [hkey q (by rw [q2]; exact h2), p2, q2]) (by omega)
    · intro p hp
      obtain ⟨p1, p2⟩ := hin' p hp
      rw [List.mem_filter, List.mem_range, hN1c]
      by_cases h1 : p.1 = c
      · simp only [if_pos h1]
        have hpp := hpi p p1
        have hpl := ((hPiff _ _).1 hpp).2
        rw [h1] at hpl
        refine ⟨by omega, ?_⟩
        rw [decide_eq_true_iff, hlist]
        rintro ⟨-, h⟩
        apply h
        have : p = (c, p.2) := Prod.ext h1 rfl
        rw [← this, p2]
      · simp only [if_neg h1]
        have := rank_lt p1 (hkey p (by rw [p2]; exact h1))
        rw [p2] at this
        refine ⟨by omega, ?_⟩
        rw [decide_eq_true_iff, hlist]
        rintro ⟨h, -⟩
        have := ((hPiff _ _).1 h).2
        omega
    · intro k hk
      rw [List.mem_filter, List.mem_range, hN1c] at hk
      obtain ⟨hk1, hk2⟩ := hk
      rw [decide_eq_true_iff, hlist] at hk2
      rcases hrow c k hc hk1 with h | ⟨p, hp, hne, hdp, rfl⟩
      · have hdc : dst (c, k) = c := by
          by_contra hx
          exact hk2 ⟨h, fun hy => hx hy.symm⟩
        refine ⟨(c, k), ?_, by simp⟩
        rw [List.mem_filter, mem_particles]
        refine ⟨(hPiff c k).1 h, ?_⟩
        unfold cellId
        rw [hd.mem (c, k) h, hdc]
        simp
      · refine ⟨p, ?_, ?_⟩
        · rw [List.mem_filter, mem_particles]
          have hpp := hpi p hp
          refine ⟨(hPiff _ _).1 hpp, ?_⟩
          unfold cellId
          rw [hd.mem p hpp, hdp]
          simp
        · rw [if_neg (by rw [← hdp]; exact hne)]
    · intro p hp
      obtain ⟨p1, p2⟩ := hin' p hp
      unfold particle
      simp only
      rw [hfl3]
      apply List.map_congr_left
      intro sj hsj
      by_cases h1 : p.1 = c
      · simp only [if_pos h1]
        rw [← h1]
        exact hold sj hsj p.1 p.2 (hpi p p1)
      · simp only [if_neg h1]
        have := hnew sj hsj p p1 (by rw [p2]; exact h1)
        rw [p2] at this
        exact this

/-- A particle with a bad cell id makes the call fail. -/
theorem cellMove_bad_cell {e : Env} (e' : Env) (hE : EnvOk e) {g : Group} (hg : Consistent g)
    (hsmall : g.hNpart.sum < 2 ^ 31) {c k : Nat} (hc : c < g.ncell) (hk : k < count g c)
    {v : Int} (hv : cellId g c k = some v) (hbad : v < 0 ∨ (g.ncell : Int) ≤ v) :
    cellMove e e' g = none := by
  have hsm : ∀ n ∈ g.hNpart, n < 2 ^ 31 := fun n hn => by have := le_sum_of_mem hn; omega
  obtain ⟨rank, hrm, hr, -⟩ := dat?_of_mem_syms hg.rank
  obtain ⟨dc, hdc1, hdc2, hdc3⟩ := hg.cell
  obtain ⟨cid, hcm, hcd, -⟩ := dat?_of_mem_syms (g := g) (List.mem_map.2 ⟨dc, hdc1, hdc2⟩)
  have hlaunch : LaunchOk e.loop g.hNpart false 0 :=
    ⟨hE.localSize_pos, hE.localSize_int, hE.nbin_pos, hsm, by simp⟩
  obtain ⟨vis, hv1, hv2, hv3⟩ := C07_each_particle_once hlaunch (cs := none) (ce := none) trivial
  unfold cellMove cellMoveInner
  rw [hr, hcd]
  simp only [Option.bind_some, (hg.dats rank hrm).host, (hg.dats rank hrm).device,
    (hg.dats cid hcm).host, hv1]
  have hmem : (c, k) ∈ (e.sched 0).order vis := by
    rw [((e.sched 0).perm vis).mem_iff, hv3]
    exact ⟨trivial, (isParticle_iff hg.len).2 ⟨hc, hk⟩⟩
  rw [runItems_none hmem (by
    intro s
    unfold cmIdentifyStep
    unfold cellId at hv
    simp only [hv, Option.bind_some]
    rw [if_pos (by omega)])]
  rfl

end NP
