import Verif.Move.LemmasPack

/-! # What is packed -/

set_option autoImplicit false

namespace NP

open Spec

/-- All property values of the particle in row `k` of cell `c`, as numbers. -/
def particleWords (g : Group) (c k : Nat) : List Int :=
  (flatComps g.dats).map fun sj => (g.mem ⟨sj.1, c, sj.2, k⟩).getD 0

theorem length_particleWords (g : Group) (c k : Nat) :
    (particleWords g c k).length = numWords g.dats := by
  unfold particleWords; rw [List.length_map, length_flatComps]

theorem particleWords_some {g : Group} (h : Consistent g) {c k : Nat} (hc : c < g.ncell)
    (hk : k < count g c) : (particleWords g c k).map some = particle g c k := by
  unfold particleWords particle
  rw [List.map_map]
  apply List.map_congr_left
  intro sj hsj
  have := h.datsOk.isSome hsj (get_getD h.len hc) hk
  rw [Option.isSome_iff_exists] at this
  obtain ⟨v, hv⟩ := this
  simp [hv]

theorem mul_add_inj {W l l' Q Q' : Nat} (hQ : Q < W) (hQ' : Q' < W)
    (h : l * W + Q = l' * W + Q') : l = l' ∧ Q = Q' := by
  have h1 : (l * W + Q) / W = l := by
    rw [Nat.add_comm, Nat.add_mul_div_right _ _ (by omega), Nat.div_eq_of_lt hQ, Nat.zero_add]
  have h2 : (l' * W + Q') / W = l' := by
    rw [Nat.add_comm, Nat.add_mul_div_right _ _ (by omega), Nat.div_eq_of_lt hQ', Nat.zero_add]
  have h3 : l = l' := by rw [← h1, ← h2, h]
  subst h3
  exact ⟨rfl, by omega⟩

theorem pack_spec {e : Env} {g : Group} (h : Consistent g) {size own comp : Nat} {d : Depart}
    {sel : List (Nat × Nat)} (hid : Identified size own comp g d sel) {rks nparts rankMap : List Nat}
    (hs : SendOk size own comp g rks nparts rankMap) (nReal : Nat) :
    ∃ packs, pack e g nReal comp rks.length nparts rankMap d = some packs ∧
      packs.length = rks.length ∧
      ∀ i r : Nat, rks[i]? = some r → ∃ ws : List (List Int), packs[i]? = some ws.flatten ∧
        (∀ w ∈ ws, w.length = numWords g.dats) ∧ ws.length = sendCount size own comp g r ∧
        (ws.map fun w => w.map some).Perm (leavingTo size own comp g r) := by
  let W := numWords g.dats
  -- the buffers before
  let packs0 : List (List Int) := (List.range rks.length).map fun i =>
    (e.freshI (40 + i) (nparts.getD i 0 * W)).1
  have h0 : ((List.range rks.length).mapM fun i => (rd nparts i).bind fun n =>
      some (e.freshI (40 + i) (n * numWords g.dats)).1) = some packs0 := by
    apply mapM_of_forall
    intro i hi
    rw [List.mem_range] at hi
    simp only [rd]
    rw [List.getElem?_eq_getElem (by rw [hs.len]; exact hi), List.getD_eq_getElem?_getD,
      List.getElem?_eq_getElem (by rw [hs.len]; exact hi)]
    rfl
  have hpk0 : ∀ i r : Nat, rks[i]? = some r → ∃ buf, packs0[i]? = some buf ∧
      buf.length = sendCount size own comp g r * W := by
    intro i r hr
    have hi : i < rks.length := (List.getElem?_eq_some_iff.1 hr).1
    refine ⟨_, by rw [List.getElem?_map, List.getElem?_range hi]; rfl, ?_⟩
    rw [(e.freshI _ _).2, List.getD_eq_getElem?_getD, hs.count i r hr]
    rfl
  -- the items
  have hit : ∀ it ∈ (e.sched 33).order (packItems g.dats nReal d.numParticles),
      ∃ (c k r pc l : Nat) (sj : Nat × Nat),
        sel[it.2.1]? = some (c, k) ∧ destination size own comp g c k = some r ∧
        rks[pc]? = some r ∧ d.layersDst[it.2.1]? = some l ∧ l < sendCount size own comp g r ∧
        (flatComps g.dats)[(packSide g.dats nReal it.1).2 + it.2.2]? = some sj ∧
        (packSide g.dats nReal it.1).2 + it.2.2 < W ∧
        ∀ packs, packStep g.mem g.rankSym comp g.dats nReal d rankMap it packs =
          (rd packs pc).bind fun buf =>
          (st buf (l * W + ((packSide g.dats nReal it.1).2 + it.2.2))
            ((g.mem ⟨sj.1, c, sj.2, k⟩).getD 0)).bind fun buf => some (packs.set pc buf) := by
    intro it hi
    rw [((e.sched 33).perm _).mem_iff, mem_packItems] at hi
    obtain ⟨hi1, hi2⟩ := hi
    obtain ⟨sj, w1, w2, w3⟩ := side_word hi2
    obtain ⟨⟨c, k⟩, hsel⟩ : ∃ p, sel[it.2.1]? = some p :=
      ⟨_, List.getElem?_eq_getElem (by rw [hid.len]; exact hi1)⟩
    obtain ⟨hc, hk, r, hr⟩ := (hid.mem c k).1 (List.mem_of_getElem? hsel)
    obtain ⟨l, hl1, hl2⟩ := hid.layer _ c k r hsel hr
    obtain ⟨pc, hpc⟩ := List.mem_iff_getElem?.1 (hs.all r (by omega))
    refine ⟨c, k, r, pc, l, sj, hsel, hr, hpc, hl1, hl2, w1, w3, ?_⟩
    intro packs
    have hz : (d.cells.zip d.layersSrc)[it.2.1]? = some ((c : Int), (k : Int)) := by
      have := congrArg (fun x : List (Int × Int) => x[it.2.1]?) hid.listed
      simp only [List.getElem?_take, if_pos hi1, List.getElem?_map, hsel, Option.map_some] at this
      exact this
    rw [List.getElem?_zip_eq_some] at hz
    obtain ⟨v, hv⟩ := Option.isSome_iff_exists.1
      (h.datsOk.isSome (List.mem_of_getElem? w1) (get_getD h.len hc) hk)
    have hrank := (destination_eq_some.1 hr).2.2
    unfold packStep
    simp only [rd, w2, Option.bind_some, hz.1, hz.2, index, Int.natCast_nonneg, if_true,
      Int.toNat_natCast, hl1, hrank, hs.map pc r hpc, hv, Option.getD_some]
    rfl
  choose! fc fk fr fp fl fsj h1 h2 h3 h4 h5 h6 h7 h8 using hit
  obtain ⟨packs, r1, r2, r3, r4⟩ := runItems_put2 (m := packs0) fp
    (fun it => fl it * W + ((packSide g.dats nReal it.1).2 + it.2.2))
    (fun it => (g.mem ⟨(fsj it).1, fc it, (fsj it).2, fk it⟩).getD 0)
    (fun it hi packs => h8 it hi packs)
    (by
      intro i hi j hj ha hb
      obtain ⟨hl, hQ⟩ := mul_add_inj (h7 i hi) (h7 j hj) hb
      have hr : fr i = fr j := by
        have a := h3 i hi
        rw [ha, h3 j hj, Option.some.injEq] at a
        exact a.symm
      have hij : i.2.1 = j.2.1 := by
        refine hid.layer_inj _ _ _ _ _ _ (fr i) (fl i) (h1 i hi) (h1 j hj) (h2 i hi) ?_ (h4 i hi) ?_
        · rw [hr]; exact h2 j hj
        · rw [hl]; exact h4 j hj
      have hck : (fc i, fk i) = (fc j, fk j) := by
        have a := h1 i hi
        rw [hij, h1 j hj, Option.some.injEq] at a
        exact a.symm
      have hsj : fsj i = fsj j := by
        have a := h6 i hi
        rw [hQ, h6 j hj, Option.some.injEq] at a
        exact a.symm
      simp only [Prod.mk.injEq] at hck
      rw [hsj, hck.1, hck.2])
    (by
      intro i hi
      obtain ⟨buf, hb1, hb2⟩ := hpk0 _ _ (h3 i hi)
      refine ⟨buf, hb1, ?_⟩
      rw [hb2]
      have := h5 i hi
      calc fl i * W + ((packSide g.dats nReal i.1).2 + i.2.2) < fl i * W + W :=
            Nat.add_lt_add_left (h7 i hi) _
        _ = (fl i + 1) * W := by rw [Nat.succ_mul]
        _ ≤ sendCount size own comp g (fr i) * W := Nat.mul_le_mul_right _ this)
  refine ⟨packs, ?_, by rw [r2]; simp [packs0], ?_⟩
  · unfold pack
    rw [h0, Option.bind_some]
    by_cases hz : d.numParticles ≤ 0
    · rw [if_pos hz]
      have : (e.sched 33).order (packItems g.dats nReal d.numParticles) = [] := by
        rw [← List.length_eq_zero_iff, ((e.sched 33).perm _).length_eq]
        have : d.numParticles = 0 := by omega
        rw [this]
        simp [packItems]
      rw [this, runItems_nil] at r1
      exact r1
    · rw [if_neg hz]
      exact r1
  · intro pc r hpc
    have hsj : ∀ l, l < sendCount size own comp g r → ∃ p : Nat × (Nat × Nat),
        sel[p.1]? = some (p.2.1, p.2.2) ∧ destination size own comp g p.2.1 p.2.2 = some r ∧
        d.layersDst[p.1]? = some l := by
      intro l hl
      obtain ⟨i, c, k, a⟩ := hid.layer_surj r l hl
      exact ⟨(i, (c, k)), a⟩
    choose! f f1 f2 f3 using hsj
    let ws := (List.range (sendCount size own comp g r)).map fun l =>
      particleWords g (f l).2.1 (f l).2.2
    have hws : ∀ w ∈ ws, w.length = numWords g.dats := by
      intro w hw
      obtain ⟨l, -, rfl⟩ := List.mem_map.1 hw
      exact length_particleWords _ _ _
    have hwl : ws.length = sendCount size own comp g r := by simp [ws]
    refine ⟨ws, ?_, hws, hwl, ?_⟩
    · obtain ⟨buf0, hb1, hb2⟩ := hpk0 pc r hpc
      have hb3 := r3 pc
      rw [hb1, Option.map_some, Option.map_eq_some_iff] at hb3
      obtain ⟨buf, hb4, hb5⟩ := hb3
      rw [hb4]
      congr 1
      apply eq_flatten_uniform hws (by rw [hb5, hb2, hwl])
      intro l Q hl hQ
      rw [hwl] at hl
      obtain ⟨b, q, hq1, hq2⟩ := side_surj nReal hQ
      have hin : (b, (f l).1, q) ∈ (e.sched 33).order (packItems g.dats nReal d.numParticles) := by
        rw [((e.sched 33).perm _).mem_iff, mem_packItems]
        refine ⟨?_, hq1⟩
        rw [← hid.len]
        exact (List.getElem?_eq_some_iff.1 (f1 l hl)).1
      have a1 := h1 _ hin
      have a2 := h2 _ hin
      have a3 := h3 _ hin
      have a4 := h4 _ hin
      have a6 := h6 _ hin
      have a9 := r4 _ hin
      dsimp only at a1 a4 a6 a9
      rw [f1 l hl, Option.some.injEq, Prod.mk.injEq] at a1
      rw [← a1.1, ← a1.2, f2 l hl, Option.some.injEq] at a2
      rw [f3 l hl, Option.some.injEq] at a4
      have hpe : fp (b, (f l).1, q) = pc := by
        have b1 := hs.map _ _ a3
        rw [← a2, hs.map _ _ hpc, Option.some.injEq] at b1
        exact b1.symm
      rw [hpe, hb4, Option.bind_some, ← a4, ← a1.1, ← a1.2, hq2] at a9
      rw [hq2] at a6
      rw [a9]
      simp only [ws, List.getElem?_map, List.getElem?_range hl, Option.map_some,
        Option.bind_some, particleWords, a6]
    · have hfl : ∀ l, l < sendCount size own comp g r →
          (f l).2.1 < g.ncell ∧ (f l).2.2 < count g (f l).2.1 := by
        intro l hl
        obtain ⟨a, b, -⟩ := (hid.mem _ _).1 (List.mem_of_getElem? (f1 l hl))
        exact ⟨a, b⟩
      have hp : ((List.range (sendCount size own comp g r)).map fun l => (f l).2).Perm
          ((particlesOf g).filter fun p => destination size own comp g p.1 p.2 == some r) := by
        have hnd : ((List.range (sendCount size own comp g r)).map fun l => (f l).2).Nodup := by
          rw [List.nodup_map_iff_inj_on List.nodup_range]
          intro l hl l' hl' he
          rw [List.mem_range] at hl hl'
          have b1 := f1 l hl
          have b2 := f1 l' hl'
          have hlt := (List.getElem?_eq_some_iff.1 b1).1
          have he' : (f l).1 = (f l').1 := by
            refine (List.getElem?_inj hlt hid.nodup).1 ?_
            rw [b1, b2]
            exact congrArg some he
          have c1 := f3 l hl
          rw [he', f3 l' hl', Option.some.injEq] at c1
          exact c1.symm
        refine (hnd.subperm ?_).perm_of_length_le ?_
        · intro p hp
          obtain ⟨l, hl, rfl⟩ := List.mem_map.1 hp
          rw [List.mem_range] at hl
          rw [List.mem_filter]
          exact ⟨mem_particlesOf.2 (hfl l hl), by simp [f2 l hl]⟩
        · rw [List.length_map, List.length_range]
          exact Nat.le_refl _
      have hp2 := hp.map fun p => particle g p.1 p.2
      rw [List.map_map] at hp2
      refine List.Perm.trans ?_ hp2
      simp only [ws, List.map_map]
      rw [List.map_congr_left]
      intro l hl
      rw [List.mem_range] at hl
      simp only [Function.comp_apply]
      exact particleWords_some h (hfl l hl).1 (hfl l hl).2

end NP
