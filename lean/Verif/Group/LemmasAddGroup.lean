import Verif.Group.LemmasAddSet

/-! `add_particles_local` with a `ParticleGroup` or a `ParticleSubGroup`. -/

set_option autoImplicit false

namespace NP

open Spec

theorem sum_zipWith_add {a b : List Nat} (h : a.length = b.length) :
    (List.zipWith (· + ·) a b).sum = a.sum + b.sum := by
  induction a generalizing b with
  | nil => cases b with | nil => rfl | cons _ _ => simp at h
  | cons x xs ih =>
    cases b with
    | nil => simp at h
    | cons y ys =>
      simp only [List.length_cons, Nat.add_right_cancel_iff] at h
      simp only [List.zipWith_cons_cons, List.sum_cons, ih h]; omega

theorem addCount_spec {ncell : Nat} {a b : List Nat} (ha : a.length = ncell)
    (hb : b.length = ncell) :
    forLoop 0 ncell (addCountStep b) (a, 0) = some (List.zipWith (· + ·) a b, b.sum) := by
  obtain ⟨⟨x, t⟩, h1, h2, h3, h4⟩ := forLoop_invariant (a := 0) (b := ncell) (s := (a, 0))
    (step := addCountStep b)
    (fun i s => s.1.length = ncell ∧ s.2 = (b.take i).sum ∧
      ∀ c, s.1[c]? = if c < i then (List.zipWith (· + ·) a b)[c]? else a[c]?)
    (Nat.zero_le _)
    (by
      rintro i ⟨x, t⟩ - hi ⟨g1, g2, g3⟩
      simp only at g1 g2 g3
      obtain ⟨p, hp⟩ := exists_at ha hi
      obtain ⟨q, hq⟩ := exists_at hb hi
      have hx := g3 i
      rw [if_neg (by omega), hp] at hx
      refine ⟨(x.set i (p + q), t + q), ?_, by simp [g1], ?_, ?_⟩
      · unfold addCountStep
        simp only [rd, hx, hq, Option.bind_some]
      · simp only; rw [g2, List.take_add_one, hq]; simp
      · intro c
        simp only
        by_cases hc : i = c
        · subst hc
          rw [List.getElem?_set_self (by omega), if_pos (by omega)]
          simp [List.getElem?_zipWith, hp, hq]
        · rw [List.getElem?_set_ne hc, g3 c]
          by_cases h : c < i
          · rw [if_pos h, if_pos (by omega)]
          · rw [if_neg h, if_neg (by omega)])
    ⟨ha, by simp, by intro c; simp⟩
  rw [h1]
  congr 1
  refine Prod.ext ?_ ?_
  · simp only
    apply List.ext_getElem?
    intro c
    have := h4 c
    simp only at this
    rw [this]
    by_cases h : c < ncell
    · rw [if_pos h]
    · rw [if_neg h, List.getElem?_eq_none (by omega), List.getElem?_eq_none (by simp; omega)]
  · simp only at h3; simp only; rw [h3, List.take_of_length_le (by omega)]

theorem dat?_isSome {g : Group} {s : Nat} :
    (g.dat? s).isSome = decide (s ∈ g.dats.map (·.sym)) := by
  by_cases h : s ∈ g.dats.map (·.sym)
  · obtain ⟨d, -, h1, -⟩ := dat?_of_mem_syms h
    rw [h1]; simp [h]
  · simp only [h, decide_false]
    unfold Group.dat?
    rw [Option.isSome_eq_false_iff, Option.isNone_iff_eq_none, List.find?_eq_none]
    intro d hd he
    exact h (List.mem_map.2 ⟨d, hd, by simpa using he⟩)

theorem compsOk_iff {g src : Group} (hnd : (src.dats.map (·.sym)).Nodup) :
    compsOk g.dats src.dats = true ↔ CommonComps g.dats src.dats := by
  unfold compsOk CommonComps
  rw [List.all_eq_true]
  constructor
  · intro h d hd d' hd' hs
    obtain ⟨d'', h1, h2, h3⟩ := dat?_of_mem_syms (List.mem_map.2 ⟨d', hd', hs.symm⟩)
    have := h d hd
    unfold Group.dat? at h2
    rw [h2] at this
    simp only [beq_iff_eq] at this
    rw [this]
    have : d'' = d' := by
      have := List.inj_on_of_nodup_map hnd h1 hd' (by rw [h3, hs])
      exact this
    rw [this]
  · intro h d hd
    cases hs : src.dats.find? (fun x => x.sym == d.sym) with
    | none => rfl
    | some d' =>
      simp only [beq_iff_eq]
      have h1 := List.mem_of_find?_eq_some hs
      have h2 := List.find?_some hs
      exact h d hd d' h1 (by simpa using (by simpa using h2 : d'.sym = d.sym).symm)

theorem addGroup_spec {e : Env} (hE : EnvOk e) {g src : Group} (hg : Consistent g)
    (hs : Consistent src) (hcell : g.ncell = src.ncell) (hcc : CommonComps g.dats src.dats)
    (hsmall : SmallCounts src) :
    ∃ g', addGroup e g src = some g' ∧ Consistent g' ∧ SameShape g g' ∧
      g'.version = g.version + 1 ∧
      ∀ c, c < g.ncell → contents g' c = contents g c ++
        (List.range (count src c)).map (projected g src.mem src.dats c) := by
  unfold addGroup
  rw [if_neg (by simpa using hcell), if_neg (by rw [(compsOk_iff hs.nodup).2 hcc]; simp)]
  have hls : src.hNpart.length = g.ncell := by rw [hs.len, hcell]
  rw [addCount_spec hg.len hls]
  simp only [Option.bind_some]
  rw [if_neg (by rw [hs.total]; simp)]
  have hNl : (List.zipWith (· + ·) g.hNpart src.hNpart).length = g.ncell := by
    simp [hg.len, hls]
  have hNc : ∀ c, c < g.ncell → (List.zipWith (· + ·) g.hNpart src.hNpart)[c]? =
      some (g.hNpart.getD c 0 + src.hNpart.getD c 0) := by
    intro c hc
    rw [List.getElem?_zipWith, get_getD hg.len hc, get_getD hls hc]
  have hsum := sum_zipWith_add (a := g.hNpart) (b := src.hNpart) (by rw [hg.len, hls])
  generalize List.zipWith (· + ·) g.hNpart src.hNpart = N at hNl hNc hsum
  obtain ⟨es, m2, dats2, k1, k2, k3, k4, k5, k6, k7⟩ := grow_spec (e := e) hg (N := N) hNl (by
    intro c n n' hn hn'
    have hc : c < g.ncell := by
      have := (List.getElem?_eq_some_iff.1 hn).1
      rw [hg.len] at this; exact this
    rw [hNc c hc] at hn'
    have := getD_eq hn
    simp only [Option.some.injEq] at hn'
    omega)
  rw [k1]
  simp only [Option.bind_some]
  rw [if_neg (by rw [hsum, hg.total]; simp), k2]
  simp only [Option.bind_some]
  obtain ⟨rank, hrm, hr, -⟩ := dat?_of_mem_syms hs.rank
  rw [hr]
  simp only [Option.bind_some, (hs.dats rank hrm).host]
  obtain ⟨vis, hv1, hv2, hv3⟩ := allVisits_covers hE (npart := src.hNpart) hsmall
  rw [hv1]
  simp only [Option.bind_some]
  have hfl := flatComps_congr k5
  have hpc : ∀ p : Nat × Nat, IsParticle src.hNpart p.1 p.2 → p.1 < g.ncell ∧
      p.2 < src.hNpart.getD p.1 0 := by
    rintro p ⟨n, hn, hlt⟩
    refine ⟨?_, by rw [getD_eq hn]; exact hlt⟩
    have := (List.getElem?_eq_some_iff.1 hn).1
    rw [hls] at this; exact this
  obtain ⟨m3, r1, r2, r3, r4⟩ := runItems_rows (step := groupDataStep src g.hNpart)
    (dats := dats2) (m := m2) (P := fun p : Nat × Nat => IsParticle src.hNpart p.1 p.2)
    (items := (e.sched 0).order ((flatComps dats2).flatMap fun sj => vis.map fun p => (sj, p)))
    (by
      intro it
      rw [((e.sched 0).perm _).mem_iff]
      simp only [List.mem_flatMap, List.mem_map]
      constructor
      · rintro ⟨sj, h1, p, h2, rfl⟩
        exact ⟨h1, (hv3 _ _).1 h2⟩
      · rintro ⟨h1, h2⟩
        exact ⟨it.1, h1, it.2, (hv3 _ _).2 h2, rfl⟩)
    (fun p => p.1) (fun p => g.hNpart.getD p.1 0 + p.2)
    (fun it => if it.1.1 ∈ src.dats.map (·.sym) then
      (src.mem ⟨it.1.1, it.2.1, it.1.2, it.2.2⟩).getD 0 else 0)
    (by
      rintro ⟨sj, c, k⟩ hsj hp m' _
      simp only at hsj hp
      unfold groupDataStep
      simp only [rd, get_getD hg.len (hpc (c, k) hp).1, Option.bind_some, dat?_isSome]
      by_cases hmem : sj.1 ∈ src.dats.map (·.sym)
      · simp only [hmem, decide_true, if_true]
        rw [hfl] at hsj
        obtain ⟨d, hd, hd1, hd2⟩ := mem_flatComps.1 hsj
        rw [List.mem_map] at hmem
        obtain ⟨d', hd', hd'1⟩ := hmem
        have hcomp := hcc d hd d' hd' (by rw [hd1, hd'1])
        obtain ⟨n, hn, hlt⟩ := hp
        have := hs.datsOk.isSome (sj := sj) (mem_flatComps.2 ⟨d', hd', hd'1, by omega⟩) hn hlt
        obtain ⟨v, hv⟩ := Option.isSome_iff_exists.1 this
        rw [hv]; rfl
      · simp only [hmem, decide_false, if_false]; rfl)
    (by
      rintro ⟨c, k⟩ ⟨c', k'⟩ - - h1 h2
      simp only at h1 h2
      subst h1
      rw [Prod.mk.injEq]
      exact ⟨rfl, by omega⟩)
    (by
      intro sj hsj p hp
      obtain ⟨h1, h2⟩ := hpc p hp
      exact rows_isSome hNl (fun d hd => ⟨(k6 d hd).1, (k6 d hd).2.2.2⟩) hsj (hNc _ h1) (by omega))
  rw [r1]
  simp only [Option.bind_some]
  obtain ⟨dats3, u1, u2, u3⟩ := finish_spec (m3 := m3) hg hNl k3 k4 k5 k6 r4
  rw [u1]
  refine ⟨_, rfl, u3 _, SameShape.of_sameSyms u2 rfl rfl rfl rfl rfl, rfl, ?_⟩
  intro c hc
  have hfl3 := flatComps_congr u2
  have := contents_append (g := g) (g' := invalidateVersion { g with
      hNpart := N, dNpart := N, npartEs := es, npartLocal := N.sum, mem := m3, dats := dats3 })
    (c := c) (n := g.hNpart.getD c 0)
    (K := src.hNpart.getD c 0) hfl3 (get_getD hg.len hc) (hNc c hc) (by
      intro sj hsj k hk
      simp only [invalidateVersion]
      rw [r3 _ (by
        rintro p hp ⟨h1, h2⟩
        simp only at h1 h2
        subst h1
        omega)]
      exact k7 sj hsj c k _ (get_getD hg.len hc) hk)
  rw [this]
  congr 1
  apply List.map_congr_left
  intro k hk
  rw [List.mem_range] at hk
  unfold particle projected
  simp only [invalidateVersion]
  rw [hfl3]
  apply List.map_congr_left
  intro sj hsj
  have hp : IsParticle src.hNpart c k := ⟨_, get_getD hls hc, hk⟩
  have := r2 sj (by rw [hfl]; exact hsj) (c, k) hp
  simp only at this
  rw [this]
  by_cases hmem : sj.1 ∈ src.dats.map (·.sym)
  · simp only [hmem, if_true]
    obtain ⟨d, hd, hd1, hd2⟩ := mem_flatComps.1 hsj
    rw [List.mem_map] at hmem
    obtain ⟨d', hd', hd'1⟩ := hmem
    have hcomp := hcc d hd d' hd' (by rw [hd1, hd'1])
    have := hs.datsOk.isSome (sj := sj) (mem_flatComps.2 ⟨d', hd', hd'1, by omega⟩)
      (get_getD hls hc) hk
    obtain ⟨v, hv⟩ := Option.isSome_iff_exists.1 this
    rw [hv]; rfl
  · simp only [hmem, if_false]

end NP
