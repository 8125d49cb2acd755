import Verif.Group.LemmasAdd
import Verif.Group.SpecAdd

/-! `add_particles_local`. -/

set_option autoImplicit false

namespace NP

open Spec

theorem exists_get? {α : Type} {l : List α} {n i : Nat} (h : l.length = n) (hi : i < n) :
    ∃ x, l[i]? = some x := exists_at h hi

theorem layers_spec {ncell N : Nat} {ids : List Int} {ctr : List Nat} (hl : ctr.length = ncell)
    (f : Nat → Nat) (hf : ∀ i, i < N → ids[i]? = some (f i : Int) ∧ f i < ncell) :
    ∃ ctr' layers, forLoop 0 N (setLayerStep ncell ids) (ctr, List.replicate N 0) =
        some (ctr', layers) ∧ ctr'.length = ncell ∧ layers.length = N ∧
      (∀ c n, ctr[c]? = some n → ctr'[c]? = some (n + cnt (fun i => decide (f i = c)) N)) ∧
      (∀ i n, i < N → ctr[f i]? = some n →
        layers[i]? = some (n + cnt (fun j => decide (f j = f i)) i)) := by
  obtain ⟨⟨c', l'⟩, h1, h2, h3, h4, h5⟩ := forLoop_invariant (a := 0) (b := N)
    (s := (ctr, List.replicate N 0)) (step := setLayerStep ncell ids)
    (fun i s => s.1.length = ncell ∧ s.2.length = N ∧
      (∀ c n, ctr[c]? = some n → s.1[c]? = some (n + cnt (fun i => decide (f i = c)) i)) ∧
      (∀ j n, j < i → ctr[f j]? = some n →
        s.2[j]? = some (n + cnt (fun x => decide (f x = f j)) j)))
    (Nat.zero_le _)
    (by
      rintro i ⟨a, b⟩ - hi ⟨g1, g2, g3, g4⟩
      simp only at g1 g2 g3 g4
      obtain ⟨hid, hfc⟩ := hf i hi
      obtain ⟨n, hn⟩ := exists_at hl hfc
      have hai := g3 _ _ hn
      refine ⟨(a.set (f i) (n + cnt (fun x => decide (f x = f i)) i + 1),
        b.set i (n + cnt (fun x => decide (f x = f i)) i)), ?_, by simp [g1], by simp [g2], ?_, ?_⟩
      · unfold setLayerStep
        simp only [rd, hid, Option.bind_some]
        rw [if_pos (by omega)]
        simp only [Int.toNat_natCast, fetchAdd, rd, hai, Option.bind_some]
        rw [st_eq_some (by omega)]
        rfl
      · intro c n' hn'
        simp only
        rw [cnt_succ]
        by_cases hc : f i = c
        · subst hc
          rw [hn] at hn'
          simp only [Option.some.injEq] at hn'
          rw [List.getElem?_set_self (by omega), ← hn']
          simp [Nat.add_assoc]
        · rw [List.getElem?_set_ne hc, g3 c n' hn']
          simp [hc]
      · intro j n' hj hn'
        simp only
        by_cases hji : i = j
        · subst hji
          rw [hn] at hn'
          simp only [Option.some.injEq] at hn'
          rw [List.getElem?_set_self (by omega), ← hn']
        · rw [List.getElem?_set_ne hji]
          exact g4 j n' (by omega) hn')
    ⟨hl, by simp, by intro c n hn; simp [hn], by intro j n hj; omega⟩
  exact ⟨c', l', h1, h2, h3, h4, h5⟩

/-- Stores of new particles: item `(sj, i)` stores at row `row i` of cell `f i`. -/
theorem runItems_rows {ι : Type} {step : (Nat × Nat) × ι → Mem → Option Mem} {dats : List Dat}
    {items : List ((Nat × Nat) × ι)} {P : ι → Prop} {m : Mem}
    (hin : ∀ it, it ∈ items ↔ it.1 ∈ flatComps dats ∧ P it.2) (f row : ι → Nat)
    (v : (Nat × Nat) × ι → Int)
    (hstep : ∀ it, it.1 ∈ flatComps dats → P it.2 → ∀ m',
      (∀ k, (∀ i, P i → ¬ (k.cell = f i ∧ k.row = row i)) → m' k = m k) →
      step it m' = mst m' ⟨it.1.1, f it.2, it.1.2, row it.2⟩ (v it))
    (hinj : ∀ i j, P i → P j → f i = f j → row i = row j → i = j)
    (halloc : ∀ sj ∈ flatComps dats, ∀ i, P i → (m ⟨sj.1, f i, sj.2, row i⟩).isSome = true) :
    ∃ m', runItems step items m = some m' ∧
      (∀ sj ∈ flatComps dats, ∀ i, P i → m' ⟨sj.1, f i, sj.2, row i⟩ = some (v (sj, i))) ∧
      (∀ k, (∀ i, P i → ¬ (k.cell = f i ∧ k.row = row i)) → m' k = m k) ∧
      (∀ k, (m k).isSome = true → (m' k).isSome = true) := by
  have key := runItems_mem (step := step) (items := items) (m := m)
    (fun it => some ⟨it.1.1, f it.2, it.1.2, row it.2⟩) v ?_ ?_ ?_
  · obtain ⟨m', k1, k2, k3⟩ := key
    refine ⟨m', k1, ?_, ?_, ?_⟩
    · intro sj hsj i hi
      exact k2 (sj, i) ((hin _).2 ⟨hsj, hi⟩) _ rfl
    · intro k hk
      apply k3
      intro it hit he
      simp only [Option.some.injEq] at he
      exact hk it.2 ((hin it).1 hit).2 ⟨by rw [← he], by rw [← he]⟩
    · intro k hk
      by_cases hx : ∃ it ∈ items, (some ⟨it.1.1, f it.2, it.1.2, row it.2⟩ : Option Key) = some k
      · obtain ⟨it, hit, hd⟩ := hx
        rw [k2 it hit k hd]; rfl
      · rw [k3 k (fun it hit hd => hx ⟨it, hit, hd⟩)]; exact hk
  · intro it hit m' hm'
    obtain ⟨h1, h2⟩ := (hin it).1 hit
    refine hstep it h1 h2 m' (fun k hk => hm' k ?_)
    intro it' hit' he
    simp only [Option.some.injEq] at he
    exact hk it'.2 ((hin it').1 hit').2 ⟨by rw [← he], by rw [← he]⟩
  · intro it hit it' hit' d h1 h2
    simp only [Option.some.injEq] at h1 h2
    rw [← h2, Key.mk.injEq] at h1
    have h3 := hinj it.2 it'.2 ((hin it).1 hit).2 ((hin it').1 hit').2 h1.2.1 h1.2.2.2
    have : it = it' := Prod.ext (Prod.ext h1.1 h1.2.2.1) h3
    rw [this]
  · intro it hit d h1
    simp only [Option.some.injEq] at h1
    rw [← h1]
    obtain ⟨h1, h2⟩ := (hin it).1 hit
    exact halloc it.1 h1 it.2 h2

/-- `runItems_rows` for the items of a kernel over components and `N` particles. -/
theorem runItems_newRows {step : (Nat × Nat) × Nat → Mem → Option Mem} {dats : List Dat}
    {items : List ((Nat × Nat) × Nat)} {N : Nat} {m : Mem}
    (hp : items.Perm (compItems dats N)) (f row : Nat → Nat) (v : (Nat × Nat) × Nat → Int)
    (hstep : ∀ it, it.1 ∈ flatComps dats → it.2 < N → ∀ m',
      (∀ k, (∀ i, i < N → ¬ (k.cell = f i ∧ k.row = row i)) → m' k = m k) →
      step it m' = mst m' ⟨it.1.1, f it.2, it.1.2, row it.2⟩ (v it))
    (hinj : ∀ i j, i < N → j < N → f i = f j → row i = row j → i = j)
    (halloc : ∀ sj ∈ flatComps dats, ∀ i, i < N → (m ⟨sj.1, f i, sj.2, row i⟩).isSome = true) :
    ∃ m', runItems step items m = some m' ∧
      (∀ sj ∈ flatComps dats, ∀ i, i < N → m' ⟨sj.1, f i, sj.2, row i⟩ = some (v (sj, i))) ∧
      (∀ k, (∀ i, i < N → ¬ (k.cell = f i ∧ k.row = row i)) → m' k = m k) ∧
      (∀ k, (m k).isSome = true → (m' k).isSome = true) :=
  runItems_rows (P := fun i => i < N) (fun it => by rw [hp.mem_iff, mem_compItems]) f row v
    hstep hinj halloc

/-- Rows of the new counts are allocated. -/
theorem rows_isSome {ncell : Nat} {dats : List Dat} {m : Mem} {N : List Nat}
    (h2 : N.length = ncell)
    (h : ∀ d ∈ dats, DatMem ncell m d ∧ d.nrow = N) {sj : Nat × Nat}
    (hsj : sj ∈ flatComps dats) {c k n : Nat} (hn : N[c]? = some n) (hk : k < n) :
    (m ⟨sj.1, c, sj.2, k⟩).isSome = true := by
  obtain ⟨d, hd, hd1, hd2⟩ := mem_flatComps.1 hsj
  obtain ⟨q1, q4⟩ := h d hd
  have hc : c < ncell := by
    have := (List.getElem?_eq_some_iff.1 hn).1
    rw [h2] at this; exact this
  obtain ⟨a, ha⟩ := exists_at q1.alloc_len hc
  have := q1.le c n a (by rw [q4]; exact hn) ha
  rw [← hd1]
  exact q1.alloc c a _ k ha hd2 (by omega)

theorem Spec.Consistent.withVersion {g : Group} (hg : Consistent g) (v : Nat) :
    Consistent { g with version := v } :=
  ⟨hg.len, hg.device, hg.es_len, hg.es, hg.total, hg.nodup,
    fun d hd => ⟨(hg.dats d hd).mem, (hg.dats d hd).host, (hg.dats d hd).device,
      (hg.dats d hd).rows, (hg.dats d hd).exact⟩, hg.pos, hg.rank, hg.cell⟩

theorem addParticleSet_spec (e : Env) {g : Group} (hg : Consistent g) {ps : PSet}
    (hps : 0 < ps.npart → SetOk g ps) :
    ∃ g', addParticleSet e g ps = some g' ∧ Consistent g' ∧ SameShape g g' ∧
      g'.version = g.version + 1 ∧
      ∀ c, c < g.ncell → contents g' c = contents g c ++
        ((List.range ps.npart).filter (goesTo g ps c)).map (newParticle g ps) := by
  unfold addParticleSet
  by_cases h0 : ps.npart = 0
  · refine ⟨invalidateVersion g, by simp [h0], ?_, ⟨rfl, rfl, rfl, rfl, rfl, rfl⟩, rfl, ?_⟩
    · exact ⟨hg.len, hg.device, hg.es_len, hg.es, hg.total, hg.nodup,
        fun d hd => ⟨(hg.dats d hd).mem, (hg.dats d hd).host, (hg.dats d hd).device,
          (hg.dats d hd).rows, (hg.dats d hd).exact⟩, hg.pos, hg.rank, hg.cell⟩
    · intro c hc
      rw [h0]
      simp only [List.range_zero, List.filter_nil, List.map_nil, List.append_nil]
      rfl
  simp only [h0, if_false]
  obtain ⟨hcomps, ids, hids, hcell⟩ := hps (by omega)
  have hok : setCompsOk (invalidateVersion g) ps = true := by
    unfold setCompsOk
    rw [List.all_eq_true]
    intro d hd
    cases hv : ps.get? d.sym with
    | none => rfl
    | some v =>
      simp only [beq_iff_eq]
      rw [hcomps d hd v hv, Nat.mul_div_cancel _ (by omega)]
  rw [hok]
  simp only [not_true_eq_false, if_false]
  have hids' : ps.get? (invalidateVersion g).cellSym = some ids := hids
  rw [hids']
  simp only [Option.bind_some]
  choose! f hf using hcell
  have hgo : ∀ c i, i < ps.npart → goesTo g ps c i = decide (f i = c) := by
    intro c i hi
    unfold goesTo
    rw [hids]
    simp only [Option.bind_some, (hf i hi).2]
    by_cases h : f i = c
    · simp [h]
    · have : ¬ ((f i : Int) = (c : Int)) := by omega
      simp [h]
  obtain ⟨N, L, h1, h2, h3, h4, h5⟩ := layers_spec (N := ps.npart) hg.len f
    (fun i hi => ⟨(hf i hi).2, (hf i hi).1⟩)
  have h1' : forLoop 0 ps.npart (setLayerStep (invalidateVersion g).ncell ids)
      ((invalidateVersion g).hNpart, List.replicate ps.npart 0) = some (N, L) := h1
  rw [h1']
  simp only [Option.bind_some]
  have hgv : Consistent (invalidateVersion g) := ⟨hg.len, hg.device, hg.es_len, hg.es, hg.total, hg.nodup,
        fun d hd => ⟨(hg.dats d hd).mem, (hg.dats d hd).host, (hg.dats d hd).device,
          (hg.dats d hd).rows, (hg.dats d hd).exact⟩, hg.pos, hg.rank, hg.cell⟩
  obtain ⟨es, m2, dats2, k1, k2, k3, k4, k5, k6, k7⟩ := grow_spec (e := e) hgv (N := N) h2 (by
    intro c n n' hn hn'
    rw [h4 c n hn] at hn'
    simp only [Option.some.injEq] at hn'
    omega)
  rw [k1]
  simp only [Option.bind_some]
  rw [k2]
  simp only [Option.bind_some]
  have hfl := flatComps_congr k5
  -- rows
  let row : Nat → Nat := fun i => g.hNpart.getD (f i) 0 + cnt (fun j => decide (f j = f i)) i
  have hL : ∀ i, i < ps.npart → L[i]? = some (row i) := by
    intro i hi
    exact h5 i _ hi (get_getD hg.len (hf i hi).1)
  have hNc : ∀ c, c < g.ncell → N[c]? = some (g.hNpart.getD c 0 +
      cnt (fun i => decide (f i = c)) ps.npart) := fun c hc => h4 c _ (get_getD hg.len hc)
  have hrowlt : ∀ i, i < ps.npart → ∃ n, N[f i]? = some n ∧ row i < n := by
    intro i hi
    refine ⟨_, hNc _ (hf i hi).1, ?_⟩
    have := cnt_lt (p := fun j => decide (f j = f i)) hi (by simp)
    simp only [row]; omega
  have halloc : ∀ sj ∈ flatComps dats2, ∀ c k n, N[c]? = some n → k < n →
      (m2 ⟨sj.1, c, sj.2, k⟩).isSome = true := by
    intro sj hsj c k n hn hk
    obtain ⟨d, hd, hd1, hd2⟩ := mem_flatComps.1 hsj
    obtain ⟨q1, q2, q3, q4⟩ := k6 d hd
    have hc : c < g.ncell := by
      have := (List.getElem?_eq_some_iff.1 hn).1
      rw [h2] at this; exact this
    obtain ⟨a, ha⟩ := exists_at q1.alloc_len hc
    have := q1.le c n a (by rw [q4]; exact hn) ha
    rw [← hd1]
    exact q1.alloc c a _ k ha hd2 (by omega)
  obtain ⟨m3, r1, r2, r3, r4⟩ := runItems_newRows (step := setDataStep ps ids L) (dats := dats2)
    (N := ps.npart) (m := m2) ((e.sched 0).perm (compItems dats2 ps.npart)) f row
    (fun it => match ps.get? it.1.1 with
      | some v => v.getD (it.1.2 * ps.npart + it.2) 0
      | none => 0)
    (by
      intro it hsj hi m' _
      unfold setDataStep
      simp only [rd, (hf it.2 hi).2, Option.bind_some, index]
      rw [if_pos (by omega)]
      simp only [Option.bind_some, Int.toNat_natCast, hL it.2 hi]
      cases hv : ps.get? it.1.1 with
      | none => rfl
      | some v =>
        simp only
        rw [hfl] at hsj
        obtain ⟨d, hd, hd1, hd2⟩ := mem_flatComps.1 hsj
        have hlen := hcomps d hd v (by rw [hd1]; exact hv)
        have hlt : it.1.2 * ps.npart + it.2 < v.length := by
          rw [hlen]; exact flat_lt hd2 hi
        have : v[it.1.2 * ps.npart + it.2]? = some (v.getD (it.1.2 * ps.npart + it.2) 0) := by
          simp [hlt]
        rw [this]; rfl)
    (by
      intro i j hi hj hfij hrij
      simp only [row] at hrij
      rw [hfij] at hrij
      exact cnt_inj (p := fun x => decide (f x = f j)) (by simp [hfij]) (by simp) (by omega))
    (by
      intro sj hsj i hi
      obtain ⟨n, hn, hlt⟩ := hrowlt i hi
      exact halloc sj hsj _ _ n hn hlt)
  rw [r1]
  simp only [Option.bind_some]
  obtain ⟨dats3, u1, u2, u3⟩ := finish_spec (m3 := m3) hgv h2 k3 k4 k5 k6 r4
  refine ⟨_, u1, u3 _, SameShape.of_sameSyms u2 rfl rfl rfl rfl rfl, rfl, ?_⟩
  intro c hc
  have hfl3 := flatComps_congr u2
  rw [contents_append (g := g) (c := c) (n := g.hNpart.getD c 0)
    (K := cnt (fun i => decide (f i = c)) ps.npart) hfl3 (get_getD hg.len hc) (hNc c hc) (by
      intro sj hsj k hk
      simp only
      rw [r3 _ (by
        intro i hi
        simp only [row]
        rintro ⟨rfl, h⟩
        omega)]
      exact k7 sj hsj c k _ (get_getD hg.len hc) hk)]
  congr 1
  rw [map_range_cnt (fun i => decide (f i = c)) _ (newParticle g ps) ps.npart]
  · congr 1
    apply List.filter_congr
    intro i hi
    exact (hgo c i (List.mem_range.1 hi)).symm
  · intro i hi hfi
    have hfi' : f i = c := by simpa using hfi
    subst hfi'
    unfold particle newParticle
    simp only
    rw [hfl3]
    apply List.map_congr_left
    intro sj hsj
    have := r2 sj (by rw [hfl]; exact hsj) i hi
    simp only [row] at this
    rw [this]
    cases hv : ps.get? sj.1 with
    | none => rfl
    | some v =>
      simp only
      obtain ⟨d, hd, hd1, hd2⟩ := mem_flatComps.1 hsj
      have hlen := hcomps d hd v (by rw [hd1]; exact hv)
      have hlt : sj.2 * ps.npart + i < v.length := by
        rw [hlen]; exact flat_lt hd2 hi
      simp [hlt]

end NP
