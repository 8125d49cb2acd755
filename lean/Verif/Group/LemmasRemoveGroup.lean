import Verif.Group.LemmasAddSub
import Verif.Loop.Props

/-! `remove_particles` and `ParticleRemover`. -/

set_option autoImplicit false

namespace NP

open Spec

theorem le_sum_of_mem {l : List Nat} {n : Nat} (h : n ∈ l) : n ≤ l.sum := by
  induction l with
  | nil => simp at h
  | cons a as ih =>
    rw [List.sum_cons]
    rcases List.mem_cons.1 h with rfl | h
    · omega
    · have := ih h; omega

theorem isParticle_iff {ncell : Nat} {N : List Nat} (h : N.length = ncell) {c k : Nat} :
    IsParticle N c k ↔ c < ncell ∧ k < N.getD c 0 := by
  constructor
  · rintro ⟨n, hn, hk⟩
    have := (List.getElem?_eq_some_iff.1 hn).1
    exact ⟨by omega, by rw [getD_eq hn]; exact hk⟩
  · rintro ⟨hc, hk⟩
    exact ⟨_, get_getD h hc, hk⟩

/-- The particles of a cell after rows were compressed. -/
theorem contents_perm {g g' : Group} (hs : flatComps g'.dats = flatComps g.dats) {c : Nat}
    {src : Nat → Nat} {P : Nat → Bool} {n : Nat}
    (hrow : ∀ k, k < count g' c → ∀ sj ∈ flatComps g.dats,
      g'.mem ⟨sj.1, c, sj.2, k⟩ = g.mem ⟨sj.1, c, sj.2, src k⟩)
    (hp : ((List.range (count g' c)).map src).Perm ((List.range n).filter P)) :
    (contents g' c).Perm (((List.range n).filter P).map (particle g c)) := by
  have := hp.map (particle g c)
  rw [List.map_map] at this
  refine List.Perm.trans ?_ this
  unfold contents
  rw [List.map_congr_left]
  intro k hk
  rw [List.mem_range] at hk
  simp only [Function.comp_apply, particle]
  rw [hs]
  apply List.map_congr_left
  intro sj hsj
  exact hrow k hk sj hsj

theorem removeParticles_spec {e : Env} (hE : EnvOk e) {g : Group} (hg : Consistent g)
    (hsmall : SmallCounts g) {npart : Nat} {cells layers : List Int}
    (hcells : npart ≤ cells.length) (hlayers : npart ≤ layers.length)
    (hlisted : ∀ c k, c < g.ncell → Listed npart cells layers c k → k < count g c)
    (hids : ∀ c k, c < g.ncell → k < count g c → ¬ Listed npart cells layers c k →
      ∃ v, cellId g c k = some v ∧ 0 ≤ v) :
    ∃ g', removeParticles e g npart cells layers = some g' ∧ Consistent g' ∧ SameShape g g' ∧
      g'.version = g.version + 2 ∧
      ∀ c, c < g.ncell → (contents g' c).Perm
        (((List.range (count g c)).filter fun k => decide ¬ Listed npart cells layers c k).map
          (particle g c)) := by
  unfold removeParticles
  by_cases h0 : npart = 0
  · subst h0
    have : compressorRemove e g 0 cells layers = some g := by unfold compressorRemove; simp
    rw [this]
    simp only [Option.bind_some]
    obtain ⟨es, h1, h2, h3⟩ := setNpartCellFromDat_spec hg.len hg.es_len hg.len hg.pos
      (fun d hd => (hg.dats d hd).host)
    rw [h1]
    simp only [Option.bind_some]
    refine ⟨_, rfl, ?_, ⟨rfl, rfl, rfl, rfl, rfl, rfl⟩, rfl, ?_⟩
    · exact ⟨hg.len, rfl, h2, h3, rfl, hg.nodup,
        fun d hd => ⟨(hg.dats d hd).mem, (hg.dats d hd).host, (hg.dats d hd).device,
          (hg.dats d hd).rows, (hg.dats d hd).exact⟩, hg.pos, hg.rank, hg.cell⟩
    · intro c _
      have : ((List.range (count g c)).filter fun k => decide ¬ Listed 0 cells layers c k) =
          List.range (count g c) := by
        rw [List.filter_eq_self]
        intro k _
        simp [Listed]
      rw [this]
      exact List.Perm.refl _
  · obtain ⟨N', m', dats', src, h1, h2, h3, h4, h5, h6, h7⟩ := compressorRemove_spec hE
      (g := g) hg.datsOk hsmall hg.rank hg.cell (npart := npart) (by omega) hcells hlayers
      (by
        intro c k hc hl
        exact ⟨_, get_getD hg.len hc, hlisted c k hc hl⟩)
      (by
        intro c n k v hn hk hl hv
        have hc : c < g.ncell := by
          have := (List.getElem?_eq_some_iff.1 hn).1
          rw [hg.len] at this; exact this
        obtain ⟨w, hw, hw0⟩ := hids c k hc (by rw [count_eq hn]; exact hk) hl
        unfold cellId at hw
        rw [hv] at hw
        simp only [Option.some.injEq] at hw
        omega)
    rw [h1]
    simp only [Option.bind_some]
    obtain ⟨es, q1, q2, q3⟩ := setNpartCellFromDat_spec (g := { g with mem := m', dats := dats' })
      hg.len hg.es_len h3.len (mem_syms_congr h2 hg.pos) h3.host
    rw [q1]
    simp only [Option.bind_some]
    refine ⟨_, rfl, ?_, SameShape.of_sameSyms h2 rfl rfl rfl rfl rfl, rfl, ?_⟩
    · exact consistent_of_datsOk (N := N') h3 (fun _ => h4) rfl rfl rfl q2 q3 rfl
        (mem_syms_congr h2 hg.pos) (mem_syms_congr h2 hg.rank) (cell_congr h2 hg.cell)
    · intro c hc
      refine contents_perm (src := src c) (flatComps_congr h2) ?_ (h7 c hc)
      intro k hk sj hsj
      exact h6 c _ (get_getD h3.len hc) k hk sj hsj

/-- Listed particles when the list is an enumeration of pairs. -/
theorem listed_iff_get {n : Nat} {cells layers : List Int} {c k : Nat} :
    Listed n cells layers c k ↔
      ∃ i, i < n ∧ cells[i]? = some (c : Int) ∧ layers[i]? = some (k : Int) := by
  unfold Listed
  rw [List.mem_iff_getElem?]
  constructor
  · rintro ⟨i, hi⟩
    rw [List.getElem?_take] at hi
    by_cases h : i < n
    · rw [if_pos h, List.getElem?_zip_eq_some] at hi
      exact ⟨i, h, hi.1, hi.2⟩
    · rw [if_neg h] at hi; simp at hi
  · rintro ⟨i, h, h1, h2⟩
    refine ⟨i, ?_⟩
    rw [List.getElem?_take, if_pos h, List.getElem?_zip_eq_some]
    exact ⟨h1, h2⟩

/-- What the two loops of `ParticleRemover::remove` compute. -/
theorem removerCount_spec {sym : Nat} {key : Int} {m : Mem} {items : List (Nat × Nat)}
    (h : ∀ p ∈ items, ∃ v, m ⟨sym, p.1, 0, p.2⟩ = some v) (n : Nat) :
    runItems (removerCountStep sym key m) items n =
      some (n + (items.filter fun p => decide (m ⟨sym, p.1, 0, p.2⟩ = some key)).length) := by
  induction items generalizing n with
  | nil => rfl
  | cons p ps ih =>
    obtain ⟨v, hv⟩ := h p List.mem_cons_self
    rw [runItems_cons]
    simp only [removerCountStep, hv, Option.bind_some]
    rw [ih (fun q hq => h q (List.mem_cons_of_mem _ hq))]
    by_cases hk : v = key
    · simp [hv, hk]; omega
    · simp [hv, hk]

theorem removerCollect_spec {sym : Nat} {key : Int} {m : Mem} {items : List (Nat × Nat)}
    (hnd : items.Nodup) (h : ∀ p ∈ items, ∃ v, m ⟨sym, p.1, 0, p.2⟩ = some v) {n : Nat}
    (hn : n = (items.filter fun p => decide (m ⟨sym, p.1, 0, p.2⟩ = some key)).length)
    {a b : List Int} (ha : a.length = n) (hb : b.length = n) :
    ∃ r a' b', runItems (removerCollectStep sym key m) items ([0], a, b) = some (r, a', b') ∧
      a'.length = n ∧ b'.length = n ∧
      ∀ c k, Listed n a' b' c k ↔ (c, k) ∈ items ∧ m ⟨sym, c, 0, k⟩ = some key := by
  let kf : Nat × Nat → Option Nat := fun p =>
    if m ⟨sym, p.1, 0, p.2⟩ = some key then some 0 else none
  have hkf : ∀ p, m ⟨sym, p.1, 0, p.2⟩ = some key → kf p = some 0 := fun p hp => if_pos hp
  have hkf' : ∀ p, m ⟨sym, p.1, 0, p.2⟩ ≠ some key → kf p = none := fun p hp => if_neg hp
  have hkc : keyCount kf items 0 = n := by
    rw [hn]
    unfold keyCount
    congr 1
    apply List.filter_congr
    intro p _
    by_cases hp : m ⟨sym, p.1, 0, p.2⟩ = some key
    · simp [hp, hkf p hp]
    · simp [hp, hkf' p hp]
  have hlt : ∀ p ∈ items, kf p = some 0 → rank kf items p < n := by
    intro p hp hk; rw [← hkc]; exact rank_lt hp hk
  have hput : ∀ (f : Nat × Nat → Int) (x : List Int), x.length = n →
      ∃ x', runItems (putStep (fun p => if m ⟨sym, p.1, 0, p.2⟩ = some key then
          some (rank kf items p) else none) f) items x = some x' ∧ x'.length = n ∧
        ∀ p ∈ items, m ⟨sym, p.1, 0, p.2⟩ = some key → x'[rank kf items p]? = some (f p) := by
    intro f x hx
    have key := runItems_putStep (items := items) (m := x)
      (fun p => if m ⟨sym, p.1, 0, p.2⟩ = some key then some (rank kf items p) else none) f ?_ ?_
    · obtain ⟨x', k1, k2, k3, -⟩ := key
      refine ⟨x', k1, by rw [k2, hx], ?_⟩
      intro p hp hk
      exact k3 p hp _ (if_pos hk)
    · intro p hp q hq d h1 h2
      by_cases hpk : m ⟨sym, p.1, 0, p.2⟩ = some key
      · by_cases hqk : m ⟨sym, q.1, 0, q.2⟩ = some key
        · rw [if_pos hpk] at h1
          rw [if_pos hqk] at h2
          rw [← h2] at h1
          simp only [Option.some.injEq] at h1
          rw [rank_inj hp (hkf p hpk) (hkf q hqk) h1]
        · rw [if_neg hqk] at h2; cases h2
      · rw [if_neg hpk] at h1; cases h1
    · intro p hp d h1
      by_cases hpk : m ⟨sym, p.1, 0, p.2⟩ = some key
      · rw [if_pos hpk] at h1
        simp only [Option.some.injEq] at h1
        rw [← h1, hx]
        exact hlt p hp (hkf p hpk)
      · rw [if_neg hpk] at h1; cases h1
  obtain ⟨a', ha1, ha2, ha3⟩ := hput (fun p => (p.1 : Int)) a ha
  obtain ⟨b', hb1, hb2, hb3⟩ := hput (fun p => (p.2 : Int)) b hb
  have h1 := runItems_fetch (key := kf) (store := fun p off (s : List Int × List Int) =>
      (st s.1 off (p.1 : Int)).bind fun c => (st s.2 off (p.2 : Int)).bind fun l => some (c, l))
    (skip := fun _ s => some s) hnd (ctr := [0]) (by
      intro p hp c hk
      by_cases hpk : m ⟨sym, p.1, 0, p.2⟩ = some key
      · rw [hkf p hpk] at hk
        simp only [Option.some.injEq] at hk
        simp [← hk]
      · rw [hkf' p hpk] at hk; cases hk) (a, b)
  refine ⟨addCounts kf items [0], a', b', ?_, ha2, hb2, ?_⟩
  · rw [runItems_congr (step' := fetchStep kf (fun p off (s : List Int × List Int) =>
      (st s.1 off (p.1 : Int)).bind fun c => (st s.2 off (p.2 : Int)).bind fun l => some (c, l))
      (fun _ s => some s)) ?_, h1]
    · rw [runItems_congr (step' := fun p (s : List Int × List Int) =>
        (putStep (fun p : Nat × Nat => if m ⟨sym, p.1, 0, p.2⟩ = some key then
          some (rank kf items p) else none) (fun p => (p.1 : Int)) p s.1).bind fun x =>
        (putStep (fun p : Nat × Nat => if m ⟨sym, p.1, 0, p.2⟩ = some key then
          some (rank kf items p) else none) (fun p => (p.2 : Int)) p s.2).bind fun y =>
          some (x, y)) ?_]
      · rw [runItems_prod (fun p _ s t => rfl) ha1 hb1]; rfl
      · intro p hp s
        by_cases hpk : m ⟨sym, p.1, 0, p.2⟩ = some key
        · simp only [hkf p hpk, putStep, if_pos hpk]
          simp
        · simp only [hkf' p hpk, putStep, if_neg hpk]
          rfl
    · intro p hp s
      obtain ⟨v, hv⟩ := h p hp
      unfold removerCollectStep fetchStep
      simp only [hv, Option.bind_some]
      by_cases hk : v = key
      · have := hkf p (by rw [hv, hk])
        simp only [this, if_pos hk]
        cases fetchAdd s.1 0 with
        | none => rfl
        | some r =>
          simp only [Option.bind_some]
          cases st s.2.1 r.1 (p.1 : Int) with
          | none => rfl
          | some x =>
            simp only [Option.bind_some]
            cases st s.2.2 r.1 (p.2 : Int) with
            | none => rfl
            | some y => rfl
      · have := hkf' p (by rw [hv]; simpa using hk)
        simp only [this, if_neg hk, Option.bind_some]
  · intro c k
    rw [listed_iff_get]
    constructor
    · rintro ⟨i, hi, h1, h2⟩
      rw [← hkc] at hi
      obtain ⟨p, hp, hpk, hr⟩ := rank_surj hnd hi
      have hpk' : m ⟨sym, p.1, 0, p.2⟩ = some key := by
        by_contra hx
        rw [hkf' p hx] at hpk; cases hpk
      have e1 := ha3 p hp hpk'
      have e2 := hb3 p hp hpk'
      rw [hr, h1] at e1
      rw [hr, h2] at e2
      simp only [Option.some.injEq, Nat.cast_inj] at e1 e2
      rw [e1, e2]
      exact ⟨hp, hpk'⟩
    · rintro ⟨hp, hk⟩
      exact ⟨_, hlt _ hp (hkf (c, k) hk), ha3 (c, k) hp hk, hb3 (c, k) hp hk⟩

theorem removerRemove_spec {e e' : Env} (hE : EnvOk e) (hE' : EnvOk e') {g : Group}
    (hg : Consistent g) (hsmall : SmallCounts g) {sym : Nat} {key : Int}
    (hsym : ∃ d ∈ g.dats, d.sym = sym ∧ 0 < d.ncomp)
    (hids : ∀ c k, c < g.ncell → k < count g c → g.mem ⟨sym, c, 0, k⟩ ≠ some key →
      ∃ v, cellId g c k = some v ∧ 0 ≤ v) :
    ∃ g', removerRemove e e' g sym key = some g' ∧ Consistent g' ∧ SameShape g g' ∧
      ∀ c, c < g.ncell → (contents g' c).Perm
        (((List.range (count g c)).filter fun k => decide (g.mem ⟨sym, c, 0, k⟩ ≠ some key)).map
          (particle g c)) := by
  obtain ⟨d, hd, hd1, hd2⟩ := hsym
  have hlaunch : LaunchOk e.loop g.hNpart true g.npartLocal :=
    ⟨hE.localSize_pos, hE.localSize_int, hE.nbin_pos, hsmall, by
      intro _ h0 n hn
      rw [hg.total] at h0
      have := le_sum_of_mem hn
      omega⟩
  obtain ⟨vis, hv1, hv2, hv3⟩ := C07_each_particle_once hlaunch (cs := none) (ce := none) trivial
  have hv3' : ∀ c k, (c, k) ∈ vis ↔ IsParticle g.hNpart c k := by
    intro c k; rw [hv3]; simp [CellRequested]
  have hval : ∀ c k, IsParticle g.hNpart c k → ∃ v, g.mem ⟨sym, c, 0, k⟩ = some v := by
    rintro c k ⟨n, hn, hk⟩
    exact Option.isSome_iff_exists.1 (hg.datsOk.isSome (sj := (sym, 0))
      (mem_flatComps.2 ⟨d, hd, hd1, hd2⟩) hn hk)
  unfold removerRemove
  rw [hv1]
  simp only [Option.bind_some]
  have hp20 := (e.sched 20).perm vis
  have hp21 := (e.sched 21).perm vis
  rw [removerCount_spec (by
    intro p hp
    exact hval _ _ ((hv3' p.1 p.2).1 (hp20.mem_iff.1 hp)))]
  simp only [Option.bind_some, Nat.zero_add]
  have hlen : (((e.sched 20).order vis).filter
      fun p => decide (g.mem ⟨sym, p.1, 0, p.2⟩ = some key)).length =
      (((e.sched 21).order vis).filter
        fun p => decide (g.mem ⟨sym, p.1, 0, p.2⟩ = some key)).length :=
    ((hp20.trans hp21.symm).filter _).length_eq
  rw [hlen]
  generalize hn : (((e.sched 21).order vis).filter
        fun p => decide (g.mem ⟨sym, p.1, 0, p.2⟩ = some key)).length = n
  by_cases h0 : n > 0
  · rw [if_pos h0]
    obtain ⟨r, a', b', h1, h2, h3, h4⟩ := removerCollect_spec (sym := sym) (key := key)
      (m := g.mem) (items := (e.sched 21).order vis) (hp21.nodup_iff.2 hv2)
      (by
        intro p hp
        exact hval _ _ ((hv3' p.1 p.2).1 (hp21.mem_iff.1 hp))) hn.symm
      (a := (e.freshI 20 n).1) (b := (e.freshI 21 n).1) (e.freshI 20 n).2 (e.freshI 21 n).2
    rw [h1]
    simp only [Option.bind_some]
    have hl : ∀ c k, Listed n a' b' c k ↔ IsParticle g.hNpart c k ∧
        g.mem ⟨sym, c, 0, k⟩ = some key := by
      intro c k
      rw [h4, hp21.mem_iff, hv3']
    obtain ⟨g', k1, k2, k3, -, k4⟩ := removeParticles_spec hE' hg hsmall (npart := n)
      (cells := a') (layers := b') (by omega) (by omega)
      (by
        intro c k hc hlst
        exact ((isParticle_iff hg.len).1 ((hl c k).1 hlst).1).2)
      (by
        intro c k hc hk hlst
        refine hids c k hc hk (fun hx => hlst ((hl c k).2 ⟨?_, hx⟩))
        exact (isParticle_iff hg.len).2 ⟨hc, hk⟩)
    refine ⟨g', k1, k2, k3, ?_⟩
    intro c hc
    have hf : ((List.range (count g c)).filter fun k => decide (g.mem ⟨sym, c, 0, k⟩ ≠ some key)) =
        (List.range (count g c)).filter fun k => decide ¬ Listed n a' b' c k := by
      apply List.filter_congr
      intro k hk
      rw [List.mem_range] at hk
      congr 1
      rw [hl c k, ne_eq, not_iff_not.2]
      exact ⟨fun h => ⟨(isParticle_iff hg.len).2 ⟨hc, hk⟩, h⟩, fun h => h.2⟩
    rw [hf]
    exact k4 c hc
  · rw [if_neg h0]
    refine ⟨g, rfl, hg, ⟨rfl, rfl, rfl, rfl, rfl, rfl⟩, ?_⟩
    intro c hc
    have hf : ((List.range (count g c)).filter fun k => decide (g.mem ⟨sym, c, 0, k⟩ ≠ some key)) =
        List.range (count g c) := by
      rw [List.filter_eq_self]
      intro k hk
      rw [List.mem_range] at hk
      simp only [ne_eq, decide_not, Bool.not_eq_eq_eq_not, Bool.not_true, decide_eq_false_iff_not]
      intro hx
      have hmem : (c, k) ∈ (((e.sched 21).order vis).filter
        fun p => decide (g.mem ⟨sym, p.1, 0, p.2⟩ = some key)) := by
        rw [List.mem_filter, hp21.mem_iff, hv3']
        exact ⟨(isParticle_iff hg.len).2 ⟨hc, hk⟩, by simpa using hx⟩
      have := List.length_pos_of_mem hmem
      omega
    rw [hf]
    exact List.Perm.refl _

end NP
