import Verif.Group.LemmasRemoveGroup

/-! `CellMove::move`. -/

set_option autoImplicit false

namespace NP

open Spec

theorem mem_particles {g : Group} {p : Nat × Nat} :
    p ∈ particles g ↔ p.1 < g.ncell ∧ p.2 < count g p.1 := by
  unfold particles
  simp only [List.mem_flatMap, List.mem_map, List.mem_range]
  constructor
  · rintro ⟨c, hc, k, hk, rfl⟩; exact ⟨hc, hk⟩
  · rintro ⟨h1, h2⟩; exact ⟨p.1, h1, p.2, h2, rfl⟩

theorem particles_nodup (g : Group) : (particles g).Nodup := by
  unfold particles
  rw [List.nodup_flatMap]
  refine ⟨fun c _ => List.Nodup.map (fun a b h => (Prod.mk.inj h).2) List.nodup_range, ?_⟩
  have := (List.nodup_range (n := g.ncell))
  rw [List.nodup_iff_pairwise_ne] at this
  refine this.imp ?_
  intro a b hab x h1 h2
  simp only [List.mem_map] at h1 h2
  obtain ⟨k, -, rfl⟩ := h1
  obtain ⟨k', -, h⟩ := h2
  exact hab (Prod.mk.inj h).1.symm

theorem runItems_none {ι σ : Type} {step : ι → σ → Option σ} {items : List ι} {i : ι}
    (hi : i ∈ items) (h : ∀ s, step i s = none) (s : σ) : runItems step items s = none := by
  induction items generalizing s with
  | nil => simp at hi
  | cons j js ih =>
    rw [runItems_cons]
    rcases List.mem_cons.1 hi with rfl | hi
    · rw [h]; rfl
    · cases step j s with
      | none => rfl
      | some s' => exact ih hi s'

theorem map_bij_perm {ι κ β : Type} {l : List ι} {L : List κ} {f : ι → κ} {F : κ → β}
    {h : ι → β} (hnd : l.Nodup) (hL : L.Nodup)
    (hinj : ∀ i ∈ l, ∀ j ∈ l, f i = f j → i = j)
    (hf : ∀ i ∈ l, f i ∈ L) (hsurj : ∀ r ∈ L, ∃ i ∈ l, f i = r)
    (hF : ∀ i ∈ l, F (f i) = h i) : (L.map F).Perm (l.map h) := by
  have hp : (l.map f).Perm L := by
    rw [List.perm_ext_iff_of_nodup (List.Nodup.map_on hinj hnd) hL]
    intro r
    rw [List.mem_map]
    exact ⟨fun ⟨i, hi, h⟩ => h ▸ hf i hi, fun h => hsurj r h⟩
  have h2 := hp.symm.map F
  rw [List.map_map] at h2
  refine h2.trans ?_
  rw [List.map_congr_left (f := F ∘ f) (g := h) (fun i hi => hF i hi)]

theorem sum_keyCount_le {ι : Type} (key : ι → Option Nat) (items : List ι) (n : Nat) :
    ((List.range n).map (keyCount key items)).sum ≤ items.length := by
  have : ((List.range n).map (keyCount key items)).sum =
      (items.filter fun i => (key i).any (· < n)).length := by
    induction n with
    | zero =>
      simp only [List.range_zero, List.map_nil, List.sum_nil]
      symm
      rw [List.length_eq_zero_iff, List.filter_eq_nil_iff]
      intro i _
      cases key i <;> simp
    | succ n ih =>
      rw [List.range_succ, List.map_append, List.sum_append, ih]
      simp only [List.map_cons, List.map_nil, List.sum_cons, List.sum_nil, Nat.add_zero]
      unfold keyCount
      clear ih
      induction items with
      | nil => rfl
      | cons a as ih =>
        simp only [List.filter_cons]
        cases hk : key a with
        | none => simpa using ih
        | some c =>
          by_cases h1 : c = n
          · subst h1
            simp only [Option.any_some, Nat.lt_irrefl, decide_false, Bool.false_eq_true, if_false,
              decide_true, if_true, List.length_cons, Nat.lt_succ_self]
            omega
          · by_cases h2 : c < n
            · have h3 : c < n + 1 := by omega
              simp only [Option.any_some, h2, h3, decide_true, if_true, List.length_cons,
                Option.some.injEq, h1, decide_false, Bool.false_eq_true, if_false]
              omega
            · have h3 : ¬ c < n + 1 := by omega
              simp only [Option.any_some, h2, h3, decide_false, Bool.false_eq_true, if_false,
                Option.some.injEq, h1]
              exact ih
  rw [this]
  exact List.length_filter_le _ _

theorem loopLinearIndex_eq {N : List Nat} {c k : Nat} (h : IsParticle N c k) :
    loopLinearIndex N 0 c k = some (((before N c + k : Nat) : Int)) := by
  have hc := lt_length_of_isParticle h
  unfold loopLinearIndex
  rw [rd_npartCellEs hc, rd_npartCellEs (by omega)]
  simp [before]

theorem visits_length_le {N : List Nat} {items : List (Nat × Nat)} (hnd : items.Nodup)
    (h : ∀ p ∈ items, IsParticle N p.1 p.2) : items.length ≤ N.sum := by
  have hnd' : (items.map fun p => before N p.1 + p.2).Nodup := by
    refine List.Nodup.map_on ?_ hnd
    intro p hp q hq he
    obtain ⟨h1, h2⟩ := before_inj (h p hp) (h q hq) he
    exact Prod.ext h1 h2
  have hsub : ∀ x ∈ items.map fun p => before N p.1 + p.2, x ∈ List.range N.sum := by
    intro x hx
    rw [List.mem_map] at hx
    obtain ⟨p, hp, rfl⟩ := hx
    rw [List.mem_range, ← before_all]
    exact before_le (h p hp) (lt_length_of_isParticle (h p hp))
  have := (hnd'.subperm hsub).length_le
  simpa using this

/-- The compressor, also for an empty list, when rows and counts agree. -/
theorem compressorRemove_spec' {e : Env} (hE : EnvOk e) {g : Group} {N : List Nat}
    (hd : DatsOk g.ncell N g.mem g.dats) (hnrow : ∀ d ∈ g.dats, d.nrow = N)
    (hsmall : ∀ n ∈ N, n < 2 ^ 31)
    (hrank : g.rankSym ∈ g.dats.map (·.sym))
    (hcell : ∃ d ∈ g.dats, d.sym = g.cellSym ∧ 0 < d.ncomp)
    {npart : Nat} {cells layers : List Int} (hcells : npart ≤ cells.length)
    (hlayers : npart ≤ layers.length)
    (hlisted : ∀ c k, c < g.ncell → Listed npart cells layers c k → ∃ n, N[c]? = some n ∧ k < n)
    (hneg : ∀ c n k v, N[c]? = some n → k < n → ¬ Listed npart cells layers c k →
      g.mem ⟨g.cellSym, c, 0, k⟩ = some v → 0 ≤ v) :
    ∃ (N' : List Nat) (m' : Mem) (dats' : List Dat) (src : Nat → Nat → Nat),
      compressorRemove e g npart cells layers = some { g with mem := m', dats := dats' } ∧
      SameSyms g.dats dats' ∧ DatsOk g.ncell N' m' dats' ∧ (∀ d ∈ dats', d.nrow = N') ∧
      (∀ (c n' : Nat), N'[c]? = some n' → ∀ k, k < n' → ∀ sj ∈ flatComps g.dats,
        m' ⟨sj.1, c, sj.2, k⟩ = g.mem ⟨sj.1, c, sj.2, src c k⟩) ∧
      (∀ c, c < g.ncell → ((List.range (N'.getD c 0)).map (src c)).Perm
        ((List.range (N.getD c 0)).filter (fun k => decide ¬ Listed npart cells layers c k))) := by
  by_cases h0 : npart = 0
  · subst h0
    refine ⟨N, g.mem, g.dats, fun _ k => k, by unfold compressorRemove; simp, ?_, hd, hnrow,
      fun _ _ _ _ _ _ _ => rfl, ?_⟩
    · exact List.forall₂_same.2 (fun d _ => ⟨rfl, rfl⟩)
    · intro c _
      have : ((List.range (N.getD c 0)).filter fun k => decide ¬ Listed 0 cells layers c k) =
          List.range (N.getD c 0) := by
        rw [List.filter_eq_self]
        intro k _
        simp [Listed]
      rw [this]
      simp
  · obtain ⟨N', m', dats', src, h1, h2, h3, h4, h5, h6, h7⟩ := compressorRemove_spec hE hd hsmall
      hrank hcell (by omega) hcells hlayers hlisted hneg
    exact ⟨N', m', dats', src, h1, h2, h3, h4, h6, h7⟩

end NP
