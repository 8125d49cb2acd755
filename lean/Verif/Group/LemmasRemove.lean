import Verif.Group.LemmasDense

/-! Removal of particles from a group. -/

set_option autoImplicit false

namespace NP

open Spec

theorem exists_at {α : Type} {l : List α} {n c : Nat} (h : l.length = n) (hc : c < n) :
    ∃ x, l[c]? = some x := ⟨l[c]'(by omega), List.getElem?_eq_getElem (by omega)⟩

/-- The dats of a group agree with the counts `N`. -/
structure DatsOk (ncell : Nat) (N : List Nat) (m : Mem) (dats : List Dat) : Prop where
  len : N.length = ncell
  nodup : (dats.map (·.sym)).Nodup
  mem : ∀ d ∈ dats, DatMem ncell m d
  host : ∀ d ∈ dats, d.hNpart = N
  device : ∀ d ∈ dats, d.dNpart = N
  rows : ∀ d ∈ dats, ∀ (c n r : Nat), N[c]? = some n → d.nrow[c]? = some r → n ≤ r

theorem Spec.Consistent.datsOk {g : Group} (h : Consistent g) :
    DatsOk g.ncell g.hNpart g.mem g.dats :=
  ⟨h.len, h.nodup, fun d hd => (h.dats d hd).mem, fun d hd => (h.dats d hd).host,
    fun d hd => (h.dats d hd).device, fun d hd => (h.dats d hd).rows⟩

theorem DatsOk.isSome {ncell : Nat} {N : List Nat} {m : Mem} {dats : List Dat}
    (h : DatsOk ncell N m dats) {sj : Nat × Nat} (hsj : sj ∈ flatComps dats) {c k n : Nat}
    (hn : N[c]? = some n) (hk : k < n) : (m ⟨sj.1, c, sj.2, k⟩).isSome = true := by
  obtain ⟨d, hd, h1, h2⟩ := mem_flatComps.1 hsj
  have hm := h.mem d hd
  have hc : c < ncell := by
    have := (List.getElem?_eq_some_iff.1 hn).1
    rw [h.len] at this; exact this
  obtain ⟨r, hr⟩ := exists_at hm.nrow_len hc
  obtain ⟨a, ha⟩ := exists_at hm.alloc_len hc
  have h3 := h.rows d hd c n _ hn hr
  have h4 := hm.le c _ _ hr ha
  rw [← h1]
  exact hm.alloc c _ sj.2 k ha h2 (by omega)

/-- What stays the same in the list of dats. -/
abbrev SameSyms (l l' : List Dat) : Prop :=
  List.Forall₂ (fun d d' : Dat => d'.sym = d.sym ∧ d'.ncomp = d.ncomp) l l'

theorem SameSyms.trans {a b c : List Dat} (h : SameSyms a b) (h' : SameSyms b c) :
    SameSyms a c := by
  induction h generalizing c with
  | nil => cases h'; exact .nil
  | cons hd _ ih =>
    cases h' with
    | cons hd' ht' => exact .cons ⟨hd'.1.trans hd.1, hd'.2.trans hd.2⟩ (ih ht')

theorem updDats_npart {g : Group} {N : List Nat} (hN : N.length = g.ncell)
    (hh : ∀ d ∈ g.dats, d.hNpart.length = g.ncell) (hd : ∀ d ∈ g.dats, d.dNpart.length = g.ncell) :
    ∃ dats', updDats (setNpartHostDevice g.ncell N N) g = some { g with dats := dats' } ∧
      List.Forall₂ (fun d d' => d' = { d with hNpart := N, dNpart := N }) g.dats dats' := by
  obtain ⟨l, h1, h2⟩ := mapM_forall₂ (f := setNpartHostDevice g.ncell N N) (l := g.dats)
    (R := fun d d' => d' = { d with hNpart := N, dNpart := N })
    (fun d hdm => ⟨_, setNpartHostDevice_eq hN hN (hh d hdm) (hd d hdm), rfl⟩)
  exact ⟨l, by unfold updDats; rw [h1]; rfl, h2⟩

theorem trimDat_eq {ncell : Nat} {d : Dat} (h1 : d.hNpart.length = ncell)
    (h2 : d.nrow.length = ncell) : trimDat ncell d = some { d with nrow := d.hNpart } := by
  have := copyCounts_eq h1 h2
  unfold copyCounts at this
  unfold trimDat
  rw [this]; rfl

theorem updDats_trim {g : Group} (hh : ∀ d ∈ g.dats, d.hNpart.length = g.ncell)
    (hd : ∀ d ∈ g.dats, d.nrow.length = g.ncell) :
    ∃ dats', updDats (trimDat g.ncell) g = some { g with dats := dats' } ∧
      List.Forall₂ (fun d d' => d' = { d with nrow := d.hNpart }) g.dats dats' := by
  obtain ⟨l, h1, h2⟩ := mapM_forall₂ (f := trimDat g.ncell) (l := g.dats)
    (R := fun d d' => d' = { d with nrow := d.hNpart })
    (fun d hdm => ⟨_, trimDat_eq (hh d hdm) (hd d hdm), rfl⟩)
  exact ⟨l, by unfold updDats; rw [h1]; rfl, h2⟩

theorem compressorFinish_spec (e : Env) {g : Group} {N : List Nat}
    (hd : DatsOk g.ncell N g.mem g.dats) {npart : Nat} {cells layers : List Int} {p : Plan}
    {fc flo fln : Nat → Nat}
    (h2 : PlanOk g.ncell (fun c => N.getD c 0)
        (fun c k => decide (Listed npart cells layers c k)) p fc flo fln) :
    ∃ (N' : List Nat) (m' : Mem) (dats' : List Dat) (src : Nat → Nat → Nat),
      compressorFinish e g (marked g.ncell g.cellSym npart cells layers g.mem, p) =
        some { g with mem := m', dats := dats' } ∧
      SameSyms g.dats dats' ∧ DatsOk g.ncell N' m' dats' ∧ (∀ d ∈ dats', d.nrow = N') ∧
      (∀ (c n' : Nat), N'[c]? = some n' → ∃ n : Nat, N[c]? = some n ∧ n' ≤ n) ∧
      (∀ (c n' : Nat), N'[c]? = some n' → ∀ k, k < n' → ∀ sj ∈ flatComps g.dats,
        m' ⟨sj.1, c, sj.2, k⟩ = g.mem ⟨sj.1, c, sj.2, src c k⟩) ∧
      (∀ c, c < g.ncell → ((List.range (N'.getD c 0)).map (src c)).Perm
        ((List.range (N.getD c 0)).filter (fun k => decide ¬ Listed npart cells layers c k))) := by
  have hNget : ∀ c, c < g.ncell → N[c]? = some (N.getD c 0) := by
    intro c hc
    have : c < N.length := by rw [hd.len]; exact hc
    simp [this]
  have hmono : ∀ k, (g.mem k).isSome = true →
      (marked g.ncell g.cellSym npart cells layers g.mem k).isSome = true := by
    intro k hk
    unfold marked
    split
    · rfl
    · exact hk
  obtain ⟨m', src, k1, k2, k3, k4⟩ := compressStep_spec h2 (dats := g.dats)
    (m := marked g.ncell g.cellSym npart cells layers g.mem)
    ((e.sched 12).perm (compItems g.dats p.n)) (by
      intro sj hsj c k hc hk
      exact hmono _ (hd.isSome hsj (hNget c hc) hk))
  have hN'len := h2.new_len
  have hN' : ∀ c n', p.npartNew[c]? = some n' → c < g.ncell ∧ n' ≤ N.getD c 0 ∧
      n' = N.getD c 0 - cnt (fun k => decide (Listed npart cells layers c k)) (N.getD c 0) := by
    intro c n' hn'
    have hc : c < g.ncell := by
      have := (List.getElem?_eq_some_iff.1 hn').1
      rw [hN'len] at this; exact this
    rw [h2.new c hc] at hn'
    simp only [Option.some.injEq] at hn'
    exact ⟨hc, by omega, hn'.symm⟩
  obtain ⟨dats1, u1, u2⟩ := updDats_npart (g := { g with mem := m' }) (N := p.npartNew) hN'len
    (fun d hdm => by rw [hd.host d hdm]; exact hd.len)
    (fun d hdm => by rw [hd.device d hdm]; exact hd.len)
  simp only at u1 u2
  obtain ⟨dats2, u3, u4⟩ := updDats_trim (g := { g with mem := m', dats := dats1 })
    (by
      intro d' hd'
      obtain ⟨d, hdm, rfl⟩ := forall₂_mem_right u2 hd'
      exact hN'len)
    (by
      intro d' hd'
      obtain ⟨d, hdm, rfl⟩ := forall₂_mem_right u2 hd'
      exact (hd.mem d hdm).nrow_len)
  simp only at u3 u4
  have hall : ∀ d' ∈ dats2, ∃ d ∈ g.dats, d' = { d with
      hNpart := p.npartNew, dNpart := p.npartNew, nrow := p.npartNew } := by
    intro d' hd'
    obtain ⟨d1, hd1, rfl⟩ := forall₂_mem_right u4 hd'
    obtain ⟨d, hdm, rfl⟩ := forall₂_mem_right u2 hd1
    exact ⟨d, hdm, rfl⟩
  have hsame : SameSyms g.dats dats2 := SameSyms.trans (b := dats1)
    (u2.imp (fun d d' h => by rw [h]; exact ⟨rfl, rfl⟩))
    (u4.imp (fun d d' h => by rw [h]; exact ⟨rfl, rfl⟩))
  refine ⟨p.npartNew, m', dats2, src, ?_, hsame, ?_, ?_, ?_, ?_, ?_⟩
  · unfold compressorFinish
    simp only
    rw [k1]
    simp only [Option.bind_some]
    rw [u1]
    simp only [Option.bind_some]
    rw [u3]
  · refine ⟨hN'len, by rw [syms_congr hsame]; exact hd.nodup, ?_, ?_, ?_, ?_⟩
    · intro d' hd'
      obtain ⟨d, hdm, rfl⟩ := hall d' hd'
      have hm := hd.mem d hdm
      refine ⟨hN'len, hm.alloc_len, ?_, ?_⟩
      · intro c r a hr ha
        obtain ⟨hc, hle, -⟩ := hN' c r hr
        obtain ⟨rr, hrr⟩ := exists_at hm.nrow_len hc
        have h3 := hd.rows d hdm c _ _ (hNget c hc) hrr
        have h4 := hm.le c _ _ hrr ha
        omega
      · intro c a j k ha hj hk
        exact k4 _ (hmono _ (hm.alloc c a j k ha hj hk))
    · intro d' hd'
      obtain ⟨d, hdm, rfl⟩ := hall d' hd'; rfl
    · intro d' hd'
      obtain ⟨d, hdm, rfl⟩ := hall d' hd'; rfl
    · intro d' hd' c n r hn hr
      obtain ⟨d, hdm, rfl⟩ := hall d' hd'
      rw [hn] at hr
      simp only [Option.some.injEq] at hr
      omega
  · intro d' hd'
    obtain ⟨d, hdm, rfl⟩ := hall d' hd'; rfl
  · intro c n' hn'
    obtain ⟨hc, hle, -⟩ := hN' c n' hn'
    exact ⟨_, hNget c hc, hle⟩
  · intro c n' hn' k hk sj hsj
    obtain ⟨hc, -, heq⟩ := hN' c n' hn'
    rw [k2 sj hsj c k hc (by omega)]
    have hmem : src c k ∈ (List.range (N.getD c 0)).filter
        (fun k => !decide (Listed npart cells layers c k)) := by
      rw [← (k3 c hc).mem_iff]
      exact List.mem_map_of_mem (List.mem_range.2 (by omega))
    rw [List.mem_filter] at hmem
    unfold marked
    rw [if_neg]
    rintro ⟨-, -, -, hl⟩
    simp only at hl
    simp [hl] at hmem
  · intro c hc
    have hg : p.npartNew.getD c 0 =
        N.getD c 0 - cnt (fun k => decide (Listed npart cells layers c k)) (N.getD c 0) := by
      have := h2.new c hc
      simp [this]
    rw [hg]
    have := k3 c hc
    simpa [Bool.decide_eq_true] using this

theorem compressorRemove_spec {e : Env} (hE : EnvOk e) {g : Group} {N : List Nat}
    (hd : DatsOk g.ncell N g.mem g.dats) (hsmall : ∀ n ∈ N, n < 2 ^ 31)
    (hrank : g.rankSym ∈ g.dats.map (·.sym))
    (hcell : ∃ d ∈ g.dats, d.sym = g.cellSym ∧ 0 < d.ncomp)
    {npart : Nat} (hn0 : 0 < npart) {cells layers : List Int} (hcells : npart ≤ cells.length)
    (hlayers : npart ≤ layers.length)
    (hlisted : ∀ c k, c < g.ncell → Listed npart cells layers c k → ∃ n, N[c]? = some n ∧ k < n)
    (hneg : ∀ c n k v, N[c]? = some n → k < n → ¬ Listed npart cells layers c k →
      g.mem ⟨g.cellSym, c, 0, k⟩ = some v → 0 ≤ v) :
    ∃ (N' : List Nat) (m' : Mem) (dats' : List Dat) (src : Nat → Nat → Nat),
      compressorRemove e g npart cells layers = some { g with mem := m', dats := dats' } ∧
      SameSyms g.dats dats' ∧ DatsOk g.ncell N' m' dats' ∧ (∀ d ∈ dats', d.nrow = N') ∧
      (∀ (c n' : Nat), N'[c]? = some n' → ∃ n : Nat, N[c]? = some n ∧ n' ≤ n) ∧
      (∀ (c n' : Nat), N'[c]? = some n' → ∀ k, k < n' → ∀ sj ∈ flatComps g.dats,
        m' ⟨sj.1, c, sj.2, k⟩ = g.mem ⟨sj.1, c, sj.2, src c k⟩) ∧
      (∀ c, c < g.ncell → ((List.range (N'.getD c 0)).map (src c)).Perm
        ((List.range (N.getD c 0)).filter (fun k => decide ¬ Listed npart cells layers c k))) := by
  obtain ⟨rank, hr1, hr2, -⟩ := dat?_of_mem_syms hrank
  obtain ⟨dc, hdc1, hdc2, hdc3⟩ := hcell
  have hcellmem : (g.cellSym, 0) ∈ flatComps g.dats := mem_flatComps.2 ⟨dc, hdc1, hdc2, hdc3⟩
  obtain ⟨p, fc, flo, fln, h1, h2⟩ := denseIndices_spec hE (cellSym := g.cellSym)
    (a := ((e.freshI 0 npart).1, (e.freshI 1 npart).1, (e.freshI 2 npart).1))
    (new := (e.freshN 5 g.ncell).1) hd.len hsmall hcells hlayers
    (e.freshI 0 npart).2 (e.freshI 1 npart).2 (e.freshI 2 npart).2 (e.freshN 5 g.ncell).2
    (fun c n k hn hk => hd.isSome hcellmem hn hk) hlisted hneg
  obtain ⟨N', m', dats', src, h3, h4⟩ := compressorFinish_spec e hd h2
  refine ⟨N', m', dats', src, ?_, h4⟩
  unfold compressorRemove
  rw [if_neg (by omega), hr2]
  simp only [Option.bind_some]
  rw [hd.device rank hr1, h1]
  simp only [Option.bind_some]
  exact h3

/-- `Consistent` after the group takes its counts from its dats. -/
theorem consistent_of_datsOk {g : Group} {N es : List Nat} (hd : DatsOk g.ncell N g.mem g.dats)
    (hnrow : g.hint = 0 → ∀ d ∈ g.dats, d.nrow = N)
    (hh : g.hNpart = N) (hdv : g.dNpart = N) (hes : g.npartEs = es) (hel : es.length = g.ncell)
    (hes' : ∀ c, c < g.ncell → es[c]? = some ((N.take c).sum)) (ht : g.npartLocal = N.sum)
    (hpos : g.posSym ∈ g.dats.map (·.sym)) (hrank : g.rankSym ∈ g.dats.map (·.sym))
    (hcell : ∃ d ∈ g.dats, d.sym = g.cellSym ∧ 0 < d.ncomp) : Consistent g := by
  subst hh; subst hes
  exact ⟨hd.len, hdv, hel, hes', ht, hd.nodup, fun d hdm => ⟨hd.mem d hdm, hd.host d hdm,
    hd.device d hdm, hd.rows d hdm, fun h0 => hnrow h0 d hdm⟩, hpos, hrank, hcell⟩

theorem mem_syms_congr {l l' : List Dat} (h : SameSyms l l') {s : Nat}
    (hs : s ∈ l.map (·.sym)) : s ∈ l'.map (·.sym) := by rw [syms_congr h]; exact hs

theorem cell_congr {l l' : List Dat} (h : SameSyms l l') {s : Nat}
    (hs : ∃ d ∈ l, d.sym = s ∧ 0 < d.ncomp) : ∃ d ∈ l', d.sym = s ∧ 0 < d.ncomp := by
  obtain ⟨d, hd, h1, h2⟩ := hs
  obtain ⟨d', hd', h3, h4⟩ := forall₂_mem_left h hd
  exact ⟨d', hd', by rw [h3, h1], by rw [h4]; exact h2⟩

end NP
