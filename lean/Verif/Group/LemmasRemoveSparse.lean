import Verif.Group.LemmasRemoveGroup
import Verif.Group.LemmasSparse

/-! # Removal with the sparse compressor -/

set_option autoImplicit false

namespace NP

open Spec

/-- The list given to `remove_particles` when the particles are listed as pairs. -/
theorem listed_sel {sel : List (Nat × Nat)} {c k : Nat} :
    Listed sel.length (sel.map fun p => (p.1 : Int)) (sel.map fun p => (p.2 : Int)) c k ↔
      (c, k) ∈ sel := by
  unfold Listed
  rw [List.zip_map', List.take_of_length_le (by simp)]
  simp only [List.mem_map, Prod.mk.injEq]
  constructor
  · rintro ⟨⟨a, b⟩, h, h1, h2⟩
    have h1 : a = c := by simpa using h1
    have h2 : b = k := by simpa using h2
    rw [← h1, ← h2]; exact h
  · intro h; exact ⟨_, h, rfl, rfl⟩

theorem removeParticlesSparse_spec {e : Env} (hE : EnvOk e) {g : Group} (hg : Consistent g)
    (hsmall : SmallCounts g) {sel : List (Nat × Nat)} (hnd : sel.Nodup)
    (hsel : ∀ p ∈ sel, p.1 < g.ncell ∧ p.2 < count g p.1)
    (hids : ∀ c k, c < g.ncell → k < count g c → (c, k) ∉ sel →
      ∃ v, cellId g c k = some v ∧ 0 ≤ v) :
    ∃ g', removeParticlesSparse e g sel.length (sel.map fun p => (p.1 : Int))
        (sel.map fun p => (p.2 : Int)) = some g' ∧ Consistent g' ∧ SameShape g g' ∧
      g'.version = g.version + 2 ∧
      ∀ c, c < g.ncell → (contents g' c).Perm
        (((List.range (count g c)).filter fun k => decide ((c, k) ∉ sel)).map
          (particle g c)) := by
  generalize hcl : (sel.map fun p => (p.1 : Int)) = cells
  generalize hly : (sel.map fun p => (p.2 : Int)) = layers
  have hL : ∀ c k, Listed sel.length cells layers c k ↔ (c, k) ∈ sel := by
    intro c k; rw [← hcl, ← hly]; exact listed_sel
  have hfil : ∀ c, ((List.range (count g c)).filter fun k =>
      decide ¬ Listed sel.length cells layers c k) =
      (List.range (count g c)).filter fun k => decide ((c, k) ∉ sel) := by
    intro c
    apply List.filter_congr
    intro k _
    simp [hL c k]
  unfold removeParticlesSparse
  by_cases h0 : sel.length = 0
  · have h0' : sel = [] := List.eq_nil_of_length_eq_zero h0
    have : compressorRemoveSparse e g sel.length cells layers = some g := by
      unfold compressorRemoveSparse; simp [h0]
    rw [this]
    simp only [Option.bind_some]
    obtain ⟨es, h1, h2, h3⟩ := setNpartCellFromDat_spec hg.len hg.es_len hg.len hg.pos
      (fun d hd => (hg.dats d hd).host)
    rw [h1]
    simp only [Option.bind_some]
    refine ⟨_, rfl, ?_, ⟨rfl, rfl, rfl, rfl, rfl, rfl⟩, rfl, ?_⟩
    · exact ⟨hg.len, rfl, h2, h3, rfl, hg.nodup,
        fun d hd => ⟨(hg.dats d hd).mem, (hg.dats d hd).host, (hg.dats d hd).device,
          (hg.dats d hd).rows, (hg.dats d hd).exact⟩, hg.pos, hg.rank, hg.cell⟩
    · intro c _
      have : ((List.range (count g c)).filter fun k => decide ((c, k) ∉ sel)) =
          List.range (count g c) := by
        rw [List.filter_eq_self]
        intro k _
        simp [h0']
      rw [this]
      exact List.Perm.refl _
  · have hcellmem : (g.cellSym, 0) ∈ flatComps g.dats := by
      obtain ⟨dc, hdc1, hdc2, hdc3⟩ := hg.cell
      exact mem_flatComps.2 ⟨dc, hdc1, hdc2, hdc3⟩
    have hd := hg.datsOk
    obtain ⟨rank, hr1, hr2, -⟩ := dat?_of_mem_syms hg.rank
    obtain ⟨p, fc, flo, fln, s1, s2⟩ := sparseIndices_spec hE (ncell := g.ncell)
      (cellSym := g.cellSym) (old := g.hNpart) (npart := sel.length)
      (cells := cells) (layers := layers) (m := g.mem)
      (a := ((e.freshI 0 sel.length).1, (e.freshI 1 sel.length).1, (e.freshI 2 sel.length).1))
      (new := (e.freshN 5 g.ncell).1) hg.len hsmall
      (e.freshI 0 _).2 (e.freshI 1 _).2 (e.freshI 2 _).2 (e.freshN 5 _).2
      (fun c n k hn hk => hd.isSome hcellmem hn hk)
      (fun i => (sel.getD i (0, 0)).1) (fun i => (sel.getD i (0, 0)).2)
      (by intro i hi; rw [← hcl]; simp [hi])
      (by intro i hi; rw [← hly]; simp [hi])
      (by
        intro i hi
        have := hsel (sel.getD i (0, 0)) (by simp [hi])
        exact ⟨_, get_getD hg.len this.1, this.2⟩)
      (by
        intro i j hi hj h1 h2
        have h3 : sel.getD i (0, 0) = sel.getD j (0, 0) := Prod.ext h1 h2
        have h4 : sel[i] = sel[j] := by simpa [hi, hj] using h3
        exact (List.Nodup.getElem_inj_iff hnd).1 h4)
      (by
        intro c n k v hn hk hl hv
        have hc : c < g.ncell := by
          have := (List.getElem?_eq_some_iff.1 hn).1
          rw [hg.len] at this; exact this
        obtain ⟨w, hw, hw0⟩ := hids c k hc (by rw [count_eq hn]; exact hk)
          (fun h => hl ((hL c k).2 h))
        unfold cellId at hw
        rw [hv] at hw
        simp only [Option.some.injEq] at hw
        omega)
    obtain ⟨N', m', dats', src, h1, h2, h3, h4, h5, h6, h7⟩ := compressorFinish_spec e hd s2
    have : compressorRemoveSparse e g sel.length cells layers =
        some { g with mem := m', dats := dats' } := by
      unfold compressorRemoveSparse
      rw [if_neg (by omega), hr2]
      simp only [Option.bind_some]
      rw [hd.device rank hr1, s1]
      exact h1
    rw [this]
    simp only [Option.bind_some]
    obtain ⟨es, q1, q2, q3⟩ := setNpartCellFromDat_spec (g := { g with mem := m', dats := dats' })
      hg.len hg.es_len h3.len (mem_syms_congr h2 hg.pos) h3.host
    rw [q1]
    simp only [Option.bind_some]
    refine ⟨_, rfl, ?_, SameShape.of_sameSyms h2 rfl rfl rfl rfl rfl, rfl, ?_⟩
    · exact consistent_of_datsOk (N := N') h3 (fun _ => h4) rfl rfl rfl q2 q3 rfl
        (mem_syms_congr h2 hg.pos) (mem_syms_congr h2 hg.rank) (cell_congr h2 hg.cell)
    · intro c hc
      rw [← hfil]
      refine contents_perm (src := src c) (flatComps_congr h2) ?_ (h7 c hc)
      intro k hk sj hsj
      exact h6 c _ (get_getD h3.len hc) k hk sj hsj

end NP
