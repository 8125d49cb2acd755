import Verif.Sub.Spec
import Verif.Loop.Props
import Verif.Common.Atomic
import Verif.Group.LemmasRemoveGroup

/-! Helper lemmas for the selectors. -/

set_option autoImplicit false

namespace NP

open Spec

/-- The counts of a listing. -/
abbrev lens (L : List (List Nat)) : List Nat := L.map List.length

theorem lens_get {L : List (List Nat)} {c : Nat} {row : List Nat} (h : L[c]? = some row) :
    (lens L)[c]? = some row.length := by simp [lens, h]

theorem exists_row {L : List (List Nat)} {c : Nat} (h : c < L.length) :
    ∃ row, L[c]? = some row := ⟨L[c], List.getElem?_eq_getElem h⟩

theorem lt_of_row {L : List (List Nat)} {c : Nat} {row : List Nat} (h : L[c]? = some row) :
    c < L.length := (List.getElem?_eq_some_iff.1 h).1

theorem before_lens (L : List (List Nat)) (c : Nat) :
    before (lens L) c = ((L.take c).map List.length).sum := by
  simp [before, lens, List.map_take]

/-- A row of a sound listing is not longer than the cell. -/
theorem row_length_le {row : List Nat} {n : Nat} (hnd : row.Nodup) (h : ∀ l ∈ row, l < n) :
    row.length ≤ n := by
  have := List.subperm_of_subset hnd (l₂ := List.range n) (fun l hl => List.mem_range.2 (h l hl))
  simpa using this.length_le

/-- What a parent's listing means for a loop over the parent. -/
structure ParentFacts (npart : List Nat) (par : Parent) (L : List (List Nat)) : Prop where
  counts : par.counts npart = lens L
  dCounts : par.dCounts npart = lens L
  es : par.es npart = npartCellEs (lens L)
  total : par.total npart = (lens L).sum
  layer : ∀ (c : Nat) (row : List Nat) (k : Nat), L[c]? = some row → k < row.length →
    par.layerAt c k = row[k]?

theorem length_npartCellEs (l : List Nat) : (npartCellEs l).length = l.length :=
  length_exclusiveFrom _ l

theorem lists_es {s : Selection} {L : List (List Nat)} (h : Lists s L) :
    s.dEs = npartCellEs (lens L) := by
  apply List.ext_getElem?
  intro c
  by_cases hc : c < L.length
  · have h2 := rd_npartCellEs (npart := lens L) (c := c) (by simpa [lens] using hc)
    simp only [rd] at h2
    rw [h.sums c hc, h2, before_lens]
  · rw [List.getElem?_eq_none (by rw [h.sumsLength]; omega),
      List.getElem?_eq_none (by rw [length_npartCellEs]; simp [lens]; omega)]

theorem parent_facts {npart : List Nat} {par : Parent} {L : List (List Nat)}
    (h : ParentLists npart par L) : ParentFacts npart par L := by
  cases par with
  | whole =>
    simp only [ParentLists] at h
    have hl : lens L = npart := by
      rw [h]; simp only [lens, List.map_map]
      exact (List.map_congr_left (fun n _ => by simp)).trans (List.map_id npart)
    refine ⟨hl.symm, hl.symm, by rw [hl]; rfl, by rw [hl]; rfl, ?_⟩
    intro c row k hrow hk
    rw [h, List.getElem?_map, Option.map_eq_some_iff] at hrow
    obtain ⟨n, -, rfl⟩ := hrow
    simp only [List.length_range] at hk
    simp [Parent.layerAt, hk]
  | sub s =>
    simp only [ParentLists] at h
    exact ⟨h.hostCounts, h.deviceCounts, lists_es h, h.total, h.layer⟩

theorem whole_sound (npart : List Nat) : SoundListing npart (npart.map List.range) := by
  refine ⟨by simp, ?_⟩
  intro c row n hrow hn
  rw [List.getElem?_map, hn] at hrow
  simp only [Option.map_some, Option.some.injEq] at hrow
  subst hrow
  exact ⟨List.nodup_range, fun l hl => List.mem_range.1 hl⟩

/-- The visits of a loop over a parent. -/
theorem parentVisits_spec {e : SelEnv} {npart : List Nat} (he : SelOk e npart) {par : Parent}
    {L : List (List Nat)} (hp : ParentFacts npart par L) (hL : SoundListing npart L) :
    ∃ v, parentVisits e.P npart par = some v ∧ v.Nodup ∧
      ∀ c k, (c, k) ∈ v ↔ ∃ row, L[c]? = some row ∧ k < row.length := by
  have hok : LaunchOk e.P (lens L) true (lens L).sum := by
    refine ⟨he.loopLocal, he.loopLocalInt, he.nbin, ?_, ?_⟩
    · intro n hn
      obtain ⟨row, hrow, rfl⟩ := List.mem_map.1 hn
      obtain ⟨c, hc, hce⟩ := List.getElem_of_mem hrow
      have hc' : c < npart.length := by rw [← hL.1]; exact hc
      obtain ⟨h1, h2⟩ := hL.2 c row npart[c] (by rw [List.getElem?_eq_getElem hc, hce])
        (List.getElem?_eq_getElem hc')
      exact Nat.lt_of_le_of_lt (row_length_le h1 h2) (he.counts _ (List.getElem_mem hc'))
    · intro _ h0 n hn
      have := le_sum_of_mem hn
      omega
  obtain ⟨v, h1, h2, h3⟩ := C07_each_particle_once hok (cs := none) (ce := none) trivial
  refine ⟨v, ?_, h2, ?_⟩
  · unfold parentVisits; rw [hp.counts, hp.total]; exact h1
  · intro c k
    rw [h3]
    simp only [CellRequested, true_and, IsParticle, lens, List.getElem?_map,
      Option.map_eq_some_iff]
    constructor
    · rintro ⟨n, ⟨row, hr, rfl⟩, hk⟩; exact ⟨row, hr, hk⟩
    · rintro ⟨row, hr, hk⟩; exact ⟨_, ⟨row, hr, rfl⟩, hk⟩

/-- Writing the beginning of an array. -/
theorem stRange_zero {α : Type} {m vs : List α} (h : vs.length ≤ m.length) :
    ∃ m', stRange m 0 vs = some m' ∧ m'.length = m.length ∧ m'.take vs.length = vs := by
  refine ⟨vs ++ m.drop vs.length, by rw [stRange_eq_some (by omega)]; simp, by simp; omega, by simp⟩

theorem getElem?_of_take {α : Type} {m vs : List α} {n c : Nat} (h : m.take n = vs) (hc : c < n) :
    m[c]? = vs[c]? := by rw [← h, List.getElem?_take_of_lt hc]

/-- The host exclusive sum. -/
theorem hostScan_spec {counts h es : List Nat} (hh : h.take counts.length = counts)
    (hes : es.length = counts.length) :
    hostScan h counts.length es = some (npartCellEs counts, counts.sum) := by
  obtain ⟨⟨es', t⟩, h1, h2, h3, h4⟩ := forLoop_invariant (a := 0) (b := counts.length)
    (step := fun c (s : List Nat × Nat) => (rd h c).bind fun n =>
      (st s.1 c s.2).bind fun es => some (es, s.2 + n)) (s := (es, 0))
    (fun i s => s.1.length = counts.length ∧ s.2 = before counts i ∧
      ∀ c, c < i → s.1[c]? = some (before counts c)) (by omega)
    (by
      rintro c ⟨es, t⟩ - hc ⟨a1, a2, a3⟩
      simp only at a1 a2 a3
      obtain ⟨n, hn⟩ : ∃ n, counts[c]? = some n := ⟨_, List.getElem?_eq_getElem hc⟩
      have hn' : h[c]? = some n := by rw [getElem?_of_take hh hc, hn]
      refine ⟨(es.set c t, t + n), by simp only [rd, hn', Option.bind_some, st_eq_some (show c < es.length by omega)], by simpa using a1, ?_, ?_⟩
      · rw [before_succ hn, a2]
      · intro d hd
        by_cases hdc : d = c
        · subst hdc
          simp only
          rw [List.getElem?_set_self (by omega), a2]
        · simp only
          rw [List.getElem?_set_ne (by omega)]
          exact a3 d (by omega))
    ⟨hes, by simp [before], by simp⟩
  unfold hostScan
  rw [h1]
  simp only at h2 h3 h4
  congr 2
  · apply List.ext_getElem?
    intro c
    by_cases hc : c < counts.length
    · have := rd_npartCellEs hc
      simp only [rd] at this
      rw [h4 c hc, this]
    · rw [List.getElem?_eq_none (by omega), List.getElem?_eq_none (by rw [length_npartCellEs]; omega)]
  · rw [h3, before_all]

/-- `SubGroupParticleMap::create` for all cells. -/
theorem mapCreate_spec (f : Fresh Nat) {m : LayerMap} {counts h : List Nat}
    (hm : m.starts.length = counts.length) (hh : h.take counts.length = counts) :
    ∃ m', mapCreate f m 0 counts.length h (npartCellEs counts) = some m' ∧
      m'.starts = npartCellEs counts ∧ (0 < counts.length → m'.layers.length = counts.sum ∧
        m'.total = counts.sum) := by
  unfold mapCreate
  rw [if_pos ⟨by omega, by omega⟩]
  by_cases h0 : 0 < counts.length
  · rw [if_pos h0]
    have hl : counts.length - 1 < counts.length := by omega
    have e1 := rd_npartCellEs hl
    obtain ⟨n, hn⟩ : ∃ n, counts[counts.length - 1]? = some n := ⟨_, List.getElem?_eq_getElem hl⟩
    have e2 : rd h (counts.length - 1) = some n := by
      simp only [rd]; rw [getElem?_of_take hh hl, hn]
    have e3 : before counts (counts.length - 1) + n = counts.sum := by
      have := before_succ hn
      rw [show counts.length - 1 + 1 = counts.length by omega, before_all] at this
      omega
    obtain ⟨starts, h1, h2, h3⟩ := forLoop_invariant (a := 0) (b := counts.length)
      (step := fun c (starts : List Nat) => (rd (npartCellEs counts) c).bind fun o => st starts c o)
      (s := m.starts)
      (fun i s => s.length = counts.length ∧ ∀ c, c < i → s[c]? = (npartCellEs counts)[c]?)
      (by omega) (by
        rintro c s - hc ⟨a1, a2⟩
        have hr := rd_npartCellEs hc
        refine ⟨s.set c (before counts c), by rw [hr]; exact st_eq_some (by omega), by simpa using a1, ?_⟩
        intro d hd
        by_cases hdc : d = c
        · subst hdc
          rw [List.getElem?_set_self (by omega)]
          exact hr.symm
        · rw [List.getElem?_set_ne (by omega)]
          exact a2 d (by omega))
      ⟨hm, by simp⟩
    refine ⟨_, by rw [e1, e2]; simp only [Option.bind_some]; rw [h1]; rfl, ?_, fun _ => ⟨?_, ?_⟩⟩
    · apply List.ext_getElem?
      intro c
      by_cases hc : c < counts.length
      · exact h3 c hc
      · rw [List.getElem?_eq_none (by simp only; omega), List.getElem?_eq_none (by rw [length_npartCellEs]; omega)]
    · rw [(f _).property]; exact e3
    · exact e3
  · rw [if_neg h0]
    have : counts = [] := List.length_eq_zero_iff.1 (by omega)
    subst this
    refine ⟨m, rfl, ?_, by simp⟩
    exact List.length_eq_zero_iff.1 hm

/-- A selection whose memory was filled correctly lists `L`. -/
theorem lists_of_starts {L : List (List Nat)} {starts layers : List Nat}
    (hs : ∀ (c : Nat) (row : List Nat), L[c]? = some row → 0 < row.length →
      starts[c]? = some (before (lens L) c))
    (h : ∀ (c : Nat) (row : List Nat) (k : Nat), L[c]? = some row → k < row.length →
      layers[before (lens L) c + k]? = row[k]?) :
    Lists ⟨(lens L).sum, lens L, lens L, npartCellEs (lens L), starts, layers⟩ L := by
  refine ⟨rfl, rfl, by rw [length_npartCellEs]; simp [lens], ?_, rfl, ?_⟩
  · intro c hc
    have := rd_npartCellEs (npart := lens L) (c := c) (by simpa [lens] using hc)
    simp only [rd] at this
    rw [this, before_lens]
  · intro c row k hrow hk
    simp only [Selection.layerAt, rd]
    rw [hs c row hrow (by omega), Option.bind_some]
    exact h c row k hrow hk

theorem lists_of {L : List (List Nat)} {layers : List Nat}
    (h : ∀ (c : Nat) (row : List Nat) (k : Nat), L[c]? = some row → k < row.length →
      layers[before (lens L) c + k]? = row[k]?) :
    Lists ⟨(lens L).sum, lens L, lens L, npartCellEs (lens L), npartCellEs (lens L), layers⟩ L := by
  refine lists_of_starts ?_ h
  intro c row hr _
  have := rd_npartCellEs (npart := lens L) (c := c) (by simpa [lens] using lt_of_row hr)
  simpa only [rd] using this

end NP
