import Verif.Group.LemmasAddGroup
import Mathlib.Data.List.Induction

/-! `add_particles_local` with a `ParticleSubGroup`. -/

set_option autoImplicit false

namespace NP

open Spec

theorem subComps_iff {dats srcDats : List Dat} (hnd : (srcDats.map (·.sym)).Nodup) :
    compsOk dats srcDats = true ↔ CommonComps dats srcDats := by
  have := compsOk_iff (g := { emptyGroup 0 0 0 0 0 with dats := dats })
    (src := { emptyGroup 0 0 0 0 0 with dats := srcDats }) hnd
  exact this

theorem commonComps_congr {a b c : List Dat} (h : SameSyms a b) :
    CommonComps b c ↔ CommonComps a c := by
  constructor
  · intro hc d hd d' hd' hs
    obtain ⟨d2, h1, h2, h3⟩ := forall₂_mem_left h hd
    rw [← h3]; exact hc d2 h1 d' hd' (by rw [h2, hs])
  · intro hc d hd d' hd' hs
    obtain ⟨d2, h1, h2, h3⟩ := forall₂_mem_right h hd
    rw [h3]; exact hc d2 h1 d' hd' (by rw [← h2, hs])

theorem newLayers_spec {s : Sched} {ncell : Nat} {ctr : List Nat} (hl : ctr.length = ncell)
    {sel : List (Nat × Nat)} {lay : List Int} (hlay : lay.length = sel.length)
    (hc : ∀ p ∈ sel, p.1 < ncell) (hpos : 0 < sel.length) :
    ∃ (N : List Nat) (L : List Int) (rk : Nat → Nat),
      getNewLayers s ncell ctr sel.length (sel.map fun p => (p.1 : Int)) lay = some (N, L) ∧
      N.length = ncell ∧
      (∀ i p, sel[i]? = some p → L[i]? = some (((ctr.getD p.1 0 + rk i : Nat) : Int))) ∧
      (∀ c, c < ncell → N[c]? = some (ctr.getD c 0 +
        ((List.range sel.length).filter fun i => (sel[i]?).map (·.1) == some c).length)) ∧
      (∀ i p, sel[i]? = some p → rk i <
        ((List.range sel.length).filter fun i => (sel[i]?).map (·.1) == some p.1).length) ∧
      (∀ i j p q, sel[i]? = some p → sel[j]? = some q → p.1 = q.1 → rk i = rk j → i = j) ∧
      (∀ c r, r < ((List.range sel.length).filter fun i => (sel[i]?).map (·.1) == some c).length →
        ∃ i p, sel[i]? = some p ∧ p.1 = c ∧ rk i = r) := by
  let key : Nat → Option Nat := fun i => (sel[i]?).map (·.1)
  have hperm := s.perm (List.range sel.length)
  have hnd : (s.order (List.range sel.length)).Nodup := hperm.nodup_iff.2 List.nodup_range
  have hkc : ∀ c, keyCount key (s.order (List.range sel.length)) c =
      ((List.range sel.length).filter fun i => (sel[i]?).map (·.1) == some c).length := by
    intro c
    rw [keyCount_perm hperm]
    unfold keyCount
    congr 1
    apply List.filter_congr
    intro i _
    by_cases h : key i = some c
    · simp only [h, decide_true]; simp only [key] at h; simp [h]
    · simp only [h, decide_false]; simp only [key] at h; simp [h]
  have hmem : ∀ i p, sel[i]? = some p → i ∈ s.order (List.range sel.length) := by
    intro i p hp
    rw [hperm.mem_iff, List.mem_range]
    exact (List.getElem?_eq_some_iff.1 hp).1
  have hkey : ∀ i p, sel[i]? = some p → key i = some p.1 := by
    intro i p hp; simp only [key, hp, Option.map_some]
  have hsel : ∀ i, i ∈ s.order (List.range sel.length) → ∃ p, sel[i]? = some p ∧ p.1 < ncell := by
    intro i hi
    rw [hperm.mem_iff, List.mem_range] at hi
    exact ⟨sel[i], List.getElem?_eq_getElem hi, hc _ (List.getElem_mem hi)⟩
  have h1 := runItems_fetch (key := key) (store := fun i off (l : List Int) => st l i (off : Int))
    (skip := fun _ l => some l) hnd (ctr := ctr) (by
      intro i hi c hk
      obtain ⟨p, hp, hlt⟩ := hsel i hi
      rw [hkey i p hp] at hk
      simp only [Option.some.injEq] at hk
      omega) lay
  obtain ⟨L, h2, h3, h4, -⟩ := runItems_put (items := s.order (List.range sel.length)) (m := lay)
    (step := fun i l => match key i with
        | none => some l
        | some c => st l i ((ctr.getD c 0 + rank key (s.order (List.range sel.length)) i : Nat) : Int))
    (fun i => some i) (fun i => match key i with
      | none => 0
      | some c => ((ctr.getD c 0 + rank key (s.order (List.range sel.length)) i : Nat) : Int))
    (by
      intro i hi a _
      obtain ⟨p, hp, hlt⟩ := hsel i hi
      simp only [hkey i p hp])
    (by
      intro i _ j _ d h h'
      simp only [Option.some.injEq] at h h'
      rw [h, h'])
    (by
      intro i hi d h
      simp only [Option.some.injEq] at h
      rw [hperm.mem_iff, List.mem_range] at hi
      omega)
  refine ⟨addCounts key (s.order (List.range sel.length)) ctr, L,
    rank key (s.order (List.range sel.length)), ?_, by simp [addCounts, hl], ?_, ?_, ?_, ?_, ?_⟩
  · unfold getNewLayers
    rw [if_pos hpos]
    rw [runItems_congr (step' := fetchStep key (fun i off (l : List Int) => st l i (off : Int))
      (fun _ l => some l)) ?_, h1]
    · exact congrArg (Option.map _) h2
    · intro i hi st'
      obtain ⟨p, hp, hlt⟩ := hsel i hi
      unfold newLayerStep fetchStep
      simp only [hkey i p hp, rd, List.getElem?_map, hp, Option.map_some, Option.bind_some]
      rw [if_pos (by omega)]
      simp only [Int.toNat_natCast]
  · intro i p hp
    have := h4 i (hmem i p hp) i rfl
    rw [this, hkey i p hp]
  · intro c hc'
    rw [getElem?_addCounts, get_getD hl hc', hkc]
    rfl
  · intro i p hp
    rw [← hkc]
    exact rank_lt (hmem i p hp) (hkey i p hp)
  · intro i j p q hp hq hpq hr
    exact rank_inj (hmem i p hp) (hkey i p hp) (by rw [hkey j q hq, hpq]) hr
  · intro c r hr
    rw [← hkc] at hr
    obtain ⟨i, hi, hk, hrr⟩ := rank_surj hnd hr
    obtain ⟨p, hp, -⟩ := hsel i hi
    rw [hkey i p hp] at hk
    simp only [Option.some.injEq] at hk
    exact ⟨i, p, hp, hk, hrr⟩

theorem filter_range_map {α β : Type} [DecidableEq α] (sel : List α) (p : α → Bool) (h : α → β) :
    (sel.filter p).map h =
      ((List.range sel.length).filter fun i => (sel[i]?).any p).filterMap
        fun i => (sel[i]?).map h := by
  induction sel using List.reverseRecOn with
  | nil => rfl
  | append_singleton l a ih =>
    rw [List.filter_append, List.map_append, ih, List.length_append, List.length_singleton,
      List.range_succ, List.filter_append, List.filterMap_append]
    have hf : (List.range l.length).filter (fun i => ((l ++ [a])[i]?).any p) =
        (List.range l.length).filter (fun i => (l[i]?).any p) := by
      apply List.filter_congr
      intro i hi
      rw [List.mem_range] at hi
      rw [List.getElem?_append_left hi]
    rw [hf]
    congr 1
    · apply List.filterMap_congr
      intro i hi
      have := List.mem_range.1 (List.mem_filter.1 hi).1
      rw [List.getElem?_append_left this]
    · by_cases hp : p a <;> simp [hp]

theorem addSubGroup_spec (e : Env) {g : Group} (hg : Consistent g) {src : SrcMem}
    {srcDats : List Dat} (hnd : (srcDats.map (·.sym)).Nodup)
    (hcc : CommonComps g.dats srcDats) {sel : List (Nat × Nat)}
    (hc : ∀ p ∈ sel, p.1 < g.ncell)
    (hread : ∀ p ∈ sel, ∀ sj ∈ flatComps g.dats, sj.1 ∈ srcDats.map (·.sym) →
      (sourceMem g src ⟨sj.1, p.1, sj.2, p.2⟩).isSome = true)
    (hself : src = .self → ∀ p ∈ sel, p.2 < count g p.1) :
    ∃ g', addSubGroup e g src srcDats sel.length (sel.map fun p => (p.1 : Int))
        (sel.map fun p => (p.2 : Int)) = some g' ∧ Consistent g' ∧ SameShape g g' ∧
      g'.version = g.version + 1 ∧
      ∀ c, c < g.ncell → ∃ l, contents g' c = contents g c ++ l ∧
        l.Perm ((sel.filter (fun p => p.1 == c)).map
          fun p => projected g (sourceMem g src) srcDats p.1 p.2) := by
  unfold addSubGroup
  by_cases h0 : sel.length = 0
  · rw [if_pos h0]
    have : sel = [] := List.length_eq_zero_iff.1 h0
    subst this
    refine ⟨_, rfl, hg.withVersion _, ⟨rfl, rfl, rfl, rfl, rfl, rfl⟩, rfl, ?_⟩
    intro c _
    refine ⟨[], ?_, by simp⟩
    rw [List.append_nil]; rfl
  rw [if_neg h0]
  obtain ⟨N, L, rk, h1, h2, h3, h4, h5, h6, h7⟩ := newLayers_spec (s := e.sched 0) hg.len
    (lay := (e.freshI 0 sel.length).1) (by exact (e.freshI 0 sel.length).2) hc (by omega)
  rw [h1]
  simp only [Option.bind_some]
  obtain ⟨es, m2, dats2, k1, k2, k3, k4, k5, k6, k7⟩ := grow_spec (e := e) hg (N := N) h2 (by
    intro c n n' hn hn'
    have hc : c < g.ncell := by
      have := (List.getElem?_eq_some_iff.1 hn).1
      rw [hg.len] at this; exact this
    rw [h4 c hc] at hn'
    have := getD_eq hn
    simp only [Option.some.injEq] at hn'
    omega)
  rw [k1]
  simp only [Option.bind_some]
  rw [k2]
  simp only [Option.bind_some]
  rw [if_neg (not_not.2 ((subComps_iff hnd).2 ((commonComps_congr k5).2 hcc)))]
  have hfl := flatComps_congr k5
  have hselget : ∀ i, i < sel.length → sel[i]? = some (sel.getD i (0, 0)) := by
    intro i hi; simp [hi]
  have hselmem : ∀ i, i < sel.length → sel.getD i (0, 0) ∈ sel := by
    intro i hi
    have := hselget i hi
    exact List.mem_of_getElem? this
  have hlook : ∀ s, (srcDats.find? (fun x => x.sym == s)).isSome =
      decide (s ∈ srcDats.map (·.sym)) := by
    intro s
    have := dat?_isSome (g := { emptyGroup 0 0 0 0 0 with dats := srcDats }) (s := s)
    exact this
  obtain ⟨m3, r1, r2, r3, r4⟩ := runItems_newRows
    (step := subDataStep src (fun s => (srcDats.find? (fun x => x.sym == s)).isSome)
      (sel.map fun p => (p.1 : Int)) (sel.map fun p => (p.2 : Int)) L)
    (dats := dats2) (m := m2) (N := sel.length)
    ((e.sched 1).perm (compItems dats2 sel.length))
    (fun i => (sel.getD i (0, 0)).1)
    (fun i => g.hNpart.getD (sel.getD i (0, 0)).1 0 + rk i)
    (fun it => if it.1.1 ∈ srcDats.map (·.sym) then
      (sourceMem g src ⟨it.1.1, (sel.getD it.2 (0, 0)).1, it.1.2, (sel.getD it.2 (0, 0)).2⟩).getD 0
      else 0)
    (by
      rintro ⟨sj, i⟩ hsj hi m' hm'
      simp only at hsj hi hm'
      have hs := hselget i hi
      have hsm := hselmem i hi
      unfold subDataStep
      generalize hp : sel.getD i (0, 0) = p at *
      simp only [rd, List.getElem?_map, hs, Option.map_some, Option.bind_some, h3 i p hs, hlook]
      rw [hfl] at hsj
      by_cases hmem : sj.1 ∈ srcDats.map (·.sym)
      · simp only [hmem, decide_true, if_true, index]
        rw [if_pos (by omega), if_pos (by omega), if_pos (by omega)]
        simp only [Int.toNat_natCast, Option.bind_some]
        have hr := hread p hsm sj hsj hmem
        obtain ⟨v, hv⟩ := Option.isSome_iff_exists.1 hr
        have hsame : src.read m' ⟨sj.1, p.1, sj.2, p.2⟩ = some v := by
          cases src with
          | other m'' => exact hv
          | self =>
            have hlt := hself rfl p hsm
            have hcell := hc p hsm
            have e2 := k7 sj hsj p.1 p.2 _ (get_getD hg.len hcell) hlt
            simp only [SrcMem.read]
            rw [hm' _ (by
              rintro j hj ⟨q1, q2⟩
              simp only at q1 q2
              have hj' := hselget j hj
              generalize sel.getD j (0, 0) = q at *
              rw [← q1] at q2
              unfold count at hlt
              omega), e2]
            exact hv
        simp only [hsame, Option.bind_some, hv, Option.getD_some]
      · simp only [hmem, decide_false, Bool.false_eq_true, if_false, index]
        rw [if_pos (by omega), if_pos (by omega)]
        rfl)
    (by
      intro i j hi hj h1 h2
      rw [h1] at h2
      exact h6 i j _ _ (hselget i hi) (hselget j hj) h1 (by omega))
    (by
      intro sj hsj i hi
      have := h5 i _ (hselget i hi)
      exact rows_isSome h2 (fun d hd => ⟨(k6 d hd).1, (k6 d hd).2.2.2⟩) hsj
        (h4 _ (hc _ (hselmem i hi))) (by omega))
  rw [r1]
  simp only [Option.bind_some]
  obtain ⟨dats3, u1, u2, u3⟩ := finish_spec (m3 := m3) hg h2 k3 k4 k5 k6 r4
  rw [u1]
  refine ⟨_, rfl, u3 _, SameShape.of_sameSyms u2 rfl rfl rfl rfl rfl, rfl, ?_⟩
  intro c hcn
  have hfl3 := flatComps_congr u2
  have happ := contents_append (g := g) (g' := invalidateVersion { g with
      hNpart := N, dNpart := N, npartEs := es, npartLocal := N.sum, mem := m3, dats := dats3 })
    (c := c) (n := g.hNpart.getD c 0) hfl3 (get_getD hg.len hcn) (h4 c hcn) (by
      intro sj hsj k hk
      simp only [invalidateVersion]
      rw [r3 _ (by
        rintro i hi ⟨h1, h2⟩
        simp only at h1 h2
        rw [← h1] at h2
        omega)]
      exact k7 sj hsj c k _ (get_getD hg.len hcn) hk)
  refine ⟨_, happ, ?_⟩
  rw [filter_range_map sel (fun p => p.1 == c)]
  have hff : ((List.range sel.length).filter fun i => (sel[i]?).any fun p => p.1 == c) =
      (List.range sel.length).filter fun i => (sel[i]?).map (·.1) == some c := by
    apply List.filter_congr
    intro i hi
    rw [List.mem_range] at hi
    rw [hselget i hi]
    by_cases h : (sel.getD i (0, 0)).1 = c <;> simp
  rw [hff]
  have hin : ∀ i ∈ (List.range sel.length).filter fun i => (sel[i]?).map (·.1) == some c,
      i < sel.length ∧ (sel.getD i (0, 0)).1 = c := by
    intro i hi
    rw [List.mem_filter, List.mem_range] at hi
    obtain ⟨h1, h2⟩ := hi
    rw [hselget i h1] at h2
    exact ⟨h1, by simpa using h2⟩
  have hfm : (((List.range sel.length).filter fun i => (sel[i]?).map (·.1) == some c).filterMap
      fun i => (sel[i]?).map fun p => projected g (sourceMem g src) srcDats p.1 p.2) =
      ((List.range sel.length).filter fun i => (sel[i]?).map (·.1) == some c).map
        fun i => projected g (sourceMem g src) srcDats (sel.getD i (0, 0)).1
          (sel.getD i (0, 0)).2 := by
    rw [← List.filterMap_eq_map]
    apply List.filterMap_congr
    intro i hi
    rw [hselget i (hin i hi).1]; rfl
  rw [hfm]
  refine map_range_perm (f := rk) (List.nodup_range.filter _) ?_ ?_ ?_ ?_
  · intro i hi j hj hr
    obtain ⟨a1, a2⟩ := hin i hi
    obtain ⟨b1, b2⟩ := hin j hj
    exact h6 i j _ _ (hselget i a1) (hselget j b1) (by rw [a2, b2]) hr
  · intro i hi
    obtain ⟨a1, a2⟩ := hin i hi
    have := h5 i _ (hselget i a1)
    rw [a2] at this
    exact this
  · intro r hr
    obtain ⟨i, p, hp, hpc, hrr⟩ := h7 c r hr
    refine ⟨i, ?_, hrr⟩
    rw [List.mem_filter, List.mem_range]
    exact ⟨(List.getElem?_eq_some_iff.1 hp).1, by rw [hp]; simp [hpc]⟩
  · intro i hi
    obtain ⟨a1, a2⟩ := hin i hi
    have hsm := hselmem i a1
    unfold particle projected
    simp only [invalidateVersion]
    rw [hfl3]
    apply List.map_congr_left
    intro sj hsj
    have := r2 sj (by rw [hfl]; exact hsj) i a1
    simp only at this
    rw [a2] at this
    rw [this, a2]
    by_cases hmem : sj.1 ∈ srcDats.map (·.sym)
    · simp only [hmem, if_true]
      have hr := hread _ hsm sj hsj hmem
      rw [a2] at hr
      obtain ⟨v, hv⟩ := Option.isSome_iff_exists.1 hr
      rw [hv]; rfl
    · simp only [hmem, if_false]

end NP
