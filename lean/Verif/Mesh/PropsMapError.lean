import Verif.Mesh.PropsMap

/-!
# C36: positions outside of the domain stop the global map
-/

set_option autoImplicit false

namespace NP

/-- The error flag of the mapping kernel, once set, stays set, and every particle that is
beyond the domain sets it. -/
theorem mapStep_flag {g : MeshGeom} {cells : List (List MapParticle)} {lookup : List (Nat × Nat)}
    {items : List Nat} {s s' : List Int × Bool}
    (h : runItems (mapStep g cells lookup) items s = some s') :
    (s.2 = true → s'.2 = true) ∧
    ∀ idx ∈ items, ∀ (it : Nat × Nat) (p : MapParticle) (t : List Int), lookup[idx]? = some it →
      rd2 cells it = some p → g.mapPosition p.pos = some (t, true) → s'.2 = true := by
  induction items generalizing s with
  | nil =>
    simp only [runItems_nil, Option.some.injEq] at h
    subst h
    exact ⟨id, by simp⟩
  | cons i is ih =>
    rw [runItems_cons, Option.bind_eq_some_iff] at h
    obtain ⟨s1, hs1, h⟩ := h
    obtain ⟨ih1, ih2⟩ := ih h
    unfold mapStep at hs1
    simp only [rd] at hs1
    simp only [Option.bind_eq_some_iff] at hs1
    obtain ⟨it, hit, p, hp, ⟨t, bad⟩, ht, arr, harr, hs1⟩ := hs1
    simp only [Option.some.injEq] at hs1
    subst hs1
    refine ⟨fun hs => ih1 (by simp [hs]), ?_⟩
    intro idx hidx it' p' t' h1 h2 h3
    rcases List.mem_cons.mp hidx with rfl | hm
    · apply ih1
      rw [hit] at h1
      cases h1
      rw [hp] at h2
      cases h2
      rw [ht] at h3
      cases h3
      simp
    · exact ih2 idx hm it' p' t' h1 h2 h3

/-- **C36** If some particle without a rank in component 1 is beyond the upper end of the
domain in some dimension by more than the relative tolerance then the call is an error, for
every order of the kernels and whatever the other particles are: no particle is given a rank
silently. -/
theorem C36_execute_beyond (s0 s1 s2 : Sched) (f0 : Fresh (Nat × Nat)) (f1 : Fresh Int)
    (g : MeshGeom) (hg : Spec.ValidGeom g) (owner : List Int) (cells : List (List MapParticle))
    (it : Nat × Nat) (p : MapParticle) (hit : rd2 cells it = some p) (hr : p.rank1 < 0)
    (hl : p.pos.length = g.mh.dims.length) (d : Nat) (n : Int) (o x : ℚ)
    (hn : g.mh.dims[d]? = some n) (ho : g.origin[d]? = some o) (hx : p.pos[d]? = some x)
    (hbig : 1 / 10000000000 * (x - o) < x - o - n * g.width) :
    globalMapExecute s0 s1 s2 f0 f1 g owner cells = none := by
  obtain ⟨t, ht⟩ := C36_beyond_detected g hg p.pos hl d n o x hn ho hx hbig
  have hmem : ∀ it, it ∈ s0.order (particleItems cells) ↔ ∃ p, rd2 cells it = some p := fun it =>
    ((s0.perm _).mem_iff).trans mem_particleItems
  have hlen : (particleItems cells).length = (s0.order (particleItems cells)).length :=
    (s0.perm _).length_eq.symm
  obtain ⟨nq, lookup, h1, h2, h3⟩ := lookup_spec (cells := cells)
    (items := s0.order (particleItems cells)) (arr := (f0 (particleItems cells).length).val)
    (fun it hit => (hmem it).mp hit) ((f0 _).property.trans hlen)
  have hF : it ∈ (s0.order (particleItems cells)).filter (needsLookup cells) :=
    List.mem_filter.mpr ⟨(hmem it).mpr ⟨p, hit⟩, by simp [needsLookup, hit, hr]⟩
  obtain ⟨k, hk, hke⟩ := List.getElem_of_mem hF
  have hk' : lookup[k]? = some it := by
    rw [h3 k (by omega), List.getElem?_eq_getElem hk, hke]
  unfold globalMapExecute
  rw [hlen]
  rw [hlen] at h1
  simp only [h1, Option.bind_some]
  cases hm : runItems (mapStep g cells lookup) (s1.order (List.range nq))
      ((f1 (nq * 6)).val, false) with
  | none => rfl
  | some s' =>
    have hb := (mapStep_flag hm).2 k ((s1.perm _).mem_iff.mpr (List.mem_range.mpr (by omega)))
      it p t hk' hit ht
    simp only [Option.bind_some, hb, if_true]

/-- Two particles, one far beyond the domain `[0, 2]` of two cells. -/
example : Spec.ValidGeom ⟨⟨[2], 1⟩, [0], 1⟩ ∧
    rd2 [[⟨[1 / 2], -1, -1⟩, ⟨[5], -1, -1⟩]] (0, 1) = some (⟨[5], -1, -1⟩ : MapParticle) := by
  refine ⟨⟨⟨by decide, by decide⟩, rfl, by norm_num⟩, rfl⟩

example : globalMapExecute .inOrder .inOrder .inOrder (fun n => ⟨List.replicate n (0, 0), by simp⟩)
    (fun n => ⟨List.replicate n 0, by simp⟩) ⟨⟨[2], 1⟩, [0], 1⟩ [0, 0, 0, 0]
    [[⟨[5], -1, -1⟩, ⟨[1 / 2], -1, -1⟩]] = none := by decide +kernel

end NP
