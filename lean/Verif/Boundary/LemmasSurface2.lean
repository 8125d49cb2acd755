import Verif.Boundary.LemmasSurface

/-!
# Lemmas about functions on the faces of a boundary: all ranks
-/

set_option autoImplicit false

namespace NP

open Spec

variable {owned : List (List Int)} {calls : List SurfCall} {ph : FuncPhase} {W : Nat → SurfRank}
  {F : Nat → SurfFunc}

theorem get_owned {faces : List Int} {q : Nat} (h : owned[q]? = some faces) : q < owned.length :=
  (List.getElem?_eq_some_iff.1 h).1

theorem table_map {A B : Type} (n : Nat) (F : Nat → A) (g : A → B) :
    ((List.range n).map F).map g = (List.range n).map fun r => g (F r) := by
  rw [List.map_map]; rfl

theorem get_table {A : Type} {n r : Nat} (F : Nat → A) (hr : r < n) :
    ((List.range n).map F)[r]? = some (F r) := rd_table F hr

/-- `function_project_finalise` on all ranks. -/
theorem funcFinals_spec (ho : FacesOwned owned) (h : FuncInv owned calls .ready W F) (e : FuncEnv) :
    ∃ F', funcFinals e ((List.range owned.length).map W) ((List.range owned.length).map F) =
        some ((List.range owned.length).map F') ∧
      (∀ r < owned.length, (F' r).version = 0 ∧ (F' r).stage = (F r).stage ∧
        (F' r).dofs.length = (F r).dofs.length) ∧
      ∀ (q i : Nat) faces face, owned[q]? = some faces → faces[i]? = some face → ∃ old new,
        (F q).dofs[i]? = some old ∧ (F' q).dofs[i]? = some new ∧
        Gathered calls ((List.range owned.length).map W)
          ((List.range owned.length).map fun r => (F r).stage) 1 face 0 old new := by
  have hsrc : Room (((List.range owned.length).map W).map surfNumGeoms) 1
      ((List.range owned.length).map fun r => (F r).stage) := by
    refine ⟨by simp, fun r c b h1 h2 => ?_⟩
    have hr : r < owned.length := by simpa using (List.getElem?_eq_some_iff.1 h1).1
    rw [table_map, get_table _ hr] at h1
    rw [get_table _ hr] at h2
    obtain rfl := Option.some.inj h1
    obtain rfl := Option.some.inj h2
    rw [Nat.mul_one]
    exact h.room rfl r hr
  have hdst : Room (owned.map List.length) 1 ((List.range owned.length).map fun r => (F r).dofs) := by
    refine ⟨by simp, fun r c b h1 h2 => ?_⟩
    have hr : r < owned.length := by simpa using (List.getElem?_eq_some_iff.1 h1).1
    rw [get_table _ hr] at h2
    rw [List.getElem?_map, List.getElem?_eq_getElem hr, Option.map_some] at h1
    obtain rfl := Option.some.inj h1
    obtain rfl := Option.some.inj h2
    rw [Nat.mul_one, h.dofs r _ (List.getElem?_eq_getElem hr)]
  obtain ⟨out, h1, h2, h3⟩ := C63_forward ho h.calls_ok h.run e.exch 1 hsrc hdst
  have hout : ∀ r < owned.length, out[r]? = some (out.getD r []) := fun r hr => by
    rw [List.getD_eq_getElem?_getD, List.getElem?_eq_getElem (by omega), Option.getD_some]
  refine ⟨fun r => { F r with dofs := out.getD r [], version := 0 }, ?_, ?_, ?_⟩
  · unfold funcFinals
    rw [table_map, table_map, h1, Option.bind_some]
    refine funcOnRanks_table fun r hr => ?_
    simp only [rd]
    rw [hout r hr, Option.bind_some]
  · intro r hr
    refine ⟨rfl, rfl, ?_⟩
    obtain ⟨g1, -, -⟩ := h3 r _ _ _ (List.getElem?_eq_getElem hr) (get_table _ hr) (hout r hr)
    exact g1
  · intro q i faces face hq hi
    have hr := get_owned hq
    obtain ⟨-, g1, -⟩ := h3 q _ _ _ hq (get_table _ hr) (hout q hr)
    obtain ⟨old, new, a1, a2, a3⟩ := g1 i face hi 0 (by omega)
    rw [Nat.mul_one, Nat.add_zero] at a1 a2
    exact ⟨old, new, a1, a2, a3⟩

/-- The update of the staging buffers. -/
theorem funcRefresh_spec (ho : FacesOwned owned) (h : FuncInv owned calls .idle W F) (e : FuncEnv)
    (he : (e.aware || e.host) = true) :
    ∃ F', funcRefresh e ((List.range owned.length).map W) ((List.range owned.length).map F) =
        some ((List.range owned.length).map F') ∧
      (∀ r < owned.length, (F' r).version = (W r).version ∧ (F' r).dofs = (F r).dofs ∧
        1 ≤ (F' r).stage.length) ∧ Synced owned W F' := by
  obtain ⟨iv, fv, v⟩ := h.versions
  unfold funcRefresh
  rw [funcOnRanks_table (g := fun _ => decide (fv < iv)) (fun r hr => by rw [v.rank r hr, v.func r hr]),
    Option.bind_some]
  by_cases hlt : fv < iv
  · rw [if_pos (by simp [hlt])]
    have hgrow : ∀ r < owned.length, ∃ b : List ℚ,
        stageNoCopy (e.mem r) (surfNumGeoms (W r)) (F r).stage = some b ∧
        (surfNumGeoms (W r) ≤ b.length ∧ 1 ≤ b.length) := by
      intro r hr
      have := h.stage r hr
      unfold stageNoCopy
      split
      · rw [if_neg (by omega)]
        exact ⟨_, rfl, by rw [(e.mem r _).2]; omega⟩
      · exact ⟨_, rfl, by omega⟩
    obtain ⟨B, b1, b2⟩ := funcOnRanks_exists (W := W) (F := F)
      (op := fun r a f => stageNoCopy (e.mem r) (surfNumGeoms a) f.stage) hgrow
    rw [b1, Option.bind_some]
    have hsrc : Room (owned.map List.length) 1 ((List.range owned.length).map fun r => (F r).dofs) := by
      refine ⟨by simp, fun r c b h1 h2 => ?_⟩
      have hr : r < owned.length := by simpa using (List.getElem?_eq_some_iff.1 h1).1
      rw [get_table _ hr] at h2
      rw [List.getElem?_map, List.getElem?_eq_getElem hr, Option.map_some] at h1
      obtain rfl := Option.some.inj h1
      obtain rfl := Option.some.inj h2
      rw [Nat.mul_one, h.dofs r _ (List.getElem?_eq_getElem hr)]
    have hdst : Room (((List.range owned.length).map W).map surfNumGeoms) 1
        ((List.range owned.length).map B) := by
      refine ⟨by simp, fun r c b h1 h2 => ?_⟩
      have hr : r < owned.length := by simpa using (List.getElem?_eq_some_iff.1 h1).1
      rw [table_map, get_table _ hr] at h1
      rw [get_table _ hr] at h2
      obtain rfl := Option.some.inj h1
      obtain rfl := Option.some.inj h2
      rw [Nat.mul_one]
      exact (b2 r hr).1
    obtain ⟨out, h1, h2, h3⟩ := C63_backward ho h.calls_ok h.run e.exch 1 he hsrc hdst
    have hout : ∀ r < owned.length, out[r]? = some (out.getD r []) := fun r hr => by
      rw [List.getD_eq_getElem?_getD, List.getElem?_eq_getElem (by omega), Option.getD_some]
    refine ⟨fun r => { F r with stage := out.getD r [], version := (W r).version }, ?_, ?_, ?_⟩
    · rw [table_map, h1, Option.bind_some]
      refine funcOnRanks_table fun r hr => ?_
      simp only [rd]
      rw [hout r hr, Option.bind_some]
    · intro r hr
      obtain ⟨g1, -, -⟩ := h3 r (W r) _ _ (get_table _ hr) (get_table _ hr) (hout r hr)
      refine ⟨rfl, rfl, ?_⟩
      show 1 ≤ (out.getD r []).length
      rw [g1]
      exact (b2 r hr).2
    · intro s hs q i faces face k hq hi hk
      obtain ⟨-, g1, -⟩ := h3 s (W s) _ _ (get_table _ hs) (get_table _ hs) (hout s hs)
      have hann : Announced calls s face := ((h.numbered ho hs).held_iff face).1 ⟨k, hk⟩
      obtain ⟨x, a1, a2⟩ := g1 face q faces _ i k hann hq (get_table _ (get_owned hq)) hi hk 0 (by omega)
      rw [Nat.mul_one, Nat.add_zero] at a1 a2
      show (out.getD s [])[k]? = (F q).dofs[i]?
      rw [a1, a2]
  · have heq : fv = iv := le_antisymm v.le (by omega)
    by_cases hn : owned.length = 0
    · rw [hn]
      have hres : surfBackward e.exch e.aware e.host 1 ([] : List SurfRank) ([] : List (List ℚ)) [] = some [] := rfl
      refine ⟨F, ?_, fun r hr => absurd hr (Nat.not_lt_zero r), fun s hs => absurd (hn ▸ hs) (Nat.not_lt_zero s)⟩
      simp only [List.range_zero, List.map_nil]
      rfl
    · rw [if_neg (by simp [hlt, hn]), if_neg (by simp [hlt])]
      refine ⟨F, rfl, fun r hr => ⟨?_, rfl, h.stage r hr⟩, v.synced heq⟩
      rw [v.func r hr, v.rank r hr, heq]

/-- The values read by the particles. -/
theorem funcEvals_spec (ho : FacesOwned owned) (h : FuncInv owned calls .idle W F) (e : FuncEnv)
    (he : (e.aware || e.host) = true) {parts : List (Option (List (Int × ℚ)))}
    (hp : PartsOk owned calls parts) :
    ∃ F' outs, funcEvals e parts ((List.range owned.length).map W) ((List.range owned.length).map F) =
        some ((List.range owned.length).map F', outs) ∧ FuncInv owned calls .idle W F' ∧
      (∀ r < owned.length, (F' r).version = (W r).version ∧ (F' r).dofs = (F r).dofs) ∧
      outs.length = owned.length ∧
      (∀ s : Nat, parts[s]? = some none → outs[s]? = some none) ∧
      ∀ (s : Nat) ps, parts[s]? = some (some ps) → ∃ vs, outs[s]? = some (some vs) ∧ vs.length = ps.length ∧
        ∀ (j : Nat) p, ps[j]? = some p → ∃ v, vs[j]? = some v ∧
          ∀ (q i : Nat) faces, owned[q]? = some faces → faces[i]? = some p.1 → (F q).dofs[i]? = some v := by
  obtain ⟨F', h1, h2, h3⟩ := funcRefresh_spec ho h e he
  have hpget : ∀ s < owned.length, ∃ ps, parts[s]? = some ps := fun s hs =>
    ⟨_, List.getElem?_eq_getElem (by rw [hp.1]; exact hs)⟩
  -- the owner of a face
  have hown : ∀ s face, Announced calls s face → ∃ (q i : Nat) (faces : List Int),
      owned[q]? = some faces ∧ faces[i]? = some face := by
    rintro s face ⟨c, hc, ps, hps, q, hq⟩
    obtain ⟨faces, g1, g2⟩ := (h.calls_ok c hc).2 ps (List.mem_of_getElem? hps) _ hq
    obtain ⟨i, hi, hie⟩ := List.getElem_of_mem g2
    exact ⟨q, i, faces, g1, by rw [List.getElem?_eq_getElem hi, hie]⟩
  have hread : ∀ s < owned.length, ∀ p : Int × ℚ, Announced calls s p.1 → ∃ v,
      funcEvalKernel e.debug (W s) (F' s).stage p = some v ∧
      ∀ (q i : Nat) faces, owned[q]? = some faces → faces[i]? = some p.1 → (F q).dofs[i]? = some v := by
    intro s hs p hann
    obtain ⟨k, hk⟩ := ((h.numbered ho hs).held_iff p.1).2 hann
    have hlt := (h.numbered ho hs).lt hk
    obtain ⟨q, i, faces, hq, hi⟩ := hown s p.1 hann
    have hd : (F q).dofs.length = faces.length := h.dofs q faces hq
    have hil : i < (F q).dofs.length := by rw [hd]; exact (List.getElem?_eq_some_iff.1 hi).1
    refine ⟨(F q).dofs[i], ?_, ?_⟩
    · unfold funcEvalKernel
      rw [if_neg (by omega), hk]
      simp only [rd]
      rw [h3 s hs q i faces p.1 k hq hi hk, (h2 q (get_owned hq)).2.1, List.getElem?_eq_getElem hil]
    · intro q' i' faces' hq' hi'
      rw [← (h2 q' (get_owned hq')).2.1, ← h3 s hs q' i' faces' p.1 k hq' hi' hk,
        h3 s hs q i faces p.1 k hq hi hk, (h2 q (get_owned hq)).2.1, List.getElem?_eq_getElem hil]
  have hloop : ∀ s < owned.length, ∃ o : Option (List ℚ),
      ((rd parts s).bind fun ps => funcEvalRank e.debug (W s) ps (F' s)) = some o ∧
      ((parts[s]? = some none → o = none) ∧
      ∀ ps, parts[s]? = some (some ps) → ∃ vs, o = some vs ∧ vs.length = ps.length ∧
        ∀ (j : Nat) p, ps[j]? = some p → ∃ v, vs[j]? = some v ∧
          ∀ (q i : Nat) faces, owned[q]? = some faces → faces[i]? = some p.1 → (F q).dofs[i]? = some v) := by
    intro s hs
    obtain ⟨ps, hps⟩ := hpget s hs
    simp only [rd]
    rw [hps, Option.bind_some]
    cases ps with
    | none => exact ⟨none, rfl, fun _ => rfl, fun ps hx => by simp at hx⟩
    | some ps =>
      have hall : ∀ p : Int × ℚ, ∃ v, p ∈ ps → funcEvalKernel e.debug (W s) (F' s).stage p = some v ∧
          ∀ (q i : Nat) faces, owned[q]? = some faces → faces[i]? = some p.1 → (F q).dofs[i]? = some v := by
        intro p
        by_cases hpm : p ∈ ps
        · obtain ⟨v, hv⟩ := hread s hs p (hp.2 s ps hps p hpm)
          exact ⟨v, fun _ => hv⟩
        · exact ⟨0, fun hx => absurd hx hpm⟩
      choose val hval using hall
      refine ⟨some (ps.map val), ?_, ⟨fun hx => by simp at hx, ?_⟩⟩
      · unfold funcEvalRank
        dsimp only
        rw [mapM_of_forall (g := val) (fun p hpm => (hval p hpm).1), Option.bind_some]
      · intro ps' hx
        obtain rfl := Option.some.inj (Option.some.inj hx)
        refine ⟨_, rfl, by simp, fun j p hj => ⟨val p, by rw [List.getElem?_map, hj, Option.map_some], ?_⟩⟩
        exact (hval p (List.mem_of_getElem? hj)).2
  obtain ⟨O, o1, o2⟩ := funcOnRanks_exists (W := W) (F := F')
    (op := fun r a f => (rd parts r).bind fun ps => funcEvalRank e.debug a ps f) hloop
  refine ⟨F', (List.range owned.length).map O, ?_, ?_, fun r hr => ⟨(h2 r hr).1, (h2 r hr).2.1⟩, by simp, ?_, ?_⟩
  · unfold funcEvals
    rw [h1, Option.bind_some]
    rw [o1, Option.bind_some]
  · obtain ⟨iv, fv, v⟩ := h.versions
    refine ⟨h.run, h.calls_ok, ⟨iv, iv, v.pos, le_refl _, v.rank, fun r hr => ?_, fun hx => absurd rfl hx,
      fun _ => h3⟩, ?_, fun r hr => (h2 r hr).2.2, fun hx => by cases hx⟩
    · rw [(h2 r hr).1, v.rank r hr]
    · intro r faces hr
      rw [(h2 r (get_owned hr)).2.1]
      exact h.dofs r faces hr
  · intro s hs
    have hlt : s < owned.length := by rw [← hp.1]; exact (List.getElem?_eq_some_iff.1 hs).1
    rw [get_table O hlt, (o2 s hlt).1 hs]
  · intro s ps hs
    have hlt : s < owned.length := by rw [← hp.1]; exact (List.getElem?_eq_some_iff.1 hs).1
    obtain ⟨vs, g1, g2, g3⟩ := (o2 s hlt).2 ps hs
    exact ⟨vs, by rw [get_table O hlt, g1], g2, g3⟩

/-- `function_project_initialise` on all ranks. -/
theorem funcInits_spec (h : FuncInv owned calls ph W F) (e : FuncEnv) :
    ∃ F', funcInits e ((List.range owned.length).map W) ((List.range owned.length).map F) =
        some ((List.range owned.length).map F') ∧ FuncInv owned calls .ready W F' ∧
      ∀ r < owned.length, (F' r).dofs = List.replicate (F r).dofs.length 0 ∧
        (F' r).stage.length = max (F r).stage.length (surfNumGeoms (W r)) ∧
        ∀ k < surfNumGeoms (W r), (F' r).stage[k]? = some 0 := by
  obtain ⟨F', h1, h2⟩ := funcOnRanks_exists (W := W) (F := F) (n := owned.length)
    (op := fun r a f => funcInit (e.mem r) a f) fun r hr => funcInit_spec (h.stage r hr)
  refine ⟨F', h1, ?_, fun r hr => ⟨(h2 r hr).1, (h2 r hr).2.2⟩⟩
  obtain ⟨iv, fv, v⟩ := h.versions
  have := v.pos
  refine ⟨h.run, h.calls_ok, ⟨iv, 0, v.pos, by omega, v.rank, fun r hr => (h2 r hr).2.1, fun _ => rfl,
    fun hx => by omega⟩, ?_, ?_, ?_⟩
  · intro r faces hr
    rw [(h2 r (get_owned hr)).1, List.length_replicate]
    exact h.dofs r faces hr
  · intro r hr
    rw [(h2 r hr).2.2.1]
    have := h.stage r hr
    omega
  · intro _ r hr
    rw [(h2 r hr).2.2.1]
    omega

/-- `function_project_contribute` on all ranks. -/
theorem funcAdds_spec (ho : FacesOwned owned) (h : FuncInv owned calls ph W F) (hph : ph ≠ .idle)
    (e : FuncEnv) (inv : ℚ) {parts : List (Option (List (Int × ℚ)))} (hp : PartsOk owned calls parts) :
    ∃ F', funcAdds e inv parts ((List.range owned.length).map W) ((List.range owned.length).map F) =
        some ((List.range owned.length).map F') ∧ FuncInv owned calls .ready W F' ∧
      ∀ r < owned.length, (F' r).dofs = (F r).dofs ∧
        (F' r).stage.length = max (F r).stage.length (surfNumGeoms (W r)) ∧
        ∀ (k : Nat) face, surfGeomOf (W r) k = some face →
          (∀ x, (F r).stage[k]? = some x →
            (F' r).stage[k]? = some (x + rankTotal inv ((parts.getD r none).getD []) face)) ∧
          ((F r).stage.length ≤ k →
            (F' r).stage[k]? = some (rankTotal inv ((parts.getD r none).getD []) face)) := by
  have hget : ∀ r < owned.length, parts[r]? = some (parts.getD r none) := fun r hr => by
    rw [List.getD_eq_getElem?_getD, List.getElem?_eq_getElem (by rw [hp.1]; exact hr), Option.getD_some]
  obtain ⟨F', h1, h2⟩ := funcOnRanks_exists (W := W) (F := F) (n := owned.length)
    (op := fun r a f => (rd parts r).bind fun ps => funcAdd (e.mem r) (e.order r) e.debug inv a ps f)
    (P := fun r f' => f'.dofs = (F r).dofs ∧ f'.version = (F r).version ∧
      f'.stage.length = max (F r).stage.length (surfNumGeoms (W r)) ∧
      ∀ (k : Nat) face, surfGeomOf (W r) k = some face →
        (∀ x, (F r).stage[k]? = some x →
          f'.stage[k]? = some (x + rankTotal inv ((parts.getD r none).getD []) face)) ∧
        ((F r).stage.length ≤ k →
          f'.stage[k]? = some (rankTotal inv ((parts.getD r none).getD []) face))) fun r hr => by
      simp only [rd]
      rw [hget r hr, Option.bind_some]
      refine funcAdd_spec (h.numbered ho hr) (fun p hpm => ?_) (h.stage r hr)
      cases hps : parts.getD r none with
      | none => rw [hps] at hpm; cases hpm
      | some ps =>
        rw [hps] at hpm
        exact hp.2 r ps (by rw [hget r hr, hps]) p hpm
  refine ⟨F', h1, ?_, fun r hr => ⟨(h2 r hr).1, (h2 r hr).2.2⟩⟩
  obtain ⟨iv, fv, v⟩ := h.versions
  have := v.pos
  have := v.zero hph
  refine ⟨h.run, h.calls_ok, ⟨iv, fv, v.pos, v.le, v.rank, fun r hr => by rw [(h2 r hr).2.1, v.func r hr],
    fun _ => by omega, fun hx => by omega⟩, ?_, ?_, ?_⟩
  · intro r faces hr
    rw [(h2 r (get_owned hr)).1]
    exact h.dofs r faces hr
  · intro r hr
    rw [(h2 r hr).2.2.1]
    have := h.stage r hr
    omega
  · intro _ r hr
    rw [(h2 r hr).2.2.1]
    omega

/-- An extension. -/
theorem extend_inv (ho : FacesOwned owned) (h : FuncInv owned calls ph W F) {c : SurfCall}
    (hc : PairsOk owned c.pairs) :
    ∃ W', surfExtend c.mpi c.mem c.pairs ((List.range owned.length).map W) =
        some ((List.range owned.length).map W') ∧ FuncInv owned (calls ++ [c]) ph.afterExtend W' F ∧
      ∀ r < owned.length, ∀ face i, surfSeqOf (W r) face = some i → surfSeqOf (W' r) face = some i := by
  obtain ⟨W', h1, h2, h3, h4⟩ := surfRun_extend ho h.calls_ok hc h.run
  obtain ⟨iv, fv, v⟩ := h.versions
  refine ⟨W', h1, ⟨h2, ?_, ?_, h.dofs, h.stage, ?_⟩, h3⟩
  · intro d hd
    rcases List.mem_append.1 hd with hd | hd
    · exact h.calls_ok d hd
    · rw [List.mem_singleton] at hd; rw [hd]; exact hc
  · have hz : ph.afterExtend ≠ .idle → fv = 0 := by
      intro hx
      refine v.zero ?_
      rintro rfl
      exact hx rfl
    rcases h4 with h4 | h4
    · refine ⟨iv, fv, v.pos, v.le, fun r hr => by rw [h4 r hr, v.rank r hr], v.func, hz, fun hx => ?_⟩
      intro s hs q i faces face k hq hi hk
      rw [h4 s hs] at hk
      exact v.synced hx s hs q i faces face k hq hi hk
    · have := v.le
      exact ⟨iv + 1, fv, by omega, by omega, fun r hr => by rw [h4 r hr, v.rank r hr], v.func, hz,
        fun hx => by omega⟩
  · intro hx
    cases ph <;> cases hx

end NP
