import Verif.Group.LemmasGet2
import Verif.Group.LemmasCounts

/-! # The specification of a group follows its properties -/

set_option autoImplicit false

namespace NP

open Spec

/-- Names and numbers of components. -/
abbrev Dat.prop (d : Dat) : Nat × Nat := (d.sym, d.ncomp)

theorem runItems_keeps {ι σ τ : Type _} {step : ι → σ → Option σ} (f : σ → τ)
    (h : ∀ i s s', step i s = some s' → f s' = f s) {items : List ι} {s s' : σ}
    (hr : runItems step items s = some s') : f s' = f s := by
  induction items generalizing s with
  | nil => simp only [runItems_nil, Option.some.injEq] at hr; rw [hr]
  | cons i is ih =>
    rw [runItems_cons, Option.bind_eq_some_iff] at hr
    obtain ⟨t, h1, h2⟩ := hr
    rw [ih h2, h i s t h1]

theorem setNrow_prop {e : Env} {c req : Nat} {s s' : Mem × Dat} (h : setNrow e c req s = some s') :
    s'.2.prop = s.2.prop := by
  unfold setNrow at h
  simp only [Option.bind_eq_some_iff] at h
  obtain ⟨a, -, b, -, h⟩ := h
  split at h
  · simp only [Option.some.injEq] at h; rw [← h]
  · split at h
    · simp only [Option.some.injEq] at h; rw [← h]
    · split at h
      · simp only [Option.some.injEq] at h; rw [← h]
      · simp only [Option.some.injEq] at h; rw [← h]

theorem reallocDat_prop {e : Env} {ncell : Nat} {counts : List Nat} {s s' : Mem × Dat}
    (h : reallocDat e ncell counts s = some s') : s'.2.prop = s.2.prop := by
  refine runItems_keeps (fun s : Mem × Dat => s.2.prop) ?_ h
  intro i s s' h
  rw [Option.bind_eq_some_iff] at h
  obtain ⟨n, -, h⟩ := h
  exact setNrow_prop h

theorem mapDats_prop {f : Mem × Dat → Option (Mem × Dat)}
    (hf : ∀ s s', f s = some s' → s'.2.prop = s.2.prop) {dats : List Dat} {m : Mem}
    {r : Mem × List Dat} (h : mapDats f dats m = some r) :
    r.2.map Dat.prop = dats.map Dat.prop := by
  induction dats generalizing m r with
  | nil => simp only [mapDats, Option.some.injEq] at h; rw [← h]
  | cons d ds ih =>
    simp only [mapDats, Option.bind_eq_some_iff, Option.some.injEq] at h
    obtain ⟨a, h1, b, h2, h3⟩ := h
    rw [← h3, List.map_cons, List.map_cons, hf _ _ h1, ih h2]

theorem reallocAllDats_prop {e : Env} {g g' : Group} (h : reallocAllDats e g = some g') :
    groupProps g' = groupProps g := by
  unfold reallocAllDats at h
  simp only [Option.bind_eq_some_iff, Option.some.injEq] at h
  obtain ⟨r, h1, h2⟩ := h
  rw [← h2]
  exact mapDats_prop (fun s s' h => reallocDat_prop h) h1

theorem updDats_prop {f : Dat → Option Dat} (hf : ∀ d d', f d = some d' → d'.prop = d.prop)
    {g g' : Group} (h : updDats f g = some g') : groupProps g' = groupProps g := by
  unfold updDats at h
  simp only [Option.bind_eq_some_iff, Option.some.injEq] at h
  obtain ⟨dats, h1, h2⟩ := h
  rw [← h2]
  show dats.map Dat.prop = g.dats.map Dat.prop
  clear h2
  generalize g.dats = ds at h1 ⊢
  induction ds generalizing dats with
  | nil =>
    rw [List.mapM_nil] at h1
    rw [show dats = [] from (Option.some.inj h1).symm]
  | cons d ds ih =>
    rw [List.mapM_cons] at h1
    simp only [Option.bind_eq_bind, Option.bind_eq_some_iff, Option.pure_def,
      Option.some.injEq] at h1
    obtain ⟨a, h3, b, h4, h5⟩ := h1
    rw [← h5, List.map_cons, List.map_cons, hf _ _ h3, ih b h4]

theorem setNpart_prop {ncell : Nat} {h d : List Nat} {dat dat' : Dat}
    (hs : setNpartHostDevice ncell h d dat = some dat') : dat'.prop = dat.prop := by
  unfold setNpartHostDevice at hs
  simp only [Option.bind_eq_some_iff, Option.some.injEq] at hs
  obtain ⟨a, -, b, -, h3⟩ := hs
  rw [← h3]

theorem trimDat_prop {ncell : Nat} {d d' : Dat} (h : trimDat ncell d = some d') :
    d'.prop = d.prop := by
  unfold trimDat at h
  simp only [Option.bind_eq_some_iff, Option.some.injEq] at h
  obtain ⟨a, -, h3⟩ := h
  rw [← h3]

theorem syncCounts_prop {g g' : Group} (h : syncCounts g = some g') :
    groupProps g' = groupProps g := by
  unfold syncCounts at h
  simp only [Option.bind_eq_some_iff, Option.some.injEq] at h
  obtain ⟨a, -, b, -, h3⟩ := h
  rw [← h3]; rfl

theorem setNpartCellFromDat_prop {g g' : Group} (h : setNpartCellFromDat g = some g') :
    groupProps g' = groupProps g := by
  unfold setNpartCellFromDat at h
  simp only [Option.bind_eq_some_iff, Option.some.injEq] at h
  obtain ⟨a, -, b, -, c, -, h3⟩ := h
  rw [← h3]; rfl

theorem addParticleSet_prop {e : Env} {g g' : Group} {ps : PSet}
    (h : addParticleSet e g ps = some g') : groupProps g' = groupProps g := by
  unfold addParticleSet at h
  dsimp only at h
  split at h
  · simp only [Option.some.injEq] at h; rw [← h]; rfl
  · rw [ite_none_some_iff] at h
    obtain ⟨-, h⟩ := h
    simp only [Option.bind_eq_some_iff] at h
    obtain ⟨ids, -, r, -, g1, h1, g2, h2, m, -, h3⟩ := h
    rw [updDats_prop (fun _ _ h => setNpart_prop h) h3]
    exact (reallocAllDats_prop h2).trans ((syncCounts_prop h1).trans rfl)

theorem addGroup_prop {e : Env} {g g' src : Group} (h : addGroup e g src = some g') :
    groupProps g' = groupProps g := by
  unfold addGroup at h
  rw [ite_none_some_iff] at h
  obtain ⟨-, h⟩ := h
  rw [ite_none_some_iff] at h
  obtain ⟨-, h⟩ := h
  rw [Option.bind_eq_some_iff] at h
  obtain ⟨r, -, h⟩ := h
  rw [ite_none_some_iff] at h
  obtain ⟨-, h⟩ := h
  dsimp only at h
  rw [Option.bind_eq_some_iff] at h
  obtain ⟨g1, h1, h⟩ := h
  rw [ite_none_some_iff] at h
  obtain ⟨-, h⟩ := h
  simp only [Option.bind_eq_some_iff, Option.some.injEq] at h
  obtain ⟨g2, h2, rank, -, v, -, m, -, g3, h3, h4⟩ := h
  rw [← h4]
  refine (updDats_prop (fun _ _ h => setNpart_prop h) h3).trans ?_
  exact (reallocAllDats_prop h2).trans ((syncCounts_prop h1).trans rfl)

theorem addSubGroup_prop {e : Env} {g g' : Group} {src : SrcMem} {dats : List Dat} {n : Nat}
    {cells layers : List Int} (h : addSubGroup e g src dats n cells layers = some g') :
    groupProps g' = groupProps g := by
  unfold addSubGroup at h
  split at h
  · simp only [Option.some.injEq] at h; rw [← h]; rfl
  · simp only [Option.bind_eq_some_iff] at h
    obtain ⟨r, -, g1, h1, g2, h2, h⟩ := h
    rw [ite_none_some_iff] at h
    obtain ⟨-, h⟩ := h
    simp only [Option.bind_eq_some_iff, Option.some.injEq] at h
    obtain ⟨m, -, g3, h3, h4⟩ := h
    rw [← h4]
    refine (updDats_prop (fun _ _ h => setNpart_prop h) h3).trans ?_
    exact (reallocAllDats_prop h2).trans ((syncCounts_prop h1).trans rfl)

theorem compressorRemove_prop {e : Env} {g g' : Group} {n : Nat} {cells layers : List Int}
    (h : compressorRemove e g n cells layers = some g') : groupProps g' = groupProps g := by
  unfold compressorRemove at h
  split at h
  · simp only [Option.some.injEq] at h; rw [h]
  · simp only [Option.bind_eq_some_iff] at h
    obtain ⟨rank, -, r, -, h⟩ := h
    unfold compressorFinish at h
    simp only [Option.bind_eq_some_iff] at h
    obtain ⟨m, -, g1, h1, h2⟩ := h
    rw [updDats_prop (fun _ _ h => trimDat_prop h) h2,
      updDats_prop (fun _ _ h => setNpart_prop h) h1]
    rfl

theorem removeParticles_prop {e : Env} {g g' : Group} {n : Nat} {cells layers : List Int}
    (h : removeParticles e g n cells layers = some g') : groupProps g' = groupProps g := by
  unfold removeParticles at h
  simp only [Option.bind_eq_some_iff, Option.some.injEq] at h
  obtain ⟨g1, h1, g2, h2, h3⟩ := h
  rw [← h3]
  exact (setNpartCellFromDat_prop h2).trans (compressorRemove_prop h1)

theorem cellMove_prop {e e' : Env} {g g' : Group} (h : cellMove e e' g = some g') :
    groupProps g' = groupProps g := by
  unfold cellMove at h
  simp only [Option.bind_eq_some_iff, Option.some.injEq] at h
  obtain ⟨g1, h1, g2, h2, h3⟩ := h
  rw [← h3]
  refine (setNpartCellFromDat_prop h2).trans ?_
  unfold cellMoveInner at h1
  simp only [Option.bind_eq_some_iff] at h1
  obtain ⟨rank, -, cid, -, v0, -, r, -, cnt, -, ex, -, mc, -, h1⟩ := h1
  rw [ite_none_some_iff] at h1
  obtain ⟨-, h1⟩ := h1
  simp only [Option.bind_eq_some_iff] at h1
  obtain ⟨v1, -, a, -, rr, k1, m, -, g3, k2, k3⟩ := h1
  refine (compressorRemove_prop k3).trans ((updDats_prop (fun _ _ h => setNpart_prop h) k2).trans ?_)
  exact mapDats_prop (fun s s' h => reallocDat_prop h) k1

theorem clearGroup_prop {e : Env} {g g' : Group} (h : clearGroup e g = some g') :
    groupProps g' = groupProps g := by
  unfold clearGroup at h
  simp only [Option.bind_eq_some_iff, Option.some.injEq] at h
  obtain ⟨N, -, g1, h1, g2, h2, g3, h3, h4⟩ := h
  rw [← h4]
  refine (updDats_prop (fun _ _ h => setNpart_prop h) h3).trans ?_
  exact (reallocAllDats_prop h2).trans ((syncCounts_prop h1).trans rfl)

theorem addDatCommon_prop {e : Env} {g g' : Group} {d : Dat} (h : addDatCommon e g d = some g') :
    groupProps g' = groupProps g ++ [d.prop] := by
  unfold addDatCommon at h
  simp only [Option.bind_eq_some_iff, Option.some.injEq] at h
  obtain ⟨r, h1, a, -, b, -, r', h2, h3⟩ := h
  rw [← h3]
  show (g.dats ++ [r'.2]).map Dat.prop = g.dats.map Dat.prop ++ [d.prop]
  rw [List.map_append, List.map_cons, List.map_nil]
  congr 2
  have hr : r.2.prop = d.prop := reallocDat_prop (s := (g.mem, d)) h1
  split at h2
  · refine (runItems_keeps (fun s : Mem × Dat => s.2.prop) ?_ h2).trans hr
    intro i s s' h
    exact setNrow_prop h
  · simp only [Option.some.injEq] at h2
    rw [← h2]
    exact hr

theorem sgAddDat_spec {e : Env} {sg sg' : SpecGroup} (hs : sg.spec.Perm (groupProps sg.group))
    {sym ncomp : Nat} (h : sgAddDat e sg sym ncomp = some sg') :
    sg'.spec.Perm (groupProps sg'.group) := by
  unfold sgAddDat at h
  simp only [Option.bind_eq_some_iff, Option.some.injEq] at h
  obtain ⟨g, h1, h2⟩ := h
  rw [← h2]
  dsimp only
  unfold addParticleDat at h1
  split at h1
  · rename_i d hd
    split at h1
    · simp only [Option.some.injEq] at h1
      rw [hd, Option.isSome_some, if_pos rfl, ← h1]
      exact hs
    · simp at h1
  · rename_i hd
    rw [hd, Option.isSome_none, if_neg (by simp), addDatCommon_prop h1]
    exact hs.append_right _

theorem erase_map_filter {dats : List Dat} (h : (dats.map (·.sym)).Nodup) {d : Dat}
    (hd : d ∈ dats) : ((dats.map Dat.prop).erase d.prop).Perm
      ((dats.filter fun x => x.sym != d.sym).map Dat.prop) := by
  have hnd : (dats.map Dat.prop).Nodup := by
    apply List.Nodup.of_map (f := Prod.fst)
    rw [List.map_map]
    exact h
  rw [hnd.erase_eq_filter, List.filter_map]
  apply List.Perm.of_eq
  congr 1
  apply List.filter_congr
  intro x hx
  by_cases hxs : x.sym = d.sym
  · have := List.inj_on_of_nodup_map h hx hd hxs
    subst this
    simp
  · have h2 : x.prop ≠ d.prop := fun he => hxs (Prod.mk.inj he).1
    have h3 : (x.prop != d.prop) = true := by rw [bne_iff_ne]; exact h2
    have h4 : (x.sym != d.sym) = true := by rw [bne_iff_ne]; exact hxs
    rw [h4]
    exact h3

theorem dat?_spec {g : Group} {s : Nat} {d : Dat} (h : g.dat? s = some d) :
    d ∈ g.dats ∧ d.sym = s := by
  refine ⟨List.mem_of_find?_eq_some h, ?_⟩
  have := List.find?_some h
  simpa using this

theorem sgRemoveDat_spec {sg sg' : SpecGroup} (hnd : (sg.group.dats.map (·.sym)).Nodup)
    (hs : sg.spec.Perm (groupProps sg.group)) {sym : Nat} (h : sgRemoveDat sg sym = some sg') :
    sg'.spec.Perm (groupProps sg'.group) := by
  unfold sgRemoveDat at h
  simp only [Option.bind_eq_some_iff, Option.some.injEq] at h
  obtain ⟨g, h1, d, h2, spec, h3, h4⟩ := h
  obtain ⟨hd, rfl⟩ := dat?_spec h2
  rw [← h4]
  dsimp only
  unfold specRemove at h3
  unfold removeParticleDat at h1
  split at h3
  · simp only [Option.some.injEq] at h3
    split at h1
    · simp only [Option.some.injEq] at h1
      rw [← h1, ← h3]
      exact (hs.erase _).trans (erase_map_filter hnd hd)
    · simp at h1
  · simp at h3

/-- A property that can be removed from the group can be removed from the specification. -/
theorem sgRemoveDat_group {sg : SpecGroup} (hs : sg.spec.Perm (groupProps sg.group)) (sym : Nat) :
    (sgRemoveDat sg sym).map SpecGroup.group = removeParticleDat sg.group sym := by
  unfold sgRemoveDat
  cases h : removeParticleDat sg.group sym with
  | none => rfl
  | some g =>
    rw [Option.bind_some]
    unfold removeParticleDat at h
    split at h
    · rename_i hc
      obtain ⟨d, hd⟩ := Option.isSome_iff_exists.1 hc.1
      obtain ⟨h1, h2⟩ := dat?_spec hd
      have : (sym, d.ncomp) ∈ sg.spec :=
        hs.mem_iff.2 (mem_groupProps.2 ⟨d, h1, h2, rfl⟩)
      rw [hd, Option.bind_some]
      unfold specRemove
      rw [if_pos this]
      rfl
    · simp at h

theorem sgAddDat_group (e : Env) (sg : SpecGroup) (sym ncomp : Nat) :
    (sgAddDat e sg sym ncomp).map SpecGroup.group = addParticleDat e sg.group sym ncomp := by
  unfold sgAddDat
  cases addParticleDat e sg.group sym ncomp <;> rfl

theorem call_prop {e e' : Env} {g g' : Group} {x : GroupCall} (h : g.call e e' x = some g')
    (ha : ∀ s n, x ≠ .addDat s n) (hr : ∀ s, x ≠ .removeDat s) :
    groupProps g' = groupProps g := by
  cases x with
  | addSet ps => exact addParticleSet_prop h
  | addGroup src => exact addGroup_prop h
  | addSub src dats n cells layers => exact addSubGroup_prop h
  | remove n cells layers => exact removeParticles_prop h
  | removeHost n cells layers =>
    change removeParticlesHost e g n cells layers = some g' at h
    unfold removeParticlesHost at h
    split at h
    · split at h
      · exact removeParticles_prop h
      · simp at h
    · simp only [Option.some.injEq] at h; rw [h]
  | remover sym key =>
    change removerRemove e e' g sym key = some g' at h
    unfold removerRemove at h
    simp only [Option.bind_eq_some_iff] at h
    obtain ⟨v0, -, n, -, h⟩ := h
    split at h
    · simp only [Option.bind_eq_some_iff] at h
      obtain ⟨v1, -, r, -, h⟩ := h
      exact removeParticles_prop h
    · simp only [Option.some.injEq] at h; rw [h]
  | cellMove => exact cellMove_prop h
  | addDat sym ncomp => exact absurd rfl (ha sym ncomp)
  | removeDat sym => exact absurd rfl (hr sym)
  | clear => exact clearGroup_prop h

theorem specCall_spec {e e' : Env} {sg : SpecGroup} (hg : CountsOk sg.group)
    (hs : sg.spec.Perm (groupProps sg.group)) (x : GroupCall) :
    (sg.call e e' x).map SpecGroup.group = sg.group.call e e' x ∧
    ∀ sg', sg.call e e' x = some sg' → CountsOk sg'.group ∧
      sg'.spec.Perm (groupProps sg'.group) := by
  have main : (sg.call e e' x).map SpecGroup.group = sg.group.call e e' x ∧
      ∀ sg', sg.call e e' x = some sg' → sg'.spec.Perm (groupProps sg'.group) := by
    by_cases ha : ∃ s n, x = .addDat s n
    · obtain ⟨s, n, rfl⟩ := ha
      exact ⟨sgAddDat_group e sg s n, fun sg' h => sgAddDat_spec hs h⟩
    · by_cases hr : ∃ s, x = .removeDat s
      · obtain ⟨s, rfl⟩ := hr
        exact ⟨sgRemoveDat_group hs s, fun sg' h => sgRemoveDat_spec hg.nodup hs h⟩
      · have hx : sg.call e e' x = (sg.group.call e e' x).bind fun g => some ⟨g, sg.spec⟩ := by
          cases x with
          | addDat s n => exact absurd ⟨s, n, rfl⟩ ha
          | removeDat s => exact absurd ⟨s, rfl⟩ hr
          | _ => rfl
        rw [hx]
        cases hc : sg.group.call e e' x with
        | none => exact ⟨rfl, by simp⟩
        | some g =>
          refine ⟨rfl, ?_⟩
          intro sg' h
          simp only [Option.bind_some, Option.some.injEq] at h
          rw [← h]
          dsimp only
          rw [call_prop hc (fun s n h => ha ⟨s, n, h⟩) (fun s h => hr ⟨s, h⟩)]
          exact hs
  refine ⟨main.1, fun sg' h => ⟨?_, main.2 sg' h⟩⟩
  have h2 := main.1
  rw [h, Option.map_some] at h2
  exact (call_counts hg h2.symm).1

theorem specCalls_spec {env : Nat → Env} {xs : List GroupCall} {i : Nat} {sg : SpecGroup}
    (hg : CountsOk sg.group) (hs : sg.spec.Perm (groupProps sg.group)) :
    (sg.calls env i xs).map SpecGroup.group = sg.group.calls env i xs ∧
    ∀ sg', sg.calls env i xs = some sg' → sg'.spec.Perm (groupProps sg'.group) := by
  induction xs generalizing sg i with
  | nil =>
    refine ⟨rfl, ?_⟩
    intro sg' h
    simp only [SpecGroup.calls, Option.some.injEq] at h
    rw [← h]; exact hs
  | cons x xs ih =>
    obtain ⟨h1, h2⟩ := specCall_spec (e := env (2 * i)) (e' := env (2 * i + 1)) hg hs x
    simp only [SpecGroup.calls, Group.calls]
    cases hc : sg.call (env (2 * i)) (env (2 * i + 1)) x with
    | none =>
      rw [hc] at h1
      rw [← h1]
      exact ⟨rfl, by simp⟩
    | some sg1 =>
      rw [hc] at h1
      rw [← h1]
      simp only [Option.bind_some, Option.map_some]
      exact ih (h2 sg1 hc).1 (h2 sg1 hc).2

theorem sgCreate_spec {e : Env} {ncell pos rank cell hint : Nat} {spec : List (Nat × Nat)} :
    (sgCreate e ncell pos rank cell hint spec).map SpecGroup.group =
      createGroup e ncell pos rank cell hint spec ∧
    ∀ sg, sgCreate e ncell pos rank cell hint spec = some sg →
      sg.spec.Perm (groupProps sg.group) := by
  unfold sgCreate createGroup
  have key : ∀ (items : List (Nat × Nat)) (sg : SpecGroup), sg.spec.Perm (groupProps sg.group) →
      (runItems (fun x sg => sgAddDat e sg x.1 x.2) items sg).map SpecGroup.group =
        runItems (fun x g => addParticleDat e g x.1 x.2) items sg.group ∧
      ∀ sg', runItems (fun x sg => sgAddDat e sg x.1 x.2) items sg = some sg' →
        sg'.spec.Perm (groupProps sg'.group) := by
    intro items
    induction items with
    | nil =>
      intro sg hs
      refine ⟨rfl, fun sg' h => ?_⟩
      simp only [runItems_nil, Option.some.injEq] at h
      rw [← h]; exact hs
    | cons x xs ih =>
      intro sg hs
      rw [runItems_cons, runItems_cons]
      have h1 := sgAddDat_group e sg x.1 x.2
      cases hc : sgAddDat e sg x.1 x.2 with
      | none => rw [hc] at h1; rw [← h1]; exact ⟨rfl, by simp⟩
      | some sg1 =>
        rw [hc] at h1
        rw [← h1]
        simp only [Option.bind_some, Option.map_some]
        exact ih sg1 (sgAddDat_spec hs hc)
  exact key _ ⟨emptyGroup ncell pos rank cell hint, []⟩ (by
    exact List.Perm.refl _)

end NP
