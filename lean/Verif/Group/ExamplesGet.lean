import Verif.Group.PropsSet

/-! # Concrete cases for property C74 -/

set_option autoImplicit false

namespace NP.Ex

open Spec

/-- Positions are REAL, cell ids and ranks INT properties. -/
def getReal : Nat → Bool := fun s => s == 0

/-- The properties of `group` in another order. -/
def getSpec : List (Nat × Nat) := [(2, 2), (0, 2), (1, 1)]

theorem getSpec_ok : getSpec.Perm (groupProps (group home)) := by decide

/-- A request with a repeated particle. -/
def getSel : List (Nat × Nat) := [(1, 1), (0, 2), (1, 1), (0, 0)]

theorem getSel_ok : InGroup (group home) getSel := by
  intro p hp
  simp only [getSel, List.mem_cons, List.not_mem_nil, or_false] at hp
  rcases hp with rfl | rfl | rfl | rfl <;> decide

/-- C74_get_particles. -/
example : ∃ ps, getParticles env getReal getSpec (group home) (cellsOf getSel) (layersOf getSel) =
    some ps ∧ HoldsParticles (group home) getSel ps :=
  C74_get_particles env getReal (group_ok _) getSpec_ok getSel_ok

example : getParticles env getReal getSpec (group home) [1, 0, 1, 0] [1, 2, 1, 0] =
    some ⟨4, [⟨2, 2, [2101, 2002, 2101, 2000, 2111, 2012, 2111, 2010]⟩,
      ⟨0, 2, [101, 2, 101, 0, 111, 12, 111, 10]⟩, ⟨1, 1, [1, 0, 1, 0]⟩]⟩ := by decide +kernel

/-- C74_get_particles_rejects: cell 1 has only two particles. -/
example : getParticles env getReal getSpec (group home) [1, 0] [2, 0] = none :=
  C74_get_particles_rejects env getReal getSpec (group home) (by
    rintro sel hsel ⟨h1, h2⟩
    have hlen : 0 < sel.length := by
      have := congrArg List.length h1
      simp at this
      omega
    have e1 : sel[0].1 = 1 := by
      have := congrArg (·[0]?) h1
      simp [cellsOf, hlen] at this
      omega
    have e2 : sel[0].2 = 2 := by
      have := congrArg (·[0]?) h2
      simp [layersOf, hlen] at this
      omega
    have h3 := (hsel sel[0] (List.getElem_mem hlen)).2
    rw [e1, e2] at h3
    exact absurd h3 (by decide))

/-- C74_spec_current. -/
example : ∃ sg, sgCreate env 2 0 2 1 0 [(0, 2), (1, 1)] = some sg ∧
    createGroup env 2 0 2 1 0 [(0, 2), (1, 1)] = some sg.group ∧
    (sg.calls (fun _ => env) 0 [.addDat 5 3, .addDat 6 1, .removeDat 5]).map SpecGroup.group =
      sg.group.calls (fun _ => env) 0 [.addDat 5 3, .addDat 6 1, .removeDat 5] ∧
    ∀ sg', sg.calls (fun _ => env) 0 [.addDat 5 3, .addDat 6 1, .removeDat 5] = some sg' →
      sg'.spec.Perm (groupProps sg'.group) :=
  C74_spec_current env (fun _ => env) (by unfold SpecOk; decide) ⟨2, by decide⟩
    ⟨1, by decide, by decide⟩ _

example : ((sgCreate env 2 0 2 1 0 [(0, 2), (1, 1)]).bind fun sg =>
    (sg.calls (fun _ => env) 0 [.addDat 5 3, .addDat 6 1, .removeDat 5]).map SpecGroup.spec) =
    some [(2, 2), (0, 2), (1, 1), (6, 1)] := by decide +kernel

/-- A sub group of `group`: layers 2, 0 of cell 0 and layer 0 of cell 1. -/
def getSub : Selection := ⟨3, [2, 1], [2, 1], [0, 2], [0, 2], [2, 0, 0]⟩

theorem getSub_made : selectCreate (subEnv 2) [3, 2] .whole subCond = some getSub := by
  decide +kernel

theorem getSub_built : Built (group home).hNpart (.sub getSub) :=
  .select (par := .whole) .whole (subEnv_ok [3, 2] (by decide)) getSub_made

theorem getSub_lists : Lists getSub [[2, 0], [0]] := by
  constructor <;> try decide
  intro c row k hc hk
  match c, k with
  | 0, 0 => simp at hc; subst hc; decide
  | 0, 1 => simp at hc; subst hc; decide
  | 0, k + 2 => simp at hc; subst hc; simp at hk
  | 1, 0 => simp at hc; subst hc; decide
  | 1, k + 1 => simp at hc; subst hc; simp at hk
  | c + 2, k => simp at hc

theorem getSub_names : NamesIn [[2, 0], [0]] [0, 1, 0] [1, 0, 0] [(0, 0), (1, 0), (0, 2)] := by
  refine ⟨rfl, rfl, ?_⟩
  intro i c k h
  match i with
  | 0 =>
    simp at h; obtain ⟨rfl, rfl⟩ := h
    exact ⟨rfl, [2, 0], 1, rfl, rfl, rfl⟩
  | 1 =>
    simp at h; obtain ⟨rfl, rfl⟩ := h
    exact ⟨rfl, [0], 0, rfl, rfl, rfl⟩
  | 2 =>
    simp at h; obtain ⟨rfl, rfl⟩ := h
    exact ⟨rfl, [2, 0], 0, rfl, rfl, rfl⟩
  | i + 3 => simp at h

/-- C74_sub_group. -/
example : ∃ ps, getParticlesSub env getReal getSpec (group home) (.sub getSub) [0, 1, 0]
    [1, 0, 0] = some ps ∧ HoldsParticles (group home) [(0, 0), (1, 0), (0, 2)] ps :=
  C74_sub_group env getReal (group_ok _) getSpec_ok getSub_built
    (show ParentLists _ (.sub getSub) _ from getSub_lists) getSub_names

/-- C74_sub_group_rejects: cell 1 of the sub group has one particle. -/
example : getParticlesSub env getReal getSpec (group home) (.sub getSub) [1] [1] = none :=
  C74_sub_group_rejects env getReal getSpec (group_ok _) getSub_built
    (show ParentLists _ (.sub getSub) _ from getSub_lists) (by
      rintro sel ⟨h1, -, h3⟩
      match sel, h1 with
      | [(c, k)], _ =>
        obtain ⟨e1, row, l, e2, e3, e4⟩ := h3 0 c k rfl
        have hc : c = 1 := by simpa using e1.symm
        have hl : l = 1 := by simpa using e3.symm
        subst hc hl
        simp at e2
        subst e2
        simp at e4)

/-- C74_new_set, C74_set_component, C74_set_element, C74_set_from. -/
example : SetShape (newPartSet 3 getSpec) := (C74_new_set (by decide)).1

example : (((newPartSet 2 [(0, 2), (1, 1)]).setComp 0 1 [8, 9]).bind fun ps =>
    ps.setAt 0 1 0 7) = some ⟨2, [⟨0, 2, [0, 7, 8, 9]⟩, ⟨1, 1, [0, 0]⟩]⟩ := by decide +kernel

example : (⟨2, [⟨0, 2, [0, 7, 8, 9]⟩, ⟨1, 1, [4, 5]⟩]⟩ : PartSet).setFrom
    ⟨2, [⟨1, 1, [2, 3]⟩, ⟨3, 1, [1, 1]⟩]⟩ =
    some ⟨2, [⟨0, 2, [0, 7, 8, 9]⟩, ⟨1, 1, [2, 3]⟩]⟩ := by decide +kernel

/-- C74_at_unchecked: there is no particle 2 in this set of two particles. -/
example : (⟨2, [⟨0, 2, [0, 7, 8, 9]⟩]⟩ : PartSet).at 0 2 0 = some 8 := by decide +kernel

/-- A group without ranks in which particles have a property that `group` does not have. -/
def getTarget : Group := { group home with dats := [⟨0, 2, [3, 2], [4, 4], [3, 2], [3, 2]⟩,
  ⟨1, 1, [3, 2], [4, 4], [3, 2], [3, 2]⟩, ⟨4, 1, [3, 2], [4, 4], [3, 2], [3, 2]⟩], rankSym := 4 }

theorem getTarget_ok : Consistent getTarget := by
  have h := group_ok home
  refine ⟨h.len, h.device, h.es_len, h.es, h.total, by decide, ?_, by decide, by decide,
    ⟨⟨1, 1, [3, 2], [4, 4], [3, 2], [3, 2]⟩, by decide, rfl, by decide⟩⟩
  intro d hd
  have key : ∀ d : Dat, (∃ d' ∈ (group home).dats, d = { d' with sym := d.sym, ncomp := d.ncomp }) →
      DatOk getTarget d := by
    rintro d ⟨d', hd', e⟩
    have := h.dats d' hd'
    rw [e]
    refine ⟨⟨this.mem.nrow_len, this.mem.alloc_len, this.mem.le, ?_⟩, this.host, this.device,
      this.rows, this.exact⟩
    intro c a j k h1 _ h3
    simp only [group, List.mem_cons, List.not_mem_nil, or_false] at hd'
    have : a = 4 := by
      rcases hd' with rfl | rfl | rfl <;>
      · match c with
        | 0 => simp at h1; omega
        | 1 => simp at h1; omega
        | c + 2 => simp at h1
    subst this
    simp only [getTarget, group]
    rw [if_pos h3]; rfl
  apply key
  simp only [getTarget, List.mem_cons, List.not_mem_nil, or_false] at hd
  rcases hd with rfl | rfl | rfl <;>
  exact ⟨⟨0, 2, [3, 2], [4, 4], [3, 2], [3, 2]⟩, by simp [group], rfl⟩

/-- C74_round_trip. -/
example : ∃ ps g2', getParticles env getReal getSpec (group home) (cellsOf getSel)
      (layersOf getSel) = some ps ∧
    addParticleSet env getTarget ps.toPSet = some g2' ∧ Consistent g2' ∧ SameShape getTarget g2' ∧
    ∀ c, c < getTarget.ncell → contents g2' c = contents getTarget c ++
      (getSel.filter fun p => p.1 == c).map
        fun p => projected getTarget (group home).mem (group home).dats p.1 p.2 :=
  C74_round_trip env env getReal (group_ok _) getSpec_ok getTarget_ok rfl
    (by unfold CommonComps; decide) getSel_ok
    (by intro p hp; exact (getSel_ok p hp).1)
    (by intro p hp; obtain ⟨h1, h2⟩ := getSel_ok p hp; exact group_cellId h1 h2)

/-- C74_remove_sub_group. -/
example : ∃ g', removeSubGroup env (group home) (.sub getSub) = some g' ∧ Consistent g' ∧
    SameShape (group home) g' ∧
    ∀ (c : Nat) (rows : List Nat), c < (group home).ncell → rows.Nodup →
      (∀ k, k ∈ rows ↔ k < count (group home) c ∧
        ¬ InParent (group home).hNpart (.sub getSub) c k) →
      (contents g' c).Perm (rows.map (particle (group home) c)) :=
  C74_remove_sub_group env_ok (group_ok _) (group_small _) getSub_built
    (fun c k hc hk _ => ⟨_, group_cellId hc hk, by simp [home]⟩)

example : (removeSubGroup env (group home) (.sub getSub)).map (fun g =>
    (contents g 0, contents g 1)) =
    some ([[some 1, some 11, some 0, some 2001, some 2011]],
      [[some 101, some 111, some 1, some 2101, some 2111]]) := by decide +kernel

end NP.Ex
