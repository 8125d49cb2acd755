import Verif.Group.LemmasDat
import Verif.Group.Props

/-!
# Property C18: the bookkeeping of a group over all histories of calls

Histories are lists of `GroupCall`; `Group.calls` runs them.  `CountsOk`, `Valid` and
`ValidHistory` are in `SpecHistory.lean`.
-/

set_option autoImplicit false

namespace NP

open Spec

/-- **C18** A new group: it has exactly the requested properties (and the rank property)
and no particles, and its bookkeeping is consistent. -/
theorem C18_new_group (e : Env) {ncell pos rank cell hint : Nat} {spec : List (Nat × Nat)}
    (hspec : SpecOk ((rank, 2) :: spec)) (hpos : ∃ n, (pos, n) ∈ spec)
    (hcell : ∃ n, 0 < n ∧ (cell, n) ∈ spec) :
    ∃ g, createGroup e ncell pos rank cell hint spec = some g ∧ Consistent g ∧
      g.ncell = ncell ∧ g.hNpart = List.replicate ncell 0 ∧
      (g.posSym = pos ∧ g.rankSym = rank ∧ g.cellSym = cell ∧ g.hint = hint) ∧
      ∀ s n, (∃ d ∈ g.dats, d.sym = s ∧ d.ncomp = n) ↔ (s, n) = (rank, 2) ∨ (s, n) ∈ spec := by
  obtain ⟨g, h1, h2, h3, h4, h5⟩ := addDats_book (e := e) (spec := (rank, 2) :: spec)
    (emptyGroup_book ncell pos rank cell hint) (by simp [emptyGroup]) hspec (by simp [emptyGroup])
  have h6 : ∀ s n, (∃ d ∈ g.dats, d.sym = s ∧ d.ncomp = n) ↔ (s, n) = (rank, 2) ∨ (s, n) ∈ spec := by
    intro s n
    rw [h5]
    simp [emptyGroup]
  refine ⟨g, h1, ⟨h2.len, h2.device, h2.es_len, h2.es, h2.total, h2.nodup, h2.dats, ?_, ?_, ?_⟩,
    h3.ncell, h4, ⟨h3.pos, h3.rank, h3.cell, h3.hint⟩, h6⟩
  · obtain ⟨n, hn⟩ := hpos
    obtain ⟨d, hd, q, -⟩ := (h6 pos n).2 (Or.inr hn)
    rw [h3.pos]; exact List.mem_map.2 ⟨d, hd, q⟩
  · obtain ⟨d, hd, q, -⟩ := (h6 rank 2).2 (Or.inl rfl)
    rw [h3.rank]; exact List.mem_map.2 ⟨d, hd, q⟩
  · obtain ⟨n, hn0, hn⟩ := hcell
    obtain ⟨d, hd, q, q'⟩ := (h6 cell n).2 (Or.inr hn)
    rw [h3.cell]; exact ⟨d, hd, q, by omega⟩

/-- **C18** Whatever calls are made on a group, with whatever arguments: if they return,
the counts of every property agree with the group, on host and device, the total is the
sum, the cached exclusive sum is the prefix sum, and positions, ranks and cell ids exist. -/
theorem C18_counts_agree (env : Nat → Env) {g g' : Group} (hg : Consistent g)
    {calls : List GroupCall} (h : g.calls env 0 calls = some g') :
    CountsOk g' ∧ g'.ncell = g.ncell ∧
      (g'.posSym = g.posSym ∧ g'.rankSym = g.rankSym ∧ g'.cellSym = g.cellSym) := by
  obtain ⟨h1, h2⟩ := calls_counts hg.counts h
  exact ⟨h1, h2.ncell, h2.pos, h2.rank, h2.cell⟩

/-- A valid call returns and leaves the group consistent. -/
theorem C18_valid_call {e e' : Env} (hE : EnvOk e) (hE' : EnvOk e') {g : Group}
    (hg : Consistent g) {x : GroupCall} (hx : Valid g x) :
    ∃ g', g.call e e' x = some g' ∧ Consistent g' := by
  cases x with
  | addSet ps =>
    obtain ⟨g', h1, h2, -⟩ := C13_add_particle_set e hg hx
    exact ⟨g', h1, h2⟩
  | addGroup src =>
    obtain ⟨k1, k2, k3, k4⟩ := hx
    obtain ⟨g', h1, h2, -⟩ := C14_add_group hE hg k1 k2 k3 k4
    exact ⟨g', h1, h2⟩
  | addSub src dats n cells layers =>
    obtain ⟨src', sel, ⟨rfl, rfl, rfl⟩, rfl, h3, h4, h5 | h5⟩ := hx
    · obtain ⟨rfl, rfl⟩ := h5
      obtain ⟨g', h1, h2, -⟩ := C14_add_own_sub_group e hg h3
      exact ⟨g', h1, h2⟩
    · obtain ⟨rfl, h6, h7⟩ := h5
      obtain ⟨g', h1, h2, -⟩ := C14_add_sub_group e hg h4 h6 h7 h3
      exact ⟨g', h1, h2⟩
  | remove n cells layers =>
    obtain ⟨k1, sel, ⟨rfl, rfl, rfl⟩, h3, h4⟩ := hx
    obtain ⟨g', h1, h2, -⟩ := C11_remove_keeps_others hE hg k1 h3 h4
    exact ⟨g', h1, h2⟩
  | removeHost n cells layers =>
    obtain ⟨k1, k2, k3, k4, k5⟩ := hx
    by_cases hn : 0 < n
    · obtain ⟨g', h1, h2, -⟩ := C11_remove_host hE hg k1 hn k2 k3 k4 k5
      exact ⟨g', h1, h2⟩
    · refine ⟨g, ?_, hg⟩
      simp only [Group.call, removeParticlesHost]
      rw [if_neg (by omega)]
  | remover sym key =>
    obtain ⟨k1, k2, k3⟩ := hx
    obtain ⟨g', h1, h2, -⟩ := C16_particle_remover hE hE' hg k1 k2 k3
    exact ⟨g', h1, h2⟩
  | cellMove =>
    obtain ⟨k1, k2⟩ := hx
    obtain ⟨g', h1, h2, -⟩ := C15_cell_move hE hE' hg k1 k2
    exact ⟨g', h1, h2⟩
  | addDat sym ncomp =>
    obtain ⟨g', h1, h2, -⟩ := addParticleDat_spec (e := e) hg hx.1 hx.2
    exact ⟨g', h1, h2⟩
  | removeDat sym =>
    obtain ⟨g', h1, h2, -⟩ := removeParticleDat_spec hg hx.1 hx.2.1 hx.2.2.1 hx.2.2.2
    exact ⟨g', h1, h2⟩
  | clear =>
    obtain ⟨g', h1, h2, -⟩ := clearGroup_spec (e := e) hg
    exact ⟨g', h1, h2⟩

/-- **C18** Along every history of valid calls, no call fails and the bookkeeping of the
group, including the allocation of a row for every particle, stays consistent. -/
theorem C18_valid_history {env : Nat → Env} (hE : ∀ i, EnvOk (env i)) {g : Group}
    (hg : Consistent g) {calls : List GroupCall} {i : Nat} (hv : ValidHistory env i g calls) :
    ∃ g', g.calls env i calls = some g' ∧ Consistent g' := by
  induction calls generalizing g i with
  | nil => exact ⟨g, rfl, hg⟩
  | cons x xs ih =>
    obtain ⟨g1, h1, h2⟩ := C18_valid_call (hE _) (hE _) hg hv.1
    obtain ⟨g', h3, h4⟩ := ih h2 (hv.2 g1 h1)
    refine ⟨g', ?_, h4⟩
    simp only [Group.calls]
    rw [h1]
    exact h3

/-- **C18** Positions, ranks and cell ids cannot be removed. -/
theorem C18_required_properties_stay (g : Group) {sym : Nat}
    (h : sym = g.posSym ∨ sym = g.rankSym ∨ sym = g.cellSym) : removeParticleDat g sym = none := by
  unfold removeParticleDat
  rw [if_neg]
  rintro ⟨-, h1, h2, h3⟩
  rcases h with h | h | h
  · exact h1 h
  · exact h2 h
  · exact h3 h

/-- **C18** Adding a property changes no value of any other property, and adding one that
exists changes nothing. -/
theorem C18_add_property (e : Env) {g : Group} (hg : Consistent g) {sym ncomp : Nat}
    (hcomp : ∀ d ∈ g.dats, d.sym = sym → d.ncomp = ncomp)
    (hint : g.hint = 0 ∨ ∀ n ∈ g.hNpart, n ≤ g.hint) :
    ∃ g', addParticleDat e g sym ncomp = some g' ∧ Consistent g' ∧ g'.hNpart = g.hNpart ∧
      (∃ d ∈ g'.dats, d.sym = sym ∧ d.ncomp = ncomp) ∧
      (sym ∈ g.dats.map (·.sym) → g' = g) ∧
      ∀ s c j k, s ∈ g.dats.map (·.sym) → g'.mem ⟨s, c, j, k⟩ = g.mem ⟨s, c, j, k⟩ := by
  obtain ⟨g', h1, h2, -, h4, h5, h6, h7, -⟩ := addParticleDat_spec (e := e) hg hcomp hint
  exact ⟨g', h1, h2, h4, h5, h7, fun s c j k hs => h6 _ hs⟩

/-- **C18** A property with the name but not the number of components of an existing one is
rejected. -/
theorem C18_incompatible_property_rejected (e : Env) {g : Group} (hg : Consistent g)
    {d : Dat} (hd : d ∈ g.dats) {ncomp : Nat} (h : d.ncomp ≠ ncomp) :
    addParticleDat e g d.sym ncomp = none := by
  obtain ⟨d', hd', h1, h2⟩ := dat?_of_mem_syms (List.mem_map.2 ⟨d, hd, rfl⟩)
  have := List.inj_on_of_nodup_map hg.nodup hd' hd h2
  subst this
  unfold addParticleDat
  rw [h1]
  simp only
  rw [if_neg h]

/-- **C18** Removing a property removes only it. -/
theorem C18_remove_property {g : Group} (hg : Consistent g) {sym : Nat}
    (hs : sym ∈ g.dats.map (·.sym)) (hp : sym ≠ g.posSym) (hr : sym ≠ g.rankSym)
    (hc : sym ≠ g.cellSym) :
    ∃ g', removeParticleDat g sym = some g' ∧ Consistent g' ∧ g'.hNpart = g.hNpart ∧
      (∀ d, d ∈ g'.dats ↔ d ∈ g.dats ∧ d.sym ≠ sym) ∧
      ∀ s c j k, s ≠ sym → g'.mem ⟨s, c, j, k⟩ = g.mem ⟨s, c, j, k⟩ := by
  obtain ⟨g', h1, h2, -, h4, h5, h6⟩ := removeParticleDat_spec hg hs hp hr hc
  refine ⟨g', h1, h2, h4, ?_, fun s c j k hs => h6 _ hs⟩
  intro d
  rw [h5, List.mem_filter]
  simp

/-- **C18** `clear` leaves no particles and keeps the properties. -/
theorem C18_clear (e : Env) {g : Group} (hg : Consistent g) :
    ∃ g', clearGroup e g = some g' ∧ Consistent g' ∧ SameShape g g' ∧
      ∀ c, c < g.ncell → contents g' c = [] := by
  obtain ⟨g', h1, h2, h3, h4, h5⟩ := clearGroup_spec (e := e) hg
  refine ⟨g', h1, h2, ⟨h3.ncell, flatComps_congr h4, h3.pos, h3.rank, h3.cell, h3.hint⟩, ?_⟩
  intro c hc
  have : count g' c = 0 := by
    unfold count
    rw [h5, List.getD_eq_getElem?_getD, List.getElem?_replicate, if_pos hc]
    rfl
  unfold contents
  rw [this]
  rfl

/-! ### The hint on the number of particles per cell -/

/-- A group with one cell and two particles, made with the hint 1. -/
def Ex.hinted : Option Group :=
  (createGroup Ex.env 1 0 2 1 1 [(0, 1), (1, 1)]).bind fun g =>
  addParticleSet Ex.env g ⟨2, [(0, [5, 6]), (1, [0, 0]), (2, [0, 0, 0, 0])]⟩

/-- The hypothesis on the hint in `Valid` is needed: a property that is added to a group
with more particles in a cell than the hint has fewer rows than the cell has particles. -/
theorem C18_small_hint_too_few_rows :
    ((Ex.hinted.bind fun g => addParticleDat Ex.env g 7 1).map fun g =>
      (g.hNpart, (g.dat? 7).map (·.nrow))) = some ([2], some [1]) := by decide

/-- And the next time particles are added, values of that property are lost: the second
particle had the value 9. -/
theorem C18_small_hint_loses_values :
    ((Ex.hinted.bind fun g => addParticleDat Ex.env g 7 1).bind fun g =>
      addParticleSet Ex.env
        { g with mem := fun k => if k = ⟨7, 0, 0, 1⟩ then some 9 else g.mem k }
        ⟨1, [(0, [5]), (1, [0])]⟩).map
      (fun g => (g.hNpart, g.mem ⟨7, 0, 0, 1⟩)) = some ([3], some (-5)) := by decide

/-! ### Examples -/

/-- A history: particles are added, one is removed, a property is added and used, particles
are moved between cells. -/
def Ex.history : List GroupCall :=
  [.addSet Ex.pset, .remove 1 [0] [1], .addDat 9 2, .cellMove, .removeDat 9, .clear]

example : ((Ex.group Ex.home).calls (fun _ => Ex.env) 0 Ex.history).isSome = true := by decide

example : ((Ex.group Ex.home).calls (fun _ => Ex.env) 0 (Ex.history.take 4)).map
    (fun g => (g.hNpart, g.npartEs, g.npartLocal)) = some ([3, 4], [0, 3], 7) := by decide

example : ValidHistory (fun _ => Ex.env) 0 (Ex.group Ex.home)
    [.addSet Ex.pset, .addDat 9 2, .clear] := by
  refine ⟨fun _ => Ex.pset_ok, fun g1 h1 => ⟨⟨?_, Or.inl ?_⟩, fun g2 _ => ⟨trivial, fun _ _ => trivial⟩⟩⟩
  · obtain ⟨g1', h2, -, h4, -⟩ := C13_add_particle_set Ex.env (Ex.group_ok Ex.home)
      (fun _ => Ex.pset_ok)
    have : g1 = g1' := by
      have h1' : addParticleSet Ex.env (Ex.group Ex.home) Ex.pset = some g1 := h1
      rw [h2] at h1'
      simpa using h1'.symm
    subst this
    intro d hd hs
    exfalso
    have : (addParticleSet Ex.env (Ex.group Ex.home) Ex.pset).map
        (fun g => decide (∀ d ∈ g.dats, d.sym ≠ 9)) = some true := by decide
    rw [h2] at this
    simp only [Option.map_some, Option.some.injEq, decide_eq_true_eq] at this
    exact this d hd hs
  · have h : (addParticleSet Ex.env (Ex.group Ex.home) Ex.pset).map (·.hint) = some 0 := by decide
    have h1' : addParticleSet Ex.env (Ex.group Ex.home) Ex.pset = some g1 := h1
    rw [h1'] at h
    simpa using h

example : ∃ g, createGroup Ex.env 2 0 2 1 0 [(0, 2), (1, 1)] = some g ∧ Consistent g ∧
    g.ncell = 2 ∧ g.hNpart = List.replicate 2 0 ∧
    (g.posSym = 0 ∧ g.rankSym = 2 ∧ g.cellSym = 1 ∧ g.hint = 0) ∧
    ∀ s n, (∃ d ∈ g.dats, d.sym = s ∧ d.ncomp = n) ↔
      (s, n) = (2, 2) ∨ (s, n) ∈ [(0, 2), (1, 1)] :=
  C18_new_group Ex.env (by unfold SpecOk; decide) ⟨2, by simp⟩ ⟨1, by decide, by simp⟩

end NP
