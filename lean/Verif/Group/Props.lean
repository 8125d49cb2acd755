import Verif.Group.Examples
import Verif.Group.LemmasRemoveSparse
import Verif.Group.LemmasAddSub
import Verif.Group.LemmasCellMove2

/-!
# Properties C11 – C16: removing, adding and moving particles

`Env` collects everything the program does not determine (orders of work items, contents
of uninitialised memory, over allocation, device parameters); all theorems hold for every
value of it.  `Consistent`, `contents`, `particle` and `SameShape` are in `Spec.lean`.
-/

set_option autoImplicit false

namespace NP

open Spec

/-- The lists of cells and layers of some particles. -/
abbrev cellsOf (sel : List (Nat × Nat)) : List Int := sel.map fun p => (p.1 : Int)

/-- See `cellsOf`. -/
abbrev layersOf (sel : List (Nat × Nat)) : List Int := sel.map fun p => (p.2 : Int)

/-! ## C11 -/

/-- **C11** `remove_particles` with a list of particles of the group: afterwards each cell
holds exactly the particles that were not listed, each with all its values, in dense rows
(`contents`), and the bookkeeping of the group is consistent. -/
theorem C11_remove_keeps_others {e : Env} (hE : EnvOk e) {g : Group} (hg : Consistent g)
    (hsmall : SmallCounts g) {sel : List (Nat × Nat)}
    (hsel : ∀ p ∈ sel, p.1 < g.ncell ∧ p.2 < count g p.1)
    (hids : ∀ c k, c < g.ncell → k < count g c → (c, k) ∉ sel →
      ∃ v, cellId g c k = some v ∧ 0 ≤ v) :
    ∃ g', removeParticles e g sel.length (cellsOf sel) (layersOf sel) = some g' ∧
      Consistent g' ∧ SameShape g g' ∧
      ∀ c, c < g.ncell → (contents g' c).Perm
        (((List.range (count g c)).filter fun k => decide ((c, k) ∉ sel)).map
          (particle g c)) := by
  obtain ⟨g', h1, h2, h3, -, h4⟩ := removeParticles_spec hE hg hsmall (npart := sel.length)
    (cells := cellsOf sel) (layers := layersOf sel) (by simp) (by simp)
    (fun c k _ hl => (hsel _ (listed_sel.1 hl)).2)
    (fun c k hc hk hl => hids c k hc hk (fun h => hl (listed_sel.2 h)))
  refine ⟨g', h1, h2, h3, fun c hc => ?_⟩
  have := h4 c hc
  rwa [List.filter_congr (q := fun k => decide ((c, k) ∉ sel))] at this
  intro k _
  simp only [decide_eq_decide]
  rw [listed_sel]

/-- **C11** The overload that takes host vectors, which may be longer than the number of
particles to remove; entries that name no cell are ignored. -/
theorem C11_remove_host {e : Env} (hE : EnvOk e) {g : Group} (hg : Consistent g)
    (hsmall : SmallCounts g) {npart : Nat} (hn : 0 < npart) {cells layers : List Int}
    (hcells : npart ≤ cells.length) (hlayers : npart ≤ layers.length)
    (hlisted : ∀ c k, c < g.ncell → Listed npart cells layers c k → k < count g c)
    (hids : ∀ c k, c < g.ncell → k < count g c → ¬ Listed npart cells layers c k →
      ∃ v, cellId g c k = some v ∧ 0 ≤ v) :
    ∃ g', removeParticlesHost e g npart cells layers = some g' ∧ Consistent g' ∧
      SameShape g g' ∧
      ∀ c, c < g.ncell → (contents g' c).Perm
        (((List.range (count g c)).filter fun k => decide ¬ Listed npart cells layers c k).map
          (particle g c)) := by
  have hL : ∀ c k, Listed npart (cells.take npart) (layers.take npart) c k ↔
      Listed npart cells layers c k := by
    intro c k
    unfold Listed
    simp only [List.zip_eq_zipWith, List.take_zipWith, List.take_take, Nat.min_self]
  obtain ⟨g', h1, h2, h3, -, h4⟩ := removeParticles_spec hE hg hsmall (npart := npart)
    (cells := cells.take npart) (layers := layers.take npart) (by simp; omega) (by simp; omega)
    (fun c k hc hl => hlisted c k hc ((hL c k).1 hl))
    (fun c k hc hk hl => hids c k hc hk (fun h => hl ((hL c k).2 h)))
  refine ⟨g', ?_, h2, h3, fun c hc => ?_⟩
  · unfold removeParticlesHost
    rw [if_pos hn, if_pos ⟨hcells, hlayers⟩]; exact h1
  · have := h4 c hc
    rwa [List.filter_congr (q := fun k => decide ¬ Listed npart cells layers c k)] at this
    intro k _
    simp only [decide_eq_decide]
    rw [hL]

/-- **C11** Vectors that are too short are rejected; nothing is removed. -/
theorem C11_remove_host_short (e : Env) (g : Group) {npart : Nat} {cells layers : List Int}
    (h : cells.length < npart ∨ layers.length < npart) :
    removeParticlesHost e g npart cells layers = none := by
  unfold removeParticlesHost
  rw [if_pos (by omega), if_neg (by omega)]

/-- The hypothesis of C11 on the cell ids is needed: the removal of the particle in row 2
of cell 0 also removes the particle in row 1, which is not listed but has the cell id -1. -/
theorem C11_negative_cell_id_also_removed :
    (removeParticles Ex.env (Ex.group fun c k => if c = 0 ∧ k = 1 then -1 else 0) 1 [0]
      [2]).map (·.hNpart) = some [1, 2] := by decide

/-- Two of the five particles are removed. -/
example : ∃ g', removeParticles Ex.env (Ex.group Ex.home) 2 [1, 0] [1, 0] = some g' ∧
    Consistent g' ∧ SameShape (Ex.group Ex.home) g' ∧
    ∀ c, c < 2 → (contents g' c).Perm
      (((List.range (count (Ex.group Ex.home) c)).filter fun k =>
        decide ((c, k) ∉ [(1, 1), (0, 0)])).map (particle (Ex.group Ex.home) c)) :=
  C11_remove_keeps_others (sel := [(1, 1), (0, 0)]) Ex.env_ok (Ex.group_ok _) (Ex.group_small _)
    (by decide) (fun c k hc hk _ => ⟨_, Ex.group_cellId hc hk, by simp [Ex.home]⟩)

/-- The counts after that. -/
example : (removeParticles Ex.env (Ex.group Ex.home) 2 [1, 0] [1, 0]).map
    (fun g => (g.hNpart, contents g 0)) =
    some ([2, 1], [[some 2, some 12, some 0, some 2002, some 2012],
      [some 1, some 11, some 0, some 2001, some 2011]]) := by decide

/-! ## C12 -/

/-- **C12** Removal with the compression that uses atomic counters: for every order of
the work items of its kernels, each cell holds exactly the particles that were not listed,
in dense rows. -/
theorem C12_sparse_keeps_others {e : Env} (hE : EnvOk e) {g : Group} (hg : Consistent g)
    (hsmall : SmallCounts g) {sel : List (Nat × Nat)} (hnd : sel.Nodup)
    (hsel : ∀ p ∈ sel, p.1 < g.ncell ∧ p.2 < count g p.1)
    (hids : ∀ c k, c < g.ncell → k < count g c → (c, k) ∉ sel →
      ∃ v, cellId g c k = some v ∧ 0 ≤ v) :
    ∃ g', removeParticlesSparse e g sel.length (cellsOf sel) (layersOf sel) = some g' ∧
      Consistent g' ∧ SameShape g g' ∧
      ∀ c, c < g.ncell → (contents g' c).Perm
        (((List.range (count g c)).filter fun k => decide ((c, k) ∉ sel)).map
          (particle g c)) := by
  obtain ⟨g', h1, h2, h3, -, h4⟩ := removeParticlesSparse_spec hE hg hsmall hnd hsel hids
  exact ⟨g', h1, h2, h3, h4⟩

example : ∃ g', removeParticlesSparse Ex.env (Ex.group Ex.home) 2 [1, 0] [1, 0] = some g' ∧
    Consistent g' ∧ SameShape (Ex.group Ex.home) g' ∧
    ∀ c, c < 2 → (contents g' c).Perm
      (((List.range (count (Ex.group Ex.home) c)).filter fun k =>
        decide ((c, k) ∉ [(1, 1), (0, 0)])).map (particle (Ex.group Ex.home) c)) :=
  C12_sparse_keeps_others (sel := [(1, 1), (0, 0)]) Ex.env_ok (Ex.group_ok _)
    (Ex.group_small _) (by decide) (by decide)
    (fun c k hc hk _ => ⟨_, Ex.group_cellId hc hk, by simp [Ex.home]⟩)

/-! ## C13 -/

/-- **C13** `add_particles_local(ParticleSet)`: existing particles keep their rows, and
each new particle is appended once, in the order of the set, to the cell it names, with
the given values and zeros for missing properties. -/
theorem C13_add_particle_set (e : Env) {g : Group} (hg : Consistent g) {ps : PSet}
    (hps : 0 < ps.npart → SetOk g ps) :
    ∃ g', addParticleSet e g ps = some g' ∧ Consistent g' ∧ SameShape g g' ∧
      ∀ c, c < g.ncell → contents g' c = contents g c ++
        ((List.range ps.npart).filter (goesTo g ps c)).map (newParticle g ps) := by
  obtain ⟨g', h1, h2, h3, -, h4⟩ := addParticleSet_spec e hg hps
  exact ⟨g', h1, h2, h3, h4⟩

/-- **C13** A set with a cell id that names no cell is rejected. -/
theorem C13_bad_cell_rejected (e : Env) {g : Group} {ps : PSet} {ids : List Int}
    (hids : ps.get? g.cellSym = some ids) {i : Nat} (hi : i < ps.npart) {v : Int}
    (hv : ids[i]? = some v) (hbad : v < 0 ∨ (g.ncell : Int) ≤ v) :
    addParticleSet e g ps = none := by
  have hloop : ∀ s, forLoop 0 ps.npart (setLayerStep g.ncell ids) s = none := by
    intro s
    unfold forLoop
    refine runItems_none (i := i) (by simp [hi]) ?_ s
    intro s
    unfold setLayerStep
    simp only [rd, hv, Option.bind_some]
    rw [if_neg (by omega)]
  unfold addParticleSet
  dsimp only
  rw [if_neg (by omega)]
  by_cases hc : setCompsOk (invalidateVersion g) ps = true
  · rw [if_neg (by simp [hc]), show (invalidateVersion g).cellSym = g.cellSym from rfl, hids]
    simp only [Option.bind_some]
    rw [show (invalidateVersion g).ncell = g.ncell from rfl, hloop]; rfl
  · rw [if_pos hc]

/-- **C13** A non empty set without cell ids is rejected. -/
theorem C13_no_cells_rejected (e : Env) {g : Group} {ps : PSet} (hn : 0 < ps.npart)
    (hids : ps.get? g.cellSym = none) : addParticleSet e g ps = none := by
  unfold addParticleSet
  dsimp only
  rw [if_neg (by omega)]
  by_cases hc : setCompsOk (invalidateVersion g) ps = true
  · rw [if_neg (by simp [hc]), show (invalidateVersion g).cellSym = g.cellSym from rfl, hids]; rfl
  · rw [if_pos hc]

/-- Three particles with positions and cell ids but no ranks. -/
def Ex.pset : PSet := ⟨3, [(1, [1, 0, 1]), (0, [91, 92, 93, 94, 95, 96])]⟩

theorem Ex.pset_ok : SetOk (Ex.group Ex.home) Ex.pset := by
  refine ⟨?_, ⟨[1, 0, 1], rfl, ?_⟩⟩
  · intro d hd v hv
    simp only [Ex.group, List.mem_cons, List.not_mem_nil, or_false] at hd
    rcases hd with rfl | rfl | rfl <;> simp [Ex.pset, PSet.get?] at hv <;> subst hv <;> rfl
  · intro i hi
    match i, hi with
    | 0, _ => exact ⟨1, by decide, rfl⟩
    | 1, _ => exact ⟨0, by decide, rfl⟩
    | 2, _ => exact ⟨1, by decide, rfl⟩

example : ∃ g', addParticleSet Ex.env (Ex.group Ex.home) Ex.pset = some g' ∧ Consistent g' ∧
    SameShape (Ex.group Ex.home) g' ∧
    ∀ c, c < 2 → contents g' c = contents (Ex.group Ex.home) c ++
      ((List.range 3).filter (goesTo (Ex.group Ex.home) Ex.pset c)).map
        (newParticle (Ex.group Ex.home) Ex.pset) :=
  C13_add_particle_set Ex.env (Ex.group_ok _) (fun _ => Ex.pset_ok)

/-- The particles appended to cell 1. -/
example : ((List.range 3).filter (goesTo (Ex.group Ex.home) Ex.pset 1)).map
    (newParticle (Ex.group Ex.home) Ex.pset) =
    [[some 91, some 94, some 1, some 0, some 0], [some 93, some 96, some 1, some 0, some 0]] := by
  decide

/-! ## C14 -/

/-- **C14** `add_particles_local(ParticleGroup)`: existing particles keep their rows, and a
copy of every particle of the other group is appended to the same cell, with zeros for
properties the other group does not have.  (The other group is an input that the function
does not return: it cannot change.) -/
theorem C14_add_group {e : Env} (hE : EnvOk e) {g src : Group} (hg : Consistent g)
    (hs : Consistent src) (hcell : g.ncell = src.ncell) (hcc : CommonComps g.dats src.dats)
    (hsmall : SmallCounts src) :
    ∃ g', addGroup e g src = some g' ∧ Consistent g' ∧ SameShape g g' ∧
      ∀ c, c < g.ncell → contents g' c = contents g c ++
        (List.range (count src c)).map (projected g src.mem src.dats c) := by
  obtain ⟨g', h1, h2, h3, -, h4⟩ := addGroup_spec hE hg hs hcell hcc hsmall
  exact ⟨g', h1, h2, h3, h4⟩

/-- **C14** Groups with different numbers of cells, or with a common property with
different numbers of components, are rejected. -/
theorem C14_add_group_rejected (e : Env) {g src : Group} (hs : Consistent src)
    (h : g.ncell ≠ src.ncell ∨ ¬ CommonComps g.dats src.dats) : addGroup e g src = none := by
  unfold addGroup
  by_cases hn : g.ncell = src.ncell
  · rw [if_neg (by simpa using hn), if_pos]
    rw [compsOk_iff hs.nodup]
    exact h.resolve_left (fun h => h hn)
  · rw [if_pos hn]

/-- **C14** `add_particles_local(ParticleSubGroup)` for a selection `sel` of particles of
another group: existing particles keep their rows, and a copy of every selected particle is
appended to the same cell (in an order that depends on the schedule). -/
theorem C14_add_sub_group (e : Env) {g src : Group} (hg : Consistent g) (hs : Consistent src)
    (hcell : g.ncell = src.ncell) (hcc : CommonComps g.dats src.dats) {sel : List (Nat × Nat)}
    (hsel : ∀ p ∈ sel, p.1 < src.ncell ∧ p.2 < count src p.1) :
    ∃ g', addSubGroup e g (.other src.mem) src.dats sel.length (cellsOf sel) (layersOf sel) =
        some g' ∧ Consistent g' ∧ SameShape g g' ∧
      ∀ c, c < g.ncell → ∃ l, contents g' c = contents g c ++ l ∧
        l.Perm ((sel.filter (fun p => p.1 == c)).map
          fun p => projected g src.mem src.dats p.1 p.2) := by
  obtain ⟨g', h1, h2, h3, -, h4⟩ := addSubGroup_spec e hg (src := .other src.mem)
    hs.nodup hcc (sel := sel) (fun p hp => by rw [hcell]; exact (hsel p hp).1)
    (by
      intro p hp sj hsj hin
      obtain ⟨d', hd', hds⟩ := List.mem_map.1 hin
      obtain ⟨d, hd, h5, h6⟩ := mem_flatComps.1 hsj
      have := hcc d hd d' hd' (by rw [h5, hds])
      have hmem : (sj.1, sj.2) ∈ flatComps src.dats :=
        mem_flatComps.2 ⟨d', hd', hds, by omega⟩
      exact hs.datsOk.isSome hmem (get_getD hs.len (hsel p hp).1) (hsel p hp).2)
    (fun h => by cases h)
  exact ⟨g', h1, h2, h3, h4⟩

/-- **C14** The same for a selection of particles of the group itself: the selected
particles are duplicated. -/
theorem C14_add_own_sub_group (e : Env) {g : Group} (hg : Consistent g) {sel : List (Nat × Nat)}
    (hsel : ∀ p ∈ sel, p.1 < g.ncell ∧ p.2 < count g p.1) :
    ∃ g', addSubGroup e g .self g.dats sel.length (cellsOf sel) (layersOf sel) = some g' ∧
      Consistent g' ∧ SameShape g g' ∧
      ∀ c, c < g.ncell → ∃ l, contents g' c = contents g c ++ l ∧
        l.Perm ((sel.filter (fun p => p.1 == c)).map fun p => particle g p.1 p.2) := by
  obtain ⟨g', h1, h2, h3, -, h4⟩ := addSubGroup_spec e hg (src := .self)
    hg.nodup (by
      intro d hd d' hd' h
      rw [List.inj_on_of_nodup_map hg.nodup hd hd' h]) (sel := sel) (fun p hp => (hsel p hp).1)
    (by
      intro p hp sj hsj _
      exact hg.datsOk.isSome hsj (get_getD hg.len (hsel p hp).1) (hsel p hp).2)
    (fun _ p hp => (hsel p hp).2)
  refine ⟨g', h1, h2, h3, fun c hc => ?_⟩
  obtain ⟨l, h5, h6⟩ := h4 c hc
  refine ⟨l, h5, ?_⟩
  have : ∀ p : Nat × Nat, projected g (sourceMem g .self) g.dats p.1 p.2 = particle g p.1 p.2 := by
    intro p
    unfold projected particle
    apply List.map_congr_left
    intro sj hsj
    rw [if_pos]
    · rfl
    · obtain ⟨d, hd, h7, -⟩ := mem_flatComps.1 hsj
      exact List.mem_map.2 ⟨d, hd, h7⟩
  simpa only [this] using h6

/-- A group is added to another group of the same shape. -/
example : ∃ g', addGroup Ex.env (Ex.group Ex.home) (Ex.group fun _ _ => 0) = some g' ∧
    Consistent g' ∧ SameShape (Ex.group Ex.home) g' ∧
    ∀ c, c < 2 → contents g' c = contents (Ex.group Ex.home) c ++
      (List.range (count (Ex.group fun _ _ => 0) c)).map
        (projected (Ex.group Ex.home) (Ex.group fun _ _ => 0).mem (Ex.group Ex.home).dats c) :=
  C14_add_group Ex.env_ok (Ex.group_ok _) (Ex.group_ok _) rfl (by
    intro d hd d' hd' h
    exact congrArg Dat.ncomp (List.inj_on_of_nodup_map (Ex.group_ok Ex.home).nodup hd hd' h))
    (Ex.group_small _)

/-- Two particles of a group are duplicated. -/
example : ∃ g', addSubGroup Ex.env (Ex.group Ex.home) .self (Ex.group Ex.home).dats 2 [1, 1]
      [1, 0] = some g' ∧
    Consistent g' ∧ SameShape (Ex.group Ex.home) g' ∧
    ∀ c, c < 2 → ∃ l, contents g' c = contents (Ex.group Ex.home) c ++ l ∧
      l.Perm ((([(1, 1), (1, 0)] : List (Nat × Nat)).filter (fun p => p.1 == c)).map
        fun p => particle (Ex.group Ex.home) p.1 p.2) :=
  C14_add_own_sub_group (sel := [(1, 1), (1, 0)]) Ex.env (Ex.group_ok _) (by decide)

/-! ## C15 -/

/-- **C15** `cell_move`: afterwards each cell holds exactly the particles whose cell id
named it, each with all its values, in dense rows, for every schedule. -/
theorem C15_cell_move {e e' : Env} (hE : EnvOk e) (hE' : EnvOk e') {g : Group}
    (hg : Consistent g) (hsmall : g.hNpart.sum < 2 ^ 31)
    (hids : ∀ c k, c < g.ncell → k < count g c →
      ∃ v, cellId g c k = some v ∧ 0 ≤ v ∧ v < g.ncell) :
    ∃ g', cellMove e e' g = some g' ∧ Consistent g' ∧ SameShape g g' ∧
      ∀ c, c < g.ncell → (contents g' c).Perm
        (((particles g).filter fun p => cellId g p.1 p.2 == some (c : Int)).map
          fun p => particle g p.1 p.2) := by
  obtain ⟨g', h1, h2, h3, -, h4⟩ := cellMove_spec hE hE' hg hsmall hids
  exact ⟨g', h1, h2, h3, h4⟩

/-- **C15** A particle with a cell id that names no cell makes `cell_move` fail. -/
theorem C15_bad_cell_rejected {e : Env} (e' : Env) (hE : EnvOk e) {g : Group}
    (hg : Consistent g) (hsmall : g.hNpart.sum < 2 ^ 31) {c k : Nat} (hc : c < g.ncell)
    (hk : k < count g c) {v : Int} (hv : cellId g c k = some v)
    (hbad : v < 0 ∨ (g.ncell : Int) ≤ v) : cellMove e e' g = none :=
  cellMove_bad_cell e' hE hg hsmall hc hk hv hbad

/-- Particles move in both directions. -/
example : ∃ g', cellMove Ex.env Ex.env (Ex.group fun _ k => if k = 1 then 1 else 0) = some g' ∧
    Consistent g' ∧ SameShape (Ex.group fun _ k => if k = 1 then 1 else 0) g' ∧
    ∀ c, c < 2 → (contents g' c).Perm
      (((particles (Ex.group fun _ k => if k = 1 then 1 else 0)).filter fun p =>
        cellId (Ex.group fun _ k => if k = 1 then 1 else 0) p.1 p.2 == some (c : Int)).map
          fun p => particle (Ex.group fun _ k => if k = 1 then 1 else 0) p.1 p.2) :=
  C15_cell_move Ex.env_ok Ex.env_ok (Ex.group_ok _) (by decide) (by
    intro c k hc hk
    refine ⟨_, Ex.group_cellId hc hk, ?_⟩
    split <;> decide)

/-- The counts after that move. -/
example : (cellMove Ex.env Ex.env (Ex.group fun _ k => if k = 1 then 1 else 0)).map
    (·.hNpart) = some [3, 2] := by decide

/-! ## C16 -/

/-- **C16** `ParticleRemover::remove`: exactly the particles whose first component of the
property equals the key are removed, for every schedule. -/
theorem C16_particle_remover {e e' : Env} (hE : EnvOk e) (hE' : EnvOk e') {g : Group}
    (hg : Consistent g) (hsmall : SmallCounts g) {sym : Nat} {key : Int}
    (hsym : ∃ d ∈ g.dats, d.sym = sym ∧ 0 < d.ncomp)
    (hids : ∀ c k, c < g.ncell → k < count g c → g.mem ⟨sym, c, 0, k⟩ ≠ some key →
      ∃ v, cellId g c k = some v ∧ 0 ≤ v) :
    ∃ g', removerRemove e e' g sym key = some g' ∧ Consistent g' ∧ SameShape g g' ∧
      ∀ c, c < g.ncell → (contents g' c).Perm
        (((List.range (count g c)).filter fun k =>
          decide (g.mem ⟨sym, c, 0, k⟩ ≠ some key)).map (particle g c)) :=
  removerRemove_spec hE hE' hg hsmall hsym hids

/-- Particles with cell id -1 are removed, the usual use. -/
example : ∃ g', removerRemove Ex.env Ex.env (Ex.group fun _ k => if k = 1 then -1 else 0) 1
      (-1) = some g' ∧ Consistent g' ∧
    SameShape (Ex.group fun _ k => if k = 1 then -1 else 0) g' ∧
    ∀ c, c < 2 → (contents g' c).Perm
      (((List.range (count (Ex.group fun _ k => if k = 1 then -1 else 0) c)).filter fun k =>
        decide ((Ex.group fun _ k => if k = 1 then -1 else 0).mem ⟨1, c, 0, k⟩ ≠
          some (-1))).map (particle (Ex.group fun _ k => if k = 1 then -1 else 0) c)) :=
  C16_particle_remover Ex.env_ok Ex.env_ok (Ex.group_ok _) (Ex.group_small _)
    ⟨⟨1, 1, [3, 2], [4, 4], [3, 2], [3, 2]⟩, by simp [Ex.group], rfl, by decide⟩ (by
      intro c k hc hk hne
      refine ⟨_, Ex.group_cellId hc hk, ?_⟩
      have := Ex.group_cellId (ids := fun _ k => if k = 1 then -1 else 0) hc hk
      unfold cellId at this
      split
      · rename_i h1
        exfalso
        apply hne
        rw [if_pos h1] at this
        exact this
      · decide)

end NP
