import Verif.Boundary.PropsWallPost
import Verif.Mesh.ExamplesCart

/-!
# C69: a call that meets the hypotheses, and a side in two groups
-/

set_option autoImplicit false

namespace NP

open Spec

namespace Ex

/-- New rows for the tests. -/
def wallFresh (ndim : Nat) : FreshRows ndim := fun counts =>
  ⟨counts.map fun n => List.replicate n ⟨List.replicate ndim 9, List.replicate ndim 8, [7, 6]⟩, by
    constructor
    · rw [List.map_map]
      conv_rhs => rw [← List.map_id counts]
      exact List.map_congr_left fun n _ => by simp
    · intro cell hc r hr
      obtain ⟨n, -, rfl⟩ := List.mem_map.1 hc
      rw [List.eq_of_mem_replicate hr]
      simp⟩

/-- Memory contents and schedules. -/
def wallEnv (ncell ndim : Nat) : WallEnv ndim where
  P := ⟨1024, 4, 1⟩
  dep := subEnv ncell
  hit := Sched.reversed
  pts := fun n => ⟨List.replicate n 3, by simp⟩
  sides := fun n => ⟨List.replicate n 4, by simp⟩
  lut := fun n => ⟨List.replicate n 5, by simp⟩
  grp := fun _ => subEnv ncell
  rows := fun _ => wallFresh ndim
  collect := fun _ => Sched.reversed

/-- Five particles in the domain of extents 2 and 3: one stays inside of it. -/
def wallRows : List (List WallPart) :=
  [[⟨[1, -1], [1, 1]⟩, ⟨[5/2, 1], [3/2, 1/2]⟩, ⟨[1, 2], [1, 1]⟩], [], [⟨[1/2, 4], [1/2, 2]⟩, ⟨[-1, 1], [1, 1]⟩]]

def wallGroups : List (Int × List Int) := [(5, [0, 2]), (7, [1])]

theorem wallCall : WallCall cartMesh 1 (1/100) wallGroups (wallEnv 3 2) subCounts .whole wallRows := by
  refine ⟨⟨cartMesh_valid, Or.inl rfl, by norm_num, by norm_num, by norm_num [cartMesh], by decide, ?_, ?_,
    by decide, ⟨.whole, by decide, by decide, by decide, by decide⟩, subEnv_ok subCounts (by decide),
    fun g _ => subEnv_ok subCounts (by decide), by unfold Shape; rfl⟩, ?_⟩
  · decide
  · decide
  · rintro c l ⟨n, hn, hl⟩
    have hext : cartMesh.globalExtents 1 = [2, 3] := by decide +kernel
    rw [hext]
    have key : ∀ {a b x y x' y' : ℚ}, a = 2 → b = 3 → 0 < x' ∧ x' < 2 → 0 < y' ∧ y' < 3 →
        HasComps [a, b] [x, y] ∧ InsideDomain [a, b] [x', y'] := by
      rintro a b x y x' y' rfl rfl h1 h2
      refine ⟨by simp [HasComps], ?_⟩
      intro i e he
      rcases wall_two he with ⟨rfl, rfl⟩ | ⟨rfl, rfl⟩
      · exact ⟨x', rfl, h1⟩
      · exact ⟨y', rfl, h2⟩
    match c, l, hn, hl with
    | 0, 0, _, _ => exact ⟨_, rfl, key rfl rfl (by norm_num) (by norm_num)⟩
    | 0, 1, _, _ => exact ⟨_, rfl, key rfl rfl (by norm_num) (by norm_num)⟩
    | 0, 2, _, _ => exact ⟨_, rfl, key rfl rfl (by norm_num) (by norm_num)⟩
    | 2, 0, _, _ => exact ⟨_, rfl, key rfl rfl (by norm_num) (by norm_num)⟩
    | 2, 1, _, _ => exact ⟨_, rfl, key rfl rfl (by norm_num) (by norm_num)⟩
    | 0, l + 3, hn, hl => cases hn; omega
    | 1, l, hn, hl => cases hn; omega
    | 2, l + 2, hn, hl => cases hn; omega
    | c + 3, l, hn, hl => simp [subCounts] at hn

example : ∃ out side point, wallPost cartMesh 1 (1/100) wallGroups (wallEnv 3 2) subCounts .whole wallRows =
      some out ∧
    (∀ c l p, InParent subCounts .whole c l → rowAt wallRows c l = some p →
      ¬ InsideDomain (cartMesh.globalExtents 1) p.pos →
      LeavesAt (cartMesh.globalExtents 1) (1/100) p.prev p.pos (side c l) (point c l)) ∧
    List.Forall₂ (GroupOut cartMesh 1 subCounts .whole wallRows side point) wallGroups out :=
  C69_groups wallCall

/-- What it returns: the particles in the cells 0, 2 and 0 with the rows of the two groups. -/
example : (wallPost cartMesh 1 (1/100) wallGroups (wallEnv 3 2) subCounts .whole wallRows).map
    (fun out => out.map fun o => (o.1, o.2.1.cellsLayers)) =
    some [(5, some [(0, 0), (2, 0)]), (7, some [(0, 1)])] := by decide +kernel

example : (wallPost cartMesh 1 (1/100) wallGroups (wallEnv 3 2) subCounts .whole wallRows).map
    (fun out => out.map fun o => o.2.2) = some
    [[[⟨[1, 0], [0, 1], [5, 2]⟩], [], [⟨[1/2, 3], [0, -1], [5, 11]⟩]],
     [[⟨[2, 3/4], [-1, 0], [7, 5]⟩], [], []]] := by decide +kernel

/-- With all sides in groups. -/
example : ∃ out, wallPost cartMesh 1 (1/100) [(5, [0, 2]), (7, [1, 3])] (wallEnv 3 2) subCounts .whole
      wallRows = some out ∧ ∀ c l,
    (InParent subCounts .whole c l ∧ Departed (cartMesh.globalExtents 1) wallRows c l →
      ∃ i, ∀ j : Nat, (∃ o, out[j]? = some o ∧ InParent subCounts (.sub o.2.1) c l) ↔ j = i) ∧
    (¬ (InParent subCounts .whole c l ∧ Departed (cartMesh.globalExtents 1) wallRows c l) →
      ∀ o ∈ out, ¬ InParent subCounts (.sub o.2.1) c l) := by
  refine C69_once { wallCall with labels := by decide, label_ok := ?_, sides := by decide, disjoint := by decide, grp := fun g _ => subEnv_ok subCounts (by decide) } ?_
  · decide
  · intro f h0 h1
    have h1 : f < 4 := h1
    have : f = 0 ∨ f = 1 ∨ f = 2 ∨ f = 3 := by omega
    rcases this with rfl | rfl | rfl | rfl <;> decide

/-- `pre_integration` on the same particles. -/
example : ∃ rows', wallPre ⟨1024, 4, 1⟩ Sched.reversed 2 subCounts (.sub subSel) wallRows = some rows' ∧
    Shape subCounts rows' ∧
    (∀ c l p, InParent subCounts (.sub subSel) c l → rowAt wallRows c l = some p →
      ∃ p', rowAt rows' c l = some p' ∧ p'.pos = p.pos ∧ p'.prev.length = p.prev.length ∧
        ∀ i, p'.prev[i]? = if i < 2 then p.pos[i]? else p.prev[i]?) ∧
    ∀ c l, ¬ InParent subCounts (.sub subSel) c l → rowAt rows' c l = rowAt wallRows c l := by
  refine C69_pre _ ⟨subSel_built, by decide, by decide, by decide, by decide⟩ (by unfold Shape; rfl) ?_
  intro c l p _ hr
  have hall : ∀ cell ∈ wallRows, ∀ p ∈ cell, 2 ≤ p.pos.length ∧ 2 ≤ p.prev.length := by decide +kernel
  obtain ⟨cell, h1, h2⟩ := rowAt_some hr
  exact hall cell (List.mem_of_getElem? h1) p (List.mem_of_getElem? h2)

example : wallPre ⟨1024, 4, 1⟩ Sched.reversed 2 subCounts (.sub subSel) wallRows =
    some [[⟨[1, -1], [1, -1]⟩, ⟨[5/2, 1], [3/2, 1/2]⟩, ⟨[1, 2], [1, 2]⟩], [],
      [⟨[1/2, 4], [1/2, 4]⟩, ⟨[-1, 1], [1, 1]⟩]] := by decide +kernel

/-- Side 4 does not exist in two dimensions. -/
example : wallPost cartMesh 1 (1/100) [(5, [0, 4])] (wallEnv 3 2) subCounts .whole wallRows = none :=
  C69_rejects (g := (5, [0, 4])) (f := 4) _ _ _ _ (by simp) (by simp) (Or.inr (by decide))

end Ex

/-- **C69 (violation: a side in two groups).** If a side is in two groups then the group with the
smaller label gets none of the particles that leave through it, and nothing is reported. -/
theorem C69_shared_side :
    (wallPost Ex.cartMesh 1 (1/100) [(5, [0, 1]), (7, [1])] (Ex.wallEnv 3 2) Ex.subCounts .whole
      Ex.wallRows).map (fun out => out.map fun o => (o.1, o.2.1.cellsLayers)) =
      some [(5, some [(0, 0)]), (7, some [(0, 1)])] ∧
    wallHit (Ex.cartMesh.globalExtents 1) (1/100) [5/2, 1] [3/2, 1/2] = some (true, [2, 3/4], 1) := by
  constructor <;> decide +kernel

end NP
