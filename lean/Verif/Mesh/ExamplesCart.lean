import Verif.Mesh.PropsMapper

/-!
# A Cartesian mesh that meets the hypotheses
-/

set_option autoImplicit false

namespace NP.Ex

/-- Four ranks, two by two, numbered as MPI implementations do. -/
def comm22 : CartComm := ⟨[2, 2], fun x => (x[0]?).getD 0 * 2 + (x[1]?).getD 0, fun r => [r / 2, r % 2]⟩

/-- A mesh of 4 by 6 cells on four ranks, with a halo of one cell. -/
def cartMesh : CartMesh := ⟨⟨[2, 3], 1⟩, comm22, 1⟩

theorem cartMesh_valid : Spec.ValidCartMesh cartMesh := by
  refine ⟨⟨by decide, by decide⟩, ⟨?_, ?_⟩, by decide, ?_⟩
  · intro xs h
    obtain ⟨x, l, hx, h1, rfl⟩ := List.forall₂_cons_left_iff.mp h
    obtain ⟨y, l, hy, h2, rfl⟩ := List.forall₂_cons_left_iff.mp h1
    cases h2
    have ex : x = 0 ∨ x = 1 := by omega
    have ey : y = 0 ∨ y = 1 := by omega
    rcases ex with rfl | rfl <;> rcases ey with rfl | rfl <;> exact ⟨by decide, by decide⟩
  · intro r hr
    have : r < 4 := hr
    have hr : r = 0 ∨ r = 1 ∨ r = 2 ∨ r = 3 := by omega
    rcases hr with rfl | rfl | rfl | rfl <;>
      exact ⟨inGrid_iff.mp (by decide), by decide⟩
  · exact List.Forall₂.cons (by decide) (List.Forall₂.cons (by decide) List.Forall₂.nil)

example : cartMesh.box 1 = some [(0, 2), (3, 6)] := by decide
example : cartMesh.owningRank [1, 4] = some 1 := by decide
example : getGlobalCellTupleIndex [(0, 2), (3, 6)] 3 = some [1, 4, 0] := by decide
example : cartMesh.cellBin 1 [(0, 2), (3, 6)] [9 / 10, 21 / 10] = some 3 := by decide +kernel
example : periodicStep (cartMesh.globalExtents 1) [-1 / 2, 7] = some [3 / 2, 1] := by decide +kernel
example : periodicMaskStep (cartMesh.globalExtents 1) [1, 0] [-1 / 2, 7] = some [3 / 2, 7] := by
  decide +kernel

/-- The owners of the cells of the hierarchy, from the owners of the cells of the mesh. -/
def cartOwner (c : Int) : Option Int :=
  ((boxCells [(0, 4), (0, 6)]).find? fun t => cartMesh.mhIndex t = some c).bind fun t =>
  (cartMesh.owningRank t).bind fun (r : Nat) => some (r : Int)

theorem cartOwner_spec : ∀ t r c, Spec.IsMeshCell cartMesh t → cartMesh.owningRank t = some r →
    Spec.IsCellAt cartMesh.mh t c → cartOwner c = some (r : Int) := by
  intro t r c ht hr hc
  have hidx : cartMesh.mhIndex t = some c := by
    obtain ⟨c', h1, h2, -⟩ := mhIndex_spec (u := []) cartMesh_valid.mesh ht
    rw [List.append_nil] at h1
    rw [h1, isCellAt_unique cartMesh_valid.mesh h2 hc]
  have hmem : t ∈ boxCells [(0, 4), (0, 6)] := by
    rw [mem_boxCells]
    obtain ⟨x, l, hx, h1, rfl⟩ := List.forall₂_cons_left_iff.mp ht
    obtain ⟨y, l, hy, h2, rfl⟩ := List.forall₂_cons_left_iff.mp h1
    cases h2
    exact List.Forall₂.cons hx (List.Forall₂.cons hy List.Forall₂.nil)
  have hall : ∀ t ∈ boxCells [(0, 4), (0, 6)], ∀ r, cartMesh.owningRank t = some r →
      ((cartMesh.mhIndex t).bind cartOwner) = some (r : Int) := by
    have h : ∀ t ∈ boxCells [(0, 4), (0, 6)], (cartMesh.mhIndex t).bind cartOwner =
        (cartMesh.owningRank t).bind fun (r : Nat) => some (r : Int) := by decide +kernel
    intro t ht r hr
    rw [h t ht, hr]
    rfl
  have := hall t hmem r hr
  rwa [hidx] at this

-- rank 3 owns the cells (2, 3), with a halo of one cell the others are neighbours of rank 0
example : cartMesh.neighbourRanks cartOwner 0 = some [0, 1, 2, 3] := by decide +kernel
example : ((createLocalMapper cartMesh cartOwner [0, 1, 2, 3] 0).bind fun lm =>
    localMapStep cartMesh 1 lm ⟨[3 / 5, 8 / 5], 7, -1⟩) = some ⟨[3 / 5, 8 / 5], 7, 1⟩ := by
  decide +kernel
-- a cell outside of the halo
example : ((createLocalMapper cartMesh cartOwner [0, 1, 2, 3] 0).bind fun lm =>
    localMapStep cartMesh 1 lm ⟨[3 / 5, 21 / 10], 7, -1⟩) = some ⟨[3 / 5, 21 / 10], 7, -1⟩ := by
  decide +kernel
example : cartMesh.IsClaims ((List.range 4).flatMap fun r => (cartMesh.claimsOf r).getD []) :=
  ⟨fun r => (cartMesh.claimsOf r).getD [], by decide +kernel, List.Perm.refl _⟩

end NP.Ex
