import Verif.Sub.ModelCellInfo
import Verif.Sub.Props

/-!
# C113: the number of particles in the cell, read in a loop
-/

set_option autoImplicit false

namespace NP

open Spec

/-- **C113** In a loop over a group or over any sub group, a kernel that is called for a particle in cell `c` reads the number of particles of
the same group or sub group in this cell. -/
theorem C113_count {npart : List Nat} {par : Parent} (h : Built npart par) (c : Nat) (hc : c < npart.length) :
    ∃ row : List Nat, row.Nodup ∧ (∀ l, l ∈ row ↔ InParent npart par c l) ∧ cellInfoGet npart par c = some row.length := by
  obtain ⟨L, h1, h2⟩ := built_spec h
  have hcL : c < L.length := by rw [h2.1]; exact hc
  refine ⟨L[c], (h2.2 c _ _ (List.getElem?_eq_getElem hcL) (List.getElem?_eq_getElem hc)).1, fun l => ?_, ?_⟩
  · rw [inParent_iff h1]
    simp [List.getElem?_eq_getElem hcL]
  · cases par with
    | whole =>
      change L = npart.map List.range at h1
      subst h1
      simp [cellInfoGet, cellInfoLoopArg, cellInfoGlobal, rd, hc]
    | sub s =>
      change Lists s L at h1
      simp [cellInfoGet, cellInfoLoopArg, cellInfoGlobal, rd, h1.deviceCounts, hcL]

/-- **C113** The number is positive and the same for all particles of the cell that the loop visits. -/
theorem C113_positive {npart : List Nat} {par : Parent} (h : Built npart par) (c l : Nat) (hc : c < npart.length)
    (hl : InParent npart par c l) : ∃ n, cellInfoGet npart par c = some n ∧ 0 < n := by
  obtain ⟨row, -, h2, h3⟩ := C113_count h c hc
  exact ⟨_, h3, List.length_pos_of_mem ((h2 l).mpr hl)⟩

/-- A sub group with two of the particles of cell 0, none of cell 1 and one of cell 2. -/
example : Built Ex.subCounts (.sub Ex.subSel) ∧
    (List.range 3).map (cellInfoGet Ex.subCounts (.sub Ex.subSel)) = [some 2, some 0, some 1] ∧
    (List.range 3).map (cellInfoGet Ex.subCounts .whole) = Ex.subCounts.map some :=
  ⟨Ex.subSel_built, by decide, by decide⟩

end NP
