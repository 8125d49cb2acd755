import Verif.Mesh.ModelStart
import Verif.Mesh.PropsCart

/-!
# Lemmas: the middle of a box
-/

set_option autoImplicit false

namespace NP

/-- The cells in the middle of a box. -/
theorem middle_cell (w : ℚ) (hw : 0 < w) (b : List (Int × Int)) (hb : ∀ p ∈ b, p.1 < p.2 ∧ 0 ≤ p.1) :
    ∃ t, InBox b t ∧ List.Forall₂ (fun (i : Int) (x : ℚ) => i * w ≤ x ∧ x < (i + 1) * w) t
      (b.map fun p => (1 / 2 : ℚ) * ((p.1 : ℚ) * w + (p.2 : ℚ) * w)) := by
  induction b with
  | nil => exact ⟨[], .nil, .nil⟩
  | cons p b ih =>
    obtain ⟨t, h1, h2⟩ := ih fun q hq => hb q (List.mem_cons_of_mem _ hq)
    obtain ⟨hp, -⟩ := hb p List.mem_cons_self
    refine ⟨(p.1 + p.2) / 2 :: t, .cons ⟨by omega, by omega⟩ h1, .cons ⟨?_, ?_⟩ h2⟩
    · have : (((p.1 + p.2) / 2 : Int) : ℚ) * 2 ≤ (p.1 : ℚ) + p.2 := by
        exact_mod_cast (by omega : (p.1 + p.2) / 2 * 2 ≤ p.1 + p.2)
      nlinarith
    · have : (p.1 : ℚ) + p.2 < ((((p.1 + p.2) / 2 : Int) : ℚ) + 1) * 2 := by
        exact_mod_cast (by omega : p.1 + p.2 < ((p.1 + p.2) / 2 + 1) * 2)
      nlinarith

end NP
