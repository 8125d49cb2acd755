import Verif.Petsc.LemmasValidate3
import Mathlib.Tactic.IntervalCases
import Mathlib.Tactic.NormNum

/-! # C102: the validation of halos tells the truth -/

set_option autoImplicit false

namespace NP

/-- **C102** (the validation tells the truth).  On a distributed two dimensional mesh,
`validate_halos` returns and is true on all ranks exactly when no owned cell has more than
four vertices and all points of all halos are copies of the points of the mesh they are
said to be: same dimension, same cone by global number, same vertices, and for cells the
rank that owns them. -/
theorem C102_truth {ranks : List ValRank} (hw : Spec.ValWf ranks) (fatal : Bool) :
    (∃ bs, validateHalos fatal ranks = some bs ∧ ∀ b ∈ bs, b = true) ↔
      Spec.AtMostFour ranks ∧ Spec.HalosAreCopies ranks := by
  have key : ∀ (hl : Spec.AtMostFour ranks),
      (∃ bs, validateHalos fatal ranks = some bs ∧ ∀ b ∈ bs, b = true) ↔
        Spec.HalosAreCopies ranks := by
    intro hl
    obtain ⟨np, ints, reals, ha, he⟩ := validateHalos_of_limits hw hl fatal
    rw [he]
    constructor
    · rintro ⟨bs, h1, h2⟩ R hR H hH h x hx
      obtain ⟨r, hr⟩ := List.mem_iff_getElem?.1 hR
      have hrl := (List.getElem?_eq_some_iff.1 hr).1
      have hF := mapM_some h1
      obtain ⟨hlen, hF⟩ := List.forall₂_iff_get.1 hF
      have hb := hF r (by simpa using hrl) (by rw [← hlen]; simpa using hrl)
      simp only [List.get_eq_getElem, List.getElem_range, hr, Option.bind_some, hH] at hb
      rw [h2 _ (List.getElem_mem _)] at hb
      have := (valPoints_true.1 hb).2 h x hx
      exact ((valPoint_copy hw ha hx (hw.haloCoords R hR H hH x (List.mem_of_getElem? hx))).1
        this).2
    · intro hc
      obtain ⟨bs, h1, h2, h3⟩ := mapM_range_exists (n := ranks.length)
        (f := fun r => (ranks[r]?).bind fun R =>
          match R.halo with
          | none => some true
          | some H => forLoop 0 H.1.length (valPoint fatal ints reals H) true)
        (R := fun _ b => b = true) (by
          intro r hr
          have hR := List.getElem?_eq_getElem hr
          refine ⟨true, ?_, rfl⟩
          rw [hR, Option.bind_some]
          have hm := List.mem_of_getElem? hR
          split
          · rfl
          · rename_i H hH
            refine valPoints_true.2 ⟨rfl, ?_⟩
            intro h x hx
            exact (valPoint_copy hw ha hx
              (hw.haloCoords _ hm H hH x (List.mem_of_getElem? hx))).2 ⟨rfl, hc _ hm H hH h x hx⟩)
      refine ⟨bs, h1, ?_⟩
      intro b hb
      obtain ⟨r, hr⟩ := List.mem_iff_getElem?.1 hb
      have hrl := (List.getElem?_eq_some_iff.1 hr).1
      obtain ⟨b', hb', rfl⟩ := h3 r (by omega)
      rw [hr] at hb'
      exact Option.some.inj hb'
  refine ⟨?_, fun h => (key h.1).2 h.2⟩
  intro hh
  suffices hl : Spec.AtMostFour ranks from ⟨hl, (key hl).1 hh⟩
  obtain ⟨bs, h1, h2⟩ := hh
  unfold validateHalos at h1
  simp only [Option.bind_eq_some_iff] at h1
  obtain ⟨gs, hg, ss, hss, h1⟩ := h1
  intro g s p S x hsp hS hx
  obtain ⟨S', hS', hSn, hg0, hp⟩ := hsp
  rw [hS] at hS'
  obtain rfl := Option.some.inj hS'
  have hsl := (List.getElem?_eq_some_iff.1 hS).1
  obtain ⟨hlen, hF⟩ := List.forall₂_iff_get.1 (mapM_some hss)
  obtain ⟨hlen', hF'⟩ := List.forall₂_iff_get.1 (mapM_some h1)
  have hs1 : s < ss.length := by rw [← hlen]; simpa using hsl
  have hb1 : s < bs.length := by rw [← hlen']; simpa using hsl
  have e1 := hF s (by simpa using hsl) hs1
  have e2 := hF' s (by simpa using hsl) hb1
  simp only [List.get_eq_getElem, List.getElem_range, hS, Option.bind_some] at e1 e2
  rw [List.getElem?_eq_getElem hs1, Option.bind_some, h2 _ (List.getElem_mem _)] at e2
  have hv : ss[s].valid = true := by
    split at e2
    · exact Option.some.inj e2
    · rename_i H hH
      exact (valPoints_true.1 e2).1
  exact runItems_limits _ e1 hv p (by simp [hp]) g x hSn hg0 hx

/-- **C102** (fatal errors).  With `fatal` the function never returns false: if it returns
at all it is true on all ranks. -/
theorem C102_fatal {ranks : List ValRank} {bs : List Bool}
    (h : validateHalos true ranks = some bs) : ∀ b ∈ bs, b = true := by
  unfold validateHalos at h
  simp only [Option.bind_eq_some_iff] at h
  obtain ⟨gs, hg, ss, hss, h1⟩ := h
  intro b hb
  obtain ⟨r, hr⟩ := List.mem_iff_getElem?.1 hb
  obtain ⟨hlen, hF⟩ := List.forall₂_iff_get.1 (mapM_some hss)
  obtain ⟨hlen', hF'⟩ := List.forall₂_iff_get.1 (mapM_some h1)
  obtain ⟨hrb, rfl⟩ := List.getElem?_eq_some_iff.1 hr
  have hrn : r < (List.range ranks.length).length := by rw [hlen']; exact hrb
  have e1 := hF r hrn (by rw [← hlen]; exact hrn)
  have e2 := hF' r hrn hrb
  simp only [List.get_eq_getElem, List.getElem_range, Option.bind_eq_some_iff] at e1 e2
  obtain ⟨R, hR, e1⟩ := e1
  obtain ⟨R', hR', s, hs, e2⟩ := e2
  rw [List.getElem?_eq_getElem (by rw [← hlen]; exact hrn)] at hs
  have hv : s.valid = true := by
    rw [← Option.some.inj hs]
    refine forLoop_partial (fun _ s => s.valid = true) ?_ rfl e1
    intro i s s' _ hw hp
    rw [valWrite_fatal hw, hp]
  split at e2
  · rw [← Option.some.inj e2, hv]
  · refine forLoop_partial (fun _ b => b = true) ?_ hv e2
    intro i w w' _ hw hp
    rw [valPoint_fatal hw, hp]

/-! ### An example: two triangles on two ranks, each in the halo of the other -/

namespace Ex

/-- The mesh of the first rank: a triangle, its edges and its vertices. -/
def valPoints0 : List ValPoint :=
  [⟨2, [1, 2, 3], [0, 0, 1, 0, 0, 1]⟩, ⟨1, [4, 5], [0, 0, 1, 0]⟩, ⟨1, [5, 6], [1, 0, 0, 1]⟩,
    ⟨1, [6, 4], [0, 1, 0, 0]⟩, ⟨0, [], [0, 0]⟩, ⟨0, [], [1, 0]⟩, ⟨0, [], [0, 1]⟩]

/-- The mesh of the second rank: the second edge of the first rank is its first edge. -/
def valPoints1 : List ValPoint :=
  [⟨2, [1, 2, 3], [1, 0, 0, 1, 1, 1]⟩, ⟨1, [4, 5], [1, 0, 0, 1]⟩, ⟨1, [5, 6], [0, 1, 1, 1]⟩,
    ⟨1, [6, 4], [1, 1, 1, 0]⟩, ⟨0, [], [1, 0]⟩, ⟨0, [], [0, 1]⟩, ⟨0, [], [1, 1]⟩]

def valLids0 : LidMap :=
  [(0, 1, 0, 7), (1, 1, 1, 2), (2, 1, 2, 8), (3, 1, 3, 9), (4, 1, 4, 5), (5, 1, 5, 6),
    (6, 1, 6, 10)]

def valLids1 : LidMap :=
  [(0, 0, 0, 0), (1, 0, 1, 1), (2, 0, 2, 2), (3, 0, 3, 3), (4, 0, 4, 4), (5, 0, 5, 5), (6, 0, 6, 6)]

def valRanks (halo1 : List ValPoint) : List ValRank :=
  [⟨valPoints0, [0, 1, 2, 3, 4, 5, 6], some (valPoints1, valLids0)⟩,
    ⟨valPoints1, [7, -3, 8, 9, -6, -7, 10], some (halo1, valLids1)⟩]

/-- A copy of the first rank in which a vertex is at another place. -/
def valBroken : List ValPoint := valPoints0.set 6 ⟨0, [], [0, 2]⟩

theorem valRanks_owner (H : List ValPoint) (g : Int) (s p : Nat)
    (h : Spec.OwnedBy (valRanks H) g s p) :
    (s, p, g) ∈ ([(0, 0, 0), (0, 1, 1), (0, 2, 2), (0, 3, 3), (0, 4, 4), (0, 5, 5), (0, 6, 6),
      (1, 0, 7), (1, 2, 8), (1, 3, 9), (1, 6, 10)] : List (Nat × Nat × Int)) := by
  obtain ⟨S, hS, hn, h0, hp⟩ := h
  match s, hS with
  | 0, hS =>
    simp only [valRanks, List.getElem?_cons_zero, Option.some.injEq] at hS
    subst hS
    simp only [valPoints0, List.length_cons, List.length_nil] at hp
    interval_cases p <;> simp_all <;> omega
  | 1, hS =>
    simp only [valRanks, List.getElem?_cons_succ, List.getElem?_cons_zero,
      Option.some.injEq] at hS
    subst hS
    simp only [valPoints1, List.length_cons, List.length_nil] at hp
    interval_cases p <;> simp_all <;> omega
  | s + 2, hS => simp [valRanks] at hS

theorem valRanks_wf (H : List ValPoint) (hH : ∀ x ∈ H, Spec.CoordsOk x) :
    Spec.ValWf (valRanks H) := by
  refine ⟨?_, ?_, ?_, ?_, ?_⟩
  · intro R hR
    simp only [valRanks, List.mem_cons, List.not_mem_nil, or_false] at hR
    rcases hR with rfl | rfl <;> rfl
  · intro R hR
    simp only [valRanks, List.mem_cons, List.not_mem_nil, or_false] at hR
    rcases hR with rfl | rfl <;> simp only <;> decide +kernel
  · intro R hR
    simp only [valRanks, List.mem_cons, List.not_mem_nil, or_false] at hR
    unfold Spec.CoordsOk
    rcases hR with rfl | rfl <;> simp only <;> decide +kernel
  · intro R hR K hK
    simp only [valRanks, List.mem_cons, List.not_mem_nil, or_false] at hR
    rcases hR with rfl | rfl
    · simp only [Option.some.injEq] at hK
      subst hK
      unfold Spec.CoordsOk
      decide +kernel
    · simp only [Option.some.injEq] at hK
      subst hK
      exact hH
  · intro g s p s' p' h h'
    have a := valRanks_owner H g s p h
    have b := valRanks_owner H g s' p' h'
    simp only [List.mem_cons, Prod.mk.injEq, List.not_mem_nil, or_false] at a b
    omega

/-- The halos of the example are copies, and the validation says so. -/
example : Spec.AtMostFour (valRanks valPoints0) ∧ Spec.HalosAreCopies (valRanks valPoints0) :=
  (C102_truth (valRanks_wf _ (by unfold Spec.CoordsOk; decide +kernel)) true).1
    ⟨[true, true], by decide +kernel, by decide⟩

/-- With `fatal` the program ends. -/
example : validateHalos true (valRanks valBroken) = none := by decide +kernel

end Ex

/-- **C102** (not a verdict of all ranks).  The result is that of one rank: there are
meshes with a wrong halo on which the function, although it is collective, returns true on
a rank. -/
theorem C102_rank_local : ∃ (ranks : List ValRank) (bs : List Bool), Spec.ValWf ranks ∧
    validateHalos false ranks = some bs ∧ bs[0]? = some true ∧ ¬ Spec.HalosAreCopies ranks := by
  have hw := Ex.valRanks_wf Ex.valBroken (by unfold Spec.CoordsOk; decide +kernel)
  refine ⟨Ex.valRanks Ex.valBroken, [true, false], hw, by decide +kernel, rfl, ?_⟩
  intro h
  obtain ⟨rank, lid, g, s, p, S, y, he, hsp, hS, hy, hd, hcl, -, -, -, hv⟩ :=
    h _ (List.mem_of_getElem? (i := 1) rfl) _ rfl 6 ⟨0, [], [0, 2]⟩ rfl
  have hg : g = 6 := by
    have : omGet Ex.valLids1 ((6 : Nat) : Int) = some (0, 6, 6) := by decide
    rw [this] at he
    simp only [Option.some.injEq, Prod.mk.injEq] at he
    exact he.2.2.symm
  subst hg
  have := Ex.valRanks_owner _ 6 s p hsp
  simp only [List.mem_cons, Prod.mk.injEq, List.not_mem_nil, or_false] at this
  have hs : s = 0 ∧ p = 6 := by omega
  obtain ⟨rfl, rfl⟩ := hs
  obtain rfl := Option.some.inj hS
  obtain rfl := Option.some.inj hy
  obtain ⟨k, hk, hk'⟩ := (hv (0, 2)).1 ⟨0, rfl, rfl⟩
  match k with
  | 0 =>
    have : (1 : ℚ) = 2 := Option.some.inj hk'
    norm_num at this
  | k + 1 => simp [Nat.mul_add] at hk

end NP
