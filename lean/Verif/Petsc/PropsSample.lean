import Verif.Petsc.LemmasSample
import Verif.Petsc.LemmasLabel
import Verif.Petsc.PropsMapper
import Mathlib.Tactic.IntervalCases
import Mathlib.Tactic.FieldSimp
import Mathlib.Tactic.Ring

/-!
# Property C94: sampled positions are in the cells of unstructured meshes, in the numbers asked for
-/

set_option autoImplicit false

namespace NP

open Spec

variable {m : SampleMesh}

/-- A call of `uniform_within_dmplex_cell` that returns has written `npart` particles from the given
offset on: each has the cell, and a position found by rejection sampling, with numbers of the generator
that no other particle uses (`S i` is the state before particle `i`). Nothing else has changed. -/
theorem C94_cell {amax cell npart : Nat} {s t : SampleState} (h : sampleCell m amax cell npart s = some t) :
    t.index = s.index + npart ∧ t.positions.map List.length = s.positions.map List.length ∧
      t.cells.length = s.cells.length ∧
      (∃ S : Nat → Nat, S 0 = s.rng ∧ S npart = t.rng ∧
        ∀ i < npart, SampledAt m amax cell (s.index + i) (S i) (S (i + 1)) t.positions t.cells) ∧
      ∀ i, (i < s.index ∨ s.index + npart ≤ i) → t.cells[i]? = s.cells[i]? ∧
        ∀ dx, posAt t.positions i dx = posAt s.positions i dx := by
  obtain ⟨-, -, S, hi⟩ := sampleCell_some h
  refine ⟨hi.index, hi.shape, hi.len, ⟨S, hi.start, hi.rng, hi.new⟩, fun i hh => ⟨hi.oldCell i hh, fun dx => ?_⟩⟩
  exact hi.oldPos i dx (by omega)

/-- It returns when the output is large enough and, from any state of the generator on, a position is
accepted before the last attempt. -/
theorem C94_completes {amax cell npart : Nat} {s : SampleState}
    (hrows : ∀ dx < m.ndim, ∃ row, s.positions[dx]? = some row ∧ s.index + npart ≤ row.length)
    (hlen : s.index + npart ≤ s.cells.length) (hbox : ∃ box, m.box cell = some box)
    (hacc : ∀ g, ∃ x g' n, Accepted m cell g x g' n ∧ n < amax) :
    ∃ t, sampleCell m amax cell npart s = some t := sampleCell_of hrows hlen hbox hacc

/-- Output that is too small is reported. -/
theorem C94_too_small {amax cell npart : Nat} {s : SampleState}
    (h : s.cells.length < s.index + npart ∨
      ∃ dx row, dx < m.ndim ∧ s.positions[dx]? = some row ∧ row.length < s.index + npart) :
    sampleCell m amax cell npart s = none := by
  cases hs : sampleCell m amax cell npart s with
  | none => rfl
  | some t =>
    exfalso
    obtain ⟨h1, h2, -⟩ := sampleCell_some hs
    rcases h with h | ⟨dx, row, hdx, hrow, hlt⟩
    · omega
    · obtain ⟨row', e, hl⟩ := h1 dx hdx
      rw [hrow] at e
      cases e
      omega

/-- The last attempt is of no use: a position that is accepted with it is discarded, and reported as
if none had been found. In particular nothing can be sampled with one attempt. -/
theorem C94_last_attempt {amax cell npart : Nat} {s : SampleState} (hn : 0 < npart) {x : List ℚ} {g' : Nat}
    (ha : Accepted m cell s.rng x g' amax) : sampleCell m amax cell npart s = none := by
  cases hs : sampleCell m amax cell npart s with
  | none => rfl
  | some t =>
    exfalso
    obtain ⟨-, -, S, hi⟩ := sampleCell_some hs
    obtain ⟨-, y, n, hy, hlt, -⟩ := hi.new 0 hn
    rw [hi.start] at hy
    obtain ⟨box, hb⟩ : ∃ box, m.box cell = some box := by
      cases ha with
      | take _ _ hp _ => exact ⟨_, hp.2.choose_spec.1⟩
      | skip _ _ _ _ _ hp _ _ => exact ⟨_, hp.2.choose_spec.1⟩
    have e1 := try_of hb ha (List.replicate m.ndim 0) amax (by simp) (Nat.le_refl _)
    have e2 := try_of hb hy (List.replicate m.ndim 0) amax (by simp) (by omega)
    rw [e1] at e2
    simp only [Option.some.injEq, Prod.mk.injEq] at e2
    omega

theorem sampleAll_some {amax total : Nat} {nparts : List Nat} {cells : List Int} {rng : Nat} {t : SampleState}
    (hl : nparts.length = m.cellCount) (h : sampleAll m amax nparts total cells rng = some t) :
    t.index = total ∧ nparts.sum = total ∧ t.positions.length = m.ndim ∧ (∀ row ∈ t.positions, row.length = total) ∧
      t.cells.length = total ∧ ∃ S : Nat → Nat, S 0 = rng ∧ S total = t.rng ∧
      ∀ (c n j : Nat), nparts[c]? = some n → j < n →
        SampledAt m amax c ((nparts.take c).sum + j) (S ((nparts.take c).sum + j))
          (S ((nparts.take c).sum + j + 1)) t.positions t.cells := by
  unfold sampleAll at h
  obtain ⟨t', h1, h2⟩ := Option.bind_eq_some_iff.1 h
  split at h2
  swap
  · cases h2
  rename_i hidx
  cases h2
  obtain ⟨k1, k2, k3, S, k4, k5, k6⟩ := forLoop_partial (n := m.cellCount)
    (step := fun cx s => (rd nparts cx).bind fun n => sampleCell m amax cx n s)
    (fun c s => s.index = (nparts.take c).sum ∧
      s.positions.map List.length = List.replicate m.ndim total ∧ s.cells.length = total ∧
      ∃ S : Nat → Nat, S 0 = rng ∧ S (nparts.take c).sum = s.rng ∧
        ∀ (c' n j : Nat), c' < c → nparts[c']? = some n → j < n →
          SampledAt m amax c' ((nparts.take c').sum + j) (S ((nparts.take c').sum + j))
            (S ((nparts.take c').sum + j + 1)) s.positions s.cells)
    (s := ⟨0, List.replicate m.ndim (List.replicate total 0), (cells ++ List.replicate total 0).take total, rng⟩)
    (s' := t) (by
      intro c s s' hc hs ⟨g1, g2, g3, S, g4, g5, g6⟩
      obtain ⟨n, hn, hs⟩ := Option.bind_eq_some_iff.1 hs
      obtain ⟨-, -, T, hi⟩ := sampleCell_some hs
      have hcn : c < nparts.length := by omega
      have hsum : (nparts.take (c + 1)).sum = (nparts.take c).sum + n := by
        rw [sum_take_succ hcn]
        have := (List.getElem?_eq_some_iff.1 hn).2
        omega
      have hmono : ∀ c' n' : Nat, c' < c → nparts[c']? = some n' → (nparts.take c').sum + n' ≤ (nparts.take c).sum := by
        intro c' n' hc' hn'
        have h1 := sum_take_succ (ns := nparts) (r := c') (by omega)
        have h2 := (List.getElem?_eq_some_iff.1 hn').2
        have h3 : (nparts.take (c' + 1)).sum ≤ (nparts.take c).sum := by
          obtain ⟨d, rfl⟩ : ∃ d, c = c' + 1 + d := ⟨c - (c' + 1), by omega⟩
          rw [show nparts.take (c' + 1 + d) = nparts.take (c' + 1) ++ (nparts.drop (c' + 1)).take d from
            List.take_add .., List.sum_append]
          omega
        omega
      have hT0 := hi.start
      have hTn := hi.rng
      refine ⟨by rw [hsum, hi.index, g1], hi.shape.trans g2, hi.len.trans g3,
        fun i => if i ≤ (nparts.take c).sum then S i else T (i - (nparts.take c).sum), ?_, ?_, ?_⟩
      · simpa using g4
      · dsimp only
        rw [hsum]
        by_cases hz : n = 0
        · subst hz
          rw [if_pos (by omega), Nat.add_zero, g5, ← hT0]
          exact hTn
        · rw [if_neg (by omega), Nat.add_sub_cancel_left]
          exact hTn
      · intro c' n' j hc' hn' hj
        by_cases hcc : c' = c
        · subst hcc
          unfold rd at hn
          rw [hn'] at hn
          cases hn
          have := hi.new j hj
          rw [g1] at this
          have e1 : (if (nparts.take c').sum + j ≤ (nparts.take c').sum then S ((nparts.take c').sum + j)
              else T ((nparts.take c').sum + j - (nparts.take c').sum)) = T j := by
            split
            · have : j = 0 := by omega
              subst this
              rw [Nat.add_zero, g5, hT0]
            · rw [Nat.add_sub_cancel_left]
          have e2 : (if (nparts.take c').sum + j + 1 ≤ (nparts.take c').sum then S ((nparts.take c').sum + j + 1)
              else T ((nparts.take c').sum + j + 1 - (nparts.take c').sum)) = T (j + 1) := by
            rw [if_neg (by omega)]
            congr 1
            omega
          beta_reduce
          rw [e1, e2]
          exact this
        · have hm := hmono c' n' (by omega) hn'
          beta_reduce
          rw [if_pos (by omega), if_pos (by omega)]
          obtain ⟨a1, x, k, a2, a3, a4⟩ := g6 c' n' j (by omega) hn' hj
          refine ⟨?_, x, k, a2, a3, fun dx hdx => ?_⟩
          · rw [hi.oldCell _ (Or.inl (by omega))]
            exact a1
          · rw [hi.oldPos _ dx (Or.inl (by omega))]
            exact a4 dx hdx)
    ⟨rfl, by simp, by simp, fun _ => rng, rfl, rfl, by
      intro c' n j h
      omega⟩ h1
  have hsum : (nparts.take m.cellCount).sum = nparts.sum := by rw [← hl, List.take_length]
  rw [hsum] at k1 k5
  refine ⟨hidx, by omega, ?_, ?_, k3, S, k4, ?_, fun c n j hc hj => ?_⟩
  · have := congrArg List.length k2
    simpa using this
  · intro row hrow
    have : row.length ∈ t.positions.map List.length := List.mem_map_of_mem hrow
    rw [k2] at this
    exact List.eq_of_mem_replicate this
  · rw [← hidx, k1]
    exact k5
  · exact k6 c n j (by have := (List.getElem?_eq_some_iff.1 hc).1; omega) hc hj

/-- `uniform_within_dmplex_cells`: exactly `npart` particles for each cell, in the order of the cells,
each sampled in its cell. What the output held before does not matter. -/
theorem C94_cells {amax npart : Nat} {cells : List Int} {rng : Nat} {t : SampleState}
    (h : sampleCells m amax npart cells rng = some t) :
    t.positions.length = m.ndim ∧ (∀ row ∈ t.positions, row.length = npart * m.cellCount) ∧
      t.cells.length = npart * m.cellCount ∧ ∃ S : Nat → Nat, S 0 = rng ∧ S (npart * m.cellCount) = t.rng ∧
      ∀ c < m.cellCount, ∀ j < npart, SampledAt m amax c (npart * c + j) (S (npart * c + j))
        (S (npart * c + j + 1)) t.positions t.cells := by
  obtain ⟨-, -, h1, h2, h3, S, h4, h5, h6⟩ := sampleAll_some (by simp) h
  refine ⟨h1, h2, h3, S, h4, h5, fun c hc j hj => ?_⟩
  have := h6 c npart j (by rw [List.getElem?_replicate, if_pos hc]) hj
  rw [List.take_replicate, List.sum_replicate, Nat.min_eq_left (by omega), smul_eq_mul, Nat.mul_comm] at this
  exact this

theorem stdRound_nearest (x : ℚ) : Nearest x (stdRound x) := by
  unfold Nearest stdRound
  split
  · rename_i hx
    have h1 := Int.floor_le (x + 1 / 2)
    have h2 := Int.lt_floor_add_one (x + 1 / 2)
    generalize ⌊x + 1 / 2⌋ = r at h1 h2
    have h3 : (r : ℚ) - x ≤ 1 / 2 := by linarith
    have h4 : x - r < 1 / 2 := by linarith
    rcases lt_or_eq_of_le h3 with h5 | h5
    · left; rw [abs_lt]; constructor <;> linarith
    · right
      have hr : 0 ≤ (r : ℚ) := by linarith
      rw [show x - r = -(1 / 2) by linarith, abs_of_nonneg hx, abs_of_nonneg hr]
      constructor
      · norm_num
      · linarith
  · rename_i hx
    have hx : x < 0 := not_le.1 hx
    have h1 := Int.floor_le (-x + 1 / 2)
    have h2 := Int.lt_floor_add_one (-x + 1 / 2)
    generalize ⌊-x + 1 / 2⌋ = r at h1 h2
    push_cast
    have h3 : (r : ℚ) + x ≤ 1 / 2 := by linarith
    have h4 : -x - r < 1 / 2 := by linarith
    rcases lt_or_eq_of_le h3 with h5 | h5
    · left; rw [abs_lt]; constructor <;> linarith
    · right
      have hr : 0 ≤ (r : ℚ) := by linarith
      rw [show x - -(r : ℚ) = 1 / 2 by linarith, abs_of_neg hx, abs_neg, abs_of_nonneg hr]
      constructor
      · norm_num
      · linarith

/-- `uniform_density_within_dmplex_cells`: the number of particles of each cell is the nearest integer
to density times volume, they come in the order of the cells, each is sampled in its cell, and the
return value is how many there are in total. -/
theorem C94_density {amax : Nat} {density : ℚ} {cells : List Int} {rng total : Nat} {t : SampleState}
    (h : sampleDensity m amax density cells rng = some (total, t)) :
    ∃ nparts : List Nat, nparts.length = m.cellCount ∧
      (∀ c n, nparts[c]? = some n → Nearest (density * m.volume c) n) ∧ total = nparts.sum ∧
      t.positions.length = m.ndim ∧ (∀ row ∈ t.positions, row.length = total) ∧ t.cells.length = total ∧
      ∃ S : Nat → Nat, S 0 = rng ∧ S total = t.rng ∧ ∀ (c n j : Nat), nparts[c]? = some n → j < n →
        SampledAt m amax c ((nparts.take c).sum + j) (S ((nparts.take c).sum + j))
          (S ((nparts.take c).sum + j + 1)) t.positions t.cells := by
  unfold sampleDensity at h
  obtain ⟨nparts, h1, h2⟩ := Option.bind_eq_some_iff.1 h
  obtain ⟨t', h3, h4⟩ := Option.map_eq_some_iff.1 h2
  cases h4
  have hf := mapM_some h1
  have hlen : nparts.length = m.cellCount := by simpa using hf.length_eq.symm
  obtain ⟨-, -, g1, g2, g3, g4⟩ := sampleAll_some hlen h3
  refine ⟨nparts, hlen, fun c n hc => ?_, rfl, g1, g2, g3, g4⟩
  have hcl := (List.getElem?_eq_some_iff.1 hc).1
  have := List.forall₂_iff_get.1 hf |>.2 c (by simpa using by omega) hcl
  have hn := (List.getElem?_eq_some_iff.1 hc).2
  simp only [List.get_eq_getElem, List.getElem_range, hn] at this
  unfold index at this
  split at this
  · rename_i hpos
    simp only [Option.some.injEq] at this
    have e : ((n : Nat) : Int) = stdRound (density * m.volume c) := by omega
    have hq : ((n : Nat) : ℚ) = ((stdRound (density * m.volume c) : Int) : ℚ) := by rw [← e]; simp
    have := stdRound_nearest (density * m.volume c)
    unfold Nearest at this ⊢
    rw [← e] at this
    exact this
  · cases this

/-- A sampled position is in the cell according to `cell_contains_point`, and between the bounds of the
distributions, so in the bounding box. -/
theorem C94_contained {cell g g' n : Nat} {x : List ℚ} (h : Accepted m cell g x g' n)
    (hd : ∀ k lo hi, lo ≤ hi → lo ≤ m.draw k lo hi ∧ m.draw k lo hi ≤ hi) :
    m.contains cell x = some true ∧ x.length = m.ndim ∧
      ∃ box, m.box cell = some box ∧ ∀ dx < m.ndim, ∃ lo hi v, box[dx]? = some (lo, hi) ∧ x[dx]? = some v ∧
        (lo ≤ hi → lo ≤ v ∧ v ≤ hi) := by
  induction h with
  | take g x hp hc =>
    obtain ⟨h1, box, hb, h2⟩ := hp
    refine ⟨hc, h1, box, hb, fun dx hdx => ?_⟩
    obtain ⟨lo, hi, e1, e2⟩ := h2 dx hdx
    exact ⟨lo, hi, _, e1, e2, hd _ lo hi⟩
  | skip g y x g' n _ _ _ ih => exact ih

/-- Each particle uses numbers of the generator that come after those of the particle before. -/
theorem C94_fresh {cell g g' n : Nat} {x : List ℚ} (h : Accepted m cell g x g' n) :
    g' = g + n * m.ndim ∧ 1 ≤ n ∧ ∃ k, g ≤ k ∧ k + m.ndim = g' ∧ Proposal m cell k x := by
  induction h with
  | take g x hp _ => exact ⟨by omega, Nat.le_refl _, g, Nat.le_refl _, rfl, hp⟩
  | skip g y x g' n _ _ _ ih =>
    obtain ⟨h1, h2, k, h3, h4, h5⟩ := ih
    exact ⟨by rw [h1, Nat.succ_mul]; omega, by omega, k, by omega, h4, h5⟩

/-- In two dimensions `cell_contains_point` only accepts points of the cell, so the sampled positions of
triangles and convex quadrilaterals are in the cell. -/
theorem C94_inside {cell g g' n : Nat} {x y : ℚ} {vs : List (ℚ × ℚ)} (hv : Convex2D vs)
    (hc : ∀ x y, m.contains cell [x, y] = cellContainsPoint (flatCoords vs) (x, y))
    (h : Accepted m cell g [x, y] g' n) : InCell2D vs (x, y) := by
  have hcont : m.contains cell [x, y] = some true := by
    generalize hz : [x, y] = z at h
    induction h with
    | take _ _ _ h => exact h
    | skip _ _ _ _ _ _ _ _ ih => exact ih hz
  obtain ⟨_, b, -, -, -, -, h5, h6⟩ := C85_contains vs hv 0 0 (x, y)
  rw [hc, h5] at hcont
  cases hcont
  exact (h6.1 rfl).1

namespace Ex

/-- One cell, the triangle with corners (0, 0), (1, 0) and (0, 1), and a poor generator: the numbers of
uses 0 and 1 give (3/4, 3/4), all others 1/4. -/
def sampleMesh : SampleMesh where
  ndim := 2
  cellCount := 2
  box _ := some [(0, 1), (0, 1)]
  contains _ x := match x with
    | [x, y] => some (decide (x + y ≤ 1))
    | _ => none
  volume c := if c = 0 then 1 / 2 else 3 / 4
  draw k lo hi := if k < 2 then lo + (hi - lo) * (3 / 4) else lo + (hi - lo) * (1 / 4)

/-- The first particle needs two attempts. -/
theorem sample_accepted : Accepted sampleMesh 0 0 [1 / 4, 1 / 4] 4 2 := by
  refine Accepted.skip 0 [3 / 4, 3 / 4] _ _ 1 ⟨rfl, _, rfl, ?_⟩ (by decide +kernel)
    (Accepted.take 2 _ ⟨rfl, _, rfl, ?_⟩ (by decide +kernel))
  · intro dx hdx
    have hdx : dx < 2 := hdx
    interval_cases dx
    · exact ⟨0, 1, rfl, by decide +kernel⟩
    · exact ⟨0, 1, rfl, by decide +kernel⟩
  · intro dx hdx
    have hdx : dx < 2 := hdx
    interval_cases dx
    · exact ⟨0, 1, rfl, by decide +kernel⟩
    · exact ⟨0, 1, rfl, by decide +kernel⟩

example : sampleCell sampleMesh 2 0 1 ⟨0, [[0], [0]], [0], 0⟩ = none :=
  C94_last_attempt (by decide) sample_accepted

example : ((sampleCell sampleMesh 3 0 1 ⟨1, [[9, 9, 9], [9, 9, 9]], [5, 5, 5], 0⟩).map fun t =>
    (t.index, t.positions, t.cells, t.rng)) =
    some (2, [[9, 1 / 4, 9], [9, 1 / 4, 9]], [5, 0, 5], 4) := by decide +kernel

example : ((sampleCells sampleMesh 3 2 [] 0).map fun t => (t.positions, t.cells)) =
    some ([[1 / 4, 1 / 4, 1 / 4, 1 / 4], [1 / 4, 1 / 4, 1 / 4, 1 / 4]], [0, 0, 1, 1]) := by decide +kernel

example : ((sampleDensity sampleMesh 3 3 [7] 0).map fun r => (r.1, r.2.cells)) =
    some (4, [0, 0, 1, 1]) := by decide +kernel

example : sampleCell sampleMesh 3 0 2 ⟨1, [[0, 0], [0, 0]], [0, 0], 0⟩ = none :=
  C94_too_small (Or.inl (by decide))

theorem sample_in (g : Nat) (hg : 2 ≤ g) : Accepted sampleMesh 0 g [1 / 4, 1 / 4] (g + 2) 1 := by
  refine Accepted.take g _ ⟨rfl, _, rfl, ?_⟩ (by decide +kernel)
  intro dx hdx
  have hdx : dx < 2 := hdx
  refine ⟨0, 1, ?_, ?_⟩
  · interval_cases dx <;> rfl
  · have : sampleMesh.draw (g + dx) 0 1 = 1 / 4 := by
      unfold sampleMesh
      dsimp only
      rw [if_neg (by omega)]
      norm_num
    rw [this]
    interval_cases dx <;> rfl

/-- Three attempts are always enough. -/
example (npart : Nat) : ∃ t, sampleCell sampleMesh 3 0 npart
    ⟨0, [List.replicate npart 0, List.replicate npart 0], List.replicate npart 0, 0⟩ = some t := by
  refine C94_completes ?_ (by simp) ⟨_, rfl⟩ ?_
  · intro dx hdx
    have hdx : dx < 2 := hdx
    interval_cases dx <;> exact ⟨_, rfl, by simp⟩
  · intro g
    rcases Nat.lt_or_ge g 2 with hg | hg
    · interval_cases g
      · exact ⟨_, _, _, sample_accepted, by decide⟩
      · refine ⟨[3 / 4, 1 / 4], 3, 1, Accepted.take 1 _ ⟨rfl, _, rfl, ?_⟩ (by decide +kernel), by decide⟩
        intro dx hdx
        have hdx : dx < 2 := hdx
        interval_cases dx
        · exact ⟨0, 1, rfl, by decide +kernel⟩
        · exact ⟨0, 1, rfl, by decide +kernel⟩
    · exact ⟨_, _, _, sample_in g hg, by decide⟩

example : InCell2D [(0, 0), (1, 0), (0, 1)] ((1 : ℚ) / 4, (1 : ℚ) / 4) := by
  refine C94_inside (m := { sampleMesh with contains := fun _ x => match x with
      | [x, y] => cellContainsPoint (flatCoords [(0, 0), (1, 0), (0, 1)]) (x, y)
      | _ => none }) (cell := 0) (g := 2) (g' := 4) (n := 1) (by norm_num [Convex2D, turn]) (fun _ _ => rfl) ?_
  refine Accepted.take 2 _ ⟨rfl, _, rfl, ?_⟩ (by decide +kernel)
  intro dx hdx
  have hdx : dx < 2 := hdx
  interval_cases dx
  · exact ⟨0, 1, rfl, by decide +kernel⟩
  · exact ⟨0, 1, rfl, by decide +kernel⟩

end Ex

end NP
