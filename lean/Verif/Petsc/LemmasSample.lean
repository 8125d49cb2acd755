import Verif.Petsc.SpecSample
import Verif.Common.KernelLemmas
import Verif.Petsc.LemmasBary2
import Mathlib.Tactic.Linarith

/-!
# Lemmas: sampling positions in the cells of unstructured meshes
-/

set_option autoImplicit false

namespace NP

open Spec

variable {m : SampleMesh}

theorem propose_spec {cell : Nat} {box : List (ℚ × ℚ)} (hb : m.box cell = some box) (hl : m.ndim ≤ box.length)
    {x : List ℚ} (hx : x.length = m.ndim) (g : Nat) :
    ∃ y, samplePropose m box (x, g) = some (y, g + m.ndim) ∧ Proposal m cell g y := by
  obtain ⟨⟨y, g'⟩, e, h1, h2, h3⟩ := forLoop_invariant (a := 0) (b := m.ndim)
    (step := fun dx (s : List ℚ × Nat) => (rd box dx).bind fun b =>
      (st s.1 dx (m.draw s.2 b.1 b.2)).bind fun x => some (x, s.2 + 1)) (s := (x, g))
    (P := fun i s => s.1.length = m.ndim ∧ s.2 = g + i ∧ ∀ dx < i, ∃ lo hi, box[dx]? = some (lo, hi) ∧
      s.1[dx]? = some (m.draw (g + dx) lo hi)) (Nat.zero_le _)
    (by
      rintro i ⟨y, k⟩ _ hi ⟨h1, h2, h3⟩
      dsimp only at h1 h2 h3
      subst h2
      have e : box[i]? = some (box[i]'(by omega)) := List.getElem?_eq_getElem _
      generalize box[i]'_ = b at e
      refine ⟨(y.set i (m.draw (g + i) b.1 b.2), g + i + 1), ?_, by simp [h1], by dsimp only; omega, fun dx hdx => ?_⟩
      · unfold rd
        rw [e, Option.bind_some, st_eq_some (by dsimp only; omega)]
        rfl
      · dsimp only
        by_cases h : dx = i
        · subst h
          exact ⟨b.1, b.2, e, by rw [List.getElem?_set_self (by omega)]⟩
        · rw [List.getElem?_set_ne (Ne.symm h)]
          exact h3 dx (by omega))
    ⟨hx, rfl, by simp⟩
  dsimp only at h1 h2 h3
  subst h2
  exact ⟨y, e, h1, box, hb, h3⟩

theorem proposal_unique {cell g : Nat} {x y : List ℚ} (hx : Proposal m cell g x) (hy : Proposal m cell g y) :
    x = y := by
  obtain ⟨h1, box, hb, h2⟩ := hx
  obtain ⟨h3, box', hb', h4⟩ := hy
  rw [hb] at hb'
  cases hb'
  refine List.ext_getElem? fun i => ?_
  by_cases hi : i < m.ndim
  · obtain ⟨lo, hi', e1, e2⟩ := h2 i hi
    obtain ⟨lo', hi'', e3, e4⟩ := h4 i hi
    rw [e1] at e3
    cases e3
    rw [e2, e4]
  · rw [List.getElem?_eq_none (by omega), List.getElem?_eq_none (by omega)]

theorem propose_of {cell : Nat} {box : List (ℚ × ℚ)} (hb : m.box cell = some box) {x : List ℚ}
    (hx : x.length = m.ndim) {g : Nat} {y : List ℚ} (hy : Proposal m cell g y) :
    samplePropose m box (x, g) = some (y, g + m.ndim) := by
  have hl : m.ndim ≤ box.length := by
    obtain ⟨-, box', hb', h⟩ := hy
    rw [hb] at hb'
    cases hb'
    by_contra hh
    obtain ⟨lo, hi, e, -⟩ := h box.length (by omega)
    rw [List.getElem?_eq_none (Nat.le_refl _)] at e
    cases e
  obtain ⟨y', e, h⟩ := propose_spec hb hl hx g
  rw [e, proposal_unique hy h]

theorem propose_some {cell : Nat} {box : List (ℚ × ℚ)} (hb : m.box cell = some box) {x : List ℚ}
    (hx : x.length = m.ndim) {g : Nat} {s : List ℚ × Nat} (h : samplePropose m box (x, g) = some s) :
    s.2 = g + m.ndim ∧ Proposal m cell g s.1 := by
  have hl : m.ndim ≤ box.length := by
    have key := forLoop_partial (n := m.ndim) (step := fun dx (s : List ℚ × Nat) => (rd box dx).bind fun b =>
      (st s.1 dx (m.draw s.2 b.1 b.2)).bind fun x => some (x, s.2 + 1)) (fun i _ => i ≤ box.length)
      (s := (x, g)) (s' := s) (by
        intro i s s' _ hs hi
        obtain ⟨b, hb', -⟩ := Option.bind_eq_some_iff.1 hs
        have := (List.getElem?_eq_some_iff.1 hb').1
        omega) (Nat.zero_le _) h
    exact key
  obtain ⟨y, e, hy⟩ := propose_spec hb hl hx g
  rw [e] at h
  cases h
  exact ⟨rfl, hy⟩

/-- Attempts that are left: the position was accepted. -/
theorem try_some {cell : Nat} {box : List (ℚ × ℚ)} (hb : m.box cell = some box) :
    ∀ (k : Nat) (x : List ℚ) (g r : Nat) (y : List ℚ) (g' : Nat), x.length = m.ndim →
      sampleTry m cell box k (x, g) = some (r, y, g') → 0 < r →
      ∃ n, Accepted m cell g y g' n ∧ n + r = k
  | 0, x, g, r, y, g', _, h, hr => by
    simp only [sampleTry, Option.some.injEq, Prod.mk.injEq] at h
    omega
  | k + 1, x, g, r, y, g', hx, h, hr => by
    rw [sampleTry] at h
    obtain ⟨s, h1, h2⟩ := Option.bind_eq_some_iff.1 h
    obtain ⟨b, h3, h4⟩ := Option.bind_eq_some_iff.1 h2
    obtain ⟨hs, hp⟩ := propose_some hb hx h1
    cases b with
    | true =>
      rw [if_pos rfl] at h4
      simp only [Option.some.injEq, Prod.mk.injEq] at h4
      obtain ⟨rfl, rfl⟩ := h4
      refine ⟨1, ?_, by omega⟩
      dsimp only at hs hp h3
      subst hs
      exact Accepted.take g y hp h3
    | false =>
      rw [if_neg (by decide)] at h4
      obtain ⟨y0, g0⟩ := s
      dsimp only at hs hp h3
      subst hs
      obtain ⟨n, ha, hn⟩ := try_some hb k y0 _ r y g' hp.1 h4 hr
      exact ⟨n + 1, Accepted.skip g y0 y g' n hp h3 ha, by omega⟩

/-- What is accepted with the attempt `n` is found, if there are that many. -/
theorem try_of {cell : Nat} {box : List (ℚ × ℚ)} (hb : m.box cell = some box) {g : Nat} {y : List ℚ} {g' n : Nat}
    (h : Accepted m cell g y g' n) : ∀ (x : List ℚ) (k : Nat), x.length = m.ndim → n ≤ k →
      sampleTry m cell box k (x, g) = some (k - n, y, g') := by
  induction h with
  | take g y hp hc =>
    intro x k hx hk
    obtain ⟨k, rfl⟩ : ∃ j, k = j + 1 := ⟨k - 1, by omega⟩
    rw [sampleTry, propose_of hb hx hp]
    simp [hc]
  | skip g y0 y g' n hp hc _ ih =>
    intro x k hx hk
    obtain ⟨k, rfl⟩ : ∃ j, k = j + 1 := ⟨k - 1, by omega⟩
    rw [sampleTry, propose_of hb hx hp]
    simp only [Option.bind_some, hc]
    rw [if_neg (by decide), ih y0 k hp.1 (by omega)]
    congr 2
    omega

/-! ## Storing -/

/-- The rows for all dimensions are long enough. -/
def RowsOk (ndim len : Nat) (ps : List (List ℚ)) : Prop := ∀ dx < ndim, ∃ row, ps[dx]? = some row ∧ len ≤ row.length

theorem store_spec {ndim index : Nat} {x : List ℚ} {ps : List (List ℚ)} (hx : x.length = ndim)
    (hr : RowsOk ndim (index + 1) ps) :
    ∃ qs, sampleStore ndim index x ps = some qs ∧ qs.map List.length = ps.map List.length ∧
      (∀ dx < ndim, posAt qs index dx = x[dx]?) ∧
      ∀ i dx, (i ≠ index ∨ ndim ≤ dx) → posAt qs i dx = posAt ps i dx := by
  obtain ⟨qs, e, h1, h2, h3⟩ := forLoop_invariant (a := 0) (b := ndim)
    (step := fun dx ps => (rd x dx).bind fun v => (rd ps dx).bind fun row =>
      (st row index v).bind fun row' => st ps dx row') (s := ps)
    (P := fun j qs => qs.map List.length = ps.map List.length ∧ (∀ dx < j, posAt qs index dx = x[dx]?) ∧
      ∀ i dx, (i ≠ index ∨ j ≤ dx) → posAt qs i dx = posAt ps i dx) (Nat.zero_le _)
    (by
      intro j qs _ hj ⟨h1, h2, h3⟩
      obtain ⟨row0, hrow0, hlen0⟩ := hr j hj
      have hq : (qs.map List.length)[j]? = some row0.length := by
        rw [h1, List.getElem?_map, hrow0]; rfl
      rw [List.getElem?_map] at hq
      obtain ⟨row, hrow, hlen⟩ := Option.map_eq_some_iff.1 hq
      have hjq := (List.getElem?_eq_some_iff.1 hrow).1
      have ex : x[j]? = some (x[j]'(by omega)) := List.getElem?_eq_getElem _
      refine ⟨qs.set j (row.set index (x[j]'(by omega))), ?_, ?_, fun dx hdx => ?_, fun i dx hi => ?_⟩
      · unfold rd
        rw [ex, Option.bind_some, hrow, Option.bind_some, st_eq_some (by omega), Option.bind_some, st_eq_some hjq]
      · rw [← h1]
        refine List.ext_getElem? fun i => ?_
        rw [List.getElem?_map, List.getElem?_map]
        by_cases hi : j = i
        · subst hi
          rw [List.getElem?_set_self hjq, hrow]
          simp
        · rw [List.getElem?_set_ne hi]
      · by_cases h : dx = j
        · subst h
          unfold posAt
          rw [List.getElem?_set_self hjq, Option.bind_some, List.getElem?_set_self (by omega), ex]
        · have := h2 dx (by omega)
          unfold posAt at this ⊢
          rw [List.getElem?_set_ne (Ne.symm h)]
          exact this
      · by_cases h : j = dx
        · subst h
          have hne : i ≠ index := by
            rcases hi with hi | hi
            · exact hi
            · omega
          have := h3 i j (Or.inl hne)
          unfold posAt at this ⊢
          rw [List.getElem?_set_self hjq, Option.bind_some, List.getElem?_set_ne (Ne.symm hne), ← this, hrow]
          rfl
        · have := h3 i dx (by omega)
          unfold posAt at this ⊢
          rw [List.getElem?_set_ne h]
          exact this)
    ⟨rfl, by simp, fun _ _ _ => rfl⟩
  exact ⟨qs, e, h1, h2, h3⟩

theorem rowsOk_map {ndim len : Nat} {ps qs : List (List ℚ)} (h : qs.map List.length = ps.map List.length)
    (hp : RowsOk ndim len ps) : RowsOk ndim len qs := by
  intro dx hdx
  obtain ⟨row, h1, h2⟩ := hp dx hdx
  have hq : (qs.map List.length)[dx]? = some row.length := by rw [h, List.getElem?_map, h1]; rfl
  rw [List.getElem?_map] at hq
  obtain ⟨row', h3, h4⟩ := Option.map_eq_some_iff.1 hq
  exact ⟨row', h3, by omega⟩

theorem rowsOk_check {ndim len : Nat} {ps : List (List ℚ)} :
    forLoop 0 ndim (fun dx (_ : Unit) => (rd ps dx).bind fun row =>
      if row.length ≥ len then some () else none) () = some () ↔ RowsOk ndim len ps := by
  rw [forLoop_unit]
  refine forall_congr' fun dx => forall_congr' fun _ => ?_
  unfold rd
  cases ps[dx]? with
  | none => simp
  | some row => simp

/-! ## One cell -/

/-- What is known after `k` particles of a cell. -/
structure CellInv (m : SampleMesh) (amax cell : Nat) (s : SampleState) (k : Nat) (S : Nat → Nat)
    (t : SampleState) : Prop where
  index : t.index = s.index + k
  shape : t.positions.map List.length = s.positions.map List.length
  len : t.cells.length = s.cells.length
  start : S 0 = s.rng
  rng : S k = t.rng
  new : ∀ i < k, SampledAt m amax cell (s.index + i) (S i) (S (i + 1)) t.positions t.cells
  oldPos : ∀ i dx, (i < s.index ∨ s.index + k ≤ i ∨ m.ndim ≤ dx) → posAt t.positions i dx = posAt s.positions i dx
  oldCell : ∀ i, (i < s.index ∨ s.index + k ≤ i) → t.cells[i]? = s.cells[i]?

theorem cellInv_step {amax cell : Nat} {s t : SampleState} {k : Nat} {S : Nat → Nat} {x : List ℚ} {g' n : Nat}
    {ps : List (List ℚ)} (h : CellInv m amax cell s k S t) (hx : x.length = m.ndim)
    (ha : Accepted m cell t.rng x g' n) (hn : n < amax)
    (hrows : RowsOk m.ndim (s.index + k + 1) s.positions) (hlen : s.index + k < s.cells.length)
    (hs : sampleStore m.ndim t.index x t.positions = some ps) :
    ∃ S', CellInv m amax cell s (k + 1) S' ⟨t.index + 1, ps, t.cells.set t.index (cell : Int), g'⟩ := by
  have hti := h.index
  obtain ⟨qs, e, q1, q2, q3⟩ := store_spec (index := t.index) (ps := t.positions) hx
    (by rw [hti]; exact rowsOk_map h.shape hrows)
  rw [hs] at e
  cases e
  refine ⟨fun i => if i = k + 1 then g' else S i, ?_⟩
  have hl := h.len
  constructor
  · dsimp only; omega
  · exact q1.trans h.shape
  · simp [hl]
  · simpa using h.start
  · simp
  · intro i hi
    by_cases hik : i = k
    · subst hik
      rw [if_neg (by omega), if_pos rfl, h.rng]
      refine ⟨?_, x, n, ha, hn, fun dx hdx => ?_⟩
      · dsimp only
        rw [hti, List.getElem?_set_self (by omega)]
      · rw [← hti]
        exact q2 dx hdx
    · rw [if_neg (by omega), if_neg (by omega)]
      obtain ⟨a1, x', n', a2, a3, a4⟩ := h.new i (by omega)
      refine ⟨?_, x', n', a2, a3, fun dx hdx => ?_⟩
      · dsimp only
        rw [List.getElem?_set_ne (by omega)]
        exact a1
      · rw [q3 _ _ (Or.inl (by omega))]
        exact a4 dx hdx
  · intro i dx hi
    have : posAt ps i dx = posAt t.positions i dx := q3 i dx (by omega)
    exact this.trans (h.oldPos i dx (by omega))
  · intro i hi
    dsimp only
    rw [List.getElem?_set_ne (by omega)]
    exact h.oldCell i (by omega)

theorem accepted_length {cell g g' n : Nat} {x : List ℚ} (h : Accepted m cell g x g' n) : x.length = m.ndim := by
  induction h with
  | take g x hp _ => exact hp.1
  | skip g y x g' n _ _ _ ih => exact ih

/-- A call that returns. -/
theorem sampleCell_some {amax cell npart : Nat} {s t : SampleState}
    (h : sampleCell m amax cell npart s = some t) :
    RowsOk m.ndim (s.index + npart) s.positions ∧ s.index + npart ≤ s.cells.length ∧
      ∃ S, CellInv m amax cell s npart S t := by
  unfold sampleCell at h
  obtain ⟨u, h1, h2⟩ := Option.bind_eq_some_iff.1 h
  have hrows := rowsOk_check.1 h1
  split at h2
  swap
  · cases h2
  rename_i hc
  obtain ⟨box, hb, h3⟩ := Option.bind_eq_some_iff.1 h2
  obtain ⟨sp, h4, rfl⟩ := Option.map_eq_some_iff.1 h3
  refine ⟨hrows, hc, ?_⟩
  have key := forLoop_partial (n := npart) (step := fun _ (sp : SampleState × List ℚ) =>
      (sampleTry m cell box amax (sp.2, sp.1.rng)).bind fun r =>
      if r.1 > 0 then
        (sampleStore m.ndim sp.1.index r.2.1 sp.1.positions).bind fun ps =>
        (st sp.1.cells sp.1.index (cell : Int)).bind fun cs =>
        some ((⟨sp.1.index + 1, ps, cs, r.2.2⟩ : SampleState), r.2.1)
      else none)
    (fun k sp => sp.2.length = m.ndim ∧ ∃ S, CellInv m amax cell s k S sp.1)
    (s := (s, List.replicate m.ndim 0)) (s' := sp) (by
      rintro k ⟨t, x⟩ sp' hk hstep ⟨hx, S, hinv⟩
      dsimp only at hx hinv hstep
      obtain ⟨⟨r, y, g'⟩, e1, e2⟩ := Option.bind_eq_some_iff.1 hstep
      dsimp only at e2
      split at e2
      swap
      · cases e2
      rename_i hr
      obtain ⟨ps, e3, e4⟩ := Option.bind_eq_some_iff.1 e2
      obtain ⟨cs, e5, e6⟩ := Option.bind_eq_some_iff.1 e4
      cases e6
      obtain ⟨n, ha, hn⟩ := try_some hb amax x t.rng r y g' hx e1 hr
      have hy := accepted_length ha
      have hcs : cs = t.cells.set t.index (cell : Int) := by
        unfold st at e5
        split at e5
        · exact (Option.some.inj e5).symm
        · cases e5
      subst hcs
      refine ⟨hy, ?_⟩
      exact cellInv_step hinv hy ha (by omega)
        (fun dx hdx => by obtain ⟨row, a, b⟩ := hrows dx hdx; exact ⟨row, a, by omega⟩) (by omega) e3)
    ⟨by simp, fun _ => s.rng, ⟨rfl, rfl, rfl, rfl, rfl, by simp, fun _ _ _ => rfl, fun _ _ => rfl⟩⟩ h4
  exact key.2

/-- A call for which there are enough attempts returns. -/
theorem sampleCell_of {amax cell npart : Nat} {s : SampleState}
    (hrows : RowsOk m.ndim (s.index + npart) s.positions) (hlen : s.index + npart ≤ s.cells.length)
    (hbox : ∃ box, m.box cell = some box)
    (hacc : ∀ g, ∃ x g' n, Accepted m cell g x g' n ∧ n < amax) :
    ∃ t, sampleCell m amax cell npart s = some t := by
  obtain ⟨box, hb⟩ := hbox
  obtain ⟨sp, e, -⟩ := forLoop_invariant (a := 0) (b := npart) (step := fun _ (sp : SampleState × List ℚ) =>
      (sampleTry m cell box amax (sp.2, sp.1.rng)).bind fun r =>
      if r.1 > 0 then
        (sampleStore m.ndim sp.1.index r.2.1 sp.1.positions).bind fun ps =>
        (st sp.1.cells sp.1.index (cell : Int)).bind fun cs =>
        some ((⟨sp.1.index + 1, ps, cs, r.2.2⟩ : SampleState), r.2.1)
      else none)
    (P := fun k sp => sp.2.length = m.ndim ∧ ∃ S, CellInv m amax cell s k S sp.1)
    (s := (s, List.replicate m.ndim 0)) (Nat.zero_le _) (by
      rintro k ⟨t, x⟩ _ hk ⟨hx, S, hinv⟩
      dsimp only at hx hinv
      obtain ⟨y, g', n, ha, hn⟩ := hacc t.rng
      have hy := accepted_length ha
      have hr' : RowsOk m.ndim (s.index + k + 1) s.positions := fun dx hdx => by
        obtain ⟨row, a, b⟩ := hrows dx hdx; exact ⟨row, a, by omega⟩
      have hti := hinv.index
      have htl := hinv.len
      obtain ⟨ps, e3, -⟩ := store_spec (index := t.index) (ps := t.positions) hy
        (by rw [hti]; exact rowsOk_map hinv.shape hr')
      refine ⟨(⟨t.index + 1, ps, t.cells.set t.index (cell : Int), g'⟩, y), ?_, hy, ?_⟩
      · dsimp only
        rw [try_of hb ha x amax hx (by omega), Option.bind_some]
        dsimp only
        rw [if_pos (by omega), e3, Option.bind_some, st_eq_some (by omega)]
        rfl
      · exact cellInv_step hinv hy ha hn hr' (by omega) e3)
    ⟨by simp, fun _ => s.rng, ⟨rfl, rfl, rfl, rfl, rfl, by simp, fun _ _ _ => rfl, fun _ _ => rfl⟩⟩
  refine ⟨sp.1, ?_⟩
  unfold sampleCell
  rw [rowsOk_check.2 hrows, Option.bind_some, if_pos hlen, hb, Option.bind_some, e]
  rfl

end NP
