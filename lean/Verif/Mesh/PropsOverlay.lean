import Verif.Mesh.SpecOverlay
import Verif.Mesh.LemmasMap
import Verif.Mesh.LemmasCart
import Mathlib.Tactic.Positivity
import Mathlib.Tactic.FieldSimp
import Mathlib.Tactic.Linarith

/-!
# C44: the overlay mesh
-/

set_option autoImplicit false

namespace NP

theorem validOverlay_iff {m : OverlayMesh} : Spec.ValidOverlay m ↔
    m.counts ≠ [] ∧ m.origin.length = m.counts.length ∧ m.extents.length = m.counts.length ∧
      (∀ e ∈ m.extents, e > 0) ∧ ∀ c ∈ m.counts, c > 0 := by
  unfold Spec.ValidOverlay OverlayMesh.create
  refine and_congr_right fun _ => ?_
  constructor
  · intro h
    split at h
    · rename_i hc
      exact ⟨hc.1, hc.2.1, hc.2.2.2⟩
    · cases h
  · rintro ⟨h1, h2, h3, h4⟩
    rw [if_pos ⟨h1, h2, rfl, h3, h4⟩]

theorem overlay_cellCount {m : OverlayMesh} : m.cellCount = m.counts.prod := by
  unfold OverlayMesh.cellCount
  rw [List.prod_eq_foldl]

theorem overlay_dim {m : OverlayMesh} (hv : Spec.ValidOverlay m) {d : Nat}
    (hd : d < m.counts.length) : ∃ x, m.dim d = some x ∧ m.origin[d]? = some x.origin ∧
      m.extents[d]? = some x.extent ∧ m.counts[d]? = some x.count ∧ 0 < x.extent ∧ 0 < x.count ∧
      0 < x.width := by
  obtain ⟨-, h1, h2, h3, h4⟩ := validOverlay_iff.mp hv
  have e1 := List.getElem?_eq_getElem (l := m.origin) (i := d) (by omega)
  have e2 := List.getElem?_eq_getElem (l := m.extents) (i := d) (by omega)
  have e3 := List.getElem?_eq_getElem (l := m.counts) (i := d) (by omega)
  have p2 := h3 _ (List.mem_of_getElem? e2)
  have p3 := h4 _ (List.mem_of_getElem? e3)
  refine ⟨⟨m.origin[d], m.extents[d], m.counts[d]⟩, ?_, e1, e2, e3, p2, p3, ?_⟩
  · unfold OverlayMesh.dim
    simp only [rd]
    rw [e1, e2, e3]
    rfl
  · exact div_pos p2 (by exact_mod_cast p3)

/-- **C44** The linear indices `0, ..., n - 1` are one to one with the cells, where `n` is the
number of cells; a tuple is reported as valid if and only if it is a cell. -/
theorem C44_index (m : OverlayMesh) (hv : Spec.ValidOverlay m) :
    (∀ t, Spec.InRange m.counts t → ∃ i, m.linearIndex t = some i ∧ 0 ≤ i ∧ i < m.cellCount) ∧
    (∀ i, 0 ≤ i → i < m.cellCount → ∃ t, Spec.InRange m.counts t ∧ m.linearIndex t = some i ∧
      ∀ t', Spec.InRange m.counts t' → m.linearIndex t' = some i → t' = t) ∧
    (∀ t, t.length = m.counts.length →
      ∃ b, m.validIndex t = some b ∧ (b = true ↔ Spec.InRange m.counts t)) := by
  obtain ⟨hne, h1, h2, h3, h4⟩ := validOverlay_iff.mp hv
  have heq : ∀ t, Spec.InRange m.counts t → m.linearIndex t = some (horner m.counts t) :=
    fun t ht => radixToLinear_eq hne (by rw [ht.length])
  rw [overlay_cellCount]
  refine ⟨?_, ?_, ?_⟩
  · intro t ht
    exact ⟨_, heq t ht, horner_bounds ht⟩
  · intro i i0 i1
    obtain ⟨t, q1, q2, q3⟩ := linearToRadix_spec h4 i0 i1
    refine ⟨t, q2, by rw [heq t q2, q3], ?_⟩
    intro t' r1 r2
    rw [heq t' r1] at r2
    have := linearToRadix_horner r1
    rw [Option.some.inj r2, q1] at this
    exact (Option.some.inj this).symm
  · intro t ht
    obtain ⟨b, b1, b2⟩ := runItems_invariant
      (step := fun d valid => (rd t d).bind fun x => (rd m.counts d).bind fun n =>
        some (valid && (decide (x > -1) && decide (x < n))))
      (items := List.range m.counts.length) (s := true)
      (P := fun pre b => b = true ↔ ∀ d ∈ pre, ∀ x n, t[d]? = some x → m.counts[d]? = some n →
        0 ≤ x ∧ x < n)
      (by
        rintro pre d post b hitems hP
        have hd : d < m.counts.length := by
          have : d ∈ List.range m.counts.length := by rw [hitems]; simp
          exact List.mem_range.mp this
        have e1 := List.getElem?_eq_getElem (l := t) (i := d) (by omega)
        have e2 := List.getElem?_eq_getElem (l := m.counts) (i := d) hd
        refine ⟨_, by simp only [rd]; rw [e1, Option.bind_some, e2, Option.bind_some], ?_⟩
        rw [Bool.and_eq_true, hP, Bool.and_eq_true, decide_eq_true_eq, decide_eq_true_eq]
        constructor
        · rintro ⟨a, b⟩ d' hd' x n hx hn
          rcases List.mem_append.mp hd' with h | h
          · exact a d' h x n hx hn
          · rw [List.mem_singleton] at h
            subst h
            rw [e1] at hx
            rw [e2] at hn
            obtain rfl := Option.some.inj hx
            obtain rfl := Option.some.inj hn
            omega
        · intro h
          refine ⟨fun d' hd' => h d' (by simp [hd']), ?_⟩
          have := h d (by simp) _ _ e1 e2
          omega) (by simp)
    refine ⟨b, b1, b2.trans ?_⟩
    unfold Spec.InRange
    rw [List.forall₂_iff_get]
    constructor
    · intro h
      refine ⟨ht.symm, ?_⟩
      intro d hd hd'
      exact h d (List.mem_range.mpr hd) _ _ (List.getElem?_eq_getElem hd')
        (List.getElem?_eq_getElem hd)
    · rintro ⟨-, h⟩ d hd x n hx hn
      obtain ⟨a1, rfl⟩ := List.getElem?_eq_some_iff.mp hx
      obtain ⟨a2, rfl⟩ := List.getElem?_eq_some_iff.mp hn
      exact h d a2 a1

/-- The clamped cell of a position. -/
theorem overlayDim_cell {x : OverlayDim} (he : 0 < x.extent) (hc : 0 < x.count) (p : ℚ) :
    0 ≤ x.cell p ∧ x.cell p < x.count ∧
    (x.origin ≤ p → p < x.origin + x.extent →
      x.origin + x.cell p * (x.extent / x.count) ≤ p ∧
      p < x.origin + (x.cell p + 1) * (x.extent / x.count)) ∧
    (p < x.origin → x.cell p = 0) ∧ (x.origin + x.extent ≤ p → x.cell p = x.count - 1) := by
  have hcq : (0 : ℚ) < x.count := by exact_mod_cast hc
  have hw : 0 < x.extent / x.count := div_pos he hcq
  have hwc : x.extent / x.count * x.count = x.extent := by field_simp
  have hq : (p - x.origin) * x.invWidth = (p - x.origin) / (x.extent / x.count) := by
    unfold OverlayDim.invWidth OverlayDim.width
    rw [mul_one_div]
  unfold OverlayDim.cell
  rw [hq]
  simp only
  generalize hwe : x.extent / x.count = w at *
  refine ⟨by split_ifs <;> omega, by split_ifs <;> omega, ?_, ?_, ?_⟩
  · intro h0 h1
    have hnn : 0 ≤ (p - x.origin) / w := div_nonneg (by linarith) hw.le
    rw [truncZ_of_nonneg hnn]
    have f1 : (⌊(p - x.origin) / w⌋ : ℚ) ≤ (p - x.origin) / w := Int.floor_le _
    have f2 : (p - x.origin) / w < ⌊(p - x.origin) / w⌋ + 1 := Int.lt_floor_add_one _
    have f3 : 0 ≤ ⌊(p - x.origin) / w⌋ := Int.floor_nonneg.mpr hnn
    have f4 : ⌊(p - x.origin) / w⌋ < x.count := by
      rw [Int.floor_lt, div_lt_iff₀ hw]
      nlinarith
    rw [if_neg (show ¬ ⌊(p - x.origin) / w⌋ < 0 by omega), if_neg (by omega)]
    rw [le_div_iff₀ hw] at f1
    rw [div_lt_iff₀ hw] at f2
    constructor <;> linarith
  · intro h
    have hneg : (p - x.origin) / w < 0 := div_neg_of_neg_of_pos (by linarith) hw
    have : truncZ ((p - x.origin) / w) ≤ 0 := by
      unfold truncZ
      rw [if_neg (by linarith), Int.ceil_le]
      push_cast
      linarith
    split_ifs <;> omega
  · intro h
    have hge : (x.count : ℚ) ≤ (p - x.origin) / w := by
      rw [le_div_iff₀ hw]; nlinarith
    rw [truncZ_of_nonneg (by linarith)]
    have := Int.le_floor.mpr hge
    split_ifs <;> omega

/-- **C44** `get_cell_in_dimension` is defined for points up to `1e-8` outside the mesh, and
its result is a cell. A point in the mesh is in the half open interval of its cell. A point
below the mesh has the first and a point at or above the upper end the last cell. The device
mapper gives the same cells and clamps all points. -/
theorem C44_cell (m : OverlayMesh) (hv : Spec.ValidOverlay m) (d : Nat) (o e : ℚ) (n : Int)
    (ho : m.origin[d]? = some o) (he : m.extents[d]? = some e) (hn : m.counts[d]? = some n)
    (p : ℚ) :
    ∃ x, m.dim d = some x ∧
      (m.getCellInDimension d p =
        if o - 1 / 100000000 ≤ p ∧ p ≤ o + e + 1 / 100000000 then some (x.cell p) else none) ∧
      0 ≤ x.cell p ∧ x.cell p < n ∧
      (o ≤ p → p < o + e → o + x.cell p * (e / n) ≤ p ∧ p < o + (x.cell p + 1) * (e / n)) ∧
      (p < o → x.cell p = 0) ∧ (o + e ≤ p → x.cell p = n - 1) := by
  obtain ⟨x, h1, h2, h3, h4, h5, h6, h7⟩ :=
    overlay_dim hv (List.getElem?_eq_some_iff.mp hn).1
  rw [h2] at ho
  rw [h3] at he
  rw [h4] at hn
  obtain rfl := Option.some.inj ho
  obtain rfl := Option.some.inj he
  obtain rfl := Option.some.inj hn
  refine ⟨x, h1, ?_, overlayDim_cell h5 h6 p⟩
  unfold OverlayMesh.getCellInDimension
  rw [h1, Option.bind_some]

theorem epsReal_pos : 0 < epsReal := by unfold epsReal; norm_num

/-- The range of cells in one dimension. -/
theorem overlayDim_range {x : OverlayDim} (he : 0 < x.extent) (hc : 0 < x.count) (lo hi : ℚ) :
    0 ≤ x.cellLower lo ∧ x.cellLower lo < x.count ∧ 0 < x.cellUpper hi ∧
    x.cellUpper hi ≤ x.count ∧
    (lo ≤ hi → x.cellLower lo < x.cellUpper hi) ∧
    (∀ i : Int, 0 ≤ i → i < x.count → lo ≤ x.origin + (i + 1) * (x.extent / x.count) →
      x.origin + i * (x.extent / x.count) ≤ hi → x.cellLower lo ≤ i ∧ i < x.cellUpper hi) ∧
    (x.origin ≤ lo → lo ≤ hi → hi ≤ x.origin + x.extent → ∀ i : Int, x.cellLower lo ≤ i →
      i < x.cellUpper hi → lo ≤ x.origin + (i + 1) * (x.extent / x.count) + epsReal ∧
      x.origin + i * (x.extent / x.count) ≤ hi + epsReal) := by
  have hcq : (0 : ℚ) < x.count := by exact_mod_cast hc
  have hw : 0 < x.extent / x.count := div_pos he hcq
  have hwc : x.extent / x.count * x.count = x.extent := by field_simp
  have hep := epsReal_pos
  have hq : ∀ p, (p - x.origin) * x.invWidth = (p - x.origin) / (x.extent / x.count) := by
    intro p
    unfold OverlayDim.invWidth OverlayDim.width
    rw [mul_one_div]
  unfold OverlayDim.cellLower OverlayDim.cellUpper OverlayDim.width
  simp only [hq]
  generalize hwe : x.extent / x.count = w at *
  -- truncation
  have ht : ∀ p, (x.origin ≤ p → 0 ≤ truncZ ((p - x.origin) / w) ∧
      truncZ ((p - x.origin) / w) * w ≤ p - x.origin ∧
      p - x.origin < (truncZ ((p - x.origin) / w) + 1) * w) ∧
      (p < x.origin → truncZ ((p - x.origin) / w) ≤ 0) := by
    intro p
    constructor
    · intro h0
      have hnn : 0 ≤ (p - x.origin) / w := div_nonneg (by linarith) hw.le
      rw [truncZ_of_nonneg hnn]
      have f1 : (⌊(p - x.origin) / w⌋ : ℚ) ≤ (p - x.origin) / w := Int.floor_le _
      have f2 : (p - x.origin) / w < ⌊(p - x.origin) / w⌋ + 1 := Int.lt_floor_add_one _
      rw [le_div_iff₀ hw] at f1
      rw [div_lt_iff₀ hw] at f2
      exact ⟨Int.floor_nonneg.mpr hnn, f1, f2⟩
    · intro h
      have hneg : (p - x.origin) / w < 0 := div_neg_of_neg_of_pos (by linarith) hw
      unfold truncZ
      rw [if_neg (by linarith), Int.ceil_le]
      push_cast
      linarith
  have hcmp : ∀ a b : Int, (a : ℚ) * w < b * w → a < b := by
    intro a b h
    have := lt_of_mul_lt_mul_right h hw.le
    exact_mod_cast this
  obtain ⟨l1, l2⟩ := ht lo
  obtain ⟨u1, u2⟩ := ht hi
  generalize truncZ ((lo - x.origin) / w) = a at *
  generalize truncZ ((hi - x.origin) / w) = b at *
  refine ⟨by split_ifs <;> omega, by split_ifs <;> omega, by split_ifs <;> omega,
    by split_ifs <;> omega, ?_, ?_, ?_⟩
  · intro hle
    by_cases h0 : x.origin ≤ lo
    · obtain ⟨a1, a2, a3⟩ := l1 h0
      obtain ⟨b1, b2, b3⟩ := u1 (le_trans h0 hle)
      have : a < b + 1 := hcmp a (b + 1) (by push_cast; linarith)
      split_ifs <;> omega
    · have := l2 (not_le.mp h0)
      split_ifs <;> omega
  · intro i i0 i1 hlo hhi
    have hi0 : (0 : ℚ) ≤ i := by exact_mod_cast i0
    have hho : x.origin ≤ hi := by nlinarith
    obtain ⟨b1, b2, b3⟩ := u1 hho
    have hib : i < b + 1 := hcmp i (b + 1) (by push_cast; linarith)
    refine ⟨?_, by split_ifs <;> omega⟩
    by_cases h0 : x.origin ≤ lo
    · obtain ⟨a1, a2, a3⟩ := l1 h0
      by_cases hstep : (a : ℚ) * w ≥ lo - x.origin - epsReal
      · have : a < i + 1 + 1 := hcmp a (i + 1 + 1) (by push_cast; linarith)
        rw [if_pos hstep]
        split_ifs <;> omega
      · have : a < i + 1 := hcmp a (i + 1) (by push_cast; linarith)
        rw [if_neg hstep]
        split_ifs <;> omega
    · have := l2 (not_le.mp h0)
      split_ifs <;> omega
  · intro h0 hle htop i hi1 hi2
    obtain ⟨a1, a2, a3⟩ := l1 h0
    obtain ⟨b1, b2, b3⟩ := u1 (le_trans h0 hle)
    have hca : ∀ p q : Int, p ≤ q → (p : ℚ) * w ≤ q * w := by
      intro p q h
      have : (p : ℚ) ≤ q := by exact_mod_cast h
      exact mul_le_mul_of_nonneg_right this hw.le
    constructor
    · -- the last cell below
      by_cases hstep : (a : ℚ) * w ≥ lo - x.origin - epsReal
      · rw [if_pos hstep] at hi1
        have hlast : lo ≤ x.origin + x.extent := le_trans hle htop
        have hcases : a ≤ i + 1 ∨ x.count ≤ i + 1 := by
          split_ifs at hi1 <;> omega
        rcases hcases with h | h
        · have := hca a (i + 1) h
          push_cast at this
          linarith
        · have := hca x.count (i + 1) h
          push_cast at this
          linarith
      · rw [if_neg hstep] at hi1
        have hcases : a ≤ i ∨ x.count ≤ i + 1 := by
          split_ifs at hi1 <;> omega
        rcases hcases with h | h
        · have := hca (a + 1) (i + 1) (by omega)
          push_cast at this
          linarith
        · have := hca x.count (i + 1) h
          push_cast at this
          linarith
    · by_cases hstep : ((b : ℚ) + 1) * w ≤ hi - x.origin + epsReal
      · rw [if_pos hstep] at hi2
        have : i ≤ b + 1 := by split_ifs at hi2 <;> omega
        have := hca i (b + 1) this
        push_cast at this
        linarith
      · rw [if_neg hstep] at hi2
        have : i ≤ b := by split_ifs at hi2 <;> omega
        have := hca i b this
        linarith

/-- The tuples the nested loops visit. -/
def tuplesOf : List (Int × Int) → List (List Int)
  | [] => [[]]
  | r :: rs => (intRange r.1 r.2).flatMap fun i => (tuplesOf rs).map (i :: ·)

theorem mem_tuplesOf {rs : List (Int × Int)} {t : List Int} :
    t ∈ tuplesOf rs ↔ List.Forall₂ (fun (r : Int × Int) i => r.1 ≤ i ∧ i < r.2) rs t := by
  induction rs generalizing t with
  | nil => simp [tuplesOf]
  | cons r rs ih =>
    simp only [tuplesOf, List.mem_flatMap, List.mem_map, mem_intRange, ih,
      List.forall₂_cons_left_iff]
    constructor
    · rintro ⟨i, h1, t', h2, rfl⟩; exact ⟨i, t', h1, h2, rfl⟩
    · rintro ⟨i, t', h1, h2, rfl⟩; exact ⟨i, h1, t', h2, rfl⟩

theorem tuplesOf_nodup {rs : List (Int × Int)} : (tuplesOf rs).Nodup := by
  induction rs with
  | nil => simp [tuplesOf]
  | cons r rs ih =>
    rw [tuplesOf, List.nodup_flatMap]
    refine ⟨?_, ?_⟩
    · intro i _
      apply List.Nodup.map _ ih
      intro a b h
      simpa using h
    · have := intRange_nodup (a := r.1) (b := r.2)
      rw [List.nodup_iff_pairwise_ne] at this
      refine this.imp ?_
      intro i j hne t ht ht'
      beta_reduce at ht ht'
      obtain ⟨u, -, rfl⟩ := List.mem_map.mp ht
      obtain ⟨u', -, hu⟩ := List.mem_map.mp ht'
      simp only [List.cons.injEq] at hu
      exact hne hu.1.symm

/-- The loops with enough entries in `index`. -/
theorem getAllCells_spec {m : OverlayMesh} (hne : m.counts ≠ []) :
    ∀ {rs : List (Int × Int)} {pre junk cells : List Int}, rs ≠ [] →
      pre.length + rs.length = m.counts.length → rs.length ≤ junk.length →
      ∃ junk', junk'.length = junk.length ∧
        m.getAllCells pre.length rs (pre ++ junk, cells) =
          some (pre ++ junk', cells ++ (tuplesOf rs).map fun t => horner m.counts (pre ++ t)) := by
  intro rs
  induction rs with
  | nil => intro _ _ _ h; exact absurd rfl h
  | cons r rs ih =>
    intro pre junk cells _ hl hj
    obtain ⟨x, junk, rfl⟩ : ∃ x j, junk = x :: j := by
      match junk, hj with
      | x :: j, _ => exact ⟨x, j, rfl⟩
    have hst : ∀ (x : Int) (j : List Int) (ix : Int),
        st (pre ++ x :: j) pre.length ix = some (pre ++ ix :: j) := by
      intro x j ix
      rw [st_eq_some (by simp)]
      simp
    -- the state while looping
    have loop : ∀ (step : Int → List Int × List Int → Option (List Int × List Int))
        (f : Int → List Int),
        (∀ ix x j cells, j.length = junk.length → ∃ x' j', j'.length = junk.length ∧
          step ix (pre ++ x :: j, cells) = some (pre ++ x' :: j', cells ++ f ix)) →
        ∀ (is : List Int) (x : Int) (j cells : List Int), j.length = junk.length →
          ∃ x' j', j'.length = junk.length ∧
            runItems step is (pre ++ x :: j, cells) =
              some (pre ++ x' :: j', cells ++ is.flatMap f) := by
      intro step f hstep is
      induction is with
      | nil => intro x j cells hj'; exact ⟨x, j, hj', by simp [runItems]⟩
      | cons i is ihis =>
        intro x j cells hj'
        obtain ⟨x1, j1, e1, e2⟩ := hstep i x j cells hj'
        obtain ⟨x2, j2, e3, e4⟩ := ihis x1 j1 (cells ++ f i) e1
        refine ⟨x2, j2, e3, ?_⟩
        rw [runItems_cons, e2, Option.bind_some, e4, List.flatMap_cons, List.append_assoc]
    cases rs with
    | nil =>
      obtain ⟨x', j', e1, e2⟩ := loop (fun ix s => (st s.1 pre.length ix).bind fun index =>
        (m.linearIndex index).bind fun i => some (index, s.2 ++ [i]))
        (fun ix => [horner m.counts (pre ++ [ix])])
        (by
          intro ix x j cells hj'
          refine ⟨ix, j, hj', ?_⟩
          simp only
          rw [hst, Option.bind_some]
          have hlen : m.counts.length ≤ (pre ++ ix :: j).length := by
            simp at hl ⊢; omega
          unfold OverlayMesh.linearIndex
          rw [radixToLinear_eq hne hlen, Option.bind_some]
          have : pre ++ ix :: j = (pre ++ [ix]) ++ j := by simp
          rw [this, horner_append (by simp at hl ⊢; omega)])
        (intRange r.1 r.2) x junk cells rfl
      refine ⟨x' :: j', by simp [e1], ?_⟩
      rw [OverlayMesh.getAllCells, e2]
      congr 3
      simp [tuplesOf, List.flatMap_map, List.map_flatMap]
    | cons r' rs =>
      obtain ⟨x', j', e1, e2⟩ := loop (fun ix s => (st s.1 pre.length ix).bind fun index =>
        m.getAllCells (pre.length + 1) (r' :: rs) (index, s.2))
        (fun ix => (tuplesOf (r' :: rs)).map fun t => horner m.counts (pre ++ ix :: t))
        (by
          intro ix x j cells hj'
          obtain ⟨junk', k1, k2⟩ := ih (pre := pre ++ [ix]) (junk := j) (cells := cells) (by simp)
            (by simp at hl ⊢; omega) (by simp at hj ⊢; omega)
          refine ⟨ix, junk', by rw [k1, hj'], ?_⟩
          simp only
          rw [hst, Option.bind_some]
          have e : pre ++ ix :: j = (pre ++ [ix]) ++ j := by simp
          rw [List.length_append, List.length_singleton] at k2
          rw [e, k2]
          simp)
        (intRange r.1 r.2) x junk cells rfl
      refine ⟨x' :: j', by simp [e1], ?_⟩
      rw [OverlayMesh.getAllCells, e2]
      congr 3
      rw [show tuplesOf (r :: r' :: rs) = (intRange r.1 r.2).flatMap fun i =>
        (tuplesOf (r' :: rs)).map (i :: ·) from rfl, List.map_flatMap]
      congr 1
      funext i
      rw [List.map_map]
      rfl

theorem cellRanges_spec {m : OverlayMesh} (hv : Spec.ValidOverlay m) {lower upper : List ℚ}
    (hlo : m.counts.length ≤ lower.length) (hhi : m.counts.length ≤ upper.length) :
    ∃ rs, m.cellRanges lower upper = some rs ∧ rs.length = m.counts.length ∧
      ∀ (d : Nat), d < m.counts.length → ∃ x lo hi, m.dim d = some x ∧
        m.origin[d]? = some x.origin ∧ m.extents[d]? = some x.extent ∧
        m.counts[d]? = some x.count ∧ 0 < x.extent ∧ 0 < x.count ∧
        lower[d]? = some lo ∧ upper[d]? = some hi ∧
        rs[d]? = some (x.cellLower lo, x.cellUpper hi) := by
  obtain ⟨rs, h1, h2⟩ := forAllM_exists
    (f := fun d => (rd lower d).bind fun lo => (rd upper d).bind fun hi => (m.dim d).bind fun x =>
      some (x.cellLower lo, x.cellUpper hi)) (l := List.range m.counts.length)
    (fun d r => ∃ x lo hi, m.dim d = some x ∧
        m.origin[d]? = some x.origin ∧ m.extents[d]? = some x.extent ∧
        m.counts[d]? = some x.count ∧ 0 < x.extent ∧ 0 < x.count ∧
        lower[d]? = some lo ∧ upper[d]? = some hi ∧ r = (x.cellLower lo, x.cellUpper hi))
    (by
      intro d hd
      rw [List.mem_range] at hd
      obtain ⟨x, a1, a2, a3, a4, a5, a6, -⟩ := overlay_dim hv hd
      have e1 := List.getElem?_eq_getElem (l := lower) (i := d) (by omega)
      have e2 := List.getElem?_eq_getElem (l := upper) (i := d) (by omega)
      refine ⟨_, ?_, x, _, _, a1, a2, a3, a4, a5, a6, e1, e2, rfl⟩
      simp only [rd]
      rw [e1, Option.bind_some, e2, Option.bind_some, a1, Option.bind_some])
  have hl : rs.length = m.counts.length := by
    rw [← h2.length_eq, List.length_range]
  refine ⟨rs, h1, hl, ?_⟩
  intro d hd
  obtain ⟨x, lo, hi, a1, a2, a3, a4, a5, a6, a7, a8, a9⟩ := forall₂_get h2
    (show (List.range m.counts.length)[d]? = some d by rw [List.getElem?_range hd])
    (List.getElem?_eq_getElem (show d < rs.length by omega))
  exact ⟨x, lo, hi, a1, a2, a3, a4, a5, a6, a7, a8, by
    rw [List.getElem?_eq_getElem (show d < rs.length by omega), a9]⟩

/-- **C44** In one and two dimensions `get_intersecting_cells` returns cells of the mesh, each
once, and all cells which intersect the box (also if they only touch it). If the box is in the
mesh then every returned cell comes within `epsilon` of the box. -/
theorem C44_intersecting_partial (m : OverlayMesh) (hv : Spec.ValidOverlay m)
    (hd : m.counts.length ≤ 2) (lower upper : List ℚ)
    (hlo : m.counts.length ≤ lower.length) (hhi : m.counts.length ≤ upper.length) :
    ∃ cells, m.intersectingCells lower upper = some cells ∧ cells.Nodup ∧
      (∀ i ∈ cells, 0 ≤ i ∧ i < m.cellCount) ∧
      (∀ t i, Spec.InRange m.counts t → Spec.BoxMeets m 0 lower upper t →
        m.linearIndex t = some i → i ∈ cells) ∧
      (Spec.BoxInside m lower upper → ∀ i ∈ cells, ∃ t, Spec.InRange m.counts t ∧
        m.linearIndex t = some i ∧ Spec.BoxMeets m epsReal lower upper t) := by
  obtain ⟨hne, q1, q2, q3, q4⟩ := validOverlay_iff.mp hv
  obtain ⟨rs, h1, h2, h3⟩ := cellRanges_spec hv hlo hhi
  have hrs : rs ≠ [] := by
    intro h
    rw [h] at h2
    exact hne (List.length_eq_zero_iff.mp h2.symm)
  obtain ⟨junk, j1, j2⟩ := getAllCells_spec hne (rs := rs) (pre := []) (junk := [0, 0])
    (cells := []) hrs (by simpa using h2) (by simp; omega)
  have hin : ∀ t ∈ tuplesOf rs, Spec.InRange m.counts t := by
    intro t ht
    rw [mem_tuplesOf, List.forall₂_iff_get] at ht
    unfold Spec.InRange
    rw [List.forall₂_iff_get]
    refine ⟨by omega, ?_⟩
    intro d hd1 hd2
    obtain ⟨x, lo, hi, -, -, -, a4, a5, a6, -, -, a9⟩ := h3 d hd1
    have hb := overlayDim_range a5 a6 lo hi
    have := ht.2 d (by omega) hd2
    simp only [List.get_eq_getElem] at this ⊢
    rw [List.getElem?_eq_getElem (by omega)] at a9
    rw [Option.some.inj a9] at this
    rw [List.getElem?_eq_getElem hd1] at a4
    rw [Option.some.inj a4]
    simp only at this
    omega
  have heq : ∀ t, Spec.InRange m.counts t → m.linearIndex t = some (horner m.counts t) :=
    fun t ht => radixToLinear_eq hne (by rw [ht.length])
  simp only [List.nil_append, List.length_nil] at j2
  refine ⟨(tuplesOf rs).map fun t => horner m.counts t, ?_, ?_, ?_, ?_, ?_⟩
  · unfold OverlayMesh.intersectingCells
    rw [h1, Option.bind_some, j2, Option.bind_some]
  · apply List.Nodup.map_on _ tuplesOf_nodup
    intro a ha b hb hab
    have e1 := linearToRadix_horner (hin a ha)
    have e2 := linearToRadix_horner (hin b hb)
    beta_reduce at hab
    rw [hab, e2] at e1
    exact (Option.some.inj e1).symm
  · intro i hi
    obtain ⟨t, ht, rfl⟩ := List.mem_map.mp hi
    rw [overlay_cellCount]
    exact horner_bounds (hin t ht)
  · intro t i ht hmeet hi
    rw [heq t ht] at hi
    obtain rfl := Option.some.inj hi
    refine List.mem_map.mpr ⟨t, ?_, rfl⟩
    rw [mem_tuplesOf, List.forall₂_iff_get]
    refine ⟨by rw [h2, ht.length], ?_⟩
    intro d hd1 hd2
    obtain ⟨x, lo, hi, -, a2, a3, a4, a5, a6, a7, a8, a9⟩ := h3 d (by omega)
    have hti := List.getElem?_eq_getElem hd2
    obtain ⟨m1, m2⟩ := hmeet d _ _ lo hi _ _ a2 a3 a4 a7 a8 hti
    have hr := forall₂_get ht a4 hti
    obtain ⟨-, -, -, -, -, hc, -⟩ := overlayDim_range a5 a6 lo hi
    have := hc t[d] hr.1 hr.2 (by linarith) (by linarith)
    rw [List.getElem?_eq_getElem hd1] at a9
    simp only [List.get_eq_getElem]
    rw [Option.some.inj a9]
    exact this
  · intro hbox i hi
    obtain ⟨t, ht, rfl⟩ := List.mem_map.mp hi
    refine ⟨t, hin t ht, heq t (hin t ht), ?_⟩
    intro d o e lo hi' c i ho he hc hlo' hhi' hti
    have hdc := (List.getElem?_eq_some_iff.mp hc).1
    obtain ⟨x, lo2, hi2, -, a2, a3, a4, a5, a6, a7, a8, a9⟩ := h3 d hdc
    rw [a2] at ho
    rw [a3] at he
    rw [a4] at hc
    rw [a7] at hlo'
    rw [a8] at hhi'
    obtain rfl := Option.some.inj ho
    obtain rfl := Option.some.inj he
    obtain rfl := Option.some.inj hc
    obtain rfl := Option.some.inj hlo'
    obtain rfl := Option.some.inj hhi'
    obtain ⟨g1, g2, g3⟩ := hbox d _ _ lo2 hi2 a2 a3 a7 a8
    rw [mem_tuplesOf] at ht
    obtain ⟨r1, r2⟩ := forall₂_get ht a9 hti
    obtain ⟨-, -, -, -, -, -, hcc⟩ := overlayDim_range a5 a6 lo2 hi2
    exact hcc g1 g2 g3 i r1 r2

/-- **C44** In three dimensions `get_intersecting_cells` fails for every mesh and every box: the
index vector has two entries. -/
theorem C44_three_dimensions_fail (m : OverlayMesh) (hv : Spec.ValidOverlay m)
    (hd : m.counts.length = 3) (lower upper : List ℚ) (hlo : lower.length = 3)
    (hhi : upper.length = 3) (hbox : ∀ (d : Nat) (lo hi : ℚ), lower[d]? = some lo →
      upper[d]? = some hi → lo ≤ hi) : m.intersectingCells lower upper = none := by
  obtain ⟨rs, h1, h2, h3⟩ := cellRanges_spec hv (lower := lower) (upper := upper)
    (by omega) (by omega)
  have hpos : ∀ (d : Nat) (r : Int × Int), rs[d]? = some r → ∃ is, intRange r.1 r.2 = r.1 :: is := by
    intro d r hr
    have hdl := (List.getElem?_eq_some_iff.mp hr).1
    obtain ⟨x, lo, hi, -, -, -, -, a5, a6, a7, a8, a9⟩ := h3 d (by omega)
    obtain ⟨-, -, -, -, hlt, -⟩ := overlayDim_range a5 a6 lo hi
    rw [hr] at a9
    obtain rfl := Option.some.inj a9
    have := hlt (hbox d lo hi a7 a8)
    unfold intRange
    obtain ⟨k, hk⟩ : ∃ k : Nat, (x.cellUpper hi - x.cellLower lo).toNat = k + 1 :=
      ⟨(x.cellUpper hi - x.cellLower lo).toNat - 1, by omega⟩
    simp only
    rw [hk, List.range_succ_eq_map]
    exact ⟨_, by rw [List.map_cons]; congr 1; simp⟩
  match rs, h2.trans hd, h1 with
  | [r0, r1, r2], _, h1 =>
    obtain ⟨i0, e0⟩ := hpos 0 r0 rfl
    obtain ⟨i1, e1⟩ := hpos 1 r1 rfl
    obtain ⟨i2, e2⟩ := hpos 2 r2 rfl
    unfold OverlayMesh.intersectingCells
    rw [h1, Option.bind_some]
    simp [OverlayMesh.getAllCells, e0, e1, e2, runItems_cons, st]

/-! ## Creating a mesh with a number of cells -/

theorem maxElementQ_spec {l : List ℚ} (h : l ≠ []) : ∃ i, maxElementQ l = some i ∧ i < l.length := by
  induction l with
  | nil => exact absurd rfl h
  | cons a l ih =>
    cases l with
    | nil => exact ⟨0, rfl, by simp⟩
    | cons b l =>
      obtain ⟨i, h1, h2⟩ := ih (by simp)
      rw [maxElementQ, h1]
      simp only
      split
      · exact ⟨i + 1, rfl, by simp at h2 ⊢; omega⟩
      · exact ⟨0, rfl, by simp⟩

theorem prod_set_double {l : List Int} {i : Nat} {c : Int} (h : l[i]? = some c) :
    (l.set i (c * 2)).prod = l.prod * 2 := by
  induction l generalizing i with
  | nil => simp at h
  | cons x l ih =>
    cases i with
    | zero =>
      simp only [List.getElem?_cons_zero, Option.some.injEq] at h
      subst h
      simp only [List.set_cons_zero, List.prod_cons]
      ring
    | succ i =>
      simp only [List.set_cons_succ, List.prod_cons]
      rw [ih (by simpa using h)]
      ring

/-- **C44** `create_overlay_mesh` terminates (after fewer than `ncells` iterations of its loop)
and gives a mesh over the box with at least the number of cells asked for, but less than twice
as many; the numbers of cells in the dimensions are powers of two. -/
theorem C44_create (lower upper : List ℚ) (ndim : Nat) (hn : 0 < ndim)
    (hlo : ndim ≤ lower.length) (hhi : ndim ≤ upper.length)
    (hbox : ∀ (d : Nat) (lo hi : ℚ), d < ndim → lower[d]? = some lo → upper[d]? = some hi → lo < hi)
    (ncells : Int) (fuel : Nat) (hf : ncells ≤ fuel) :
    ∃ m, createOverlayMesh fuel ndim lower upper ncells = some m ∧ Spec.ValidOverlay m ∧
      m.counts.length = ndim ∧ m.origin = lower.take ndim ∧
      (∀ (d : Nat) (lo hi : ℚ), d < ndim → lower[d]? = some lo → upper[d]? = some hi →
        m.extents[d]? = some (hi - lo)) ∧
      ncells ≤ m.cellCount ∧ (1 ≤ ncells → m.cellCount < 2 * ncells ∨ m.cellCount = 1) ∧
      ∀ c ∈ m.counts, ∃ k : Nat, c = 2 ^ k := by
  have hfold : ∀ l : List Int, l.foldl (· * ·) 1 = l.prod := fun l => by rw [List.prod_eq_foldl]
  -- the loop
  have loop : ∀ (extents : List ℚ) (fuel : Nat) (counts : List Int), extents.length = counts.length →
      counts ≠ [] → (∀ c ∈ counts, ∃ k : Nat, c = 2 ^ k) → ncells ≤ counts.prod + fuel →
      (counts.prod = 1 ∨ counts.prod < 2 * ncells) →
      ∃ counts', overlayLoop extents ncells fuel counts = some counts' ∧
        counts'.length = counts.length ∧ (∀ c ∈ counts', ∃ k : Nat, c = 2 ^ k) ∧
        ncells ≤ counts'.prod ∧ (counts'.prod = 1 ∨ counts'.prod < 2 * ncells) := by
    intro extents fuel
    induction fuel with
    | zero =>
      intro counts _ _ hpow hle hub
      refine ⟨counts, ?_, rfl, hpow, by simpa using hle, hub⟩
      rw [overlayLoop, hfold, if_neg (by simpa using hle)]
    | succ fuel ih =>
      intro counts hlen hne hpow hle hub
      have hpos : 0 < counts.prod := by
        clear * - hpow
        induction counts with
        | nil => simp
        | cons c l ihc =>
          obtain ⟨k, hk⟩ := hpow c (by simp)
          rw [List.prod_cons, hk]
          have := ihc (fun c hc => hpow c (by simp [hc]))
          positivity
      rw [overlayLoop, hfold]
      by_cases hlt : counts.prod < ncells
      · rw [if_pos hlt]
        have hzl : (List.zipWith (fun (e : ℚ) (c : Int) => e / c) extents counts).length =
            counts.length := by
          rw [List.length_zipWith]; omega
        obtain ⟨i, i1, i2⟩ := maxElementQ_spec
          (l := List.zipWith (fun (e : ℚ) (c : Int) => e / c) extents counts)
          (by
            intro h
            rw [h] at hzl
            exact hne (List.length_eq_zero_iff.mp hzl.symm))
        rw [hzl] at i2
        have hci := List.getElem?_eq_getElem i2
        have hd : overlayDouble extents counts = some (counts.set i (counts[i] * 2)) := by
          unfold overlayDouble
          rw [i1, Option.bind_some]
          simp only [rd]
          rw [hci, Option.bind_some, st_eq_some i2]
        rw [hd, Option.bind_some]
        have hprod := prod_set_double hci
        obtain ⟨counts', c1, c2, c3, c4, c5⟩ := ih (counts.set i (counts[i] * 2))
          (by simpa using hlen) (by
            intro h
            have := congrArg List.length h
            rw [List.length_set] at this
            exact hne (List.length_eq_zero_iff.mp this))
          (by
            intro c hc
            rcases List.mem_or_eq_of_mem_set hc with hc | rfl
            · exact hpow c hc
            · obtain ⟨k, hk⟩ := hpow counts[i] (List.getElem_mem i2)
              exact ⟨k + 1, by rw [hk, pow_succ]⟩)
          (by rw [hprod]; push_cast at hle; omega) (by right; rw [hprod]; omega)
        exact ⟨counts', c1, by simpa using c2, c3, c4, c5⟩
      · rw [if_neg hlt]
        exact ⟨counts, rfl, rfl, hpow, by omega, hub⟩
  -- origin and extents
  have horig : forAllM (fun d => rd lower d) (List.range ndim) = some (lower.take ndim) := by
    rw [forAllM_eq (g := fun d => (lower[d]?).getD 0)]
    · congr 1
      apply List.ext_getElem?
      intro d
      rw [List.getElem?_map, List.getElem?_take]
      by_cases hd : d < ndim
      · rw [List.getElem?_range hd, if_pos hd,
          List.getElem?_eq_getElem (show d < lower.length by omega)]
        simp [List.getElem?_eq_getElem (show d < lower.length by omega)]
      · rw [if_neg hd, List.getElem?_eq_none (by simpa using hd)]
        rfl
    · intro d hd
      rw [List.mem_range] at hd
      simp [rd, List.getElem?_eq_getElem (show d < lower.length by omega)]
  obtain ⟨extents, e1, e2⟩ := forAllM_exists
    (f := fun d => (rd lower d).bind fun l => (rd upper d).bind fun u => some (u - l))
    (l := List.range ndim)
    (fun d x => ∀ (lo hi : ℚ), lower[d]? = some lo → upper[d]? = some hi → x = hi - lo)
    (by
      intro d hd
      rw [List.mem_range] at hd
      refine ⟨upper[d] - lower[d], ?_, ?_⟩
      · simp [rd, List.getElem?_eq_getElem (show d < lower.length by omega),
          List.getElem?_eq_getElem (show d < upper.length by omega)]
      · intro lo hi hl hh
        rw [List.getElem?_eq_getElem (show d < lower.length by omega)] at hl
        rw [List.getElem?_eq_getElem (show d < upper.length by omega)] at hh
        rw [Option.some.inj hl, Option.some.inj hh])
  have hel : extents.length = ndim := by rw [← e2.length_eq, List.length_range]
  have hext : ∀ (d : Nat) (lo hi : ℚ), d < ndim → lower[d]? = some lo → upper[d]? = some hi →
      extents[d]? = some (hi - lo) := by
    intro d lo hi hd hl hh
    have := forall₂_get e2 (List.getElem?_range hd)
      (List.getElem?_eq_getElem (show d < extents.length by omega)) lo hi hl hh
    rw [List.getElem?_eq_getElem (show d < extents.length by omega), this]
  have hone : (List.replicate ndim (1 : Int)).prod = 1 := by simp
  obtain ⟨counts, c1, c2, c3, c4, c5⟩ := loop extents fuel (List.replicate ndim 1)
    (by simp [hel]) (by
      intro h
      have := congrArg List.length h
      simp at this
      omega)
    (by intro c hc; exact ⟨0, by simpa using List.eq_of_mem_replicate hc⟩)
    (by rw [hone]; omega) (Or.inl hone)
  rw [List.length_replicate] at c2
  have hcpos : ∀ c ∈ counts, c > 0 := by
    intro c hc
    obtain ⟨k, rfl⟩ := c3 c hc
    positivity
  have hepos : ∀ e ∈ extents, e > 0 := by
    intro e he
    obtain ⟨d, hd, rfl⟩ := List.getElem_of_mem he
    have hdl : d < ndim := by omega
    have := hext d _ _ hdl (List.getElem?_eq_getElem (show d < lower.length by omega))
      (List.getElem?_eq_getElem (show d < upper.length by omega))
    rw [List.getElem?_eq_getElem hd] at this
    have hlt := hbox d _ _ hdl (List.getElem?_eq_getElem (show d < lower.length by omega))
      (List.getElem?_eq_getElem (show d < upper.length by omega))
    rw [Option.some.inj this]
    linarith
  have hol : (lower.take ndim).length = ndim := by rw [List.length_take]; omega
  refine ⟨⟨lower.take ndim, extents, counts⟩, ?_, ?_, c2, rfl, hext, ?_, ?_, c3⟩
  · unfold createOverlayMesh
    rw [horig, Option.bind_some, e1, Option.bind_some, c1, Option.bind_some]
    unfold OverlayMesh.create
    rw [if_pos ⟨hol, hel, c2, hepos, hcpos⟩]
  · rw [validOverlay_iff]
    refine ⟨?_, by simp only; omega, by simp only; omega, hepos, hcpos⟩
    intro h
    simp only at h
    rw [h] at c2
    simp at c2
    omega
  · rw [overlay_cellCount]; exact c4
  · intro _
    rw [overlay_cellCount]
    exact c5.symm

namespace Ex

/-- Four by two cells of width one half. -/
def overlay : OverlayMesh := ⟨[0, 0], [2, 1], [4, 2]⟩

example : Spec.ValidOverlay overlay := validOverlay_iff.mpr (by decide +kernel)
example : overlay.linearIndex [3, 1] = some 7 := by decide
example : overlay.getCellInDimension 0 (3/4) = some 1 := by decide +kernel
example : overlay.intersectingCells [3/4, 1/4, 0] [5/4, 1/4, 0] = some [1, 2] := by decide +kernel
example : (createOverlayMesh 5 2 [0, 0] [2, 1] 5).map (·.counts) = some [4, 2] := by decide +kernel
example : (createOverlayMesh 5 2 [0, 0, 0] [2, 1, 0] 5).map (·.counts) = some [4, 2] := by
  decide +kernel

/-- A mesh for which the search for cells fails. -/
def overlay3 : OverlayMesh := ⟨[0, 0, 0], [1, 1, 1], [2, 2, 2]⟩

example : Spec.ValidOverlay overlay3 := validOverlay_iff.mpr (by decide +kernel)
example : overlay3.intersectingCells [0, 0, 0] [1, 1, 1] = none := by decide +kernel

end Ex

end NP
