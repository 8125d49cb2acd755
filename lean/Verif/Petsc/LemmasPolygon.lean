import Verif.Petsc.SpecMapper
import Mathlib.Tactic.FieldSimp
import Mathlib.Tactic.Linarith
import Mathlib.Tactic.Positivity

/-!
# Lemmas: crossing numbers of triangles and convex quadrilaterals
-/

set_option autoImplicit false

namespace NP

open Spec

/-! ## One edge -/

theorem lineOrient_cases {R : Type} [LinearOrder R] (a b : R × R) :
    lineOrient a b = (a, b) ∧ (a.1 < b.1 ∨ (a.1 = b.1 ∧ a.2 < b.2)) ∨
    lineOrient a b = (b, a) ∧ ¬ (a.1 < b.1 ∨ (a.1 = b.1 ∧ a.2 < b.2)) := by
  unfold lineOrient
  by_cases h : a.1 = b.1
  · by_cases h2 : a.2 < b.2
    · left
      simp [h, h2]
      exact Prod.ext h.symm rfl
    · right
      refine ⟨?_, by simp [h, h2]⟩
      simp [h, h2]
      exact Prod.ext h.symm rfl
  · by_cases h2 : a.1 < b.1
    · left
      simp [h, h2]
    · right
      refine ⟨by simp [h, h2], by simp [h, h2]⟩

theorem lineOrient_comm {R : Type} [LinearOrder R] (a b : R × R) :
    lineOrient a b = lineOrient b a := by
  rcases lineOrient_cases a b with ⟨h1, h2⟩ | ⟨h1, h2⟩ <;>
    rcases lineOrient_cases b a with ⟨h3, h4⟩ | ⟨h3, h4⟩ <;> rw [h1, h3]
  · exfalso
    rcases h2 with h2 | h2 <;> rcases h4 with h4 | h4
    · exact lt_asymm h2 h4
    · exact lt_irrefl _ (h4.1 ▸ h2)
    · exact lt_irrefl _ (h2.1 ▸ h4)
    · exact lt_asymm h2.2 h4.2
  · push Not at h2 h4
    have e1 : a.1 = b.1 := le_antisymm h4.1 h2.1
    have e2 : a.2 = b.2 := le_antisymm (h4.2 e1.symm) (h2.2 e1)
    rw [show a = b from Prod.ext e1 e2]

/-- Where the line through two points is at height `y`. -/
def xAt (a b : ℚ × ℚ) (y : ℚ) : ℚ := (a.1 * (b.2 - y) - b.1 * (a.2 - y)) / (b.2 - a.2)

theorem xAt_comm (a b : ℚ × ℚ) (y : ℚ) : xAt a b y = xAt b a y := by
  unfold xAt
  rw [show b.1 * (a.2 - y) - a.1 * (b.2 - y) = -(a.1 * (b.2 - y) - b.1 * (a.2 - y)) by ring,
    show a.2 - b.2 = -(b.2 - a.2) by ring, neg_div_neg_eq]

/-- A straddled edge: the test compares `p.1` with the edge at the height of the point. -/
theorem edgeCore_straddle {p i j : ℚ × ℚ} (hs : ¬ (p.2 < i.2 ↔ p.2 < j.2)) :
    (edgeCore p i j = .on ↔ xAt i j p.2 = p.1) ∧ (edgeCore p i j = .cross ↔ p.1 < xAt i j p.2) := by
  have hne : j.2 - i.2 ≠ 0 := by
    intro h
    apply hs
    rw [show j.2 = i.2 by linarith]
  have hdet : (p.1 - j.1) * (i.2 - j.2) - (i.1 - j.1) * (p.2 - j.2) =
      (xAt i j p.2 - p.1) * (j.2 - i.2) := by
    unfold xAt
    field_simp
    ring
  have hb : (decide (j.2 > p.2) != decide (i.2 > p.2)) = true := by
    by_cases h1 : p.2 < i.2 <;> by_cases h2 : p.2 < j.2 <;> simp_all
  by_cases hc : p.1 = j.1 ∧ p.2 = j.2
  · have : xAt i j p.2 = p.1 := by
      unfold xAt
      rw [hc.2, hc.1]
      field_simp
      ring
    refine ⟨?_, ?_⟩
    · unfold edgeCore
      rw [if_pos hc]
      simp [this]
    · unfold edgeCore
      rw [if_pos hc]
      simp [this]
  · unfold edgeCore
    rw [if_neg hc, if_pos hb]
    simp only [hdet]
    by_cases h0 : xAt i j p.2 = p.1
    · rw [if_pos (by rw [h0]; ring)]
      simp [h0]
    · rw [if_neg (by
        intro h
        rcases mul_eq_zero.mp h with h | h
        · exact h0 (by linarith)
        · exact hne h)]
      have key : (decide ((xAt i j p.2 - p.1) * (j.2 - i.2) < 0) != decide (i.2 < j.2)) = true ↔
          p.1 < xAt i j p.2 := by
        by_cases hij : i.2 < j.2
        · have : (xAt i j p.2 - p.1) * (j.2 - i.2) < 0 ↔ xAt i j p.2 < p.1 := by
            constructor
            · intro h
              by_contra hcon
              have : 0 ≤ (xAt i j p.2 - p.1) * (j.2 - i.2) :=
                mul_nonneg (by linarith) (by linarith)
              linarith
            · intro h
              exact mul_neg_of_neg_of_pos (by linarith) (by linarith)
          simp [hij, this]
          constructor
          · intro h
            exact lt_of_le_of_ne h (fun e => h0 e.symm)
          · intro h
            exact le_of_lt h
        · have hji : j.2 < i.2 := lt_of_le_of_ne (by linarith) (fun e => hne (by linarith))
          have : (xAt i j p.2 - p.1) * (j.2 - i.2) < 0 ↔ p.1 < xAt i j p.2 := by
            constructor
            · intro h
              by_contra hcon
              have : 0 ≤ (xAt i j p.2 - p.1) * (j.2 - i.2) :=
                mul_nonneg_of_nonpos_of_nonpos (by linarith) (by linarith)
              linarith
            · intro h
              exact mul_neg_of_pos_of_neg (by linarith) (by linarith)
          simp [hij, this]
      refine ⟨?_, ?_⟩
      · split_ifs <;> simp [h0]
      · rw [← key]
        split_ifs with h <;> simp [h]

theorem edge_straddle {p a b : ℚ × ℚ} (hs : ¬ (p.2 < a.2 ↔ p.2 < b.2)) :
    (edgeTest p a b = .on ↔ xAt a b p.2 = p.1) ∧ (edgeTest p a b = .cross ↔ p.1 < xAt a b p.2) := by
  unfold edgeTest
  rcases lineOrient_cases a b with ⟨h, -⟩ | ⟨h, -⟩ <;> rw [h]
  · exact edgeCore_straddle hs
  · rw [xAt_comm a b]
    exact edgeCore_straddle (fun h' => hs h'.symm)

/-- An edge that is not straddled: only its second end counts. -/
theorem edge_flat {p a b : ℚ × ℚ} (hs : p.2 < a.2 ↔ p.2 < b.2) :
    (edgeTest p a b = .on ↔ p = b ∧ LeftOf a b ∨ p = a ∧ ¬ LeftOf a b) ∧
      edgeTest p a b ≠ .cross := by
  have hcore : ∀ i j : ℚ × ℚ, (p.2 < i.2 ↔ p.2 < j.2) →
      (edgeCore p i j = .on ↔ p = j) ∧ edgeCore p i j ≠ .cross := by
    intro i j h
    have hb : (decide (j.2 > p.2) != decide (i.2 > p.2)) = false := by
      rw [show decide (j.2 > p.2) = decide (i.2 > p.2) from decide_eq_decide.mpr h.symm]
      simp
    unfold edgeCore
    rw [hb]
    by_cases hc : p.1 = j.1 ∧ p.2 = j.2
    · rw [if_pos hc]
      simp [Prod.ext_iff, hc]
    · rw [if_neg hc]
      simp [Prod.ext_iff, hc]
  unfold edgeTest
  rcases lineOrient_cases a b with ⟨h, h2⟩ | ⟨h, h2⟩ <;> rw [h]
  · have hB : LeftOf a b := h2
    obtain ⟨h3, h4⟩ := hcore a b hs
    refine ⟨?_, h4⟩
    rw [h3]
    simp [hB]
  · have hB : ¬ LeftOf a b := h2
    obtain ⟨h3, h4⟩ := hcore b a hs.symm
    refine ⟨?_, h4⟩
    rw [h3]
    simp [hB]

/-! ## Hulls -/

theorem in_hull_of_mem {S : Set (ℚ × ℚ)} {p : ℚ × ℚ} (h : p ∈ S) : p ∈ convexHull ℚ S :=
  subset_convexHull ℚ S h

theorem hull_comb {S : Set (ℚ × ℚ)} {a b p : ℚ × ℚ} (ha : a ∈ convexHull ℚ S)
    (hb : b ∈ convexHull ℚ S) (s t : ℚ) (hs : 0 ≤ s) (ht : 0 ≤ t) (hst : s + t = 1)
    (h1 : s * a.1 + t * b.1 = p.1) (h2 : s * a.2 + t * b.2 = p.2) : p ∈ convexHull ℚ S := by
  have := (convex_convexHull ℚ S) ha hb hs ht hst
  have e : s • a + t • b = p := Prod.ext (by simpa using h1) (by simpa using h2)
  rwa [e] at this

/-- The edge at the height of the point is in the hull. -/
theorem xAt_in_hull {S : Set (ℚ × ℚ)} {p a b : ℚ × ℚ} (hs : ¬ (p.2 < a.2 ↔ p.2 < b.2))
    (ha : a ∈ S) (hb : b ∈ S) : (xAt a b p.2, p.2) ∈ convexHull ℚ S := by
  have main : ∀ a b : ℚ × ℚ, a ∈ S → b ∈ S → a.2 ≤ p.2 → p.2 < b.2 →
      (xAt a b p.2, p.2) ∈ convexHull ℚ S := by
    intro a b ha hb h1 h2
    have hpos : 0 < b.2 - a.2 := by linarith
    have hne : b.2 - a.2 ≠ 0 := ne_of_gt hpos
    refine hull_comb (in_hull_of_mem ha) (in_hull_of_mem hb) ((b.2 - p.2) / (b.2 - a.2))
      ((p.2 - a.2) / (b.2 - a.2)) (div_nonneg (by linarith) hpos.le)
      (div_nonneg (by linarith) hpos.le) ?_ ?_ ?_
    · field_simp
      ring
    · unfold xAt
      field_simp
      ring
    · field_simp
      ring
  by_cases h1 : p.2 < a.2
  · have h2 : ¬ p.2 < b.2 := fun h => hs ⟨fun _ => h, fun _ => h1⟩
    rw [xAt_comm]
    exact main b a hb ha (by linarith) h1
  · have h2 : p.2 < b.2 := by
      by_contra h
      exact hs ⟨fun x => absurd x h1, fun x => absurd x h⟩
    exact main a b ha hb (by linarith) h2

/-- Between two edges. -/
theorem between_in_hull {S : Set (ℚ × ℚ)} {p a b c d : ℚ × ℚ} (h1 : ¬ (p.2 < a.2 ↔ p.2 < b.2))
    (h2 : ¬ (p.2 < c.2 ↔ p.2 < d.2)) (ha : a ∈ S) (hb : b ∈ S) (hc : c ∈ S) (hd : d ∈ S)
    (hx : xAt a b p.2 ≤ p.1) (hy : p.1 ≤ xAt c d p.2) : p ∈ convexHull ℚ S := by
  have A := xAt_in_hull h1 ha hb
  have B := xAt_in_hull h2 hc hd
  by_cases he : xAt a b p.2 = xAt c d p.2
  · have : p = (xAt a b p.2, p.2) := Prod.ext (by simp; linarith) rfl
    rw [this]
    exact A
  · have hlt : 0 < xAt c d p.2 - xAt a b p.2 := by
      rcases lt_or_gt_of_ne he with h | h <;> linarith
    have hne := ne_of_gt hlt
    refine hull_comb A B ((xAt c d p.2 - p.1) / (xAt c d p.2 - xAt a b p.2))
      ((p.1 - xAt a b p.2) / (xAt c d p.2 - xAt a b p.2)) (div_nonneg (by linarith) hlt.le)
      (div_nonneg (by linarith) hlt.le) ?_ ?_ ?_
    · field_simp
      ring
    · simp only
      field_simp
      ring
    · simp only
      field_simp
      ring

theorem convex_halfplane (a b c : ℚ) : Convex ℚ {q : ℚ × ℚ | 0 ≤ a * q.1 + b * q.2 + c} := by
  intro u hu v hv s t hs ht hst
  have e : a * (s * u.1 + t * v.1) + b * (s * u.2 + t * v.2) + c =
      s * (a * u.1 + b * u.2 + c) + t * (a * v.1 + b * v.2 + c) := by
    have : c = (s + t) * c := by rw [hst, one_mul]
    linear_combination this
  show 0 ≤ a * (s • u + t • v).1 + b * (s • u + t • v).2 + c
  simp only [Prod.fst_add, Prod.snd_add, Prod.smul_fst, Prod.smul_snd, smul_eq_mul]
  rw [e]
  exact add_nonneg (mul_nonneg hs hu) (mul_nonneg ht hv)

theorem hull_halfplane {S : Set (ℚ × ℚ)} {p : ℚ × ℚ} (hp : p ∈ convexHull ℚ S) (a b c : ℚ)
    (h : ∀ v ∈ S, 0 ≤ a * v.1 + b * v.2 + c) : 0 ≤ a * p.1 + b * p.2 + c :=
  convexHull_min (fun v hv => h v hv) (convex_halfplane a b c) hp

/-- The cell is on one side of an edge, hence so is the point. -/
theorem hull_turn {S : Set (ℚ × ℚ)} {p : ℚ × ℚ} (hp : p ∈ convexHull ℚ S) (s : ℚ) (a b : ℚ × ℚ)
    (h : ∀ v ∈ S, 0 ≤ s * turn a b v) : 0 ≤ s * turn a b p := by
  have := hull_halfplane hp (-(s * (b.2 - a.2))) (s * (b.1 - a.1))
    (s * ((b.2 - a.2) * a.1 - (b.1 - a.1) * a.2)) (fun v hv => by
      have := h v hv
      unfold turn at this
      linarith)
  unfold turn
  linarith

theorem hull_below {S : Set (ℚ × ℚ)} {p : ℚ × ℚ} (hp : p ∈ convexHull ℚ S) (y : ℚ)
    (h : ∀ v ∈ S, v.2 ≤ y) : p.2 ≤ y := by
  have := hull_halfplane hp 0 (-1) y (fun v hv => by have := h v hv; linarith)
  linarith

theorem hull_above {S : Set (ℚ × ℚ)} {p : ℚ × ℚ} (hp : p ∈ convexHull ℚ S) (y : ℚ)
    (h : ∀ v ∈ S, y ≤ v.2) : y ≤ p.2 := by
  have := hull_halfplane hp 0 1 (-y) (fun v hv => by have := h v hv; linarith)
  linarith

theorem hull_left {S : Set (ℚ × ℚ)} {p : ℚ × ℚ} (hp : p ∈ convexHull ℚ S) (y : ℚ)
    (h : ∀ v ∈ S, v.1 ≤ y) : p.1 ≤ y := by
  have := hull_halfplane hp (-1) 0 y (fun v hv => by have := h v hv; linarith)
  linarith

theorem hull_right {S : Set (ℚ × ℚ)} {p : ℚ × ℚ} (hp : p ∈ convexHull ℚ S) (y : ℚ)
    (h : ∀ v ∈ S, y ≤ v.1) : y ≤ p.1 := by
  have := hull_halfplane hp 1 0 (-y) (fun v hv => by have := h v hv; linarith)
  linarith

/-- Upward edge with the point on the left of it: the edge is on the right of the point. -/
theorem xAt_up {p a b : ℚ × ℚ} (h1 : a.2 ≤ p.2) (h2 : p.2 < b.2) (s : ℚ) (hs : 0 < s)
    (h : 0 ≤ s * turn a b p) : p.1 ≤ xAt a b p.2 := by
  have ht : 0 ≤ turn a b p := nonneg_of_mul_nonneg_right h hs
  unfold xAt
  rw [le_div_iff₀ (by linarith)]
  unfold turn at ht
  nlinarith

theorem xAt_up' {p a b : ℚ × ℚ} (h1 : a.2 ≤ p.2) (h2 : p.2 < b.2) (s : ℚ) (hs : s < 0)
    (h : 0 ≤ s * turn a b p) : xAt a b p.2 ≤ p.1 := by
  have ht : turn a b p ≤ 0 := nonpos_of_mul_nonneg_right h hs
  unfold xAt
  rw [div_le_iff₀ (by linarith)]
  unfold turn at ht
  nlinarith

theorem turn_swap (a b p : ℚ × ℚ) : turn b a p = -turn a b p := by
  unfold turn
  ring

theorem xAt_down {p a b : ℚ × ℚ} (h1 : p.2 < a.2) (h2 : b.2 ≤ p.2) (s : ℚ) (hs : 0 < s)
    (h : 0 ≤ s * turn a b p) : xAt a b p.2 ≤ p.1 := by
  rw [xAt_comm]
  exact xAt_up' h2 h1 (-s) (by linarith) (by rw [turn_swap b a] at h; linarith)

theorem xAt_down' {p a b : ℚ × ℚ} (h1 : p.2 < a.2) (h2 : b.2 ≤ p.2) (s : ℚ) (hs : s < 0)
    (h : 0 ≤ s * turn a b p) : p.1 ≤ xAt a b p.2 := by
  rw [xAt_comm]
  exact xAt_up h2 h1 (-s) (by linarith) (by rw [turn_swap b a] at h; linarith)

/-! ## Triangles -/

theorem xAt_on {S : Set (ℚ × ℚ)} {p a b : ℚ × ℚ} (hs : ¬ (p.2 < a.2 ↔ p.2 < b.2))
    (ha : a ∈ S) (hb : b ∈ S) (h : xAt a b p.2 = p.1) : p ∈ convexHull ℚ S := by
  have := xAt_in_hull hs ha hb
  rwa [h] at this

/-- The answer of the loop over faces from the answers for the edges. -/
def hitB (h : EdgeHit) : Bool × Bool := (decide (h = .on), decide (h = .cross))

theorem edge_on_hull {S : Set (ℚ × ℚ)} {p a b : ℚ × ℚ} (ha : a ∈ S) (hb : b ∈ S)
    (h : edgeTest p a b = .on) : p ∈ convexHull ℚ S := by
  by_cases hs : p.2 < a.2 ↔ p.2 < b.2
  · rcases (edge_flat hs).1.mp h with ⟨rfl, -⟩ | ⟨rfl, -⟩
    · exact in_hull_of_mem hb
    · exact in_hull_of_mem ha
  · exact xAt_on hs ha hb ((edge_straddle hs).1.mp h)

/-- Two straddled edges of which one is crossed. -/
theorem two_edges {S : Set (ℚ × ℚ)} {p a b c d : ℚ × ℚ} (ha : a ∈ S) (hb : b ∈ S) (hc : c ∈ S)
    (hd : d ∈ S) (h1 : ¬ (p.2 < a.2 ↔ p.2 < b.2)) (h2 : ¬ (p.2 < c.2 ↔ p.2 < d.2))
    (hx : edgeTest p a b = .cross) (hy : edgeTest p c d ≠ .cross) : p ∈ convexHull ℚ S := by
  have e1 := (edge_straddle h1).2.mp hx
  have e2 : xAt c d p.2 ≤ p.1 := by
    by_contra h
    exact hy ((edge_straddle h2).2.mpr (by linarith))
  exact between_in_hull h2 h1 hc hd ha hb e2 e1.le

/-- One edge goes up and one goes down, and the point is on the same side of both. -/
theorem up_down {p a b c d : ℚ × ℚ} (s : ℚ) (hs : s ≠ 0) (h1 : a.2 ≤ p.2) (h2 : p.2 < b.2)
    (h3 : p.2 < c.2) (h4 : d.2 ≤ p.2) (t1 : 0 ≤ s * turn a b p) (t2 : 0 ≤ s * turn c d p)
    (n1 : edgeTest p a b ≠ .on) (n2 : edgeTest p c d ≠ .on) :
    (edgeTest p a b = .cross ↔ edgeTest p c d ≠ .cross) := by
  have e1 := edge_straddle (p := p) (a := a) (b := b) (by
    intro h; exact absurd (h.mpr h2) (by linarith))
  have e2 := edge_straddle (p := p) (a := c) (b := d) (by
    intro h; exact absurd (h.mp h3) (by linarith))
  rw [Ne, e1.1] at n1
  rw [Ne, e2.1] at n2
  rw [Ne, e1.2, e2.2]
  rcases lt_or_gt_of_ne hs with hs | hs
  · have b1 := xAt_up' h1 h2 s hs t1
    have b2 := xAt_down' h3 h4 s hs t2
    constructor
    · intro h; linarith
    · intro h; exact absurd (lt_of_le_of_ne b2 (fun e => n2 e.symm)) h
  · have b1 := xAt_up h1 h2 s hs t1
    have b2 := xAt_down h3 h4 s hs t2
    constructor
    · intro _ h; linarith
    · intro _; exact lt_of_le_of_ne b1 (fun e => n1 e.symm)

theorem not_above_flat {p a b : ℚ × ℚ} (ha : ¬ p.2 < a.2) (hb : ¬ p.2 < b.2) :
    (p.2 < a.2 ↔ p.2 < b.2) := ⟨fun h => absurd h ha, fun h => absurd h hb⟩

theorem above_flat {p a b : ℚ × ℚ} (ha : p.2 < a.2) (hb : p.2 < b.2) :
    (p.2 < a.2 ↔ p.2 < b.2) := ⟨fun _ => hb, fun _ => ha⟩

theorem before_irrefl (a : ℚ × ℚ) : ¬ LeftOf a a := by
  rintro (h | h)
  · exact lt_irrefl _ h
  · exact lt_irrefl _ h.2

theorem before_asymm {a b : ℚ × ℚ} (h : LeftOf a b) : ¬ LeftOf b a := by
  rintro (h' | h') <;> rcases h with h | h
  · linarith
  · linarith [h.1]
  · linarith [h'.1]
  · linarith [h'.2, h.2]

theorem before_total {a b : ℚ × ℚ} (h : a ≠ b) : LeftOf a b ∨ LeftOf b a := by
  rcases lt_trichotomy a.1 b.1 with h1 | h1 | h1
  · exact Or.inl (Or.inl h1)
  · rcases lt_trichotomy a.2 b.2 with h2 | h2 | h2
    · exact Or.inl (Or.inr ⟨h1, h2⟩)
    · exact absurd (Prod.ext h1 h2) h
    · exact Or.inr (Or.inr ⟨h1.symm, h2⟩)
  · exact Or.inr (Or.inl h1)

theorem xor_hull {S : Set (ℚ × ℚ)} {p a b c d : ℚ × ℚ} (ha : a ∈ S) (hb : b ∈ S) (hc : c ∈ S)
    (hd : d ∈ S) (h1 : ¬ (p.2 < a.2 ↔ p.2 < b.2)) (h2 : ¬ (p.2 < c.2 ↔ p.2 < d.2))
    (hx : ¬ (edgeTest p a b = .cross ↔ edgeTest p c d = .cross)) : p ∈ convexHull ℚ S := by
  by_cases e1 : edgeTest p a b = .cross
  · exact two_edges ha hb hc hd h1 h2 e1 (fun e2 => hx ⟨fun _ => e2, fun _ => e1⟩)
  · have e2 : edgeTest p c d = .cross := by
      by_contra e2
      exact hx ⟨fun h => absurd h e1, fun h => absurd h e2⟩
    exact two_edges hc hd ha hb h2 h1 e2 e1

/-- On the second end of an edge that is not straddled. -/
theorem flat_on_of_before {p a b : ℚ × ℚ} (hs : p.2 < a.2 ↔ p.2 < b.2) (hp : p = b)
    (h : LeftOf a b) : edgeTest p a b = .on := (edge_flat hs).1.mpr (Or.inl ⟨hp, h⟩)

theorem flat_on_of_before' {p a b : ℚ × ℚ} (hs : p.2 < a.2 ↔ p.2 < b.2) (hp : p = a)
    (h : LeftOf b a) : edgeTest p a b = .on :=
  (edge_flat hs).1.mpr (Or.inr ⟨hp, before_asymm h⟩)

theorem flat_on_before {p a b : ℚ × ℚ} (hs : p.2 < a.2 ↔ p.2 < b.2) (hne : a ≠ b)
    (h : edgeTest p a b = .on) : (p = b ∧ LeftOf a b) ∨ (p = a ∧ LeftOf b a) := by
  rcases (edge_flat hs).1.mp h with h | ⟨h1, h2⟩
  · exact Or.inl h
  · rcases before_total hne with h3 | h3
    · exact absurd h3 h2
    · exact Or.inr ⟨h1, h3⟩

theorem straddle_down {p a b : ℚ × ℚ} (ha : p.2 < a.2) (hb : ¬ p.2 < b.2) :
    ¬ (p.2 < a.2 ↔ p.2 < b.2) := fun h => hb (h.mp ha)

theorem straddle_up {p a b : ℚ × ℚ} (ha : ¬ p.2 < a.2) (hb : p.2 < b.2) :
    ¬ (p.2 < a.2 ↔ p.2 < b.2) := fun h => ha (h.mpr hb)

theorem fwd3_none {x y z : Prop} (h : ((x ↔ y) ↔ z)) (hx : ¬ x) (hy : ¬ y) (hz : ¬ z) : False := by tauto

theorem fwd3_01 {x y z : Prop} (h : ((x ↔ y) ↔ z)) (hz : ¬ z) :
    ¬ (x ↔ y) := by tauto

theorem bwd3_01 {x y z : Prop} (k : x ↔ ¬ y) (hz : ¬ z) :
    ((x ↔ y) ↔ z) := by tauto

theorem fwd3_02 {x y z : Prop} (h : ((x ↔ y) ↔ z)) (hy : ¬ y) :
    ¬ (x ↔ z) := by tauto

theorem bwd3_02 {x y z : Prop} (k : x ↔ ¬ z) (hy : ¬ y) :
    ((x ↔ y) ↔ z) := by tauto

theorem fwd3_12 {x y z : Prop} (h : ((x ↔ y) ↔ z)) (hx : ¬ x) :
    ¬ (y ↔ z) := by tauto

theorem bwd3_12 {x y z : Prop} (k : y ↔ ¬ z) (hx : ¬ x) :
    ((x ↔ y) ↔ z) := by tauto

theorem fwd4_none {x y z w : Prop} (h : ¬ ((x ↔ y) ↔ (z ↔ w))) (hx : ¬ x) (hy : ¬ y) (hz : ¬ z) (hw : ¬ w) : False := by tauto

theorem fwd4_01 {x y z w : Prop} (h : ¬ ((x ↔ y) ↔ (z ↔ w))) (hz : ¬ z) (hw : ¬ w) :
    ¬ (x ↔ y) := by tauto

theorem bwd4_01 {x y z w : Prop} (k : x ↔ ¬ y) (hz : ¬ z) (hw : ¬ w) :
    ¬ ((x ↔ y) ↔ (z ↔ w)) := by tauto

theorem fwd4_02 {x y z w : Prop} (h : ¬ ((x ↔ y) ↔ (z ↔ w))) (hy : ¬ y) (hw : ¬ w) :
    ¬ (x ↔ z) := by tauto

theorem bwd4_02 {x y z w : Prop} (k : x ↔ ¬ z) (hy : ¬ y) (hw : ¬ w) :
    ¬ ((x ↔ y) ↔ (z ↔ w)) := by tauto

theorem fwd4_03 {x y z w : Prop} (h : ¬ ((x ↔ y) ↔ (z ↔ w))) (hy : ¬ y) (hz : ¬ z) :
    ¬ (x ↔ w) := by tauto

theorem bwd4_03 {x y z w : Prop} (k : x ↔ ¬ w) (hy : ¬ y) (hz : ¬ z) :
    ¬ ((x ↔ y) ↔ (z ↔ w)) := by tauto

theorem fwd4_12 {x y z w : Prop} (h : ¬ ((x ↔ y) ↔ (z ↔ w))) (hx : ¬ x) (hw : ¬ w) :
    ¬ (y ↔ z) := by tauto

theorem bwd4_12 {x y z w : Prop} (k : y ↔ ¬ z) (hx : ¬ x) (hw : ¬ w) :
    ¬ ((x ↔ y) ↔ (z ↔ w)) := by tauto

theorem fwd4_13 {x y z w : Prop} (h : ¬ ((x ↔ y) ↔ (z ↔ w))) (hx : ¬ x) (hz : ¬ z) :
    ¬ (y ↔ w) := by tauto

theorem bwd4_13 {x y z w : Prop} (k : y ↔ ¬ w) (hx : ¬ x) (hz : ¬ z) :
    ¬ ((x ↔ y) ↔ (z ↔ w)) := by tauto

theorem fwd4_23 {x y z w : Prop} (h : ¬ ((x ↔ y) ↔ (z ↔ w))) (hx : ¬ x) (hy : ¬ y) :
    ¬ (z ↔ w) := by tauto

theorem bwd4_23 {x y z w : Prop} (k : z ↔ ¬ w) (hx : ¬ x) (hy : ¬ y) :
    ¬ ((x ↔ y) ↔ (z ↔ w)) := by tauto

theorem tri_binned {a b c p : ℚ × ℚ} (hcv : turn a b c ≠ 0) :
    (edgeTest p a b = .on ∨ edgeTest p b c = .on ∨ edgeTest p c a = .on ∨
      ((edgeTest p a b = .cross ↔ edgeTest p b c = .cross) ↔ edgeTest p c a = .cross)) ↔
    Binned [a, b, c] p := by
  have ha : a ∈ {v | v ∈ [a, b, c]} := by simp
  have hb : b ∈ {v | v ∈ [a, b, c]} := by simp
  have hc : c ∈ {v | v ∈ [a, b, c]} := by simp
  have hs0 : turn a b c ≠ 0 := hcv
  have tab : ∀ w ∈ {v | v ∈ [a, b, c]}, 0 ≤ turn a b c * turn a b w := by
    intro w hw
    simp only [List.mem_cons, List.not_mem_nil, or_false, Set.mem_ofPred_eq] at hw
    rcases hw with hw | hw | hw <;> rw [hw]
    · exact le_of_eq (by unfold turn; ring)
    · exact le_of_eq (by unfold turn; ring)
    · have := mul_self_nonneg (turn a b c)
      calc (0 : ℚ) ≤ _ := this
        _ = _ := by unfold turn; ring
  have tbc : ∀ w ∈ {v | v ∈ [a, b, c]}, 0 ≤ turn a b c * turn b c w := by
    intro w hw
    simp only [List.mem_cons, List.not_mem_nil, or_false, Set.mem_ofPred_eq] at hw
    rcases hw with hw | hw | hw <;> rw [hw]
    · have := mul_self_nonneg (turn a b c)
      calc (0 : ℚ) ≤ _ := this
        _ = _ := by unfold turn; ring
    · exact le_of_eq (by unfold turn; ring)
    · exact le_of_eq (by unfold turn; ring)
  have tca : ∀ w ∈ {v | v ∈ [a, b, c]}, 0 ≤ turn a b c * turn c a w := by
    intro w hw
    simp only [List.mem_cons, List.not_mem_nil, or_false, Set.mem_ofPred_eq] at hw
    rcases hw with hw | hw | hw <;> rw [hw]
    · exact le_of_eq (by unfold turn; ring)
    · have := mul_self_nonneg (turn a b c)
      calc (0 : ℚ) ≤ _ := this
        _ = _ := by unfold turn; ring
    · exact le_of_eq (by unfold turn; ring)
  have nab : a ≠ b := by
    rintro rfl
    exact hcv (by unfold turn; ring)
  have nbc : b ≠ c := by
    rintro rfl
    exact hcv (by unfold turn; ring)
  have nca : c ≠ a := by
    rintro rfl
    exact hcv (by unfold turn; ring)
  by_cases hup : p.2 < a.2 ∨ p.2 < b.2 ∨ p.2 < c.2
  · have habove : ∃ v ∈ [a, b, c], p.2 < v.2 := by
      rcases hup with h | h | h
      · exact ⟨a, by simp, h⟩
      · exact ⟨b, by simp, h⟩
      · exact ⟨c, by simp, h⟩
    have hB : Binned [a, b, c] p ↔ p ∈ convexHull ℚ {v | v ∈ [a, b, c]} :=
      ⟨fun h => h.1, fun h => ⟨h, Or.inl habove⟩⟩
    rw [hB]
    constructor
    · rintro (h | h | h | h)
      · exact edge_on_hull ha hb h
      · exact edge_on_hull hb hc h
      · exact edge_on_hull hc ha h
      · by_cases ua : p.2 < a.2
        · by_cases ub : p.2 < b.2
          · by_cases uc : p.2 < c.2
            · have fab := (edge_flat (p := p) (a := a) (b := b) (above_flat ua ub)).2
              have fbc := (edge_flat (p := p) (a := b) (b := c) (above_flat ub uc)).2
              have fca := (edge_flat (p := p) (a := c) (b := a) (above_flat uc ua)).2
              exact (fwd3_none h fab fbc fca).elim
            · have fab := (edge_flat (p := p) (a := a) (b := b) (above_flat ua ub)).2
              exact xor_hull hb hc hc ha (straddle_down ub uc) (straddle_up uc ua)
                (fwd3_12 h fab)
          · by_cases uc : p.2 < c.2
            · have fca := (edge_flat (p := p) (a := c) (b := a) (above_flat uc ua)).2
              exact xor_hull ha hb hb hc (straddle_down ua ub) (straddle_up ub uc)
                (fwd3_01 h fca)
            · have fbc := (edge_flat (p := p) (a := b) (b := c) (not_above_flat ub uc)).2
              exact xor_hull ha hb hc ha (straddle_down ua ub) (straddle_up uc ua)
                (fwd3_02 h fbc)
        · by_cases ub : p.2 < b.2
          · by_cases uc : p.2 < c.2
            · have fbc := (edge_flat (p := p) (a := b) (b := c) (above_flat ub uc)).2
              exact xor_hull ha hb hc ha (straddle_up ua ub) (straddle_down uc ua)
                (fwd3_02 h fbc)
            · have fca := (edge_flat (p := p) (a := c) (b := a) (not_above_flat uc ua)).2
              exact xor_hull ha hb hb hc (straddle_up ua ub) (straddle_down ub uc)
                (fwd3_01 h fca)
          · by_cases uc : p.2 < c.2
            · have fab := (edge_flat (p := p) (a := a) (b := b) (not_above_flat ua ub)).2
              exact xor_hull hb hc hc ha (straddle_up ub uc) (straddle_down uc ua)
                (fwd3_12 h fab)
            · have fab := (edge_flat (p := p) (a := a) (b := b) (not_above_flat ua ub)).2
              have fbc := (edge_flat (p := p) (a := b) (b := c) (not_above_flat ub uc)).2
              have fca := (edge_flat (p := p) (a := c) (b := a) (not_above_flat uc ua)).2
              exact (fwd3_none h fab fbc fca).elim
    · intro hp
      by_cases oab : edgeTest p a b = .on
      · exact Or.inl oab
      by_cases obc : edgeTest p b c = .on
      · exact Or.inr (Or.inl obc)
      by_cases oca : edgeTest p c a = .on
      · exact Or.inr (Or.inr (Or.inl oca))
      have qab := hull_turn hp (turn a b c) a b tab
      have qbc := hull_turn hp (turn a b c) b c tbc
      have qca := hull_turn hp (turn a b c) c a tca
      by_cases ua : p.2 < a.2
      · by_cases ub : p.2 < b.2
        · by_cases uc : p.2 < c.2
          · exfalso
            have := hull_above hp (min (min (a.2) b.2) c.2) (by
              intro w hw
              simp only [List.mem_cons, List.not_mem_nil, or_false, Set.mem_ofPred_eq] at hw
              rcases hw with rfl | rfl | rfl <;> simp)
            simp only [min_le_iff] at this
            rcases this with (h | h) | h <;> linarith
          · have fab := (edge_flat (p := p) (a := a) (b := b) (above_flat ua ub)).2
            have k := up_down (turn a b c) hs0 (not_lt.mp uc) ua ub (not_lt.mp uc) qca qbc oca obc
            exact Or.inr (Or.inr (Or.inr (bwd3_12 (iff_not_comm.mp k) fab)))
        · by_cases uc : p.2 < c.2
          · have fca := (edge_flat (p := p) (a := c) (b := a) (above_flat uc ua)).2
            have k := up_down (turn a b c) hs0 (not_lt.mp ub) uc ua (not_lt.mp ub) qbc qab obc oab
            exact Or.inr (Or.inr (Or.inr (bwd3_01 (iff_not_comm.mp k) fca)))
          · have fbc := (edge_flat (p := p) (a := b) (b := c) (not_above_flat ub uc)).2
            have k := up_down (turn a b c) hs0 (not_lt.mp uc) ua ua (not_lt.mp ub) qca qab oca oab
            exact Or.inr (Or.inr (Or.inr (bwd3_02 (iff_not_comm.mp k) fbc)))
      · by_cases ub : p.2 < b.2
        · by_cases uc : p.2 < c.2
          · have fbc := (edge_flat (p := p) (a := b) (b := c) (above_flat ub uc)).2
            have k := up_down (turn a b c) hs0 (not_lt.mp ua) ub uc (not_lt.mp ua) qab qca oab oca
            exact Or.inr (Or.inr (Or.inr (bwd3_02 k fbc)))
          · have fca := (edge_flat (p := p) (a := c) (b := a) (not_above_flat uc ua)).2
            have k := up_down (turn a b c) hs0 (not_lt.mp ua) ub ub (not_lt.mp uc) qab qbc oab obc
            exact Or.inr (Or.inr (Or.inr (bwd3_01 k fca)))
        · by_cases uc : p.2 < c.2
          · have fab := (edge_flat (p := p) (a := a) (b := b) (not_above_flat ua ub)).2
            have k := up_down (turn a b c) hs0 (not_lt.mp ub) uc uc (not_lt.mp ua) qbc qca obc oca
            exact Or.inr (Or.inr (Or.inr (bwd3_12 k fab)))
          · exact absurd hup (by simp only [ua, ub, uc, or_self, not_false_eq_true])
  · have ua : ¬ p.2 < a.2 := fun h => hup (Or.inl h)
    have ub : ¬ p.2 < b.2 := fun h => hup (Or.inr (Or.inl h))
    have uc : ¬ p.2 < c.2 := fun h => hup (Or.inr (Or.inr (h)))
    have gab : p.2 < a.2 ↔ p.2 < b.2 := not_above_flat ua ub
    have fab := (edge_flat (p := p) (a := a) (b := b) gab).2
    have gbc : p.2 < b.2 ↔ p.2 < c.2 := not_above_flat ub uc
    have fbc := (edge_flat (p := p) (a := b) (b := c) gbc).2
    have gca : p.2 < c.2 ↔ p.2 < a.2 := not_above_flat uc ua
    have fca := (edge_flat (p := p) (a := c) (b := a) gca).2
    constructor
    · rintro (h | h | h | h)
      · rcases flat_on_before gab nab h with ⟨rfl, h⟩ | ⟨rfl, h⟩
        · exact ⟨in_hull_of_mem (by simp), Or.inr ⟨by simp, a, by simp, h⟩⟩
        · exact ⟨in_hull_of_mem (by simp), Or.inr ⟨by simp, b, by simp, h⟩⟩
      · rcases flat_on_before gbc nbc h with ⟨rfl, h⟩ | ⟨rfl, h⟩
        · exact ⟨in_hull_of_mem (by simp), Or.inr ⟨by simp, b, by simp, h⟩⟩
        · exact ⟨in_hull_of_mem (by simp), Or.inr ⟨by simp, c, by simp, h⟩⟩
      · rcases flat_on_before gca nca h with ⟨rfl, h⟩ | ⟨rfl, h⟩
        · exact ⟨in_hull_of_mem (by simp), Or.inr ⟨by simp, c, by simp, h⟩⟩
        · exact ⟨in_hull_of_mem (by simp), Or.inr ⟨by simp, a, by simp, h⟩⟩
      · exact (fwd3_none h fab fbc fca).elim
    · rintro ⟨-, ⟨v, hv, hlt⟩ | ⟨hp, u, hu, hbef⟩⟩
      · exfalso
        simp only [List.mem_cons, List.not_mem_nil, or_false] at hv
        rcases hv with hv | hv | hv <;> rw [hv] at hlt
        · exact ua hlt
        · exact ub hlt
        · exact uc hlt
      · simp only [List.mem_cons, List.not_mem_nil, or_false] at hp hu
        rcases hp with hp | hp | hp <;> rcases hu with hu | hu | hu <;> rw [hp, hu] at hbef
        · exact absurd hbef (before_irrefl _)
        · have := flat_on_of_before' gab hp hbef
          exact Or.inl this
        · have := flat_on_of_before gca hp hbef
          exact Or.inr (Or.inr (Or.inl this))
        · have := flat_on_of_before gab hp hbef
          exact Or.inl this
        · exact absurd hbef (before_irrefl _)
        · have := flat_on_of_before' gbc hp hbef
          exact Or.inr (Or.inl this)
        · have := flat_on_of_before' gca hp hbef
          exact Or.inr (Or.inr (Or.inl this))
        · have := flat_on_of_before gbc hp hbef
          exact Or.inr (Or.inl this)
        · exact absurd hbef (before_irrefl _)

/-! ## Quadrilaterals -/

theorem quad_identity (a b c d : ℚ × ℚ) (f : ℚ × ℚ → ℚ) (hf : f = Prod.fst ∨ f = Prod.snd) :
    turn b c d * f a + turn d a b * f c = turn c d a * f b + turn a b c * f d := by
  rcases hf with rfl | rfl <;> (unfold turn; ring)

theorem quad_sum (a b c d : ℚ × ℚ) : turn b c d + turn d a b = turn c d a + turn a b c := by
  unfold turn
  ring

/-- The corners of a convex quadrilateral are not above and below a line in turns. -/
theorem quad_alternate {a b c d p : ℚ × ℚ} (s : ℚ) (h1 : 0 < s * turn a b c)
    (h2 : 0 < s * turn b c d) (h3 : 0 < s * turn c d a) (h4 : 0 < s * turn d a b)
    (ua : p.2 < a.2) (ub : b.2 ≤ p.2) (uc : p.2 < c.2) (ud : d.2 ≤ p.2) : False := by
  have e := quad_identity a b c d Prod.snd (Or.inr rfl)
  have q := quad_sum a b c d
  have k : s * turn b c d * (a.2 - p.2) + s * turn d a b * (c.2 - p.2) =
      s * turn c d a * (b.2 - p.2) + s * turn a b c * (d.2 - p.2) := by
    linear_combination s * e - s * p.2 * q
  have l1 := mul_pos h2 (sub_pos.mpr ua)
  have l2 := mul_pos h4 (sub_pos.mpr uc)
  have l3 := mul_nonneg h3.le (sub_nonneg.mpr ub)
  have l4 := mul_nonneg h1.le (sub_nonneg.mpr ud)
  linarith

theorem quad_alternate2 {a b c d p : ℚ × ℚ} (s : ℚ) (h1 : 0 < s * turn a b c)
    (h2 : 0 < s * turn b c d) (h3 : 0 < s * turn c d a) (h4 : 0 < s * turn d a b)
    (ua : a.2 ≤ p.2) (ub : p.2 < b.2) (uc : c.2 ≤ p.2) (ud : p.2 < d.2) : False :=
  quad_alternate s h2 h3 h4 h1 ub uc ud ua

/-- If the opposite corner comes before a corner then so does one of the neighbours. -/
theorem quad_neighbour {v0 v1 v2 v3 : ℚ × ℚ} (s : ℚ) (h1 : 0 < s * turn v0 v1 v2)
    (h2 : 0 < s * turn v1 v2 v3) (h3 : 0 < s * turn v2 v3 v0) (h4 : 0 < s * turn v3 v0 v1)
    (h : LeftOf v2 v0) : LeftOf v1 v0 ∨ LeftOf v3 v0 := by
  by_contra hcon
  push Not at hcon
  obtain ⟨c1, c3⟩ := hcon
  have e := quad_identity v0 v1 v2 v3 Prod.fst (Or.inl rfl)
  have e2 := quad_identity v0 v1 v2 v3 Prod.snd (Or.inr rfl)
  have q := quad_sum v0 v1 v2 v3
  have k : s * turn v3 v0 v1 * (v2.1 - v0.1) =
      s * turn v2 v3 v0 * (v1.1 - v0.1) + s * turn v0 v1 v2 * (v3.1 - v0.1) := by
    linear_combination s * e - s * v0.1 * q
  have k2 : s * turn v3 v0 v1 * (v2.2 - v0.2) =
      s * turn v2 v3 v0 * (v1.2 - v0.2) + s * turn v0 v1 v2 * (v3.2 - v0.2) := by
    linear_combination s * e2 - s * v0.2 * q
  unfold LeftOf at c1 c3
  push Not at c1 c3
  have l1 := mul_nonneg h3.le (sub_nonneg.mpr c1.1)
  have l2 := mul_nonneg h1.le (sub_nonneg.mpr c3.1)
  have hx : v2.1 = v0.1 := by
    rcases h with h | h
    · have := mul_neg_of_pos_of_neg h4 (sub_neg.mpr h)
      linarith
    · exact h.1
  rw [hx, sub_self, mul_zero] at k
  have z1 : v1.1 = v0.1 := by
    have := (mul_eq_zero.mp (show s * turn v2 v3 v0 * (v1.1 - v0.1) = 0 by linarith)).resolve_left
      (ne_of_gt h3)
    linarith
  have z3 : v3.1 = v0.1 := by
    have := (mul_eq_zero.mp (show s * turn v0 v1 v2 * (v3.1 - v0.1) = 0 by linarith)).resolve_left
      (ne_of_gt h1)
    linarith
  refine absurd h4 ?_
  unfold turn
  rw [z1, z3]
  simp

theorem quad_binned {a b c d p : ℚ × ℚ} (s : ℚ) (h1 : 0 < s * turn a b c)
    (h2 : 0 < s * turn b c d) (h3 : 0 < s * turn c d a) (h4 : 0 < s * turn d a b) :
    (edgeTest p a b = .on ∨ edgeTest p b c = .on ∨ edgeTest p c d = .on ∨ edgeTest p d a = .on ∨
      ¬ ((edgeTest p a b = .cross ↔ edgeTest p b c = .cross) ↔
        (edgeTest p c d = .cross ↔ edgeTest p d a = .cross))) ↔
    Binned [a, b, c, d] p := by
  have ha : a ∈ {v | v ∈ [a, b, c, d]} := by simp
  have hb : b ∈ {v | v ∈ [a, b, c, d]} := by simp
  have hc : c ∈ {v | v ∈ [a, b, c, d]} := by simp
  have hd : d ∈ {v | v ∈ [a, b, c, d]} := by simp
  have hs0 : s ≠ 0 := by rintro rfl; linarith
  have tab : ∀ w ∈ {v | v ∈ [a, b, c, d]}, 0 ≤ s * turn a b w := by
    intro w hw
    simp only [List.mem_cons, List.not_mem_nil, or_false, Set.mem_ofPred_eq] at hw
    rcases hw with hw | hw | hw | hw <;> rw [hw]
    · exact le_of_eq (by unfold turn; ring)
    · exact le_of_eq (by unfold turn; ring)
    · calc (0 : ℚ) ≤ _ := h1.le
        _ = _ := by unfold turn; ring
    · calc (0 : ℚ) ≤ _ := h4.le
        _ = _ := by unfold turn; ring
  have tbc : ∀ w ∈ {v | v ∈ [a, b, c, d]}, 0 ≤ s * turn b c w := by
    intro w hw
    simp only [List.mem_cons, List.not_mem_nil, or_false, Set.mem_ofPred_eq] at hw
    rcases hw with hw | hw | hw | hw <;> rw [hw]
    · calc (0 : ℚ) ≤ _ := h1.le
        _ = _ := by unfold turn; ring
    · exact le_of_eq (by unfold turn; ring)
    · exact le_of_eq (by unfold turn; ring)
    · calc (0 : ℚ) ≤ _ := h2.le
        _ = _ := by unfold turn; ring
  have tcd : ∀ w ∈ {v | v ∈ [a, b, c, d]}, 0 ≤ s * turn c d w := by
    intro w hw
    simp only [List.mem_cons, List.not_mem_nil, or_false, Set.mem_ofPred_eq] at hw
    rcases hw with hw | hw | hw | hw <;> rw [hw]
    · calc (0 : ℚ) ≤ _ := h3.le
        _ = _ := by unfold turn; ring
    · calc (0 : ℚ) ≤ _ := h2.le
        _ = _ := by unfold turn; ring
    · exact le_of_eq (by unfold turn; ring)
    · exact le_of_eq (by unfold turn; ring)
  have tda : ∀ w ∈ {v | v ∈ [a, b, c, d]}, 0 ≤ s * turn d a w := by
    intro w hw
    simp only [List.mem_cons, List.not_mem_nil, or_false, Set.mem_ofPred_eq] at hw
    rcases hw with hw | hw | hw | hw <;> rw [hw]
    · exact le_of_eq (by unfold turn; ring)
    · calc (0 : ℚ) ≤ _ := h4.le
        _ = _ := by unfold turn; ring
    · calc (0 : ℚ) ≤ _ := h3.le
        _ = _ := by unfold turn; ring
    · exact le_of_eq (by unfold turn; ring)
  have nab : a ≠ b := by
    rintro rfl
    exact absurd h1 (by unfold turn; ring_nf; exact lt_irrefl 0)
  have nbc : b ≠ c := by
    rintro rfl
    exact absurd h2 (by unfold turn; ring_nf; exact lt_irrefl 0)
  have ncd : c ≠ d := by
    rintro rfl
    exact absurd h3 (by unfold turn; ring_nf; exact lt_irrefl 0)
  have nda : d ≠ a := by
    rintro rfl
    exact absurd h4 (by unfold turn; ring_nf; exact lt_irrefl 0)
  by_cases hup : p.2 < a.2 ∨ p.2 < b.2 ∨ p.2 < c.2 ∨ p.2 < d.2
  · have habove : ∃ v ∈ [a, b, c, d], p.2 < v.2 := by
      rcases hup with h | h | h | h
      · exact ⟨a, by simp, h⟩
      · exact ⟨b, by simp, h⟩
      · exact ⟨c, by simp, h⟩
      · exact ⟨d, by simp, h⟩
    have hB : Binned [a, b, c, d] p ↔ p ∈ convexHull ℚ {v | v ∈ [a, b, c, d]} :=
      ⟨fun h => h.1, fun h => ⟨h, Or.inl habove⟩⟩
    rw [hB]
    constructor
    · rintro (h | h | h | h | h)
      · exact edge_on_hull ha hb h
      · exact edge_on_hull hb hc h
      · exact edge_on_hull hc hd h
      · exact edge_on_hull hd ha h
      · by_cases ua : p.2 < a.2
        · by_cases ub : p.2 < b.2
          · by_cases uc : p.2 < c.2
            · by_cases ud : p.2 < d.2
              · have fab := (edge_flat (p := p) (a := a) (b := b) (above_flat ua ub)).2
                have fbc := (edge_flat (p := p) (a := b) (b := c) (above_flat ub uc)).2
                have fcd := (edge_flat (p := p) (a := c) (b := d) (above_flat uc ud)).2
                have fda := (edge_flat (p := p) (a := d) (b := a) (above_flat ud ua)).2
                exact (fwd4_none h fab fbc fcd fda).elim
              · have fab := (edge_flat (p := p) (a := a) (b := b) (above_flat ua ub)).2
                have fbc := (edge_flat (p := p) (a := b) (b := c) (above_flat ub uc)).2
                exact xor_hull hc hd hd ha (straddle_down uc ud) (straddle_up ud ua)
                  (fwd4_23 h fab fbc)
            · by_cases ud : p.2 < d.2
              · have fab := (edge_flat (p := p) (a := a) (b := b) (above_flat ua ub)).2
                have fda := (edge_flat (p := p) (a := d) (b := a) (above_flat ud ua)).2
                exact xor_hull hb hc hc hd (straddle_down ub uc) (straddle_up uc ud)
                  (fwd4_12 h fab fda)
              · have fab := (edge_flat (p := p) (a := a) (b := b) (above_flat ua ub)).2
                have fcd := (edge_flat (p := p) (a := c) (b := d) (not_above_flat uc ud)).2
                exact xor_hull hb hc hd ha (straddle_down ub uc) (straddle_up ud ua)
                  (fwd4_13 h fab fcd)
          · by_cases uc : p.2 < c.2
            · by_cases ud : p.2 < d.2
              · have fcd := (edge_flat (p := p) (a := c) (b := d) (above_flat uc ud)).2
                have fda := (edge_flat (p := p) (a := d) (b := a) (above_flat ud ua)).2
                exact xor_hull ha hb hb hc (straddle_down ua ub) (straddle_up ub uc)
                  (fwd4_01 h fcd fda)
              · exfalso
                exact quad_alternate s h1 h2 h3 h4 ua (not_lt.mp ub) uc (not_lt.mp ud)
            · by_cases ud : p.2 < d.2
              · have fbc := (edge_flat (p := p) (a := b) (b := c) (not_above_flat ub uc)).2
                have fda := (edge_flat (p := p) (a := d) (b := a) (above_flat ud ua)).2
                exact xor_hull ha hb hc hd (straddle_down ua ub) (straddle_up uc ud)
                  (fwd4_02 h fbc fda)
              · have fbc := (edge_flat (p := p) (a := b) (b := c) (not_above_flat ub uc)).2
                have fcd := (edge_flat (p := p) (a := c) (b := d) (not_above_flat uc ud)).2
                exact xor_hull ha hb hd ha (straddle_down ua ub) (straddle_up ud ua)
                  (fwd4_03 h fbc fcd)
        · by_cases ub : p.2 < b.2
          · by_cases uc : p.2 < c.2
            · by_cases ud : p.2 < d.2
              · have fbc := (edge_flat (p := p) (a := b) (b := c) (above_flat ub uc)).2
                have fcd := (edge_flat (p := p) (a := c) (b := d) (above_flat uc ud)).2
                exact xor_hull ha hb hd ha (straddle_up ua ub) (straddle_down ud ua)
                  (fwd4_03 h fbc fcd)
              · have fbc := (edge_flat (p := p) (a := b) (b := c) (above_flat ub uc)).2
                have fda := (edge_flat (p := p) (a := d) (b := a) (not_above_flat ud ua)).2
                exact xor_hull ha hb hc hd (straddle_up ua ub) (straddle_down uc ud)
                  (fwd4_02 h fbc fda)
            · by_cases ud : p.2 < d.2
              · exfalso
                exact quad_alternate2 s h1 h2 h3 h4 (not_lt.mp ua) ub (not_lt.mp uc) ud
              · have fcd := (edge_flat (p := p) (a := c) (b := d) (not_above_flat uc ud)).2
                have fda := (edge_flat (p := p) (a := d) (b := a) (not_above_flat ud ua)).2
                exact xor_hull ha hb hb hc (straddle_up ua ub) (straddle_down ub uc)
                  (fwd4_01 h fcd fda)
          · by_cases uc : p.2 < c.2
            · by_cases ud : p.2 < d.2
              · have fab := (edge_flat (p := p) (a := a) (b := b) (not_above_flat ua ub)).2
                have fcd := (edge_flat (p := p) (a := c) (b := d) (above_flat uc ud)).2
                exact xor_hull hb hc hd ha (straddle_up ub uc) (straddle_down ud ua)
                  (fwd4_13 h fab fcd)
              · have fab := (edge_flat (p := p) (a := a) (b := b) (not_above_flat ua ub)).2
                have fda := (edge_flat (p := p) (a := d) (b := a) (not_above_flat ud ua)).2
                exact xor_hull hb hc hc hd (straddle_up ub uc) (straddle_down uc ud)
                  (fwd4_12 h fab fda)
            · by_cases ud : p.2 < d.2
              · have fab := (edge_flat (p := p) (a := a) (b := b) (not_above_flat ua ub)).2
                have fbc := (edge_flat (p := p) (a := b) (b := c) (not_above_flat ub uc)).2
                exact xor_hull hc hd hd ha (straddle_up uc ud) (straddle_down ud ua)
                  (fwd4_23 h fab fbc)
              · have fab := (edge_flat (p := p) (a := a) (b := b) (not_above_flat ua ub)).2
                have fbc := (edge_flat (p := p) (a := b) (b := c) (not_above_flat ub uc)).2
                have fcd := (edge_flat (p := p) (a := c) (b := d) (not_above_flat uc ud)).2
                have fda := (edge_flat (p := p) (a := d) (b := a) (not_above_flat ud ua)).2
                exact (fwd4_none h fab fbc fcd fda).elim
    · intro hp
      by_cases oab : edgeTest p a b = .on
      · exact Or.inl oab
      by_cases obc : edgeTest p b c = .on
      · exact Or.inr (Or.inl obc)
      by_cases ocd : edgeTest p c d = .on
      · exact Or.inr (Or.inr (Or.inl ocd))
      by_cases oda : edgeTest p d a = .on
      · exact Or.inr (Or.inr (Or.inr (Or.inl oda)))
      have qab := hull_turn hp s a b tab
      have qbc := hull_turn hp s b c tbc
      have qcd := hull_turn hp s c d tcd
      have qda := hull_turn hp s d a tda
      by_cases ua : p.2 < a.2
      · by_cases ub : p.2 < b.2
        · by_cases uc : p.2 < c.2
          · by_cases ud : p.2 < d.2
            · exfalso
              have := hull_above hp (min (min (min (a.2) b.2) c.2) d.2) (by
                intro w hw
                simp only [List.mem_cons, List.not_mem_nil, or_false, Set.mem_ofPred_eq] at hw
                rcases hw with rfl | rfl | rfl | rfl <;> simp)
              simp only [min_le_iff] at this
              rcases this with ((h | h) | h) | h <;> linarith
            · have fab := (edge_flat (p := p) (a := a) (b := b) (above_flat ua ub)).2
              have fbc := (edge_flat (p := p) (a := b) (b := c) (above_flat ub uc)).2
              have k := up_down s hs0 (not_lt.mp ud) ua uc (not_lt.mp ud) qda qcd oda ocd
              exact Or.inr (Or.inr (Or.inr (Or.inr (bwd4_23 (iff_not_comm.mp k) fab fbc))))
          · by_cases ud : p.2 < d.2
            · have fab := (edge_flat (p := p) (a := a) (b := b) (above_flat ua ub)).2
              have fda := (edge_flat (p := p) (a := d) (b := a) (above_flat ud ua)).2
              have k := up_down s hs0 (not_lt.mp uc) ud ub (not_lt.mp uc) qcd qbc ocd obc
              exact Or.inr (Or.inr (Or.inr (Or.inr (bwd4_12 (iff_not_comm.mp k) fab fda))))
            · have fab := (edge_flat (p := p) (a := a) (b := b) (above_flat ua ub)).2
              have fcd := (edge_flat (p := p) (a := c) (b := d) (not_above_flat uc ud)).2
              have k := up_down s hs0 (not_lt.mp ud) ua ub (not_lt.mp uc) qda qbc oda obc
              exact Or.inr (Or.inr (Or.inr (Or.inr (bwd4_13 (iff_not_comm.mp k) fab fcd))))
        · by_cases uc : p.2 < c.2
          · by_cases ud : p.2 < d.2
            · have fcd := (edge_flat (p := p) (a := c) (b := d) (above_flat uc ud)).2
              have fda := (edge_flat (p := p) (a := d) (b := a) (above_flat ud ua)).2
              have k := up_down s hs0 (not_lt.mp ub) uc ua (not_lt.mp ub) qbc qab obc oab
              exact Or.inr (Or.inr (Or.inr (Or.inr (bwd4_01 (iff_not_comm.mp k) fcd fda))))
            · exfalso
              exact quad_alternate s h1 h2 h3 h4 ua (not_lt.mp ub) uc (not_lt.mp ud)
          · by_cases ud : p.2 < d.2
            · have fbc := (edge_flat (p := p) (a := b) (b := c) (not_above_flat ub uc)).2
              have fda := (edge_flat (p := p) (a := d) (b := a) (above_flat ud ua)).2
              have k := up_down s hs0 (not_lt.mp uc) ud ua (not_lt.mp ub) qcd qab ocd oab
              exact Or.inr (Or.inr (Or.inr (Or.inr (bwd4_02 (iff_not_comm.mp k) fbc fda))))
            · have fbc := (edge_flat (p := p) (a := b) (b := c) (not_above_flat ub uc)).2
              have fcd := (edge_flat (p := p) (a := c) (b := d) (not_above_flat uc ud)).2
              have k := up_down s hs0 (not_lt.mp ud) ua ua (not_lt.mp ub) qda qab oda oab
              exact Or.inr (Or.inr (Or.inr (Or.inr (bwd4_03 (iff_not_comm.mp k) fbc fcd))))
      · by_cases ub : p.2 < b.2
        · by_cases uc : p.2 < c.2
          · by_cases ud : p.2 < d.2
            · have fbc := (edge_flat (p := p) (a := b) (b := c) (above_flat ub uc)).2
              have fcd := (edge_flat (p := p) (a := c) (b := d) (above_flat uc ud)).2
              have k := up_down s hs0 (not_lt.mp ua) ub ud (not_lt.mp ua) qab qda oab oda
              exact Or.inr (Or.inr (Or.inr (Or.inr (bwd4_03 k fbc fcd))))
            · have fbc := (edge_flat (p := p) (a := b) (b := c) (above_flat ub uc)).2
              have fda := (edge_flat (p := p) (a := d) (b := a) (not_above_flat ud ua)).2
              have k := up_down s hs0 (not_lt.mp ua) ub uc (not_lt.mp ud) qab qcd oab ocd
              exact Or.inr (Or.inr (Or.inr (Or.inr (bwd4_02 k fbc fda))))
          · by_cases ud : p.2 < d.2
            · exfalso
              exact quad_alternate2 s h1 h2 h3 h4 (not_lt.mp ua) ub (not_lt.mp uc) ud
            · have fcd := (edge_flat (p := p) (a := c) (b := d) (not_above_flat uc ud)).2
              have fda := (edge_flat (p := p) (a := d) (b := a) (not_above_flat ud ua)).2
              have k := up_down s hs0 (not_lt.mp ua) ub ub (not_lt.mp uc) qab qbc oab obc
              exact Or.inr (Or.inr (Or.inr (Or.inr (bwd4_01 k fcd fda))))
        · by_cases uc : p.2 < c.2
          · by_cases ud : p.2 < d.2
            · have fab := (edge_flat (p := p) (a := a) (b := b) (not_above_flat ua ub)).2
              have fcd := (edge_flat (p := p) (a := c) (b := d) (above_flat uc ud)).2
              have k := up_down s hs0 (not_lt.mp ub) uc ud (not_lt.mp ua) qbc qda obc oda
              exact Or.inr (Or.inr (Or.inr (Or.inr (bwd4_13 k fab fcd))))
            · have fab := (edge_flat (p := p) (a := a) (b := b) (not_above_flat ua ub)).2
              have fda := (edge_flat (p := p) (a := d) (b := a) (not_above_flat ud ua)).2
              have k := up_down s hs0 (not_lt.mp ub) uc uc (not_lt.mp ud) qbc qcd obc ocd
              exact Or.inr (Or.inr (Or.inr (Or.inr (bwd4_12 k fab fda))))
          · by_cases ud : p.2 < d.2
            · have fab := (edge_flat (p := p) (a := a) (b := b) (not_above_flat ua ub)).2
              have fbc := (edge_flat (p := p) (a := b) (b := c) (not_above_flat ub uc)).2
              have k := up_down s hs0 (not_lt.mp uc) ud ud (not_lt.mp ua) qcd qda ocd oda
              exact Or.inr (Or.inr (Or.inr (Or.inr (bwd4_23 k fab fbc))))
            · exact absurd hup (by simp only [ua, ub, uc, ud, or_self, not_false_eq_true])
  · have ua : ¬ p.2 < a.2 := fun h => hup (Or.inl h)
    have ub : ¬ p.2 < b.2 := fun h => hup (Or.inr (Or.inl h))
    have uc : ¬ p.2 < c.2 := fun h => hup (Or.inr (Or.inr (Or.inl h)))
    have ud : ¬ p.2 < d.2 := fun h => hup (Or.inr (Or.inr (Or.inr (h))))
    have gab : p.2 < a.2 ↔ p.2 < b.2 := not_above_flat ua ub
    have fab := (edge_flat (p := p) (a := a) (b := b) gab).2
    have gbc : p.2 < b.2 ↔ p.2 < c.2 := not_above_flat ub uc
    have fbc := (edge_flat (p := p) (a := b) (b := c) gbc).2
    have gcd : p.2 < c.2 ↔ p.2 < d.2 := not_above_flat uc ud
    have fcd := (edge_flat (p := p) (a := c) (b := d) gcd).2
    have gda : p.2 < d.2 ↔ p.2 < a.2 := not_above_flat ud ua
    have fda := (edge_flat (p := p) (a := d) (b := a) gda).2
    constructor
    · rintro (h | h | h | h | h)
      · rcases flat_on_before gab nab h with ⟨rfl, h⟩ | ⟨rfl, h⟩
        · exact ⟨in_hull_of_mem (by simp), Or.inr ⟨by simp, a, by simp, h⟩⟩
        · exact ⟨in_hull_of_mem (by simp), Or.inr ⟨by simp, b, by simp, h⟩⟩
      · rcases flat_on_before gbc nbc h with ⟨rfl, h⟩ | ⟨rfl, h⟩
        · exact ⟨in_hull_of_mem (by simp), Or.inr ⟨by simp, b, by simp, h⟩⟩
        · exact ⟨in_hull_of_mem (by simp), Or.inr ⟨by simp, c, by simp, h⟩⟩
      · rcases flat_on_before gcd ncd h with ⟨rfl, h⟩ | ⟨rfl, h⟩
        · exact ⟨in_hull_of_mem (by simp), Or.inr ⟨by simp, c, by simp, h⟩⟩
        · exact ⟨in_hull_of_mem (by simp), Or.inr ⟨by simp, d, by simp, h⟩⟩
      · rcases flat_on_before gda nda h with ⟨rfl, h⟩ | ⟨rfl, h⟩
        · exact ⟨in_hull_of_mem (by simp), Or.inr ⟨by simp, d, by simp, h⟩⟩
        · exact ⟨in_hull_of_mem (by simp), Or.inr ⟨by simp, a, by simp, h⟩⟩
      · exact (fwd4_none h fab fbc fcd fda).elim
    · rintro ⟨-, ⟨v, hv, hlt⟩ | ⟨hp, u, hu, hbef⟩⟩
      · exfalso
        simp only [List.mem_cons, List.not_mem_nil, or_false] at hv
        rcases hv with hv | hv | hv | hv <;> rw [hv] at hlt
        · exact ua hlt
        · exact ub hlt
        · exact uc hlt
        · exact ud hlt
      · simp only [List.mem_cons, List.not_mem_nil, or_false] at hp hu
        rcases hp with hp | hp | hp | hp <;> rcases hu with hu | hu | hu | hu <;> rw [hp, hu] at hbef
        · exact absurd hbef (before_irrefl _)
        · have := flat_on_of_before' gab hp hbef
          exact Or.inl this
        · rcases quad_neighbour s h1 h2 h3 h4 (v0 := a) (v1 := b) (v2 := c) (v3 := d) hbef with hb | hb
          · have := flat_on_of_before' gab hp hb
            exact Or.inl this
          · have := flat_on_of_before gda hp hb
            exact Or.inr (Or.inr (Or.inr (Or.inl this)))
        · have := flat_on_of_before gda hp hbef
          exact Or.inr (Or.inr (Or.inr (Or.inl this)))
        · have := flat_on_of_before gab hp hbef
          exact Or.inl this
        · exact absurd hbef (before_irrefl _)
        · have := flat_on_of_before' gbc hp hbef
          exact Or.inr (Or.inl this)
        · rcases quad_neighbour s h2 h3 h4 h1 (v0 := b) (v1 := c) (v2 := d) (v3 := a) hbef with hb | hb
          · have := flat_on_of_before' gbc hp hb
            exact Or.inr (Or.inl this)
          · have := flat_on_of_before gab hp hb
            exact Or.inl this
        · rcases quad_neighbour s h3 h4 h1 h2 (v0 := c) (v1 := d) (v2 := a) (v3 := b) hbef with hb | hb
          · have := flat_on_of_before' gcd hp hb
            exact Or.inr (Or.inr (Or.inl this))
          · have := flat_on_of_before gbc hp hb
            exact Or.inr (Or.inl this)
        · have := flat_on_of_before gbc hp hbef
          exact Or.inr (Or.inl this)
        · exact absurd hbef (before_irrefl _)
        · have := flat_on_of_before' gcd hp hbef
          exact Or.inr (Or.inr (Or.inl this))
        · have := flat_on_of_before' gda hp hbef
          exact Or.inr (Or.inr (Or.inr (Or.inl this)))
        · rcases quad_neighbour s h4 h1 h2 h3 (v0 := d) (v1 := a) (v2 := b) (v3 := c) hbef with hb | hb
          · have := flat_on_of_before' gda hp hb
            exact Or.inr (Or.inr (Or.inr (Or.inl this)))
          · have := flat_on_of_before gcd hp hb
            exact Or.inr (Or.inr (Or.inl this))
        · have := flat_on_of_before gcd hp hbef
          exact Or.inr (Or.inr (Or.inl this))
        · exact absurd hbef (before_irrefl _)

end NP
