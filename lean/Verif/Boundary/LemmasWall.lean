import Verif.Boundary.SpecWall
import Mathlib.Tactic.Linarith
import Mathlib.Tactic.Positivity
import Mathlib.Tactic.FieldSimp
import Mathlib.Tactic.Ring

/-!
Lemmas about the intersections of trajectories with walls.
-/

set_option autoImplicit false

namespace NP

open Spec

/-- The fraction of the path at which a plane is reached. -/
theorem wall_ratio {x y w : ℚ} (hxw : x ≠ w) (hc : 0 ≥ (x - w) * (y - w)) :
    |x - w| + |y - w| ≠ 0 ∧ 0 < |x - w| / (|x - w| + |y - w|) ∧
      |x - w| / (|x - w| + |y - w|) ≤ 1 ∧
      x + |x - w| / (|x - w| + |y - w|) * (y - x) = w := by
  have h1 : 0 < |x - w| := abs_pos.2 (sub_ne_zero.2 hxw)
  have h2 : 0 ≤ |y - w| := abs_nonneg _
  have h3 : 0 < |x - w| + |y - w| := by linarith
  refine ⟨h3.ne', div_pos h1 h3, (div_le_one h3).2 (by linarith), ?_⟩
  field_simp
  rcases lt_or_gt_of_ne hxw with h | h
  · have hy : w ≤ y := by
      by_contra hcon
      have : 0 < (x - w) * (y - w) := mul_pos_of_neg_of_neg (by linarith) (by linarith)
      linarith
    rw [abs_of_neg (by linarith), abs_of_nonneg (by linarith)]
    ring
  · have hy : y ≤ w := by
      by_contra hcon
      have : 0 < (x - w) * (y - w) := mul_pos (by linarith) (by linarith)
      linarith
    rw [abs_of_pos (by linarith), abs_of_nonpos (by linarith)]
    ring

theorem wall_stays {x y e r s : ℚ} (hx : 0 < x) (hxe : x < e) (h0 : 0 ≤ x + r * (y - x))
    (h1 : x + r * (y - x) ≤ e) (hs : 0 ≤ s) (hsr : s ≤ r) :
    0 ≤ x + s * (y - x) ∧ x + s * (y - x) ≤ e := by
  rcases le_total 0 (y - x) with h | h
  · have a := mul_nonneg hs h
    have b := mul_le_mul_of_nonneg_right hsr h
    constructor <;> linarith
  · have a := mul_nonpos_of_nonneg_of_nonpos hs h
    have b := mul_le_mul_of_nonpos_right hsr h
    constructor <;> linarith

/-- The plane tested in a dimension. -/
def wallPlane (e y tol : ℚ) : ℚ := if decide (y - tol ≤ 0) then 0 else e

/-- The fraction of the path at which it is reached. -/
def wallRatio (x y w : ℚ) : ℚ := |x - w| / (|x - w| + |y - w|)

theorem wallPlane_cases (e y tol : ℚ) : wallPlane e y tol = 0 ∨ wallPlane e y tol = e := by
  unfold wallPlane
  split <;> simp

/-- One dimension: until fraction `u` the path is between the two planes; `u` is where the plane
tested is reached if the particle leaves in this dimension. -/
theorem wall_dim {e x y tol : ℚ} (ht : 0 ≤ tol) (hte : tol < e) (hx : 0 < x) (hxe : x < e) :
    ∃ u, 0 < u ∧ u ≤ 1 ∧ (∀ s, 0 ≤ s → s ≤ u → 0 ≤ x + s * (y - x) ∧ x + s * (y - x) ≤ e) ∧
      ((y ≤ 0 ∨ e ≤ y) → u = wallRatio x y (wallPlane e y tol) ∧
        0 ≥ (x - wallPlane e y tol) * (y - wallPlane e y tol)) ∧
      (¬ (y ≤ 0 ∨ e ≤ y) → u = 1) := by
  by_cases hd : y ≤ 0 ∨ e ≤ y
  · have hc : 0 ≥ (x - wallPlane e y tol) * (y - wallPlane e y tol) := by
      rcases hd with h | h
      · rw [wallPlane, if_pos (by simp; linarith)]
        have := mul_nonpos_of_nonneg_of_nonpos hx.le h
        simpa using this
      · rw [wallPlane, if_neg (by simp; linarith)]
        exact mul_nonpos_of_nonpos_of_nonneg (by linarith) (by linarith)
    have hw : 0 ≤ wallPlane e y tol ∧ wallPlane e y tol ≤ e ∧ x ≠ wallPlane e y tol := by
      rcases wallPlane_cases e y tol with h | h <;> rw [h]
      · exact ⟨le_refl _, by linarith, by linarith [hx.ne']⟩
      · exact ⟨by linarith, le_refl _, by linarith [hxe.ne]⟩
    obtain ⟨-, h2, h3, h4⟩ := wall_ratio hw.2.2 hc
    refine ⟨wallRatio x y (wallPlane e y tol), h2, h3, fun s hs hsu => ?_, fun _ => ⟨rfl, hc⟩,
      fun h => absurd hd h⟩
    exact wall_stays hx hxe (r := wallRatio x y (wallPlane e y tol))
      (by unfold wallRatio; rw [h4]; exact hw.1) (by unfold wallRatio; rw [h4]; exact hw.2.1) hs hsu
  · refine ⟨1, by norm_num, le_refl _, fun s hs hsu => ?_, fun h => absurd h hd, fun _ => rfl⟩
    push Not at hd
    exact wall_stays hx hxe (r := 1) (by linarith) (by linarith) hs hsu

theorem lineHit_eq {xa ya xb yb w x1 tol : ℚ} (hw : ya ≠ w) (hx : 0 < x1) (ht : 0 ≤ tol) :
    ((lineHit xa ya xb yb 0 w x1 tol).1 = true ↔ 0 ≥ (ya - w) * (yb - w) ∧
      -tol ≤ xa + wallRatio ya yb w * (xb - xa) ∧ xa + wallRatio ya yb w * (xb - xa) ≤ x1 + tol) ∧
    (lineHit xa ya xb yb 0 w x1 tol).2 = (xa + wallRatio ya yb w * (xb - xa), w) := by
  have h1 : 0 < |ya - w| := abs_pos.2 (sub_ne_zero.2 hw)
  have h2 : 0 ≤ |yb - w| := abs_nonneg _
  have h3 : ¬ |ya - w| + |yb - w| = 0 := by linarith
  unfold lineHit wallRatio
  simp only [h3, decide_false, Bool.not_false, if_true, Bool.and_true, Bool.and_eq_true,
    Bool.or_eq_true, decide_eq_true_eq, and_true]
  refine and_congr_right fun _ => ?_
  generalize xa + |ya - w| / (|ya - w| + |yb - w|) * (xb - xa) = z
  constructor
  · rintro (⟨h, h'⟩ | ⟨h, h'⟩) <;> constructor <;> linarith
  · rintro ⟨h, h'⟩
    exact Or.inl ⟨by linarith, h'⟩

theorem planeHit_eq {ax ay az bx by' bz w p1x p2y tol : ℚ} (hw : az ≠ w) (hx : 0 < p1x)
    (hy : 0 < p2y) (ht : 0 ≤ tol) :
    ((planeHit ax ay az bx by' bz 0 0 w p1x p2y tol).1 = true ↔ 0 ≥ (az - w) * (bz - w) ∧
      (-tol ≤ ax + wallRatio az bz w * (bx - ax) ∧ ax + wallRatio az bz w * (bx - ax) ≤ p1x + tol) ∧
      (-tol ≤ ay + wallRatio az bz w * (by' - ay) ∧
        ay + wallRatio az bz w * (by' - ay) ≤ p2y + tol)) ∧
    (planeHit ax ay az bx by' bz 0 0 w p1x p2y tol).2 =
      (ax + wallRatio az bz w * (bx - ax), ay + wallRatio az bz w * (by' - ay), w) := by
  have h1 : 0 < |az - w| := abs_pos.2 (sub_ne_zero.2 hw)
  have h2 : 0 ≤ |bz - w| := abs_nonneg _
  have h3 : ¬ |az - w| + |bz - w| = 0 := by linarith
  unfold planeHit wallRatio
  simp only [h3, decide_false, Bool.not_false, if_true, Bool.and_true, Bool.and_eq_true,
    Bool.or_eq_true, decide_eq_true_eq, and_true, and_assoc]
  refine and_congr_right fun _ => ?_
  generalize ax + |az - w| / (|az - w| + |bz - w|) * (bx - ax) = z
  generalize ay + |az - w| / (|az - w| + |bz - w|) * (by' - ay) = z'
  constructor
  · rintro ⟨⟨h, h'⟩ | ⟨h, h'⟩, ⟨k, k'⟩ | ⟨k, k'⟩⟩ <;> refine ⟨?_, ?_, ?_, ?_⟩ <;> linarith
  · rintro ⟨h, h', k, k'⟩
    exact ⟨Or.inl ⟨by linarith, h'⟩, Or.inl ⟨by linarith, k'⟩⟩

/-- A point of the path on the plane of a side, inside of the domain up to `tol`. -/
theorem leavesAt_of {ext a b p : List ℚ} {tol s w : ℚ} {d f : Nat} {up : Bool}
    (hin : InsideDomain ext a) (ht : 0 ≤ tol) (hside : sideOf f = some (d, up))
    (hw : ext[d]? = some w) (hlen : p.length = ext.length)
    (hp : p[d]? = some (if up then w else 0)) (hs0 : 0 < s) (hs1 : s ≤ 1)
    (hz : ∀ (i : Nat) e x y z, ext[i]? = some e → a[i]? = some x → b[i]? = some y → p[i]? = some z →
      z = x + s * (y - x) ∧ -tol ≤ z ∧ z ≤ e + tol) : LeavesAt ext tol a b f p := by
  refine ⟨s, d, up, w, hs0.le, hs1, hside, hw, hlen, hp, ?_, ?_⟩
  · intro i e x y z he hx hy hpz
    obtain ⟨h1, h2, h3⟩ := hz i e x y z he hx hy hpz
    refine ⟨h1, h2, h3, fun s' h0 hlt => ?_⟩
    obtain ⟨x', hx', hx0, hxe⟩ := hin i e he
    rw [hx] at hx'
    cases hx'
    rcases le_total 0 (y - x) with h | h
    · have a1 := mul_nonneg h0 h
      rcases h.eq_or_lt with h' | h'
      · rw [← h']; constructor <;> linarith
      · have a2 := mul_lt_mul_of_pos_right hlt h'
        constructor <;> linarith
    · have a1 := mul_nonpos_of_nonneg_of_nonpos h0 h
      rcases h.eq_or_lt with h' | h'
      · rw [h']; constructor <;> linarith
      · have a2 := mul_lt_mul_of_neg_right hlt h'
        constructor <;> linarith
  · intro x y hx hy s' hs'
    obtain ⟨h1, -, -⟩ := hz d w x y _ hw hx hy hp
    obtain ⟨x', hx', hx0, hxe⟩ := hin d w hw
    rw [hx] at hx'
    cases hx'
    cases up with
    | true =>
      simp only [if_true] at h1 ⊢
      have h : 0 < y - x := by
        by_contra hcon
        have := mul_nonpos_of_nonneg_of_nonpos hs0.le (not_lt.1 hcon)
        linarith
      have := mul_lt_mul_of_pos_right hs' h
      linarith
    | false =>
      simp only [Bool.false_eq_true, if_false] at h1 ⊢
      have h : y - x < 0 := by
        by_contra hcon
        have := mul_nonneg hs0.le (not_lt.1 hcon)
        linarith
      have := mul_lt_mul_of_neg_right hs' h
      linarith

end NP
