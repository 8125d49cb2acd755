import Verif.Boundary.LemmasWall

/-!
Lemmas about where a trajectory leaves a Cartesian mesh.
-/

set_option autoImplicit false

namespace NP

open Spec

theorem wall_three {α : Type} {a b c : α} {i : Nat} {e : α} (h : [a, b, c][i]? = some e) :
    (i = 0 ∧ e = a) ∨ (i = 1 ∧ e = b) ∨ (i = 2 ∧ e = c) := by
  match i, h with
  | 0, h => exact Or.inl ⟨rfl, by simpa using h.symm⟩
  | 1, h => exact Or.inr (Or.inl ⟨rfl, by simpa using h.symm⟩)
  | 2, h => exact Or.inr (Or.inr ⟨rfl, by simpa using h.symm⟩)

theorem wall_two {α : Type} {a b : α} {i : Nat} {e : α} (h : [a, b][i]? = some e) :
    (i = 0 ∧ e = a) ∨ (i = 1 ∧ e = b) := by
  match i, h with
  | 0, h => exact Or.inl ⟨rfl, by simpa using h.symm⟩
  | 1, h => exact Or.inr ⟨rfl, by simpa using h.symm⟩

/-- A dimension in which the domain is left first. -/
theorem wall_min {D0 D1 D2 : Prop} {u0 u1 u2 : ℚ} (h0 : u0 ≤ 1) (h1 : u1 ≤ 1) (h2 : u2 ≤ 1)
    (k0 : ¬ D0 → u0 = 1) (k1 : ¬ D1 → u1 = 1) (k2 : ¬ D2 → u2 = 1) (hd : D0 ∨ D1 ∨ D2) :
    (D0 ∧ u0 ≤ u1 ∧ u0 ≤ u2) ∨ (D1 ∧ u1 ≤ u0 ∧ u1 ≤ u2) ∨ (D2 ∧ u2 ≤ u0 ∧ u2 ≤ u1) := by
  have pick : ∀ {A B C : Prop} {a b c : ℚ}, a ≤ b → a ≤ c → a ≤ 1 → b ≤ 1 → c ≤ 1 → (¬ A → a = 1) →
      (A ∨ B ∨ C) → (A ∧ a ≤ b ∧ a ≤ c) ∨ (B ∧ b ≤ a ∧ b ≤ c) ∨ (C ∧ c ≤ a ∧ c ≤ b) := by
    intro A B C a b c hab hac ha hb hc hA h
    by_cases hA' : A
    · exact Or.inl ⟨hA', hab, hac⟩
    · have := hA hA'
      rcases h with h | h | h
      · exact absurd h hA'
      · exact Or.inr (Or.inl ⟨h, by linarith, by linarith⟩)
      · exact Or.inr (Or.inr ⟨h, by linarith, by linarith⟩)
  have rot : D2 ∨ D0 ∨ D1 := by
    rcases hd with h | h | h
    exacts [Or.inr (Or.inl h), Or.inr (Or.inr h), Or.inl h]
  have swap : D1 ∨ D0 ∨ D2 := by
    rcases hd with h | h | h
    exacts [Or.inr (Or.inl h), Or.inl h, Or.inr (Or.inr h)]
  have last : u2 ≤ u0 → u2 ≤ u1 →
      (D0 ∧ u0 ≤ u1 ∧ u0 ≤ u2) ∨ (D1 ∧ u1 ≤ u0 ∧ u1 ≤ u2) ∨ (D2 ∧ u2 ≤ u0 ∧ u2 ≤ u1) := by
    intro a b
    rcases pick a b h2 h0 h1 k2 rot with ⟨h, x, y⟩ | ⟨h, x, y⟩ | ⟨h, x, y⟩
    exacts [Or.inr (Or.inr ⟨h, x, y⟩), Or.inl ⟨h, y, x⟩, Or.inr (Or.inl ⟨h, y, x⟩)]
  rcases le_total u0 u1 with l | l
  · rcases le_total u0 u2 with m | m
    · exact pick l m h0 h1 h2 k0 hd
    · exact last m (m.trans l)
  · rcases le_total u1 u2 with m | m
    · rcases pick l m h1 h0 h2 k1 swap with ⟨h, x, y⟩ | ⟨h, x, y⟩ | ⟨h, x, y⟩
      exacts [Or.inr (Or.inl ⟨h, x, y⟩), Or.inl ⟨h, x, y⟩, Or.inr (Or.inr ⟨h, y, x⟩)]
    · exact last (m.trans l) m

/-- The plane tested is the plane of the side. -/
theorem wall_side {e y tol : ℚ} {lo hi d : Nat} (hlo : sideOf lo = some (d, false))
    (hhi : sideOf hi = some (d, true)) :
    ∃ (f : Nat) (up : Bool), (if decide (y - tol ≤ 0) then (lo : Int) else (hi : Int)) = (f : Int) ∧
      sideOf f = some (d, up) ∧ wallPlane e y tol = if up then e else 0 := by
  unfold wallPlane
  by_cases h : y - tol ≤ 0
  · exact ⟨lo, false, by simp [h], hlo, by simp [h]⟩
  · exact ⟨hi, true, by simp [h], hhi, by simp [h]⟩

theorem wallPlane_ne {e x y tol : ℚ} (hx : 0 < x) (hxe : x < e) : x ≠ wallPlane e y tol := by
  rcases wallPlane_cases e y tol with h | h <;> rw [h]
  · exact hx.ne'
  · exact hxe.ne

theorem wallHit2_exit {e0 e1 tol x0 x1 y0 y1 : ℚ} {p pp : List ℚ} (ht : 0 ≤ tol) (hte0 : tol < e0)
    (hte1 : tol < e1) (hp0 : p[0]? = some y0) (hp1 : p[1]? = some y1) (hq0 : pp[0]? = some x0)
    (hq1 : pp[1]? = some x1) (h0 : 0 < x0) (h0' : x0 < e0) (h1 : 0 < x1) (h1' : x1 < e1)
    (hd : (y0 ≤ 0 ∨ e0 ≤ y0) ∨ (y1 ≤ 0 ∨ e1 ≤ y1)) :
    ∃ q, ∃ f : Nat, wallHit2 e0 e1 tol p pp = some (true, q, (f : Int)) ∧
      LeavesAt [e0, e1] tol pp p f q := by
  have hin : InsideDomain [e0, e1] pp := by
    intro i e he
    rcases wall_two he with ⟨rfl, rfl⟩ | ⟨rfl, rfl⟩
    · exact ⟨x0, hq0, h0, h0'⟩
    · exact ⟨x1, hq1, h1, h1'⟩
  have hw1 := wallPlane_ne (y := y1) (tol := tol) h1 h1'
  have hw0 := wallPlane_ne (y := y0) (tol := tol) h0 h0'
  obtain ⟨u0, a1, a2, a3, a4, a5⟩ := wall_dim (y := y0) ht hte0 h0 h0'
  obtain ⟨u1, b1, b2, b3, b4, b5⟩ := wall_dim (y := y1) ht hte1 h1 h1'
  obtain ⟨p1, p2⟩ := lineHit_eq (xa := x0) (xb := y0) (yb := y1) hw1 (by linarith : 0 < e0) ht
  obtain ⟨q1, q2⟩ := lineHit_eq (xa := x1) (xb := y1) (yb := y0) hw0 (by linarith : 0 < e1) ht
  obtain ⟨f0, up0, c1, c2, c3⟩ := wall_side (e := e1) (y := y1) (tol := tol) (lo := 0) (hi := 2)
    (d := 1) rfl rfl
  obtain ⟨f1, up1, d1, d2, d3⟩ := wall_side (e := e0) (y := y0) (tol := tol) (lo := 3) (hi := 1)
    (d := 0) rfl rfl
  have hsome : (lineHit x0 x1 y0 y1 0 (wallPlane e1 y1 tol) e0 tol).1 = true ∨
      (lineHit x1 x0 y1 y0 0 (wallPlane e0 y0 tol) e1 tol).1 = true := by
    have widen : ∀ {x y e s : ℚ}, 0 ≤ x + s * (y - x) ∧ x + s * (y - x) ≤ e →
        -tol ≤ x + s * (y - x) ∧ x + s * (y - x) ≤ e + tol := by
      intro x y e s h
      exact ⟨by linarith [h.1], by linarith [h.2]⟩
    have key1 : (y1 ≤ 0 ∨ e1 ≤ y1) → u1 ≤ u0 →
        (lineHit x0 x1 y0 y1 0 (wallPlane e1 y1 tol) e0 tol).1 = true := fun h hu =>
      p1.2 ⟨(b4 h).2, (b4 h).1 ▸ widen (a3 u1 b1.le hu)⟩
    have key0 : (y0 ≤ 0 ∨ e0 ≤ y0) → u0 ≤ u1 →
        (lineHit x1 x0 y1 y0 0 (wallPlane e0 y0 tol) e1 tol).1 = true := fun h hu =>
      q1.2 ⟨(a4 h).2, (a4 h).1 ▸ widen (b3 u0 a1.le hu)⟩
    by_cases g0 : y0 ≤ 0 ∨ e0 ≤ y0
    · by_cases g1 : y1 ≤ 0 ∨ e1 ≤ y1
      · rcases le_total u0 u1 with h | h
        · exact Or.inr (key0 g0 h)
        · exact Or.inl (key1 g1 h)
      · exact Or.inr (key0 g0 (by rw [b5 g1]; exact a2))
    · exact Or.inl (key1 (hd.resolve_left g0) (by rw [a5 g0]; exact b2))
  have hplane0 : (if decide (y1 - tol ≤ 0) then 0 else e1) = wallPlane e1 y1 tol := rfl
  have hplane1 : (if decide (y0 - tol ≤ 0) then 0 else e0) = wallPlane e0 y0 tol := rfl
  have hev : wallHit2 e0 e1 tol p pp = some
      ((lineHit x0 x1 y0 y1 0 (wallPlane e1 y1 tol) e0 tol).1 ||
        (lineHit x1 x0 y1 y0 0 (wallPlane e0 y0 tol) e1 tol).1,
      [if (lineHit x0 x1 y0 y1 0 (wallPlane e1 y1 tol) e0 tol).1 then
          x0 + wallRatio x1 y1 (wallPlane e1 y1 tol) * (y0 - x0) else wallPlane e0 y0 tol,
       if (lineHit x0 x1 y0 y1 0 (wallPlane e1 y1 tol) e0 tol).1 then wallPlane e1 y1 tol else
          x1 + wallRatio x0 y0 (wallPlane e0 y0 tol) * (y1 - x1)],
      if (lineHit x0 x1 y0 y1 0 (wallPlane e1 y1 tol) e0 tol).1 then (f0 : Int) else (f1 : Int)) := by
    simp only [wallHit2, rd, hp0, hp1, hq0, hq1, Option.bind_some, hplane0, hplane1, p2, q2]
    rw [← c1, ← d1]
    rfl
  rw [hev]
  cases hh : (lineHit x0 x1 y0 y1 0 (wallPlane e1 y1 tol) e0 tol).1 with
  | true =>
    simp only [Bool.true_or, if_true]
    refine ⟨_, f0, rfl, ?_⟩
    obtain ⟨k1, k2, k3⟩ := p1.1 hh
    obtain ⟨-, r2, r3, r4⟩ := wall_ratio hw1 k1
    refine leavesAt_of hin ht c2 (w := e1) rfl rfl (by rw [← c3]; rfl) r2 r3 ?_
    intro i e x y z he hx hy hz
    rcases wall_two he with ⟨rfl, rfl⟩ | ⟨rfl, rfl⟩
    · rw [hq0] at hx; rw [hp0] at hy
      cases hx; cases hy; cases hz
      exact ⟨rfl, k2, k3⟩
    · rw [hq1] at hx; rw [hp1] at hy
      cases hx; cases hy; cases hz
      refine ⟨r4.symm, ?_⟩
      rcases wallPlane_cases _ y1 tol with h | h <;> rw [h] <;> constructor <;> linarith
  | false =>
    rw [hh] at hsome
    have hh' := hsome.resolve_left (by simp)
    simp only [hh', Bool.or_true, Bool.false_eq_true, if_false]
    refine ⟨_, f1, rfl, ?_⟩
    obtain ⟨k1, k2, k3⟩ := q1.1 hh'
    obtain ⟨-, r2, r3, r4⟩ := wall_ratio hw0 k1
    refine leavesAt_of hin ht d2 (w := e0) rfl rfl (by rw [← d3]; rfl) r2 r3 ?_
    intro i e x y z he hx hy hz
    rcases wall_two he with ⟨rfl, rfl⟩ | ⟨rfl, rfl⟩
    · rw [hq0] at hx; rw [hp0] at hy
      cases hx; cases hy; cases hz
      refine ⟨r4.symm, ?_⟩
      rcases wallPlane_cases _ y0 tol with h | h <;> rw [h] <;> constructor <;> linarith
    · rw [hq1] at hx; rw [hp1] at hy
      cases hx; cases hy; cases hz
      exact ⟨rfl, k2, k3⟩

theorem wallHit3_exit {e0 e1 e2 tol x0 x1 x2 y0 y1 y2 : ℚ} {p pp : List ℚ} (ht : 0 ≤ tol)
    (hte0 : tol < e0) (hte1 : tol < e1) (hte2 : tol < e2) (hp0 : p[0]? = some y0)
    (hp1 : p[1]? = some y1) (hp2 : p[2]? = some y2) (hq0 : pp[0]? = some x0)
    (hq1 : pp[1]? = some x1) (hq2 : pp[2]? = some x2) (h0 : 0 < x0) (h0' : x0 < e0) (h1 : 0 < x1)
    (h1' : x1 < e1) (h2 : 0 < x2) (h2' : x2 < e2)
    (hd : (y0 ≤ 0 ∨ e0 ≤ y0) ∨ (y1 ≤ 0 ∨ e1 ≤ y1) ∨ (y2 ≤ 0 ∨ e2 ≤ y2)) :
    ∃ q, ∃ f : Nat, wallHit3 e0 e1 e2 tol p pp = some (true, q, (f : Int)) ∧
      LeavesAt [e0, e1, e2] tol pp p f q := by
  have hin : InsideDomain [e0, e1, e2] pp := by
    intro i e he
    rcases wall_three he with ⟨rfl, rfl⟩ | ⟨rfl, rfl⟩ | ⟨rfl, rfl⟩
    · exact ⟨x0, hq0, h0, h0'⟩
    · exact ⟨x1, hq1, h1, h1'⟩
    · exact ⟨x2, hq2, h2, h2'⟩
  have hw0 := wallPlane_ne (y := y0) (tol := tol) h0 h0'
  have hw1 := wallPlane_ne (y := y1) (tol := tol) h1 h1'
  have hw2 := wallPlane_ne (y := y2) (tol := tol) h2 h2'
  have hE0 : 0 < e0 := by linarith
  have hE1 : 0 < e1 := by linarith
  have hE2 : 0 < e2 := by linarith
  obtain ⟨u0, a1, a2, a3, a4, a5⟩ := wall_dim (y := y0) ht hte0 h0 h0'
  obtain ⟨u1, b1, b2, b3, b4, b5⟩ := wall_dim (y := y1) ht hte1 h1 h1'
  obtain ⟨u2, c1, c2, c3, c4, c5⟩ := wall_dim (y := y2) ht hte2 h2 h2'
  obtain ⟨p1, p2⟩ := planeHit_eq (ax := x0) (bx := y0) (ay := x1) (by' := y1) (bz := y2) hw2 hE0 hE1 ht
  obtain ⟨q1, q2⟩ := planeHit_eq (ax := x0) (bx := y0) (ay := x2) (by' := y2) (bz := y1) hw1 hE0 hE2 ht
  obtain ⟨r1, r2⟩ := planeHit_eq (ax := x1) (bx := y1) (ay := x2) (by' := y2) (bz := y0) hw0 hE1 hE2 ht
  obtain ⟨f0, up0, s1, s2, s3⟩ := wall_side (e := e2) (y := y2) (tol := tol) (lo := 4) (hi := 5)
    (d := 2) rfl rfl
  obtain ⟨f1, up1, t1, t2, t3⟩ := wall_side (e := e1) (y := y1) (tol := tol) (lo := 0) (hi := 2)
    (d := 1) rfl rfl
  obtain ⟨f2, up2, v1, v2, v3⟩ := wall_side (e := e0) (y := y0) (tol := tol) (lo := 3) (hi := 1)
    (d := 0) rfl rfl
  have hsome : (planeHit x0 x1 x2 y0 y1 y2 0 0 (wallPlane e2 y2 tol) e0 e1 tol).1 = true ∨
      (planeHit x0 x2 x1 y0 y2 y1 0 0 (wallPlane e1 y1 tol) e0 e2 tol).1 = true ∨
      (planeHit x1 x2 x0 y1 y2 y0 0 0 (wallPlane e0 y0 tol) e1 e2 tol).1 = true := by
    have widen : ∀ {x y e s : ℚ}, 0 ≤ x + s * (y - x) ∧ x + s * (y - x) ≤ e →
        -tol ≤ x + s * (y - x) ∧ x + s * (y - x) ≤ e + tol := by
      intro x y e s h
      exact ⟨by linarith [h.1], by linarith [h.2]⟩
    have key0 : (y0 ≤ 0 ∨ e0 ≤ y0) → u0 ≤ u1 → u0 ≤ u2 →
        (planeHit x1 x2 x0 y1 y2 y0 0 0 (wallPlane e0 y0 tol) e1 e2 tol).1 = true := fun h hu hv =>
      r1.2 ⟨(a4 h).2, (a4 h).1 ▸ widen (b3 u0 a1.le hu), (a4 h).1 ▸ widen (c3 u0 a1.le hv)⟩
    have key1 : (y1 ≤ 0 ∨ e1 ≤ y1) → u1 ≤ u0 → u1 ≤ u2 →
        (planeHit x0 x2 x1 y0 y2 y1 0 0 (wallPlane e1 y1 tol) e0 e2 tol).1 = true := fun h hu hv =>
      q1.2 ⟨(b4 h).2, (b4 h).1 ▸ widen (a3 u1 b1.le hu), (b4 h).1 ▸ widen (c3 u1 b1.le hv)⟩
    have key2 : (y2 ≤ 0 ∨ e2 ≤ y2) → u2 ≤ u0 → u2 ≤ u1 →
        (planeHit x0 x1 x2 y0 y1 y2 0 0 (wallPlane e2 y2 tol) e0 e1 tol).1 = true := fun h hu hv =>
      p1.2 ⟨(c4 h).2, (c4 h).1 ▸ widen (a3 u2 c1.le hu), (c4 h).1 ▸ widen (b3 u2 c1.le hv)⟩
    rcases wall_min a2 b2 c2 a5 b5 c5 hd with ⟨h, hu, hv⟩ | ⟨h, hu, hv⟩ | ⟨h, hu, hv⟩
    · exact Or.inr (Or.inr (key0 h hu hv))
    · exact Or.inr (Or.inl (key1 h hu hv))
    · exact Or.inl (key2 h hu hv)
  have hplane0 : (if decide (y0 - tol ≤ 0) then 0 else e0) = wallPlane e0 y0 tol := rfl
  have hplane1 : (if decide (y1 - tol ≤ 0) then 0 else e1) = wallPlane e1 y1 tol := rfl
  have hplane2 : (if decide (y2 - tol ≤ 0) then 0 else e2) = wallPlane e2 y2 tol := rfl
  -- the three candidates
  have hl0 : (planeHit x0 x1 x2 y0 y1 y2 0 0 (wallPlane e2 y2 tol) e0 e1 tol).1 = true →
      LeavesAt [e0, e1, e2] tol pp p f0 [x0 + wallRatio x2 y2 (wallPlane e2 y2 tol) * (y0 - x0),
        x1 + wallRatio x2 y2 (wallPlane e2 y2 tol) * (y1 - x1), wallPlane e2 y2 tol] := by
    intro hh
    obtain ⟨k1, k2, k3⟩ := p1.1 hh
    obtain ⟨-, m2, m3, m4⟩ := wall_ratio hw2 k1
    refine leavesAt_of hin ht s2 (w := e2) rfl rfl (by rw [← s3]; rfl) m2 m3 ?_
    intro i e x y z he hx hy hz
    rcases wall_three he with ⟨rfl, rfl⟩ | ⟨rfl, rfl⟩ | ⟨rfl, rfl⟩
    · rw [hq0] at hx; rw [hp0] at hy
      cases hx; cases hy; cases hz
      exact ⟨rfl, k2⟩
    · rw [hq1] at hx; rw [hp1] at hy
      cases hx; cases hy; cases hz
      exact ⟨rfl, k3⟩
    · rw [hq2] at hx; rw [hp2] at hy
      cases hx; cases hy; cases hz
      refine ⟨m4.symm, ?_⟩
      rcases wallPlane_cases _ y2 tol with h | h <;> rw [h] <;> constructor <;> linarith
  have hl1 : (planeHit x0 x2 x1 y0 y2 y1 0 0 (wallPlane e1 y1 tol) e0 e2 tol).1 = true →
      LeavesAt [e0, e1, e2] tol pp p f1 [x0 + wallRatio x1 y1 (wallPlane e1 y1 tol) * (y0 - x0),
        wallPlane e1 y1 tol, x2 + wallRatio x1 y1 (wallPlane e1 y1 tol) * (y2 - x2)] := by
    intro hh
    obtain ⟨k1, k2, k3⟩ := q1.1 hh
    obtain ⟨-, m2, m3, m4⟩ := wall_ratio hw1 k1
    refine leavesAt_of hin ht t2 (w := e1) rfl rfl (by rw [← t3]; rfl) m2 m3 ?_
    intro i e x y z he hx hy hz
    rcases wall_three he with ⟨rfl, rfl⟩ | ⟨rfl, rfl⟩ | ⟨rfl, rfl⟩
    · rw [hq0] at hx; rw [hp0] at hy
      cases hx; cases hy; cases hz
      exact ⟨rfl, k2⟩
    · rw [hq1] at hx; rw [hp1] at hy
      cases hx; cases hy; cases hz
      refine ⟨m4.symm, ?_⟩
      rcases wallPlane_cases _ y1 tol with h | h <;> rw [h] <;> constructor <;> linarith
    · rw [hq2] at hx; rw [hp2] at hy
      cases hx; cases hy; cases hz
      exact ⟨rfl, k3⟩
  have hl2 : (planeHit x1 x2 x0 y1 y2 y0 0 0 (wallPlane e0 y0 tol) e1 e2 tol).1 = true →
      LeavesAt [e0, e1, e2] tol pp p f2 [wallPlane e0 y0 tol,
        x1 + wallRatio x0 y0 (wallPlane e0 y0 tol) * (y1 - x1),
        x2 + wallRatio x0 y0 (wallPlane e0 y0 tol) * (y2 - x2)] := by
    intro hh
    obtain ⟨k1, k2, k3⟩ := r1.1 hh
    obtain ⟨-, m2, m3, m4⟩ := wall_ratio hw0 k1
    refine leavesAt_of hin ht v2 (w := e0) rfl rfl (by rw [← v3]; rfl) m2 m3 ?_
    intro i e x y z he hx hy hz
    rcases wall_three he with ⟨rfl, rfl⟩ | ⟨rfl, rfl⟩ | ⟨rfl, rfl⟩
    · rw [hq0] at hx; rw [hp0] at hy
      cases hx; cases hy; cases hz
      refine ⟨m4.symm, ?_⟩
      rcases wallPlane_cases _ y0 tol with h | h <;> rw [h] <;> constructor <;> linarith
    · rw [hq1] at hx; rw [hp1] at hy
      cases hx; cases hy; cases hz
      exact ⟨rfl, k2⟩
    · rw [hq2] at hx; rw [hp2] at hy
      cases hx; cases hy; cases hz
      exact ⟨rfl, k3⟩
  have s1' : (if decide (y2 - tol ≤ 0) then (4 : Int) else 5) = (f0 : Int) := s1
  have t1' : (if decide (y1 - tol ≤ 0) then (0 : Int) else 2) = (f1 : Int) := t1
  have v1' : (if decide (y0 - tol ≤ 0) then (3 : Int) else 1) = (f2 : Int) := v1
  simp only [wallHit3, rd, hp0, hp1, hp2, hq0, hq1, hq2, Option.bind_some, hplane0, hplane1, hplane2,
    p2, q2, r2, s1', t1', v1', List.foldl_cons, List.foldl_nil, wallPick]
  cases g2 : (planeHit x1 x2 x0 y1 y2 y0 0 0 (wallPlane e0 y0 tol) e1 e2 tol).1 with
  | true => exact ⟨_, f2, by simp, hl2 g2⟩
  | false =>
    cases g1 : (planeHit x0 x2 x1 y0 y2 y1 0 0 (wallPlane e1 y1 tol) e0 e2 tol).1 with
    | true => exact ⟨_, f1, by simp, hl1 g1⟩
    | false =>
      have g0 : (planeHit x0 x1 x2 y0 y1 y2 0 0 (wallPlane e2 y2 tol) e0 e1 tol).1 = true := by
        rw [g1, g2] at hsome
        exact hsome.resolve_right (by simp)
      exact ⟨_, f0, by simp [g0], hl0 g0⟩

end NP
