import Verif.Mesh.LemmasCoord

/-!
# C86: reference and barycentric coordinates, torus coordinates
-/

set_option autoImplicit false

namespace NP

open Spec

/-! ## Triangles -/

/-- **C86** The barycentric coordinates of any point, for a triangle with an area, sum to one and
give back the point; they are the only numbers that do. -/
theorem C86_triangle (v1 v2 v3 p : ℝ × ℝ) (h : turnR v1 v2 v3 ≠ 0) :
    ∃ l1 l2 l3, triCartToBary v1.1 v1.2 v2.1 v2.2 v3.1 v3.2 p.1 p.2 = some (l1, l2, l3) ∧
      l1 + l2 + l3 = 1 ∧ l1 • v1 + l2 • v2 + l3 • v3 = p ∧
      triBaryToCart v1.1 v1.2 v2.1 v2.2 v3.1 v3.2 l1 l2 l3 = p ∧
      ∀ m1 m2 m3 : ℝ, m1 + m2 + m3 = 1 → m1 • v1 + m2 • v2 + m3 • v3 = p →
        m1 = l1 ∧ m2 = l2 ∧ m3 = l3 := by
  obtain ⟨x1, y1⟩ := v1
  obtain ⟨x2, y2⟩ := v2
  obtain ⟨x3, y3⟩ := v3
  obtain ⟨x, y⟩ := p
  have hd : x1 * (y2 - y3) + x2 * (y3 - y1) + x3 * (y1 - y2) ≠ 0 := by
    intro h0
    apply h
    simp only [turnR]
    linear_combination h0
  unfold triCartToBary
  simp only [fdiv_ne hd, Option.bind_some]
  refine ⟨_, _, _, rfl, ?_, ?_, ?_, ?_⟩
  · field_simp
    ring
  · ext
    · simp only [Prod.fst_add, Prod.smul_fst, smul_eq_mul]
      field_simp
      ring
    · simp only [Prod.snd_add, Prod.smul_snd, smul_eq_mul]
      field_simp
      ring
  · unfold triBaryToCart
    ext
    · simp only
      field_simp
      ring
    · simp only
      field_simp
      ring
  · intro m1 m2 m3 hs hp
    have hx := congrArg Prod.fst hp
    have hy := congrArg Prod.snd hp
    simp only [Prod.fst_add, Prod.smul_fst, smul_eq_mul, Prod.snd_add, Prod.smul_snd] at hx hy
    refine ⟨?_, ?_, ?_⟩
    · rw [div_mul_eq_mul_div, eq_div_iff hd, ← hx, ← hy]
      linear_combination (x2 * y3 - x3 * y2) * hs
    · rw [div_mul_eq_mul_div, eq_div_iff hd, ← hx, ← hy]
      linear_combination (x3 * y1 - x1 * y3) * hs
    · rw [div_mul_eq_mul_div, eq_div_iff hd, ← hx, ← hy]
      linear_combination (x1 * y2 - x2 * y1) * hs

/-- **C86** A triangle without area gives no coordinates. -/
theorem C86_triangle_flat (v1 v2 v3 p : ℝ × ℝ) (h : turnR v1 v2 v3 = 0) :
    triCartToBary v1.1 v1.2 v2.1 v2.2 v3.1 v3.2 p.1 p.2 = none := by
  have hd : v1.1 * (v2.2 - v3.2) + v2.1 * (v3.2 - v1.2) + v3.1 * (v1.2 - v2.2) = 0 := by
    simp only [turnR] at h
    linear_combination h
  unfold triCartToBary fdiv
  rw [if_pos hd]
  rfl

/-! ## Quadrilaterals -/

/-- **C86** `quad_collapsed_to_cartesian` is the bilinear map. -/
theorem C86_bilinear (v0 v1 v2 v3 e : ℝ × ℝ) :
    quadCollToCart v0.1 v0.2 v1.1 v1.2 v2.1 v2.2 v3.1 v3.2 e.1 e.2 = bilinear v0 v1 v2 v3 e := by
  unfold quadCollToCart bilinear
  ext
  · simp only [Prod.fst_add, Prod.smul_fst, smul_eq_mul]
    ring
  · simp only [Prod.snd_add, Prod.smul_snd, smul_eq_mul]
    ring

theorem across_fst (v0 v1 v2 v3 : ℝ × ℝ) (t : ℝ) :
    (quadCoeff v0.1 v1.1 v2.1 v3.1).2.2.2 * t + (quadCoeff v0.1 v1.1 v2.1 v3.1).2.2.1 =
      1 / 4 * (across v0 v1 v2 v3 t).1 := by
  simp only [quadCoeff, across, Prod.fst_add, Prod.smul_fst, Prod.fst_sub, smul_eq_mul]
  ring

theorem across_snd (v0 v1 v2 v3 : ℝ × ℝ) (t : ℝ) :
    (quadCoeff v0.2 v1.2 v2.2 v3.2).2.2.2 * t + (quadCoeff v0.2 v1.2 v2.2 v3.2).2.2.1 =
      1 / 4 * (across v0 v1 v2 v3 t).2 := by
  simp only [quadCoeff, across, Prod.snd_add, Prod.smul_snd, Prod.snd_sub, smul_eq_mul]
  ring

/-- **C86** For a strictly convex quadrilateral the reference coordinates of the image of a point
of the reference square are exactly this point, provided that the line across the cell through
the point is not parallel to the x axis (if the sides reach further in y than in x; otherwise to the
y axis). What is missing is this last condition, see `C86_quad_lost`. -/
theorem C86_quad_partial (v0 v1 v2 v3 : ℝ × ℝ) (hq : ConvexQuad v0 v1 v2 v3) (e : ℝ × ℝ)
    (he : RefSquare e) (hs : Steep v0 v1 v2 v3 → (across v0 v1 v2 v3 e.1).2 ≠ 0)
    (hns : ¬ Steep v0 v1 v2 v3 → (across v0 v1 v2 v3 e.1).1 ≠ 0) :
    quadCartToColl v0.1 v0.2 v1.1 v1.2 v2.1 v2.2 v3.1 v3.2 (bilinear v0 v1 v2 v3 e).1
      (bilinear v0 v1 v2 v3 e).2 = some e := by
  unfold quadCartToColl
  rw [bil_fst, bil_snd]
  simp only
  by_cases h : Steep v0 v1 v2 v3
  · rw [if_neg (fun k => (swap_iff v0 v1 v2 v3).mp k h)]
    refine solve_spec (fun f hf => jac_ne hq hf) he ?_
    rw [across_snd]
    exact mul_ne_zero (by norm_num) (hs h)
  · rw [if_pos ((swap_iff v0 v1 v2 v3).mpr h)]
    refine solve_spec (fun f hf => ?_) he ?_
    · rw [jac_swap]
      exact neg_ne_zero.mpr (jac_ne hq hf)
    · rw [across_fst]
      exact mul_ne_zero (by norm_num) (hns h)

/-- **C86** No condition is needed for parallelograms. -/
theorem C86_parallelogram (v0 v1 v2 v3 : ℝ × ℝ) (hq : turnR v0 v1 v2 ≠ 0) (hp : v3 - v0 = v2 - v1)
    (e : ℝ × ℝ) (he : RefSquare e) :
    quadCartToColl v0.1 v0.2 v1.1 v1.2 v2.1 v2.2 v3.1 v3.2 (bilinear v0 v1 v2 v3 e).1
      (bilinear v0 v1 v2 v3 e).2 = some e := by
  have hp1 : v3.1 = v2.1 - v1.1 + v0.1 := by
    have := congrArg Prod.fst hp
    simp only [Prod.fst_sub] at this
    linarith
  have hp2 : v3.2 = v2.2 - v1.2 + v0.2 := by
    have := congrArg Prod.snd hp
    simp only [Prod.snd_sub] at this
    linarith
  have t1 : turnR v1 v2 v3 = turnR v0 v1 v2 := by
    simp only [turnR, hp1, hp2]
    ring
  have t2 : turnR v2 v3 v0 = turnR v0 v1 v2 := by
    simp only [turnR, hp1, hp2]
    ring
  have t3 : turnR v3 v0 v1 = turnR v0 v1 v2 := by
    simp only [turnR, hp1, hp2]
    ring
  have hc : ConvexQuad v0 v1 v2 v3 := by
    unfold ConvexQuad
    rw [t1, t2, t3]
    rcases lt_or_gt_of_ne hq with h | h
    · exact Or.inr ⟨h, h, h, h⟩
    · exact Or.inl ⟨h, h, h, h⟩
  have ha : ∀ t, across v0 v1 v2 v3 t = (2 : ℝ) • (v2 - v1) := by
    intro t
    unfold across
    rw [hp, ← add_smul]
    congr 1
    ring
  have hz : v2 - v1 = 0 → False := by
    intro h
    apply hq
    have e1 := congrArg Prod.fst h
    have e2 := congrArg Prod.snd h
    simp only [Prod.fst_sub, Prod.snd_sub, Prod.fst_zero, Prod.snd_zero] at e1 e2
    simp only [turnR]
    linear_combination (v1.1 - v0.1) * e2 - (v1.2 - v0.2) * e1
  have st : Steep v0 v1 v2 v3 ↔ |v2.1 - v1.1| ≤ |v2.2 - v1.2| := by
    unfold Steep
    rw [show v3.1 - v0.1 = v2.1 - v1.1 by linarith, show v3.2 - v0.2 = v2.2 - v1.2 by linarith,
      max_self, max_self]
  refine C86_quad_partial v0 v1 v2 v3 hc e he (fun h => ?_) (fun h => ?_)
  · rw [ha]
    simp only [Prod.smul_snd, Prod.snd_sub, smul_eq_mul]
    refine mul_ne_zero (by norm_num) fun h0 => hz ?_
    have := st.mp h
    rw [h0, abs_zero] at this
    exact Prod.ext (abs_nonpos_iff.mp this) h0
  · rw [ha]
    simp only [Prod.smul_fst, Prod.fst_sub, smul_eq_mul]
    refine mul_ne_zero (by norm_num) fun h0 => hz ?_
    have := lt_of_not_ge (fun k => h (st.mpr k))
    rw [h0, abs_zero] at this
    exact absurd this (not_lt.mpr (abs_nonneg _))

/-- **C86** Nor if the two sides reach at least as far in y as in x and both point upwards. -/
theorem C86_upright (v0 v1 v2 v3 : ℝ × ℝ) (hq : ConvexQuad v0 v1 v2 v3) (hs : Steep v0 v1 v2 v3)
    (h03 : v0.2 < v3.2) (h12 : v1.2 < v2.2) (e : ℝ × ℝ) (he : RefSquare e) :
    quadCartToColl v0.1 v0.2 v1.1 v1.2 v2.1 v2.2 v3.1 v3.2 (bilinear v0 v1 v2 v3 e).1
      (bilinear v0 v1 v2 v3 e).2 = some e := by
  refine C86_quad_partial v0 v1 v2 v3 hq e he (fun _ => ?_) (fun h => absurd hs h)
  simp only [across, Prod.snd_add, Prod.smul_snd, Prod.snd_sub, smul_eq_mul]
  obtain ⟨h1, h2, -, -⟩ := he
  intro h0
  have k1 : 0 ≤ (1 - e.1) * (v3.2 - v0.2) := mul_nonneg (by linarith) (by linarith)
  have k2 : 0 ≤ (1 + e.1) * (v2.2 - v1.2) := mul_nonneg (by linarith) (by linarith)
  have z1 : (1 - e.1) * (v3.2 - v0.2) = 0 := by linarith
  have z2 : (1 + e.1) * (v2.2 - v1.2) = 0 := by linarith
  have y1 := (mul_eq_zero.mp z1).resolve_right (by linarith)
  have y2 := (mul_eq_zero.mp z2).resolve_right (by linarith)
  linarith

/-- **C86** The map always returns numbers. If the point has reference coordinates at all, inside
or outside of the reference square, then coordinates in the reference square that are returned
are coordinates of the point. -/
theorem C86_quad_sound (v0 v1 v2 v3 p : ℝ × ℝ) :
    ∃ e, quadCartToColl v0.1 v0.2 v1.1 v1.2 v2.1 v2.2 v3.1 v3.2 p.1 p.2 = some e ∧
      ((∃ f, bilinear v0 v1 v2 v3 f = p) → RefSquare e → bilinear v0 v1 v2 v3 e = p) := by
  have core : ∀ (a b : ℝ × ℝ × ℝ × ℝ) (x y : ℝ), ∃ e, quadSolve a b x y = some e ∧
      ((∃ f, bil a f = x ∧ bil b f = y) → RefSquare e → bil a e = x ∧ bil b e = y) := by
    intro a b x y
    obtain ⟨A, B, C, hABC⟩ : ∃ A B C, quadABC a b x y = (A, B, C) := ⟨_, _, _, rfl⟩
    obtain ⟨D, p, m, -, -, -, -, h1, h2⟩ := solve_sound a b x y hABC
    refine ⟨_, h1, ?_⟩
    rintro ⟨f, f1, f2⟩ hr
    obtain ⟨r1, -⟩ := root_of_sol f1 f2
    refine h2 ?_ _ (select_cases p m).2.2 hr
    rw [hABC] at r1
    simp only at r1
    have : -4 * A * C + B * B = (2 * A * f.1 + B) ^ 2 := by
      linear_combination (-4 * A) * r1
    rw [this]
    exact sq_nonneg _
  have conv : ∀ e, bilinear v0 v1 v2 v3 e = p ↔
      bil (quadCoeff v0.1 v1.1 v2.1 v3.1) e = p.1 ∧ bil (quadCoeff v0.2 v1.2 v2.2 v3.2) e = p.2 := by
    intro e
    rw [← bil_fst, ← bil_snd]
    exact ⟨fun h => by rw [h]; exact ⟨rfl, rfl⟩, fun h => Prod.ext h.1 h.2⟩
  unfold quadCartToColl
  simp only
  by_cases h : Steep v0 v1 v2 v3
  · rw [if_neg (fun k => (swap_iff v0 v1 v2 v3).mp k h)]
    obtain ⟨e, h1, h2⟩ := core (quadCoeff v0.1 v1.1 v2.1 v3.1) (quadCoeff v0.2 v1.2 v2.2 v3.2) p.1 p.2
    refine ⟨e, h1, ?_⟩
    rintro ⟨f, hf⟩ hr
    exact (conv e).mpr (h2 ⟨f, (conv f).mp hf⟩ hr)
  · rw [if_pos ((swap_iff v0 v1 v2 v3).mpr h)]
    obtain ⟨e, h1, h2⟩ := core (quadCoeff v0.2 v1.2 v2.2 v3.2) (quadCoeff v0.1 v1.1 v2.1 v3.1) p.2 p.1
    refine ⟨e, h1, ?_⟩
    rintro ⟨f, hf⟩ hr
    exact (conv e).mpr (h2 ⟨f, ((conv f).mp hf).symm⟩ hr).symm

/-- **C86** The weights are never negative and sum to one for all reference coordinates; for
coordinates in the reference square the corners with these weights give the point. -/
theorem C86_weights (e : ℝ × ℝ) :
    ∃ l0 l1 l2 l3, quadCollToBary e.1 e.2 = (l0, l1, l2, l3) ∧ 0 ≤ l0 ∧ 0 ≤ l1 ∧ 0 ≤ l2 ∧ 0 ≤ l3 ∧
      l0 + l1 + l2 + l3 = 1 ∧
      (RefSquare e → ∀ v0 v1 v2 v3 : ℝ × ℝ,
        l0 • v0 + l1 • v1 + l2 • v2 + l3 • v3 = bilinear v0 v1 v2 v3 e) := by
  unfold quadCollToBary
  simp only
  have a1 : -1 ≤ max (-1) (min 1 e.1) := le_max_left _ _
  have a2 : max (-1) (min 1 e.1) ≤ 1 := max_le (by norm_num) (min_le_left _ _)
  have b1 : -1 ≤ max (-1) (min 1 e.2) := le_max_left _ _
  have b2 : max (-1) (min 1 e.2) ≤ 1 := max_le (by norm_num) (min_le_left _ _)
  refine ⟨_, _, _, _, rfl, ?_, ?_, ?_, ?_, ?_, ?_⟩
  · exact mul_nonneg (by linarith) (by linarith)
  · exact mul_nonneg (by linarith) (by linarith)
  · exact mul_nonneg (by linarith) (by linarith)
  · exact mul_nonneg (by linarith) (by linarith)
  · ring
  · rintro ⟨h1, h2, h3, h4⟩ v0 v1 v2 v3
    rw [min_eq_right h2, min_eq_right h4, max_eq_right h1, max_eq_right h3]
    unfold bilinear
    ext
    · simp only [Prod.fst_add, Prod.smul_fst, smul_eq_mul]
      ring
    · simp only [Prod.snd_add, Prod.smul_snd, smul_eq_mul]
      ring

/-- **C86** Hence the weights of a point of the cell give back the point, under the condition of
`C86_quad_partial`. -/
theorem C86_quad_weights_partial (v0 v1 v2 v3 : ℝ × ℝ) (hq : ConvexQuad v0 v1 v2 v3) (e : ℝ × ℝ)
    (he : RefSquare e) (hs : Steep v0 v1 v2 v3 → (across v0 v1 v2 v3 e.1).2 ≠ 0)
    (hns : ¬ Steep v0 v1 v2 v3 → (across v0 v1 v2 v3 e.1).1 ≠ 0) :
    ∃ l0 l1 l2 l3, quadCartToBary v0.1 v0.2 v1.1 v1.2 v2.1 v2.2 v3.1 v3.2
        (bilinear v0 v1 v2 v3 e).1 (bilinear v0 v1 v2 v3 e).2 = some (l0, l1, l2, l3) ∧
      0 ≤ l0 ∧ 0 ≤ l1 ∧ 0 ≤ l2 ∧ 0 ≤ l3 ∧ l0 + l1 + l2 + l3 = 1 ∧
      l0 • v0 + l1 • v1 + l2 • v2 + l3 • v3 = bilinear v0 v1 v2 v3 e := by
  obtain ⟨l0, l1, l2, l3, h, p0, p1, p2, p3, hsum, hb⟩ := C86_weights e
  refine ⟨l0, l1, l2, l3, ?_, p0, p1, p2, p3, hsum, hb he v0 v1 v2 v3⟩
  unfold quadCartToBary
  rw [C86_quad_partial v0 v1 v2 v3 hq e he hs hns, Option.bind_some, h]

/-- **C86** What the condition excludes: a trapezoid whose centre gets the reference coordinates
`(0, 1000)` and the weights of the middle of a side. -/
theorem C86_quad_lost :
    ConvexQuad (0, 0) (0, -4) (1 / 2, -3) (1 / 2, -1) ∧
    bilinear (0, 0) (0, -4) (1 / 2, -3) (1 / 2, -1) (0, 0) = (1 / 4, -2) ∧
    quadCartToColl 0 0 0 (-4) (1 / 2) (-3) (1 / 2) (-1) (1 / 4) (-2) = some (0, 1000) ∧
    quadCartToBary 0 0 0 (-4) (1 / 2) (-3) (1 / 2) (-1) (1 / 4) (-2) =
      some (0, 0, 1 / 2, 1 / 2) := by
  have h : quadCartToColl 0 0 0 (-4) (1 / 2) (-3) (1 / 2) (-1) (1 / 4) (-2) = some (0, 1000) := by
    have e9 : Real.sqrt 9 = 3 := by
      rw [show (9 : ℝ) = 3 * 3 by norm_num]
      exact Real.sqrt_mul_self (by norm_num)
    have e64 : Real.sqrt 64 = 8 := by
      rw [show (64 : ℝ) = 8 * 8 by norm_num]
      exact Real.sqrt_mul_self (by norm_num)
    norm_num [e9, e64, quadCartToColl, quadCoeff, quadSwap, quadSolve, quadABC, quadRootP, quadRootM, quadDet, fsqrt,
      quadPair, quadSelect, fdiv, abs_of_pos]
  refine ⟨Or.inl ⟨?_, ?_, ?_, ?_⟩, ?_, h, ?_⟩
  · norm_num [turnR]
  · norm_num [turnR]
  · norm_num [turnR]
  · norm_num [turnR]
  · unfold bilinear
    ext <;> norm_num
  · unfold quadCartToBary
    rw [h]
    norm_num [quadCollToBary]

/-- **C86** Reference coordinates in the reference square do not show that the point is in the
cell: a point far outside of a strictly convex quadrilateral gets coordinates well inside, which
are those of another point. -/
theorem C86_outside_accepted :
    ConvexQuad (-1, -3) (-6, -6) (0, -6) (6, 1) ∧
    quadCartToColl (-1) (-3) (-6) (-6) 0 (-6) 6 1 (-2) 12 = some (1 / 17, -27 / 55) ∧
    bilinear (-1, -3) (-6, -6) (0, -6) (6, 1) (1 / 17, -27 / 55) ≠ (-2, 12) := by
  refine ⟨Or.inl ⟨?_, ?_, ?_, ?_⟩, ?_, ?_⟩
  · norm_num [turnR]
  · norm_num [turnR]
  · norm_num [turnR]
  · norm_num [turnR]
  · norm_num [quadCartToColl, quadCoeff, quadSwap, quadSolve, quadABC, quadRootP, quadRootM, quadDet, fsqrt,
      quadPair, quadSelect, fdiv, abs_of_pos]
  · intro h
    have := congrArg Prod.snd h
    norm_num [bilinear] at this

/-! ## Torus -/

/-- **C86** From Cartesian to torus coordinates and back is the identity away from the axis. The
radius is not negative and the angles are in `(-π, π]`. -/
theorem C86_torus (R x y z : ℝ) (h : x ≠ 0 ∨ y ≠ 0) :
    ∃ r phi theta, cartToTorus R x y z = some (r, phi, theta) ∧ 0 ≤ r ∧
      phi ∈ Set.Ioc (-Real.pi) Real.pi ∧ theta ∈ Set.Ioc (-Real.pi) Real.pi ∧
      torusToCart R r phi theta = (x, y, z) := by
  have hpos : 0 < x * x + y * y := by
    rcases h with h | h
    · nlinarith [mul_self_pos.mpr h, mul_self_nonneg y]
    · nlinarith [mul_self_pos.mpr h, mul_self_nonneg x]
  have hs : Real.sqrt (x * x + y * y) ≠ 0 := (Real.sqrt_pos.mpr hpos).ne'
  have hne : (⟨x, y⟩ : ℂ) ≠ 0 := by
    intro h0
    have e1 := congrArg Complex.re h0
    have e2 := congrArg Complex.im h0
    simp only [Complex.zero_re, Complex.zero_im] at e1 e2
    rcases h with h | h
    · exact h e1
    · exact h e2
  have norm_eq : ∀ s t : ℝ, ‖(⟨s, t⟩ : ℂ)‖ = Real.sqrt (s * s + t * t) := by
    intro s t
    rw [← Complex.normSq_mk, Complex.norm_def]
  have hc : Real.cos (atan2 y x) = x * (1 / Real.sqrt (x * x + y * y)) := by
    unfold atan2
    rw [Complex.cos_arg hne, norm_eq]
    ring
  have hsn : Real.sin (atan2 y x) = y * (1 / Real.sqrt (x * x + y * y)) := by
    unfold atan2
    rw [Complex.sin_arg, norm_eq]
    ring
  unfold cartToTorus
  rw [fdiv_ne hs]
  simp only [Option.bind_some]
  refine ⟨_, _, _, rfl, Real.sqrt_nonneg _, Complex.arg_mem_Ioc _, Complex.arg_mem_Ioc _, ?_⟩
  unfold torusToCart
  simp only
  rw [hc, hsn]
  obtain ⟨s, hsdef⟩ : ∃ s, s = Real.sqrt (x * x + y * y) := ⟨_, rfl⟩
  rw [← hsdef] at hs ⊢
  have hss : s * s = x * x + y * y := by rw [hsdef]; exact Real.mul_self_sqrt hpos.le
  have hxp : (x - R * (x * (1 / s))) * (x * (1 / s)) + (y - R * (y * (1 / s))) * (y * (1 / s)) =
      s - R := by
    field_simp
    linear_combination (R - s) * hss
  have hr : (x - R * (x * (1 / s))) * (x - R * (x * (1 / s))) +
      (y - R * (y * (1 / s))) * (y - R * (y * (1 / s))) + z * z = (s - R) * (s - R) + z * z := by
    field_simp
    linear_combination (-(s - R) ^ 2) * hss
  rw [hxp, hr, ← norm_eq]
  have h1 : ‖(⟨s - R, z⟩ : ℂ)‖ * Real.cos (atan2 z (s - R)) = s - R :=
    Complex.norm_mul_cos_arg ⟨s - R, z⟩
  have h2 : ‖(⟨s - R, z⟩ : ℂ)‖ * Real.sin (atan2 z (s - R)) = z :=
    Complex.norm_mul_sin_arg ⟨s - R, z⟩
  rw [h1, h2]
  refine Prod.ext ?_ (Prod.ext ?_ rfl)
  · simp only
    field_simp
    ring
  · simp only
    field_simp
    ring

/-- **C86** From torus coordinates to Cartesian coordinates and back is the identity for points
off the centre line of the torus on the same side of the axis. -/
theorem C86_torus_inverse (R r phi theta : ℝ) (hr : 0 < r) (hR : 0 < R + r * Real.cos theta)
    (hp : phi ∈ Set.Ioc (-Real.pi) Real.pi) (ht : theta ∈ Set.Ioc (-Real.pi) Real.pi) :
    ∃ x y z, torusToCart R r phi theta = (x, y, z) ∧ cartToTorus R x y z = some (r, phi, theta) := by
  refine ⟨_, _, _, rfl, ?_⟩
  obtain ⟨s, hs⟩ : ∃ s, s = R + r * Real.cos theta := ⟨_, rfl⟩
  have hx : R * Real.cos phi + r * Real.cos theta * Real.cos phi = s * Real.cos phi := by
    rw [hs]; ring
  have hy : R * Real.sin phi + r * Real.cos theta * Real.sin phi = s * Real.sin phi := by
    rw [hs]; ring
  rw [hx, hy]
  rw [← hs] at hR
  have harg : ∀ t a : ℝ, 0 < t → a ∈ Set.Ioc (-Real.pi) Real.pi →
      atan2 (t * Real.sin a) (t * Real.cos a) = a := by
    intro t a h0 ha
    unfold atan2
    have := Complex.arg_mul_cos_add_sin_mul_I h0 ha
    refine Eq.trans ?_ this
    congr 1
    apply Complex.ext <;> simp [Complex.cos_ofReal_re, Complex.sin_ofReal_re]
  have hcs : ∀ a : ℝ, Real.cos a * Real.cos a + Real.sin a * Real.sin a = 1 := by
    intro a
    have := Real.sin_sq_add_cos_sq a
    linarith [this, sq (Real.sin a), sq (Real.cos a)]
  have hsq : Real.sqrt (s * Real.cos phi * (s * Real.cos phi) +
      s * Real.sin phi * (s * Real.sin phi)) = s := by
    rw [show s * Real.cos phi * (s * Real.cos phi) + s * Real.sin phi * (s * Real.sin phi) =
      s * s * (Real.cos phi * Real.cos phi + Real.sin phi * Real.sin phi) by ring, hcs, mul_one]
    exact Real.sqrt_mul_self hR.le
  unfold cartToTorus
  rw [hsq, fdiv_ne hR.ne']
  simp only [Option.bind_some]
  have e1 : s * Real.cos phi * (1 / s) = Real.cos phi := by field_simp
  have e2 : s * Real.sin phi * (1 / s) = Real.sin phi := by field_simp
  rw [e1, e2, harg s phi hR hp]
  have hxp : (s * Real.cos phi - R * Real.cos phi) * Real.cos phi +
      (s * Real.sin phi - R * Real.sin phi) * Real.sin phi = r * Real.cos theta := by
    rw [hs]
    linear_combination (r * Real.cos theta) * hcs phi
  rw [hxp, harg r theta hr ht]
  have hrr : (s * Real.cos phi - R * Real.cos phi) * (s * Real.cos phi - R * Real.cos phi) +
      (s * Real.sin phi - R * Real.sin phi) * (s * Real.sin phi - R * Real.sin phi) +
      r * Real.sin theta * (r * Real.sin theta) = r * r := by
    rw [hs]
    linear_combination (r * Real.cos theta) ^ 2 * hcs phi + r * r * hcs theta
  rw [hrr, Real.sqrt_mul_self hr.le]

/-- **C86** On the axis there are no torus coordinates. -/
theorem C86_torus_axis (R z : ℝ) : cartToTorus R 0 0 z = none := by
  simp [cartToTorus, fdiv]

/-! ## Examples -/

namespace Ex

example := C86_triangle (0, 0) (2, 0) (0, 3) (1, 1) (by norm_num [turnR])

example := C86_triangle_flat (0, 0) (1, 1) (3, 3) (1, 1) (by norm_num [turnR])

theorem exq_convex : ConvexQuad (0, 0) (2, 0) (3, 3) (1, 2) := by
  left; norm_num [turnR]

theorem exq_steep : Steep (0, 0) (2, 0) (3, 3) (1, 2) := by
  norm_num [Steep]

theorem exq_across (t : ℝ) (h : RefSquare (t, 1 / 2)) :
    (across (0, 0) (2, 0) (3, 3) (1, 2) t).2 ≠ 0 := by
  obtain ⟨h1, h2, -, -⟩ := h
  simp only [across, Prod.snd_add, Prod.smul_snd, Prod.snd_sub, smul_eq_mul] at *
  intro h0
  linarith

example := C86_quad_partial (0, 0) (2, 0) (3, 3) (1, 2) exq_convex (1 / 3, 1 / 2)
  (by norm_num [RefSquare]) (fun _ => exq_across _ (by norm_num [RefSquare])) (fun h => absurd exq_steep h)

-- a cell for which the rows are swapped
example := C86_quad_partial (0, 0) (0, -2) (3, -2) (2, 0) (by left; norm_num [turnR]) (1 / 3, 1 / 2)
  (by norm_num [RefSquare]) (fun h => by norm_num [Steep] at h) (fun _ => by norm_num [across])

example := C86_quad_weights_partial (0, 0) (2, 0) (3, 3) (1, 2) exq_convex (1 / 3, 1 / 2)
  (by norm_num [RefSquare]) (fun _ => exq_across _ (by norm_num [RefSquare])) (fun h => absurd exq_steep h)

example := C86_parallelogram (0, 0) (2, 1) (3, 3) (1, 2) (by norm_num [turnR])
  (by ext <;> norm_num) (-1 / 3, 1) (by norm_num [RefSquare])

example := C86_upright (0, 0) (2, 0) (3, 3) (1, 2) exq_convex exq_steep (by norm_num) (by norm_num)
  (1 / 3, 1 / 2) (by norm_num [RefSquare])

-- the hypotheses of the second part of `C86_quad_sound`
example : ∃ f, bilinear (0, 0) (2, 0) (3, 3) (1, 2) f = (0, 0) := ⟨(-1, -1), by unfold bilinear; ext <;> norm_num⟩

example := C86_torus 3 1 2 (-1) (Or.inl one_ne_zero)

example := C86_torus_inverse 3 1 0 0 one_pos (by norm_num) ⟨by linarith [Real.pi_pos], Real.pi_pos.le⟩
  ⟨by linarith [Real.pi_pos], Real.pi_pos.le⟩

end Ex

end NP
