import Verif.Mesh.ModelCoord
import Verif.Mesh.SpecCoord
import Mathlib.Tactic.Linarith
import Mathlib.Tactic.FieldSimp
import Mathlib.Tactic.LinearCombination

/-!
# Lemmas: coordinate mappings
-/

set_option autoImplicit false

namespace NP

open Spec

theorem fdiv_ne {a b : ℝ} (h : b ≠ 0) : fdiv a b = some (a / b) := by
  unfold fdiv
  rw [if_neg h]

/-- One component of the bilinear map in terms of its coefficients. -/
noncomputable def bil (a : ℝ × ℝ × ℝ × ℝ) (e : ℝ × ℝ) : ℝ :=
  a.1 + a.2.1 * e.1 + a.2.2.1 * e.2 + a.2.2.2 * e.1 * e.2

/-- The determinant of the derivative. -/
noncomputable def jac (a b : ℝ × ℝ × ℝ × ℝ) (e : ℝ × ℝ) : ℝ :=
  (a.2.1 + a.2.2.2 * e.2) * (b.2.2.1 + b.2.2.2 * e.1) -
    (b.2.1 + b.2.2.2 * e.2) * (a.2.2.1 + a.2.2.2 * e.1)

theorem bil_fst (v0 v1 v2 v3 e : ℝ × ℝ) :
    (bilinear v0 v1 v2 v3 e).1 = bil (quadCoeff v0.1 v1.1 v2.1 v3.1) e := by
  simp only [bilinear, bil, quadCoeff, Prod.fst_add, Prod.smul_fst, smul_eq_mul]
  ring

theorem bil_snd (v0 v1 v2 v3 e : ℝ × ℝ) :
    (bilinear v0 v1 v2 v3 e).2 = bil (quadCoeff v0.2 v1.2 v2.2 v3.2) e := by
  simp only [bilinear, bil, quadCoeff, Prod.snd_add, Prod.smul_snd, smul_eq_mul]
  ring

theorem pos_comb {a b c d : ℝ} {s t : ℝ} (hs0 : -1 ≤ s) (hs1 : s ≤ 1) (ht0 : -1 ≤ t) (ht1 : t ≤ 1)
    (ha : 0 < a) (hb : 0 < b) (hc : 0 < c) (hd : 0 < d) :
    0 < (1 - s) * (1 - t) * a + (1 + s) * (1 - t) * b + (1 + s) * (1 + t) * c +
      (1 - s) * (1 + t) * d := by
  obtain ⟨m, hm, h1, h2, h3, h4⟩ : ∃ m : ℝ, 0 < m ∧ m ≤ a ∧ m ≤ b ∧ m ≤ c ∧ m ≤ d :=
    ⟨min (min a b) (min c d), by positivity, by simp, by simp, by simp, by simp⟩
  have k1 : 0 ≤ (1 - s) * (1 - t) := mul_nonneg (by linarith) (by linarith)
  have k2 : 0 ≤ (1 + s) * (1 - t) := mul_nonneg (by linarith) (by linarith)
  have k3 : 0 ≤ (1 + s) * (1 + t) := mul_nonneg (by linarith) (by linarith)
  have k4 : 0 ≤ (1 - s) * (1 + t) := mul_nonneg (by linarith) (by linarith)
  nlinarith [mul_le_mul_of_nonneg_left h1 k1, mul_le_mul_of_nonneg_left h2 k2,
    mul_le_mul_of_nonneg_left h3 k3, mul_le_mul_of_nonneg_left h4 k4]

theorem jac_ne {v0 v1 v2 v3 : ℝ × ℝ} (hq : ConvexQuad v0 v1 v2 v3) {e : ℝ × ℝ} (he : RefSquare e) :
    jac (quadCoeff v0.1 v1.1 v2.1 v3.1) (quadCoeff v0.2 v1.2 v2.2 v3.2) e ≠ 0 := by
  obtain ⟨h1, h2, h3, h4⟩ := he
  have key : 16 * jac (quadCoeff v0.1 v1.1 v2.1 v3.1) (quadCoeff v0.2 v1.2 v2.2 v3.2) e =
      (1 - e.1) * (1 - e.2) * turnR v3 v0 v1 + (1 + e.1) * (1 - e.2) * turnR v0 v1 v2 +
      (1 + e.1) * (1 + e.2) * turnR v1 v2 v3 + (1 - e.1) * (1 + e.2) * turnR v2 v3 v0 := by
    simp only [jac, quadCoeff, turnR]
    ring
  rcases hq with ⟨a, b, c, d⟩ | ⟨a, b, c, d⟩
  · have := pos_comb h1 h2 h3 h4 d a b c
    intro h
    rw [h] at key
    linarith
  · have := pos_comb h1 h2 h3 h4 (neg_pos.mpr d) (neg_pos.mpr a) (neg_pos.mpr b) (neg_pos.mpr c)
    intro h
    rw [h] at key
    linarith

theorem jac_swap (a b : ℝ × ℝ × ℝ × ℝ) (e : ℝ × ℝ) : jac b a e = - jac a b e := by
  unfold jac
  ring

/-- Two points of the reference square with the same image are the same. -/
theorem bil_inj {a b : ℝ × ℝ × ℝ × ℝ} (hj : ∀ e, RefSquare e → jac a b e ≠ 0) {e f : ℝ × ℝ}
    (he : RefSquare e) (hf : RefSquare f) (h1 : bil a e = bil a f) (h2 : bil b e = bil b f) :
    e = f := by
  obtain ⟨e0, e1⟩ := e
  obtain ⟨f0, f1⟩ := f
  obtain ⟨g1, g2, g3, g4⟩ := he
  obtain ⟨k1, k2, k3, k4⟩ := hf
  simp only at *
  have hm := hj ((e0 + f0) / 2, (e1 + f1) / 2)
    ⟨by simp only; linarith, by simp only; linarith, by simp only; linarith, by simp only; linarith⟩
  simp only [bil] at h1 h2
  simp only [jac] at hm
  have z0 : ((a.2.1 + a.2.2.2 * ((e1 + f1) / 2)) * (b.2.2.1 + b.2.2.2 * ((e0 + f0) / 2)) -
    (b.2.1 + b.2.2.2 * ((e1 + f1) / 2)) * (a.2.2.1 + a.2.2.2 * ((e0 + f0) / 2))) * (e0 - f0) = 0 := by
    linear_combination (b.2.2.1 + b.2.2.2 * ((e0 + f0) / 2)) * h1 -
      (a.2.2.1 + a.2.2.2 * ((e0 + f0) / 2)) * h2
  have z1 : ((a.2.1 + a.2.2.2 * ((e1 + f1) / 2)) * (b.2.2.1 + b.2.2.2 * ((e0 + f0) / 2)) -
    (b.2.1 + b.2.2.2 * ((e1 + f1) / 2)) * (a.2.2.1 + a.2.2.2 * ((e0 + f0) / 2))) * (e1 - f1) = 0 := by
    linear_combination (a.2.1 + a.2.2.2 * ((e1 + f1) / 2)) * h2 -
      (b.2.1 + b.2.2.2 * ((e1 + f1) / 2)) * h1
  have y0 := (mul_eq_zero.mp z0).resolve_left hm
  have y1 := (mul_eq_zero.mp z1).resolve_left hm
  exact Prod.ext (by simp only; linarith) (by simp only; linarith)

/-! ## The roots -/

theorem quadDet_some (A B C : ℝ) : ∃ D, quadDet A B C = some D ∧ 0 ≤ D ∧
    (0 ≤ -4 * A * C + B * B → D * D = -4 * A * C + B * B) := by
  unfold quadDet fsqrt
  simp only
  by_cases hp : -4 * A * C + B * B > 0
  · rw [if_pos hp, if_neg (not_lt.mpr hp.le)]
    exact ⟨_, rfl, Real.sqrt_nonneg _, fun h => Real.mul_self_sqrt h⟩
  · rw [if_neg hp]
    exact ⟨0, rfl, le_refl _, fun h => by linarith [not_lt.mp hp]⟩

/-- A root that is not bad is a number; with a discriminant that is not negative it solves the
equation. -/
theorem rootP_sound (A B C D : ℝ) (hb : (quadRootP A B C D).2 = false) :
    ∃ e, (quadRootP A B C D).1 = some e ∧
      (D * D = -4 * A * C + B * B → A * e ^ 2 + B * e + C = 0) := by
  unfold quadRootP at hb ⊢
  split_ifs at hb ⊢ with hB
  · have hA : 2 * A ≠ 0 := by simpa using hb
    have hA' : A ≠ 0 := fun h => hA (by rw [h, mul_zero])
    refine ⟨_, by rw [fdiv_ne hA]; rfl, fun h2 => ?_⟩
    field_simp
    linear_combination h2
  · have hA : -B + D ≠ 0 := by simpa using hb
    refine ⟨_, fdiv_ne hA, fun h2 => ?_⟩
    field_simp
    linear_combination C * h2

theorem rootM_sound (A B C D : ℝ) (hb : (quadRootM A B C D).2 = false) :
    ∃ e, (quadRootM A B C D).1 = some e ∧
      (D * D = -4 * A * C + B * B → A * e ^ 2 + B * e + C = 0) := by
  unfold quadRootM at hb ⊢
  split_ifs at hb ⊢ with hB
  · have hA : -B - D ≠ 0 := by simpa using hb
    refine ⟨_, fdiv_ne hA, fun h2 => ?_⟩
    field_simp
    linear_combination C * h2
  · have hA : 2 * A ≠ 0 := by simpa using hb
    have hA' : A ≠ 0 := fun h => hA (by rw [h, mul_zero])
    refine ⟨_, by rw [fdiv_ne hA]; rfl, fun h2 => ?_⟩
    field_simp
    linear_combination h2

/-- A simple root is one of the two. -/
theorem root_found {A B C D e : ℝ} (he : A * e ^ 2 + B * e + C = 0) (hs : 2 * A * e + B ≠ 0)
    (hd0 : 0 ≤ D) (hd1 : D * D = -4 * A * C + B * B) :
    quadRootP A B C D = (some e, false) ∨ quadRootM A B C D = (some e, false) := by
  have hin : -4 * A * C + B * B = (2 * A * e + B) * (2 * A * e + B) := by
    linear_combination (-4 * A) * he
  rw [hin] at hd1
  have hdne : D ≠ 0 := by
    intro h
    rw [h, mul_zero] at hd1
    exact hs (mul_self_eq_zero.mp hd1.symm)
  have hdp : 0 < D := lt_of_le_of_ne hd0 (Ne.symm hdne)
  unfold quadRootP quadRootM
  rcases mul_self_eq_mul_self_iff.mp hd1 with hj | hj
  · -- the derivative is positive
    by_cases hB : B ≥ 0
    · right
      have hn : -B - D ≠ 0 := by intro h; linarith
      rw [if_pos hB, fdiv_ne hn]
      refine Prod.ext ?_ (by simpa using hn)
      simp only [Option.some.injEq]
      rw [div_eq_iff hn]
      linear_combination 2 * he + e * hj
    · right
      have hA : 2 * A ≠ 0 := by intro h; rw [h] at hj; linarith
      have hA' : A ≠ 0 := fun h => hA (by rw [h, mul_zero])
      rw [if_neg hB, fdiv_ne hA]
      refine Prod.ext ?_ (by simpa using hA)
      simp only [Option.map_some, Option.some.injEq]
      field_simp
      linear_combination hj
  · by_cases hB : B ≥ 0
    · left
      have hA : 2 * A ≠ 0 := by intro h; rw [h] at hj; linarith
      have hA' : A ≠ 0 := fun h => hA (by rw [h, mul_zero])
      rw [if_pos hB, fdiv_ne hA]
      refine Prod.ext ?_ (by simpa using hA)
      simp only [Option.map_some, Option.some.injEq]
      field_simp
      linear_combination -hj
    · left
      have hn : -B + D ≠ 0 := by intro h; linarith
      rw [if_neg hB, fdiv_ne hn]
      refine Prod.ext ?_ (by simpa using hn)
      simp only [Option.some.injEq]
      rw [div_eq_iff hn]
      linear_combination 2 * he - e * hj

/-! ## Pairs -/

/-- What a root must satisfy for the pair to be well defined. -/
theorem pair_some (b : ℝ × ℝ × ℝ × ℝ) (y : ℝ) (root : Option ℝ × Bool)
    (hr : root.2 = false → ∃ e, root.1 = some e) :
    ∃ p, quadPair b y root = some p ∧ (|p.1| ≤ 1 → |p.2| ≤ 1 → ∃ e, root = (some e, false) ∧
      p.1 = e ∧ b.2.2.2 * e + b.2.2.1 ≠ 0 ∧ bil b p = y) := by
  obtain ⟨b0, b1, b2, b3⟩ := b
  obtain ⟨r, bad⟩ := root
  unfold quadPair
  simp only
  cases bad with
  | true => exact ⟨(1000, 1000), by simp, fun h _ => by norm_num at h⟩
  | false =>
    obtain ⟨e, he⟩ := hr rfl
    simp only at he
    subst he
    by_cases hd : b3 * e + b2 = 0
    · exact ⟨(e, 1000), by simp [hd], fun _ h => by norm_num at h⟩
    · refine ⟨(e, (-b1 * e + (y - b0)) / (b3 * e + b2)), by simp [hd, fdiv_ne hd], fun _ _ =>
        ⟨e, rfl, rfl, hd, ?_⟩⟩
      have hq : (-b1 * e + (y - b0)) / (b3 * e + b2) * (b3 * e + b2) = -b1 * e + (y - b0) :=
        div_mul_cancel₀ _ hd
      simp only [bil]
      linear_combination hq

theorem pair_of_sol {b : ℝ × ℝ × ℝ × ℝ} {e : ℝ × ℝ} (hd : b.2.2.2 * e.1 + b.2.2.1 ≠ 0) :
    quadPair b (bil b e) (some e.1, false) = some e := by
  obtain ⟨b0, b1, b2, b3⟩ := b
  obtain ⟨e0, e1⟩ := e
  simp only at hd
  unfold quadPair
  simp only [Option.map_some, Option.some.injEq, hd, decide_false, Bool.or_false,
    Bool.false_eq_true, if_false, Option.bind_some, fdiv_ne hd, Prod.mk.injEq, true_and]
  rw [div_eq_iff hd]
  simp only [bil]
  ring

theorem sol_of_root {a b : ℝ × ℝ × ℝ × ℝ} {x y : ℝ} {p : ℝ × ℝ}
    (hr : (quadABC a b x y).1 * p.1 ^ 2 + (quadABC a b x y).2.1 * p.1 + (quadABC a b x y).2.2 = 0)
    (hd : b.2.2.2 * p.1 + b.2.2.1 ≠ 0) (hy : bil b p = y) : bil a p = x := by
  obtain ⟨a0, a1, a2, a3⟩ := a
  obtain ⟨b0, b1, b2, b3⟩ := b
  obtain ⟨e0, e1⟩ := p
  simp only [quadABC, bil] at *
  have : (b3 * e0 + b2) * ((a0 + a1 * e0 + a2 * e1 + a3 * e0 * e1) - x) = 0 := by
    linear_combination hr + (a2 + a3 * e0) * hy
  have := (mul_eq_zero.mp this).resolve_left hd
  linarith

theorem root_of_sol {a b : ℝ × ℝ × ℝ × ℝ} {x y : ℝ} {p : ℝ × ℝ} (hx : bil a p = x)
    (hy : bil b p = y) :
    (quadABC a b x y).1 * p.1 ^ 2 + (quadABC a b x y).2.1 * p.1 + (quadABC a b x y).2.2 = 0 ∧
    2 * (quadABC a b x y).1 * p.1 + (quadABC a b x y).2.1 = jac a b p := by
  obtain ⟨a0, a1, a2, a3⟩ := a
  obtain ⟨b0, b1, b2, b3⟩ := b
  obtain ⟨e0, e1⟩ := p
  simp only [quadABC, bil, jac] at *
  subst hx hy
  constructor <;> ring

theorem select_cases (p m : ℝ × ℝ) :
    (|p.1| ≤ 1 ∧ |p.2| ≤ 1 → quadSelect p m = p) ∧
    (¬ (|p.1| ≤ 1 ∧ |p.2| ≤ 1) → |m.1| ≤ 1 ∧ |m.2| ≤ 1 → quadSelect p m = m) ∧
    (quadSelect p m = p ∨ quadSelect p m = m) := by
  unfold quadSelect
  simp only [tsub_le_iff_right, zero_add, Bool.or_eq_true, Bool.and_eq_true, decide_eq_true_eq]
  refine ⟨fun h => ?_, fun h k => ?_, ?_⟩
  · rw [if_pos (Or.inl h), if_pos h]
  · rw [if_pos (Or.inr k), if_neg h]
  · split_ifs <;> simp

theorem abs_iff {t : ℝ} : |t| ≤ 1 ↔ -1 ≤ t ∧ t ≤ 1 := abs_le

theorem ref_iff {p : ℝ × ℝ} : RefSquare p ↔ |p.1| ≤ 1 ∧ |p.2| ≤ 1 := by
  rw [abs_le, abs_le]
  unfold RefSquare
  constructor
  · rintro ⟨a, b, c, d⟩; exact ⟨⟨a, b⟩, c, d⟩
  · rintro ⟨⟨a, b⟩, c, d⟩; exact ⟨a, b, c, d⟩

/-- The result is a pair of numbers; if the discriminant is not negative and the result is in the
reference square then it solves the equations. -/
theorem solve_sound (a b : ℝ × ℝ × ℝ × ℝ) (x y : ℝ) {A B C : ℝ} (hABC : quadABC a b x y = (A, B, C)) :
    ∃ D p m, 0 ≤ D ∧ (0 ≤ -4 * A * C + B * B → D * D = -4 * A * C + B * B) ∧
      quadPair b y (quadRootP A B C D) = some p ∧ quadPair b y (quadRootM A B C D) = some m ∧
      quadSolve a b x y = some (quadSelect p m) ∧
      (0 ≤ -4 * A * C + B * B →
        ∀ q, q = p ∨ q = m → RefSquare q → bil a q = x ∧ bil b q = y) := by
  obtain ⟨D, hD, hD0, hD1⟩ := quadDet_some A B C
  obtain ⟨p, hp, hp'⟩ := pair_some b y (quadRootP A B C D)
    (fun h => (rootP_sound _ _ _ _ h).imp fun _ h => h.1)
  obtain ⟨m, hm, hm'⟩ := pair_some b y (quadRootM A B C D)
    (fun h => (rootM_sound _ _ _ _ h).imp fun _ h => h.1)
  refine ⟨D, p, m, hD0, hD1, hp, hm, ?_, ?_⟩
  · unfold quadSolve
    rw [hABC]
    simp only [hD, hp, hm, Option.bind_some]
  · rintro hd q hq hr
    rw [ref_iff] at hr
    have hABC1 : (quadABC a b x y).1 = A := by rw [hABC]
    have hABC2 : (quadABC a b x y).2.1 = B := by rw [hABC]
    have hABC3 : (quadABC a b x y).2.2 = C := by rw [hABC]
    rcases hq with rfl | rfl
    · obtain ⟨e, h1, h2, h3, h4⟩ := hp' hr.1 hr.2
      obtain ⟨e', k1, k2⟩ := rootP_sound A B C D (by rw [h1])
      rw [h1] at k1
      obtain rfl := Option.some.inj k1
      rw [← h2] at h3 k2
      exact ⟨sol_of_root (by rw [hABC1, hABC2, hABC3]; exact k2 (hD1 hd)) h3 h4, h4⟩
    · obtain ⟨e, h1, h2, h3, h4⟩ := hm' hr.1 hr.2
      obtain ⟨e', k1, k2⟩ := rootM_sound A B C D (by rw [h1])
      rw [h1] at k1
      obtain rfl := Option.some.inj k1
      rw [← h2] at h3 k2
      exact ⟨sol_of_root (by rw [hABC1, hABC2, hABC3]; exact k2 (hD1 hd)) h3 h4, h4⟩

theorem solve_spec {a b : ℝ × ℝ × ℝ × ℝ} (hj : ∀ e, RefSquare e → jac a b e ≠ 0) {e : ℝ × ℝ}
    (he : RefSquare e) (hd : b.2.2.2 * e.1 + b.2.2.1 ≠ 0) :
    quadSolve a b (bil a e) (bil b e) = some e := by
  obtain ⟨A, B, C, hABC⟩ : ∃ A B C, quadABC a b (bil a e) (bil b e) = (A, B, C) := ⟨_, _, _, rfl⟩
  obtain ⟨D, p, m, hD0, hD1, hp, hm, hs, hsound⟩ := solve_sound a b (bil a e) (bil b e) hABC
  obtain ⟨r1, r2⟩ := root_of_sol (a := a) (b := b) (p := e) rfl rfl
  have hne := hj e he
  rw [← r2] at hne
  rw [hABC] at r1 hne
  simp only at r1 hne
  have hdisc : 0 ≤ -4 * A * C + B * B := by
    have : -4 * A * C + B * B = (2 * A * e.1 + B) ^ 2 := by
      linear_combination (-4 * A) * r1
    rw [this]
    exact sq_nonneg _
  have uniq : ∀ q, q = p ∨ q = m → RefSquare q → q = e := by
    intro q hq hr
    obtain ⟨k1, k2⟩ := hsound hdisc q hq hr
    exact bil_inj hj hr he k1 k2
  obtain ⟨s1, s2, -⟩ := select_cases p m
  rw [hs]
  by_cases hpc : |p.1| ≤ 1 ∧ |p.2| ≤ 1
  · rw [s1 hpc, uniq p (Or.inl rfl) (ref_iff.mpr hpc)]
  · have hme : m = e := by
      rcases root_found r1 hne hD0 (hD1 hdisc) with h | h
      · rw [h, pair_of_sol hd] at hp
        obtain rfl := Option.some.inj hp
        exact absurd (ref_iff.mp he) hpc
      · rw [h, pair_of_sol hd] at hm
        exact (Option.some.inj hm).symm
    rw [s2 hpc (by rw [hme]; exact ref_iff.mp he), hme]

theorem abs_add_abs_max (s t : ℝ) : |s| + |t| = max |s - t| |s + t| := by
  rcases le_total 0 s with hs | hs <;> rcases le_total 0 t with ht | ht
  · rw [abs_of_nonneg hs, abs_of_nonneg ht, abs_of_nonneg (add_nonneg hs ht),
      max_eq_right (abs_le.mpr ⟨by linarith, by linarith⟩)]
  · rw [abs_of_nonneg hs, abs_of_nonpos ht, abs_of_nonneg (show 0 ≤ s - t by linarith),
      max_eq_left (abs_le.mpr ⟨by linarith, by linarith⟩)]
    ring
  · rw [abs_of_nonpos hs, abs_of_nonneg ht, abs_of_nonpos (show s - t ≤ 0 by linarith),
      max_eq_left (abs_le.mpr ⟨by linarith, by linarith⟩)]
    ring
  · rw [abs_of_nonpos hs, abs_of_nonpos ht, abs_of_nonpos (show s + t ≤ 0 by linarith),
      max_eq_right (abs_le.mpr ⟨by linarith, by linarith⟩)]
    ring

theorem row_size (w0 w1 w2 w3 : ℝ) :
    |(quadCoeff w0 w1 w2 w3).2.2.1| + |(quadCoeff w0 w1 w2 w3).2.2.2| =
      1 / 2 * max |w3 - w0| |w2 - w1| := by
  rw [abs_add_abs_max, mul_max_of_nonneg _ _ (by norm_num : (0 : ℝ) ≤ 1 / 2)]
  simp only [quadCoeff]
  rw [show (1 / 4 * (-w0 - w1 + w2 + w3) - 1 / 4 * (w0 - w1 + w2 - w3) : ℝ) = 1 / 2 * (w3 - w0) by ring,
    show (1 / 4 * (-w0 - w1 + w2 + w3) + 1 / 4 * (w0 - w1 + w2 - w3) : ℝ) = 1 / 2 * (w2 - w1) by ring,
    abs_mul, abs_mul, abs_of_nonneg (by norm_num : (0 : ℝ) ≤ 1 / 2)]

theorem swap_iff (v0 v1 v2 v3 : ℝ × ℝ) :
    quadSwap (quadCoeff v0.1 v1.1 v2.1 v3.1) (quadCoeff v0.2 v1.2 v2.2 v3.2) = true ↔
      ¬ Steep v0 v1 v2 v3 := by
  unfold quadSwap Steep
  rw [row_size, row_size, decide_eq_true_eq, not_le]
  constructor <;> intro h <;> linarith

end NP
