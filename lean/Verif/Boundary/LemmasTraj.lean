import Verif.Boundary.Spec
import Verif.Common.KernelLemmas
import Mathlib.Tactic.Linarith
import Mathlib.Tactic.Ring
import Mathlib.Tactic.FieldSimp
import Mathlib.Tactic.Positivity
import Mathlib.Tactic.NormNum

/-! The kernels of truncation and reflection. -/

set_option autoImplicit false

namespace NP

open Spec

theorem dotProduct_eq (a b : List ℝ) : dotProduct a b = inner a b := by
  unfold dotProduct inner
  rw [← List.sum_eq_foldl]

theorem inner_comm' (a b : List ℝ) : inner a b = inner b a := by
  unfold inner
  rw [List.zipWith_comm]
  congr 2
  funext x y
  ring

theorem inner_sub {v n t : List ℝ} (a : ℝ) (h1 : v.length = n.length) (h2 : t.length = n.length) :
    inner (List.zipWith (fun x y => x - a * y) v n) t = inner v t - a * inner n t := by
  induction n generalizing v t with
  | nil =>
    obtain rfl := List.length_eq_zero_iff.1 h1
    simp [inner]
  | cons y n ih =>
    cases v with
    | nil => simp at h1
    | cons x v =>
      cases t with
      | nil => simp at h2
      | cons w t =>
        have := ih (v := v) (t := t) (by simpa using h1) (by simpa using h2)
        simp only [inner, List.zipWith_cons_cons, List.sum_cons] at this ⊢
        rw [this]
        ring

theorem inner_neg_left (n v : List ℝ) : inner (n.map fun x => -x) v = - inner n v := by
  induction n generalizing v with
  | nil => simp [inner]
  | cons x n ih =>
    cases v with
    | nil => simp [inner]
    | cons y v =>
      have := ih v
      simp only [inner, List.map_cons, List.zipWith_cons_cons, List.sum_cons] at this ⊢
      rw [this]
      ring

theorem slice_first {α : Type _} {l : List α} {n : Nat} (h : n ≤ l.length) : slice l 0 n = some (l.take n) := by
  rw [slice_eq_some (Nat.zero_le _) h]; simp

theorem stRange_first {α : Type _} {l vs : List α} {n : Nat} (h : n ≤ l.length) (hv : vs.length = n) :
    stRange l 0 vs = some (vs ++ l.drop n) := by
  rw [stRange_eq_some (by omega)]; simp [hv]

/-- What the reflection kernel stores. -/
theorem reflectKernel_eq {ndim : Nat} {V N : List ℝ} (hV : ndim ≤ V.length) (hN : ndim ≤ N.length) :
    reflectKernel ndim V N = some (List.zipWith (fun vx nx => vx - 2 * inner (N.take ndim) (V.take ndim) * nx)
      (V.take ndim) (N.take ndim) ++ V.drop ndim) := by
  unfold reflectKernel
  rw [slice_first hN, Option.bind_some, slice_first hV, Option.bind_some]
  dsimp only
  rw [dotProduct_eq, stRange_first hV (by simp; omega)]

theorem reflectKernel_reflects {v n : List ℝ} (h : v.length = n.length) (hu : inner n n = 1) :
    Reflects v n (List.zipWith (fun vx nx => vx - 2 * inner n v * nx) v n) := by
  set v' := List.zipWith (fun vx nx => vx - 2 * inner n v * nx) v n with hv'
  have hl : v'.length = v.length := by simp [hv', h]
  have key : ∀ t : List ℝ, t.length = n.length → inner v' t = inner v t - 2 * inner n v * inner n t :=
    fun t ht => inner_sub _ h ht
  refine ⟨hl, ?_, ?_, ?_⟩
  · rw [key v' (by rw [hl, h]), inner_comm' v v', inner_comm' n v', key v h, key n rfl, hu,
      inner_comm' v n]
    ring
  · rw [key n rfl, hu, inner_comm' v n]; ring
  · intro t ht h0
    rw [key t ht, inner_comm' n t, h0]; ring

/-! ## Truncation -/

theorem zip_fst_snd {a b : List ℝ} (h : a.length = b.length) :
    ∃ z : List (ℝ × ℝ), a = z.map Prod.fst ∧ b = z.map Prod.snd :=
  ⟨a.zip b, (List.map_fst_zip (by omega)).symm, (List.map_snd_zip (by omega)).symm⟩

theorem zipWith_maps {α β γ δ : Type _} (f : β → γ → δ) (g : α → β) (h : α → γ) (z : List α) :
    List.zipWith f (z.map g) (z.map h) = z.map fun x => f (g x) (h x) := by
  induction z with
  | nil => rfl
  | cons x z ih => simp [ih]

theorem sum_sq_nonneg {α : Type _} (z : List α) (g : α → ℝ) : 0 ≤ (z.map fun x => g x ^ 2).sum := by
  apply List.sum_nonneg
  intro x hx
  obtain ⟨y, -, rfl⟩ := List.mem_map.1 hx
  positivity

theorem sum_mul_left' {α : Type _} (z : List α) (g : α → ℝ) (a : ℝ) :
    (z.map fun x => a * g x).sum = a * (z.map g).sum := by
  induction z with
  | nil => simp
  | cons x z ih => simp only [List.map_cons, List.sum_cons, ih]; ring

theorem sum_zero_of {α : Type _} (z : List α) (g : α → ℝ) (h : ∀ x ∈ z, g x = 0) : (z.map g).sum = 0 := by
  induction z with
  | nil => rfl
  | cons x z ih =>
    rw [List.map_cons, List.sum_cons, h x (by simp), ih (fun y hy => h y (by simp [hy]))]
    ring

theorem dist_maps {α : Type _} (z : List α) (g h : α → ℝ) :
    pointDist (z.map g) (z.map h) = Real.sqrt (z.map fun x => (g x - h x) ^ 2).sum := by
  unfold pointDist
  rw [zipWith_maps]

theorem sqrt_dot {a b : List ℝ} (h : a.length = b.length) :
    Real.sqrt (dotProduct (List.zipWith (· - ·) a b) (List.zipWith (· - ·) a b)) = pointDist a b := by
  obtain ⟨z, rfl, rfl⟩ := zip_fst_snd h
  rw [dotProduct_eq]
  unfold inner pointDist
  rw [zipWith_maps, zipWith_maps, zipWith_maps]
  congr 2
  apply List.map_congr_left
  intro x _
  ring

/-- The computation of the new position on vectors of `ndim` components. -/
theorem newPosition {reset : ℝ} (hr : 0 ≤ reset) {pp ip : List ℝ} (h : pp.length = ip.length)
    (hw : reset = 0 → 0 < pointDist pp ip) :
    ∃ oInorm, (if (decide (pointDist pp ip < reset * 0.1) : Bool) then some reset else divReal reset (pointDist pp ip)) =
        some oInorm ∧
      ∀ o np q : List ℝ, o = (List.zipWith (· - ·) pp ip).map (fun x => x * oInorm) →
        np = (if (decide (pointDist pp ip < reset * 0.1) : Bool) then pp else List.zipWith (· + ·) ip o) →
        q = (if ((List.zipWith (fun d x => decide (d * x < 0)) (List.zipWith (· - ·) pp np) o).any id) then pp
          else np) →
        q.length = pp.length ∧ (∃ t, 0 ≤ t ∧ t ≤ 1 ∧ q = along pp ip t) ∧
          pointDist q ip = min reset (pointDist pp ip) := by
  have hzero : pp = along pp ip 0 := by
    obtain ⟨z, rfl, rfl⟩ := zip_fst_snd h
    unfold along
    rw [zipWith_maps]
    apply List.map_congr_left
    intro x _
    ring
  by_cases hs : pointDist pp ip < reset * 0.1
  · refine ⟨reset, by rw [decide_eq_true hs]; rfl, ?_⟩
    rintro o np q rfl rfl rfl
    have hmin : min reset (pointDist pp ip) = pointDist pp ip := min_eq_right (by linarith)
    rw [decide_eq_true hs]
    simp only [if_true, ite_self]
    exact ⟨trivial, ⟨0, le_refl _, zero_le_one, hzero⟩, hmin.symm⟩
  · have hpos : 0 < pointDist pp ip := by
      rcases eq_or_lt_of_le hr with h0 | h0
      · exact hw h0.symm
      · linarith
    refine ⟨reset / pointDist pp ip, ?_, ?_⟩
    · rw [decide_eq_false hs]
      simp [divReal, ne_of_gt hpos]
    · rintro o np q rfl rfl rfl
      rw [decide_eq_false hs]
      simp only [Bool.false_eq_true, if_false]
      set D := pointDist pp ip with hD
      set k := reset / D with hk
      have hk0 : 0 ≤ k := div_nonneg hr hpos.le
      obtain ⟨z, rfl, rfl⟩ := zip_fst_snd h
      rw [dist_maps] at hD
      rw [zipWith_maps, List.map_map, zipWith_maps, zipWith_maps, zipWith_maps]
      simp only [Function.comp_apply, List.any_map]
      by_cases hle : reset ≤ D
      · have hk1 : k ≤ 1 := (div_le_one hpos).2 hle
        have hany : (z.any (id ∘ fun x : ℝ × ℝ =>
            decide ((x.1 - (x.2 + (x.1 - x.2) * k)) * ((x.1 - x.2) * k) < 0))) = false := by
          rw [List.any_eq_false]
          intro x _
          simp only [Function.comp_apply, id, decide_eq_true_eq, not_lt]
          have : (x.1 - (x.2 + (x.1 - x.2) * k)) * ((x.1 - x.2) * k) = (x.1 - x.2) ^ 2 * ((1 - k) * k) := by
            ring
          rw [this]
          exact mul_nonneg (sq_nonneg _) (mul_nonneg (by linarith) hk0)
        rw [hany]
        simp only [Bool.false_eq_true, if_false]
        refine ⟨by simp, ⟨1 - k, by linarith, by linarith, ?_⟩, ?_⟩
        · unfold along
          rw [zipWith_maps]
          apply List.map_congr_left
          intro x _
          ring
        · rw [min_eq_left hle, dist_maps]
          have : (z.map fun x : ℝ × ℝ => (x.2 + (x.1 - x.2) * k - x.2) ^ 2) =
              z.map fun x : ℝ × ℝ => k ^ 2 * (x.1 - x.2) ^ 2 := by
            apply List.map_congr_left
            intro x _
            ring
          rw [this, sum_mul_left' z (fun x : ℝ × ℝ => (x.1 - x.2) ^ 2), Real.sqrt_mul (sq_nonneg k), Real.sqrt_sq hk0, ← hD, hk]
          field_simp
      · have hk1 : 1 < k := (one_lt_div hpos).2 (by linarith)
        have hany : (z.any (id ∘ fun x : ℝ × ℝ =>
            decide ((x.1 - (x.2 + (x.1 - x.2) * k)) * ((x.1 - x.2) * k) < 0))) = true := by
          by_contra hcon
          rw [Bool.not_eq_true, List.any_eq_false] at hcon
          have : (z.map fun x : ℝ × ℝ => (x.1 - x.2) ^ 2).sum = 0 := by
            apply sum_zero_of
            intro x hx
            have h1 := hcon x hx
            simp only [Function.comp_apply, id, decide_eq_true_eq, not_lt] at h1
            have h2 : (x.1 - (x.2 + (x.1 - x.2) * k)) * ((x.1 - x.2) * k) =
                (x.1 - x.2) ^ 2 * ((1 - k) * k) := by ring
            rw [h2] at h1
            have h3 : (1 - k) * k < 0 := mul_neg_of_neg_of_pos (by linarith) (by linarith)
            have h4 := sq_nonneg (x.1 - x.2)
            by_contra hne
            have h5 : 0 < (x.1 - x.2) ^ 2 := lt_of_le_of_ne h4 (Ne.symm hne)
            have := mul_neg_of_pos_of_neg h5 h3
            linarith
          rw [this, Real.sqrt_zero] at hD
          linarith
        rw [hany]
        simp only [if_true]
        refine ⟨trivial, ⟨0, le_refl _, zero_le_one, hzero⟩, ?_⟩
        rw [min_eq_right (by linarith), dist_maps, hD]

theorem dist_nonneg' (a b : List ℝ) : 0 ≤ pointDist a b := Real.sqrt_nonneg _

theorem dist_along {a b : List ℝ} (h : a.length = b.length) {s : ℝ} (hs : 0 ≤ s) :
    pointDist a (along a b s) = s * pointDist b a := by
  obtain ⟨z, rfl, rfl⟩ := zip_fst_snd h
  unfold along
  rw [zipWith_maps, dist_maps, dist_maps]
  have : (z.map fun x : ℝ × ℝ => (x.1 - (x.1 + s * (x.2 - x.1))) ^ 2) =
      z.map fun x : ℝ × ℝ => s ^ 2 * (x.2 - x.1) ^ 2 := by
    apply List.map_congr_left
    intro x _
    ring
  rw [this, sum_mul_left' z (fun x : ℝ × ℝ => (x.2 - x.1) ^ 2), Real.sqrt_mul (sq_nonneg s), Real.sqrt_sq hs]

/-- The truncation kernel. -/
theorem truncKernel_spec {ndim : Nat} {reset : ℝ} (hr : 0 ≤ reset) {P TSP PP IP : List ℝ}
    (hw : reset = 0 → 0 < pointDist (PP.take ndim) (IP.take ndim)) (hP : ndim ≤ P.length) (hPP : ndim ≤ PP.length) (hIP : ndim ≤ IP.length) (hT : 2 ≤ TSP.length) :
    ∃ P' T', truncKernel ndim reset P TSP PP IP = some (P', T') ∧ Truncates ndim reset PP IP P P' ∧
      Retimes ndim PP IP P TSP T' := by
  have lp : (P.take ndim).length = ndim := by simp; omega
  have lpp : (PP.take ndim).length = ndim := by simp; omega
  have lip : (IP.take ndim).length = ndim := by simp; omega
  obtain ⟨oInorm, e1, e2⟩ := newPosition hr (pp := PP.take ndim) (ip := IP.take ndim) (by rw [lpp, lip]) hw
  obtain ⟨q1, q2, q3⟩ := e2 _ _ _ rfl rfl rfl
  set pp := PP.take ndim with hpp
  set ip := IP.take ndim with hip
  set p := P.take ndim with hp
  set q := (if ((List.zipWith (fun d x => decide (d * x < 0)) (List.zipWith (· - ·) pp
    (if (decide (pointDist pp ip < reset * 0.1) : Bool) then pp else List.zipWith (· + ·) ip
      ((List.zipWith (· - ·) pp ip).map (fun x => x * oInorm))))
        ((List.zipWith (· - ·) pp ip).map (fun x => x * oInorm))).any id) then pp
      else (if (decide (pointDist pp ip < reset * 0.1) : Bool) then pp else List.zipWith (· + ·) ip
      ((List.zipWith (· - ·) pp ip).map (fun x => x * oInorm)))) with hq
  have hdt : ∃ t0, (if pointDist p pp > 1e-16 then divReal (pointDist pp ip) (pointDist p pp) else some 1) = some t0 ∧
      0 ≤ t0 ∧ ∀ s, 0 ≤ s → s ≤ 1 → 1e-16 < pointDist p pp → ip = along pp p s → t0 = s := by
    by_cases hf : pointDist p pp > 1e-16
    · have hpos : 0 < pointDist p pp := lt_trans (by norm_num) hf
      refine ⟨pointDist pp ip / pointDist p pp, by rw [if_pos hf]; simp [divReal, ne_of_gt hpos],
        div_nonneg (dist_nonneg' _ _) hpos.le, ?_⟩
      intro s h0 h1 _ he
      rw [he, dist_along (by rw [lpp, lp]) h0]
      field_simp
    · exact ⟨1, by rw [if_neg hf], zero_le_one, fun s _ _ h _ => absurd h hf⟩
  obtain ⟨t0, d1, d2, d3⟩ := hdt
  have hrd : ∀ i, i < TSP.length → ∃ x, TSP[i]? = some x := fun i hi => ⟨_, List.getElem?_eq_getElem hi⟩
  obtain ⟨time, htime⟩ := hrd 0 (by omega)
  obtain ⟨dt, hdt⟩ := hrd 1 (by omega)
  set t2 : ℝ := if (if t0 < 0 then 0 else t0) > 1 then 1 else (if t0 < 0 then 0 else t0) with ht2
  have ht2' : t2 = if t0 > 1 then 1 else t0 := by rw [ht2, if_neg (not_lt.2 d2)]
  refine ⟨q ++ P.drop ndim, (TSP.set 0 (time - dt + dt * t2)).set 1 (dt * t2), ?_, ?_, ?_⟩
  · unfold truncKernel
    rw [slice_first hP, Option.bind_some, slice_first hPP, Option.bind_some, slice_first hIP, Option.bind_some]
    dsimp only
    rw [← hpp, ← hip, ← hp, sqrt_dot (by rw [lpp, lip]), sqrt_dot (by rw [lp, lpp]), e1, Option.bind_some,
      ← hq, stRange_first hP (by rw [q1, lpp]), Option.bind_some, d1, Option.bind_some]
    simp only [rd]
    rw [htime, hdt, Option.bind_some, Option.bind_some, ← ht2, st_eq_some (by omega), Option.bind_some,
      st_eq_some (by rw [List.length_set]; omega), Option.bind_some]
  · have htake : (q ++ P.drop ndim).take ndim = q := by
      rw [List.take_left' (by rw [q1, lpp])]
    refine ⟨⟨?_, ?_⟩, ?_, ?_⟩
    · simp [q1, lpp]; omega
    · intro i hi
      rw [List.getElem?_append_right (by rw [q1, lpp]; exact hi), List.getElem?_drop, q1, lpp]
      congr 1
      omega
    · rw [htake]; exact q2
    · rw [htake]; exact q3
  · refine ⟨⟨by simp, ?_⟩, time, dt, t2, htime, hdt, ?_, ?_, ?_, ?_, ?_⟩
    · intro i hi
      rw [List.getElem?_set_ne (by omega), List.getElem?_set_ne (by omega)]
    · rw [ht2']; split
      · exact zero_le_one
      · exact d2
    · rw [ht2']; split
      · exact le_refl _
      · rename_i h; exact not_lt.1 h
    · rw [List.getElem?_set_ne (by omega), List.getElem?_set_self (by omega)]
      congr 1
      ring
    · rw [List.getElem?_set_self (by rw [List.length_set]; omega)]
    · intro s h0 h1 h2 h3
      rw [ht2', d3 s h0 h1 h2 h3, if_neg (not_lt.2 h1)]

end NP
