import Verif.Boundary.LemmasRows
import Verif.Boundary.LemmasTraj
import Verif.Sub.Props

/-!
# Truncation and reflection of trajectories at a boundary

Model: Boundary/Model.lean. Specification: Boundary/Spec.lean. Exact real arithmetic.
-/

set_option autoImplicit false

namespace NP

open Spec

theorem rowLayer_row {P : LoopParams} {npart : List Nat} {par : Parent} (h : RowLoopOk P npart par)
    {ρ : Type _} {rows : List (List ρ)} (hs : Shape npart rows) {c l k : Nat}
    (hl : LoopLayer npart par c l k) : ∃ r, rowAt rows c l = some r := by
  obtain ⟨vis, v1, v2, v3, v4, v5, v6, v7⟩ := rowVisits_spec h
  obtain ⟨n, h1, h2⟩ := v6 c l ((exists_loopLayer h c l).2 ⟨k, hl⟩)
  obtain ⟨cell, h3, h4⟩ := shape_row hs h1
  exact ⟨cell[l], by unfold rowAt; rw [h3]; exact List.getElem?_eq_getElem (by omega)⟩

theorem truncExecute_eq {P : LoopParams} {order : Sched} {npart : List Nat} {par : Parent}
    {e : EphemeralComps} {ndim : Nat} {reset : ℝ} {ip : Nat → Nat → List ℝ} {rows : List (List TrajRow)}
    (h1 : 0 < ndim) (h2 : ndim < 4) (he : e = ⟨some ndim, some ndim, some 2⟩) :
    truncExecute P order npart par e ndim reset ip rows =
      rowLoop P order npart par (truncRow ndim reset ip) rows := by
  unfold truncExecute
  rw [if_pos ⟨h1, h2⟩, if_pos (by rw [he]; simp [containsBoundaryData])]
  by_cases e1 : ndim = 1
  · rw [if_pos e1, e1]
  · by_cases e2 : ndim = 2
    · rw [if_neg e1, if_pos e2, e2]
    · have e3 : ndim = 3 := by omega
      rw [if_neg e1, if_neg e2, e3]

theorem reflectExecute_eq {P : LoopParams} {order : Sched} {npart : List Nat} {par : Parent}
    {e : EphemeralComps} {ndim : Nat} {reset : ℝ} {ip normal : Nat → Nat → List ℝ}
    {rows : List (List TrajRow)}
    (h1 : 0 < ndim) (h2 : ndim < 4) (he : e = ⟨some ndim, some ndim, some 2⟩) :
    reflectExecute P order npart par e ndim reset ip normal rows =
      rowLoop P order npart par (reflectRow ndim reset ip normal) rows := by
  unfold reflectExecute
  rw [if_pos ⟨h1, h2⟩, if_pos (by rw [he]; simp [containsBoundaryData])]
  by_cases e1 : ndim = 1
  · rw [if_pos e1, e1]
  · by_cases e2 : ndim = 2
    · rw [if_neg e1, if_pos e2, e2]
    · have e3 : ndim = 3 := by omega
      rw [if_neg e1, if_neg e2, e3]

/-- Truncation, for every order of the kernel calls: each particle of the sub group is put on the
segment between its previous position and its intersection point, at the reset distance from the
wall (or at the previous position if that is nearer), its last time increment is scaled by a factor
in [0, 1] (the part of the step before the wall) and its time is corrected by the same amount. All
else is unchanged.

Missing from the full property: a reset distance of zero with a particle that starts exactly at its
intersection point, see `C62_zero_reset_fails`. -/
theorem C62_truncate_partial {P : LoopParams} {npart : List Nat} {par : Parent}
    (h : RowLoopOk P npart par) (order : Sched) {ndim : Nat} (h1 : 0 < ndim) (h2 : ndim < 4)
    {e : EphemeralComps} (he : e = ⟨some ndim, some ndim, some 2⟩) {reset : ℝ} (hr : 0 ≤ reset)
    {rows : List (List TrajRow)} (hs : Shape npart rows) {ip : Nat → Nat → List ℝ}
    (hok : ∀ c l k r, LoopLayer npart par c l k → rowAt rows c l = some r →
      RowOk ndim r ∧ (ip c k).length = ndim ∧ (reset = 0 → 0 < pointDist (r.prev.take ndim) (ip c k))) :
    ∃ rows', truncExecute P order npart par e ndim reset ip rows = some rows' ∧ Shape npart rows' ∧
      (∀ c l k r, LoopLayer npart par c l k → rowAt rows c l = some r → ∃ r',
        rowAt rows' c l = some r' ∧ Truncates ndim reset r.prev (ip c k) r.pos r'.pos ∧
        Retimes ndim r.prev (ip c k) r.pos r.tsp r'.tsp ∧ r'.vel = r.vel ∧ r'.prev = r.prev) ∧
      (∀ c l, ¬ InParent npart par c l → rowAt rows' c l = rowAt rows c l) := by
  have hkernel : ∀ c l k r, LoopLayer npart par c l k → rowAt rows c l = some r →
      ∃ P' T', truncKernel ndim reset r.pos r.tsp r.prev (ip c k) = some (P', T') ∧
        Truncates ndim reset r.prev (ip c k) r.pos P' ∧ Retimes ndim r.prev (ip c k) r.pos r.tsp T' := by
    intro c l k r hl hrow
    obtain ⟨a1, a2, a3⟩ := hok c l k r hl hrow
    exact truncKernel_spec hr
      (fun h0 => by rw [List.take_of_length_le (l := ip c k) (by omega)]; exact a3 h0)
      a1.pos a1.prev (by omega) a1.tsp
  obtain ⟨rows', b1, b2, b3, b4⟩ := rowLoop_spec h order hs (kernel := truncRow ndim reset ip)
    (fun c k l r hl hrow => by
      obtain ⟨P', T', e1, -⟩ := hkernel c l k r hl hrow
      exact ⟨_, by unfold truncRow; rw [e1]; rfl⟩)
  refine ⟨rows', by rw [truncExecute_eq h1 h2 he]; exact b1, b2, ?_, b4⟩
  intro c l k r hl hrow
  obtain ⟨r', d1, d2⟩ := b3 c l k r hl hrow
  obtain ⟨P', T', e1, e2, e3⟩ := hkernel c l k r hl hrow
  unfold truncRow at d2
  rw [e1] at d2
  obtain rfl := Option.some.inj d2
  exact ⟨_, d1, e2, e3, rfl, rfl⟩

/-- Reflection, for every order of the kernel calls: the velocity of each particle of the sub group
is reflected at its own unit normal; the position and times are treated as in truncation. All else
is unchanged. -/
theorem C61_reflect {P : LoopParams} {npart : List Nat} {par : Parent}
    (h : RowLoopOk P npart par) (order : Sched) {ndim : Nat} (h1 : 0 < ndim) (h2 : ndim < 4)
    {e : EphemeralComps} (he : e = ⟨some ndim, some ndim, some 2⟩) {reset : ℝ} (hr : 0 ≤ reset)
    {rows : List (List TrajRow)} (hs : Shape npart rows) {ip normal : Nat → Nat → List ℝ}
    (hok : ∀ c l k r, LoopLayer npart par c l k → rowAt rows c l = some r →
      RowOk ndim r ∧ (ip c k).length = ndim ∧ (reset = 0 → 0 < pointDist (r.prev.take ndim) (ip c k)))
    (hn : ∀ c l k, LoopLayer npart par c l k →
      (normal c k).length = ndim ∧ inner (normal c k) (normal c k) = 1) :
    ∃ rows', reflectExecute P order npart par e ndim reset ip normal rows = some rows' ∧
      Shape npart rows' ∧
      (∀ c l k r, LoopLayer npart par c l k → rowAt rows c l = some r → ∃ r',
        rowAt rows' c l = some r' ∧ Reflects (r.vel.take ndim) (normal c k) (r'.vel.take ndim) ∧
        FirstOnly ndim r.vel r'.vel ∧ Truncates ndim reset r.prev (ip c k) r.pos r'.pos ∧
        Retimes ndim r.prev (ip c k) r.pos r.tsp r'.tsp ∧ r'.prev = r.prev) ∧
      (∀ c l, ¬ InParent npart par c l → rowAt rows' c l = rowAt rows c l) := by
  have hkernel : ∀ c l k r, LoopLayer npart par c l k → rowAt rows c l = some r →
      ∃ P' T', truncKernel ndim reset r.pos r.tsp r.prev (ip c k) = some (P', T') ∧
        Truncates ndim reset r.prev (ip c k) r.pos P' ∧ Retimes ndim r.prev (ip c k) r.pos r.tsp T' := by
    intro c l k r hl hrow
    obtain ⟨a1, a2, a3⟩ := hok c l k r hl hrow
    exact truncKernel_spec hr
      (fun h0 => by rw [List.take_of_length_le (l := ip c k) (by omega)]; exact a3 h0)
      a1.pos a1.prev (by omega) a1.tsp
  have hrefl : ∀ c l k r, LoopLayer npart par c l k → rowAt rows c l = some r →
      ∃ V', reflectKernel ndim r.vel (normal c k) = some V' ∧
        Reflects (r.vel.take ndim) (normal c k) (V'.take ndim) ∧ FirstOnly ndim r.vel V' := by
    intro c l k r hl hrow
    obtain ⟨n1, n2⟩ := hn c l k hl
    have hv := (hok c l k r hl hrow).1.vel
    have lv : (r.vel.take ndim).length = ndim := by simp; omega
    refine ⟨_, reflectKernel_eq hv (by omega), ?_, ?_⟩
    · rw [List.take_of_length_le (l := normal c k) (by omega)]
      rw [List.take_left' (by simp; omega)]
      exact reflectKernel_reflects (by rw [lv, n1]) n2
    · refine ⟨by simp; omega, fun i hi => ?_⟩
      rw [List.getElem?_append_right (by simp; omega), List.getElem?_drop]
      congr 1
      simp; omega
  obtain ⟨rows', b1, b2, b3, b4⟩ := rowLoop_spec h order hs (kernel := reflectRow ndim reset ip normal)
    (fun c k l r hl hrow => by
      obtain ⟨P', T', e1, -⟩ := hkernel c l k r hl hrow
      obtain ⟨V', e2, -⟩ := hrefl c l k r hl hrow
      exact ⟨_, by unfold reflectRow; rw [e1, Option.bind_some, e2]; rfl⟩)
  refine ⟨rows', by rw [reflectExecute_eq h1 h2 he]; exact b1, b2, ?_, b4⟩
  intro c l k r hl hrow
  obtain ⟨r', d1, d2⟩ := b3 c l k r hl hrow
  obtain ⟨P', T', e1, e2, e3⟩ := hkernel c l k r hl hrow
  obtain ⟨V', f1, f2, f3⟩ := hrefl c l k r hl hrow
  unfold reflectRow at d2
  rw [e1, Option.bind_some, f1] at d2
  obtain rfl := Option.some.inj d2
  exact ⟨_, d1, f2, f3, e2, e3, rfl⟩

/-- The reflected velocity is determined by the conditions in `Reflects`. -/
theorem C61_unique {v n v1 v2 : List ℝ} (h : v.length = n.length) (hu : inner n n = 1)
    (h1 : Reflects v n v1) (h2 : Reflects v n v2) : v1 = v2 := by
  have l1 : v1.length = n.length := by rw [h1.length, h]
  have l2 : v2.length = n.length := by rw [h2.length, h]
  -- both agree with the formula in every direction
  have hany : ∀ v' : List ℝ, Reflects v n v' → v'.length = n.length → ∀ t : List ℝ, t.length = n.length →
      inner v' t = inner v t - 2 * inner v n * inner n t := by
    intro v' hv' lv t ht
    have key := hv'.tangential (List.zipWith (fun x y => x - inner t n * y) t n) (by simp [ht])
      (by rw [inner_sub _ ht rfl, hu]; ring)
    rw [inner_comm' v', inner_sub _ ht lv, inner_comm' v, inner_sub _ ht h, inner_comm' n v', hv'.normal,
      inner_comm' n v, inner_comm' t v', inner_comm' t v] at key
    rw [inner_comm' n t]
    linarith
  have hw : (List.zipWith (fun x y => x - 1 * y) v1 v2).length = n.length := by simp [l1, l2]
  have h0 : inner (List.zipWith (fun x y => x - 1 * y) v1 v2)
      (List.zipWith (fun x y => x - 1 * y) v1 v2) = 0 := by
    rw [inner_sub 1 (by rw [l1, l2]) (by rw [hw, l2]), hany v1 h1 l1 _ hw, hany v2 h2 l2 _ hw]
    ring
  obtain ⟨z, rfl, rfl⟩ := zip_fst_snd (a := v1) (b := v2) (by rw [l1, l2])
  unfold inner at h0
  rw [zipWith_maps, zipWith_maps] at h0
  clear hw l1 l2 h1 h2
  induction z with
  | nil => rfl
  | cons x z ih =>
    simp only [List.map_cons, List.sum_cons] at h0 ⊢
    have hz : 0 ≤ (z.map fun x : ℝ × ℝ => (x.1 - 1 * x.2) * (x.1 - 1 * x.2)).sum := by
      have := sum_sq_nonneg z fun x : ℝ × ℝ => x.1 - 1 * x.2
      simpa [pow_two] using this
    have hx : 0 ≤ (x.1 - 1 * x.2) * (x.1 - 1 * x.2) := mul_self_nonneg _
    have hx0 : (x.1 - 1 * x.2) * (x.1 - 1 * x.2) = 0 := by linarith
    rw [ih (by linarith)]
    have := mul_self_eq_zero.1 hx0
    rw [show x.1 = x.2 by linarith]

/-- The direction of the normal does not matter. -/
theorem C61_sign (ndim : Nat) (V N : List ℝ) :
    reflectKernel ndim V (N.map fun x => -x) = reflectKernel ndim V N := by
  by_cases hN : ndim ≤ N.length
  · by_cases hV : ndim ≤ V.length
    · rw [reflectKernel_eq hV hN, reflectKernel_eq hV (by simpa using hN), ← List.map_take, inner_neg_left,
        List.zipWith_map_right]
      congr 3
      funext x y
      ring
    · unfold reflectKernel
      have : slice V 0 ndim = none := by simp [slice, hV]
      rw [this]
      simp
  · unfold reflectKernel
    have h1 : slice N 0 ndim = none := by simp [slice, hN]
    have h2 : slice (N.map fun x => -x) 0 ndim = none := by simp [slice, hN]
    rw [h1, h2]

/-- Reflecting twice at the same unit normal gives the velocity back. -/
theorem C61_involution {ndim : Nat} {V N : List ℝ} (hV : ndim ≤ V.length) (hN : ndim ≤ N.length)
    (hu : inner (N.take ndim) (N.take ndim) = 1) :
    ∃ V', reflectKernel ndim V N = some V' ∧ reflectKernel ndim V' N = some V := by
  refine ⟨_, reflectKernel_eq hV hN, ?_⟩
  set n := N.take ndim with hn
  set v := V.take ndim with hv
  have ln : n.length = ndim := by simp [hn]; omega
  have lv : v.length = ndim := by simp [hv]; omega
  set v' := List.zipWith (fun vx nx => vx - 2 * inner n v * nx) v n with hv'
  have lv' : v'.length = ndim := by simp [hv', ln, lv]
  rw [reflectKernel_eq (by simp [lv']) hN, List.take_left' lv', List.drop_left' lv', ← hn]
  have hd : inner n v' = - inner n v := by
    rw [inner_comm' n v', (reflectKernel_reflects (by rw [lv, ln]) hu).normal, inner_comm' v n]
  rw [hd]
  congr 1
  have : List.zipWith (fun vx nx => vx - 2 * -inner n v * nx) v' n = v := by
    generalize inner n v = d at hv'
    obtain ⟨z, e1, e2⟩ := zip_fst_snd (a := v) (b := n) (by rw [lv, ln])
    rw [hv', e1, e2, zipWith_maps, zipWith_maps]
    apply List.map_congr_left
    intro x _
    ring
  rw [this]
  exact List.take_append_drop _ _

/-- No call without the data of the boundary interaction, or with a bad number of dimensions. -/
theorem C61_rejects {P : LoopParams} {order : Sched} {npart : List Nat} {par : Parent}
    {e : EphemeralComps} {ndim : Nat} {reset : ℝ} {ip normal : Nat → Nat → List ℝ}
    {rows : List (List TrajRow)}
    (h : ndim = 0 ∨ 3 < ndim ∨ e.point ≠ some ndim ∨ e.normal ≠ some ndim ∨ e.metadata ≠ some 2) :
    reflectExecute P order npart par e ndim reset ip normal rows = none ∧
      truncExecute P order npart par e ndim reset ip rows = none := by
  unfold reflectExecute truncExecute
  by_cases hd : 0 < ndim ∧ ndim < 4
  · rw [if_pos hd, if_pos hd]
    have hc : containsBoundaryData e ndim = false := by
      unfold containsBoundaryData
      rcases h with h | h | h | h | h
      · omega
      · omega
      · simp [h]
      · simp [h]
      · simp [h]
    rw [hc]
    simp
  · rw [if_neg hd, if_neg hd]
    simp

/-- With a reset distance of zero a particle that starts exactly at its intersection point gets NaN
as position: `reset / |o|` is 0 / 0. -/
theorem C62_zero_reset_fails {ndim : Nat} {P TSP PP IP : List ℝ} (hw : pointDist (PP.take ndim) (IP.take ndim) = 0)
    (hP : ndim ≤ P.length) (hPP : ndim ≤ PP.length) (hIP : ndim ≤ IP.length) :
    truncKernel ndim 0 P TSP PP IP = none := by
  unfold truncKernel
  rw [slice_first hP, Option.bind_some, slice_first hPP, Option.bind_some, slice_first hIP, Option.bind_some]
  dsimp only
  rw [sqrt_dot (by simp; omega), hw]
  simp [divReal]

/-! ## Examples -/

namespace Ex

/-- A particle that moved from (1, 1) by (x, 2 x). -/
noncomputable def trajRow (x : ℝ) : TrajRow := ⟨[1 + x, 1 + 2 * x], [x, 2 * x, 7], [1, 1], [1, 1]⟩

/-- Three particles in cell 0, none in cell 1, two in cell 2. -/
noncomputable def trajRows : List (List TrajRow) := [[trajRow 1, trajRow 2, trajRow 3], [], [trajRow 4, trajRow 5]]

theorem traj_loop : RowLoopOk ⟨1024, 4, 1⟩ subCounts (.sub subSel) :=
  ⟨subSel_built, by decide, by decide, by decide, by decide⟩

theorem trajRows_ok {c l : Nat} {r : TrajRow} (h : rowAt trajRows c l = some r) :
    ∃ x, r = trajRow x := by
  obtain ⟨cell, h1, h2⟩ := rowAt_some h
  have h3 := List.mem_of_getElem? h1
  have h4 := List.mem_of_getElem? h2
  simp only [trajRows, List.mem_cons, List.not_mem_nil, or_false] at h3
  rcases h3 with rfl | rfl | rfl
  · simp only [List.mem_cons, List.not_mem_nil, or_false] at h4
    rcases h4 with rfl | rfl | rfl <;> exact ⟨_, rfl⟩
  · simp at h4
  · simp only [List.mem_cons, List.not_mem_nil, or_false] at h4
    rcases h4 with rfl | rfl <;> exact ⟨_, rfl⟩

end Ex

example : ∃ rows', reflectExecute ⟨1024, 4, 1⟩ Sched.reversed Ex.subCounts (.sub Ex.subSel)
    ⟨some 2, some 2, some 2⟩ 2 1e-10 (fun _ _ => [3 / 2, 2]) (fun _ _ => [3 / 5, 4 / 5]) Ex.trajRows =
      some rows' ∧ Shape Ex.subCounts rows' := by
  obtain ⟨rows', h1, h2, -⟩ := C61_reflect Ex.traj_loop Sched.reversed (ndim := 2) (by decide) (by decide) rfl
    (reset := 1e-10) (by norm_num) (rows := Ex.trajRows) rfl (ip := fun _ _ => [3 / 2, 2])
    (normal := fun _ _ => [3 / 5, 4 / 5])
    (fun c l k r _ hr => by
      obtain ⟨x, rfl⟩ := Ex.trajRows_ok hr
      exact ⟨⟨by simp [Ex.trajRow], by simp [Ex.trajRow], by simp [Ex.trajRow], by simp [Ex.trajRow]⟩, rfl,
        fun h => by norm_num at h⟩)
    (fun c l k _ => ⟨rfl, by simp [inner]; norm_num⟩)
  exact ⟨rows', h1, h2⟩

example : ∃ rows', truncExecute ⟨1024, 4, 1⟩ Sched.reversed Ex.subCounts (.sub Ex.subSel)
    ⟨some 2, some 2, some 2⟩ 2 0 (fun _ _ => [3 / 2, 2]) Ex.trajRows = some rows' ∧
      Shape Ex.subCounts rows' := by
  obtain ⟨rows', h1, h2, -⟩ := C62_truncate_partial Ex.traj_loop Sched.reversed (ndim := 2) (by decide)
    (by decide) rfl (reset := 0) (le_refl _) (rows := Ex.trajRows) rfl (ip := fun _ _ => [3 / 2, 2])
    (fun c l k r _ hr => by
      obtain ⟨x, rfl⟩ := Ex.trajRows_ok hr
      refine ⟨⟨by simp [Ex.trajRow], by simp [Ex.trajRow], by simp [Ex.trajRow], by simp [Ex.trajRow]⟩, rfl,
        fun _ => ?_⟩
      simp only [Ex.trajRow, pointDist, List.take, List.zipWith_cons_cons, List.zipWith_nil_right,
        List.sum_cons, List.sum_nil]
      apply Real.sqrt_pos.2
      norm_num)
  exact ⟨rows', h1, h2⟩

/-- The velocity (1, 2) at the normal (3 / 5, 4 / 5). -/
example : Reflects [1, 2] [3 / 5, 4 / 5] [-41 / 25, -38 / 25] := by
  have := reflectKernel_reflects (v := [1, 2]) (n := [3 / 5, 4 / 5]) rfl (by simp [inner]; norm_num)
  have e : List.zipWith (fun vx nx : ℝ => vx - 2 * inner [3 / 5, 4 / 5] [1, 2] * nx) [1, 2] [3 / 5, 4 / 5] =
      [-41 / 25, -38 / 25] := by
    simp [inner]; norm_num
  rw [e] at this
  exact this

example : ∃ V', reflectKernel 2 [1, 2, 9] [3 / 5, 4 / 5] = some V' ∧
    reflectKernel 2 V' [3 / 5, 4 / 5] = some [1, 2, 9] :=
  C61_involution (by decide) (by decide) (by simp [inner]; norm_num)

example : truncKernel 2 0 [4, 5] [1, 1] [1, 2] [1, 2] = none :=
  C62_zero_reset_fails (by simp [pointDist]) (by decide) (by decide) (by decide)

end NP
