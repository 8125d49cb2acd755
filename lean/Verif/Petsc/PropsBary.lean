import Verif.Petsc.LemmasBary3
import Verif.Petsc.PropsProject
import Mathlib.Tactic.NormNum
import Mathlib.Tactic.Linarith

/-!
# C90: projection onto and evaluation of functions given at the vertices of cells
-/

set_option autoImplicit false

namespace NP

open Spec Finset

variable {solve : Nat → List ℝ → List ℝ → Option (List ℝ)} {verts : List (List (ℝ × ℝ))} {vols : List ℝ}

/-! ## Helpers -/

theorem cellSum_single {K : Type} [AddCommMonoid K] {items : List (Nat × Nat)} (hnd : items.Nodup)
    {x : Nat × Nat} (hx : x ∈ items) {G : Nat × Nat → K}
    (h : ∀ y ∈ items, y.1 = x.1 → y ≠ x → G y = 0) : cellSum items x.1 G = G x := by
  induction items with
  | nil => cases hx
  | cons a l ih =>
    have hcs : cellSum (a :: l) x.1 G = (if a.1 = x.1 then G a else 0) + cellSum l x.1 G := by
      unfold cellSum
      by_cases hc : a.1 = x.1
      · rw [List.filter_cons_of_pos (by simp [hc]), List.map_cons, List.sum_cons, if_pos hc]
      · rw [List.filter_cons_of_neg (by simp [hc]), if_neg hc, zero_add]
    rw [hcs]
    by_cases hax : a = x
    · subst hax
      rw [if_pos rfl]
      have hz : cellSum l a.1 G = 0 := by
        unfold cellSum
        refine List.sum_eq_zero fun y hy => ?_
        rw [List.mem_map] at hy
        obtain ⟨z, hz, rfl⟩ := hy
        rw [List.mem_filter] at hz
        refine h z (List.mem_cons_of_mem _ hz.1) (by simpa using hz.2) fun he => ?_
        subst he
        exact (List.nodup_cons.mp hnd).1 hz.1
      rw [hz, add_zero]
    · have hxl : x ∈ l := (List.mem_cons.mp hx).resolve_left fun he => hax he.symm
      rw [ih (List.nodup_cons.mp hnd).2 hxl fun y hy => h y (List.mem_cons_of_mem _ hy)]
      by_cases hc : a.1 = x.1
      · rw [if_pos hc, h a List.mem_cons_self hc hax, zero_add]
      · rw [if_neg hc, zero_add]

/-- A sum over the numbered points of a cell is a sum over the numbers. -/
theorem cellSum_points {pts : List (List BPoint)} {c n : Nat} (hone : OneEach pts c n)
    {G : Nat × Nat → ℝ}
    (hG : ∀ ip p, rd2 pts ip = some p → ¬ (0 ≤ p.order ∧ p.order < n) → G ip = 0)
    {F : Nat → ℝ} (hF : ∀ ip p, rd2 pts ip = some p → ip.1 = c → 0 ≤ p.order → p.order < n →
      G ip = F p.order.toNat) : cellSum (allItems pts) c G = ∑ i ∈ range n, F i := by
  have h1 : cellSum (allItems pts) c G = cellSum (allItems pts) c fun ip =>
      ∑ i ∈ range n, if orderAt pts ip = i then G ip else 0 := by
    unfold cellSum
    congr 1
    refine List.map_congr_left fun ip hip => ?_
    obtain ⟨p, hp⟩ := mem_allItems.mp (List.mem_filter.mp hip).1
    have ho : orderAt pts ip = p.order := by simp only [orderAt, hp, Option.map_some, Option.getD_some]
    rw [ho]
    by_cases hn : 0 ≤ p.order ∧ p.order < n
    · rw [sum_eq_single p.order.toNat, if_pos (by omega)]
      · intro b _ hb
        rw [if_neg (by omega)]
      · intro h
        exact absurd (mem_range.mpr (by omega)) h
    · rw [hG ip p hp hn]
      simp
  rw [h1, cellSum_sum]
  refine sum_congr rfl fun i hi => ?_
  obtain ⟨x, ⟨hxc, p, hp, ho⟩, hx⟩ := hone i (mem_range.mp hi)
  have hoa : orderAt pts x = i := by simp only [orderAt, hp, Option.map_some, Option.getD_some, ho]
  have h2 := mem_range.mp hi
  rw [← hxc, cellSum_single (allItems_nodup pts) (mem_allItems.mpr ⟨p, hp⟩)]
  · rw [if_pos hoa, hF x p hp hxc (by omega) (by omega), ho, Int.toNat_natCast]
  · intro y hy hyc hne
    obtain ⟨q, hq⟩ := mem_allItems.mp hy
    rw [if_neg]
    intro hoy
    simp only [orderAt, hq, Option.map_some, Option.getD_some] at hoy
    exact hne (hx y ⟨hyc.trans hxc, q, hq, hoy⟩)

/-- The stored weights of a point. -/
theorem BaryInv.w_eq {o : BaryObj} {pts : List (List BPoint)} (hi : BaryInv verts vols o pts)
    {w : Nat × Nat → List ℝ} (hp : PointsIn verts pts w) {ip : Nat × Nat} {p : BPoint}
    (hpp : rd2 pts ip = some p) : p.w = w ip := by
  obtain ⟨vs, hvs, hw⟩ := hi.w ip p hpp
  obtain ⟨vs', hvs', hw', -⟩ := hp ip p hpp
  rw [hvs] at hvs'
  cases hvs'
  rw [hw'.baryW_eq] at hw
  exact (Option.some.inj hw).symm

theorem clamp_id {l : List ℝ} (h : ∀ x ∈ l, 0 ≤ x ∧ x ≤ 1) (i : Nat) :
    max 0 (min 1 (ent l i)) = ent l i := by
  unfold ent
  cases hx : l[i]? with
  | none => simp
  | some x =>
    obtain ⟨h0, h1⟩ := h x (List.mem_of_getElem? hx)
    rw [Option.getD_some, min_eq_right h1, max_eq_right h0]

/-- The inverse matrix turns the values at the points into the values at the vertices. -/
theorem BaryInv.solves {o : BaryObj} {pts : List (List BPoint)} (hi : BaryInv verts vols o pts)
    {w : Nat × Nat → List ℝ} (hp : PointsIn verts pts w) {c : Nat}
    {vs : List (ℝ × ℝ)} (hvs : verts[c]? = some vs) : ∃ A : Nat → Nat → ℝ,
      (∀ ip p, rd2 pts ip = some p → ip.1 = c → 0 ≤ p.order → p.order < vs.length →
        ∀ v, A p.order.toNat v = ent (w ip) v) ∧
      (∀ i < vs.length, ∃ ip p, rd2 pts ip = some p ∧ ip.1 = c ∧ p.order = i) ∧
      ∀ (q : Nat → ℝ), ∀ v < vs.length, ∑ i ∈ range vs.length, o.mats.val c v i *
        ∑ k ∈ range vs.length, A i k * q k = q v := by
  have hone := hi.one c vs hvs
  refine ⟨fun i k => if h : i < vs.length then ent (w (hone i h).choose) k else 0, ?_, ?_, ?_⟩
  · intro ip p hpp hc h0 h1 v
    have hlt : p.order.toNat < vs.length := by omega
    have := (hone p.order.toNat hlt).choose_spec.2 ip ⟨hc, p, hpp, by omega⟩
    beta_reduce
    rw [dif_pos hlt, ← this]
  · intro i hil
    obtain ⟨ip, ⟨h1, p, h2, h3⟩, -⟩ := hone i hil
    exact ⟨ip, p, h2, h1, h3⟩
  · intro q v hv
    have hinv : ∀ i < vs.length, ∀ j < vs.length, ∑ k ∈ range vs.length,
        (fun i k => if h : i < vs.length then ent (w (hone i h).choose) k else 0) i k * o.mats.val c k j =
          if i = j then 1 else 0 := by
      intro i hil j hj
      obtain ⟨⟨h1, p, h2, h3⟩, -⟩ := (hone i hil).choose_spec
      have := hi.inv (hone i hil).choose p vs h2 (by rw [h1]; exact hvs) (by omega) (by omega) j hj
      rw [h1] at this
      rw [show (if i = j then (1 : ℝ) else 0) = if p.order = (j : ℤ) then 1 else 0 from
        if_congr (by omega) rfl rfl, ← this]
      refine sum_congr rfl fun k _ => ?_
      beta_reduce
      rw [dif_pos hil, hi.w_eq hp h2, clamp_id]
      obtain ⟨_, -, -, h⟩ := hp _ p h2
      exact h
    have hl := left_inverse hinv
    simp only [mul_sum]
    rw [sum_comm]
    have : ∀ k ∈ range vs.length, ∑ i ∈ range vs.length, o.mats.val c v i *
        ((if h : i < vs.length then ent (w (hone i h).choose) k else 0) * q k) =
          (if v = k then 1 else 0) * q k := by
      intro k hk
      rw [← hl v hv k (mem_range.mp hk), sum_mul]
      exact sum_congr rfl fun i _ => (mul_assoc _ _ _).symm
    rw [sum_congr rfl this, sum_eq_single v]
    · rw [if_pos rfl, one_mul]
    · intro b _ hb
      rw [if_neg (Ne.symm hb), zero_mul]
    · intro h
      exact absurd (mem_range.mpr hv) h

theorem sym_ok {ncomp : Nat} {pts : List (List BPoint)} {w : Nat × Nat → List ℝ}
    (hp : BPointsOk verts ncomp pts w) : symOk ncomp = true := by
  unfold symOk
  exact decide_eq_true ⟨hp.pos, hp.small⟩

theorem bary_project_spec {o : BaryObj} {pts : List (List BPoint)} (hi : BaryInv verts vols o pts)
    (s0 s1 : Sched) {ncomp : Nat} {cells : List (List BPart)} {sel : List (Nat × Nat)}
    {b w : Nat × Nat → List ℝ} (hc : BPartsOk verts ncomp cells sel b) (hp : BPointsOk verts ncomp pts w) :
    ∃ o' pts', o.project s0 s1 ncomp cells sel pts = some (o', pts') ∧ SamePoints pts pts' ∧
      o'.tab.ncells = verts.length ∧ ncomp ≤ o'.tab.nrow ∧ o'.tab.ncol = 4 ∧ o'.verts = verts ∧
      o'.scale = o.scale ∧
      (∀ c vs, verts[c]? = some vs → ∀ r < ncomp, ∀ v < vs.length,
        o'.tab.val c r v = cellSum sel c fun it => ent (b it) v * partVal cells r it) ∧
      (∀ ip p vs vol, rd2 pts ip = some p → verts[ip.1]? = some vs → vols[ip.1]? = some vol →
        0 ≤ p.order → p.order < vs.length → ∃ p', rd2 pts' ip = some p' ∧ p'.val = (List.range ncomp).map fun r =>
          vs.length / vol * ∑ v ∈ range vs.length, ent (w ip) v * o'.tab.val ip.1 r v) ∧
      (∀ ip p vs, rd2 pts ip = some p → verts[ip.1]? = some vs →
        ¬ (0 ≤ p.order ∧ p.order < vs.length) → rd2 pts' ip = some p) := by
  have hsc0 : (o.checkNcomp ncomp).scale = o.scale := by unfold BaryObj.checkNcomp; split <;> rfl
  obtain ⟨hi, hn⟩ := hi.check ncomp
  have key : ∃ o' pts', o.project s0 s1 ncomp cells sel pts = some (o', pts') ∧
      o'.tab.ncells = verts.length ∧ ncomp ≤ o'.tab.nrow ∧ o'.tab.ncol = 4 ∧ o'.verts = verts ∧
      o'.scale = o.scale ∧
      (∀ c vs, verts[c]? = some vs → ∀ r < ncomp, ∀ v < vs.length,
        o'.tab.val c r v = cellSum sel c fun it => ent (b it) v * partVal cells r it) ∧
      (∀ ip p vs vol, rd2 pts ip = some p → verts[ip.1]? = some vs → vols[ip.1]? = some vol →
        0 ≤ p.order → p.order < vs.length → ∃ p', rd2 pts' ip = some p' ∧ p'.val = (List.range ncomp).map fun r =>
          vs.length / vol * ∑ v ∈ range vs.length, ent (w ip) v * o'.tab.val ip.1 r v) ∧
      (∀ ip p vs, rd2 pts ip = some p → verts[ip.1]? = some vs →
        ¬ (0 ≤ p.order ∧ p.order < vs.length) → rd2 pts' ip = some p) := by
    unfold BaryObj.project
    simp only
    rw [if_pos (sym_ok hp), ← hsc0]
    generalize o.checkNcomp ncomp = o at hi hn
    obtain ⟨t, h1, h2, h3⟩ := loopTab_sum s0 (t := o.tab.fill 0) (sel := sel) (cells := cells)
      (f := fun c p t => (rd o.verts c).bind fun vs => (baryW vs p.pos).bind fun b =>
        forLoop 0 vs.length (fun vx t => forLoop 0 ncomp (fun cx t => (rd b vx).bind fun lx =>
          (rd p.val cx).bind fun v => CellTab.add t c cx vx (lx * v)) t) t)
      (fun it r k => if r < ncomp ∧ k < (verts[it.1]?.getD []).length then
        ent (b it) k * partVal cells r it else 0) (by
        intro it hit
        obtain ⟨vs, p, hvs, hpp, hlen, hw⟩ := hc.exist it hit
        have hbl := baryW_length hw.baryW_eq
        have hs5 := hi.sz vs (List.mem_of_getElem? hvs)
        refine ⟨p, hpp, fun t' hs => ?_⟩
        obtain ⟨t'', k1, k2, k3⟩ := addGrid_spec (t := t') (c := it.1) (n := vs.length) (m := ncomp)
          (step := fun vx cx t => (rd (b it) vx).bind fun lx =>
            (rd p.val cx).bind fun v => CellTab.add t it.1 cx vx (lx * v))
          (g := fun cx vx => ent (b it) vx * partVal cells cx it)
          (by rw [hs.1]; show it.1 < o.tab.ncells; rw [hi.tabc]; exact (List.getElem?_eq_some_iff.mp hvs).1)
          (by rw [hs.2.2]; show vs.length ≤ o.tab.ncol; rw [hi.tabk]; omega)
          (by rw [hs.2.1]; exact hn)
          (fun vx hvx cx hcx t => by
            rw [rd_ent (by omega), Option.bind_some]
            simp only [rd, partVal, hpp, Option.bind_some]
            rw [List.getElem?_eq_getElem (by omega), Option.bind_some, Option.getD_some])
        refine ⟨t'', ?_, k2, fun c r k => ?_⟩
        · simp only [hi.vertsEq]
          simp only [show rd verts it.1 = some vs from hvs, Option.bind_some, hw.baryW_eq]
          exact k1
        · rw [k3, hvs, Option.getD_some])
    rw [h1, Option.bind_some]
    have hnc : t.ncells = verts.length := h2.1.trans hi.tabc
    have hnr : ncomp ≤ t.nrow := by rw [h2.2.1]; exact hn
    have hnk : t.ncol = 4 := h2.2.2.trans hi.tabk
    have hval : ∀ c vs, verts[c]? = some vs → ∀ r < ncomp, ∀ v < vs.length,
        t.val c r v = cellSum sel c fun it => ent (b it) v * partVal cells r it := by
      intro c vs hvs r hr v hv
      rw [h3]
      show (0 : ℝ) + _ = _
      rw [zero_add]
      unfold cellSum
      congr 1
      refine List.map_congr_left fun it hit => ?_
      have hcc : it.1 = c := by simpa using (List.mem_filter.mp hit).2
      rw [hcc, hvs, Option.getD_some, if_pos ⟨hr, hv⟩]
    have hker : ∀ ip p vs, rd2 pts ip = some p → verts[ip.1]? = some vs → ∀ vol, vols[ip.1]? = some vol →
        ((rd o.verts ip.1).bind fun vs =>
          if numbered vs.length p.order then (rd o.scale ip.1).bind fun iv =>
            (forLoop 0 ncomp (fun cx val => (barySum vs.length p.w t ip.1 cx).bind fun x => st val cx (iv * x))
              p.val).map fun val => ({ p with val := val } : BPoint)
          else some p) = some (if 0 ≤ p.order ∧ p.order < vs.length then
            ({ p with val := (List.range ncomp).map fun r =>
              vs.length / vol * ∑ v ∈ range vs.length, ent (w ip) v * t.val ip.1 r v } : BPoint) else p) := by
      intro ip p vs hpp hvs vol hvol
      rw [hi.vertsEq, show rd verts ip.1 = some vs from hvs, Option.bind_some]
      obtain ⟨vol', hv1, -, hv3⟩ := hi.scale ip.1 vs hvs
      rw [hvol] at hv1
      cases hv1
      have hs5 := hi.sz vs (List.mem_of_getElem? hvs)
      have hlen := hp.len ip p hpp
      obtain ⟨vs', hvs', hw', -⟩ := hp.inside ip p hpp
      rw [hvs] at hvs'
      cases hvs'
      by_cases hnum : 0 ≤ p.order ∧ p.order < vs.length
      · rw [if_pos (numbered_iff.mpr hnum), if_pos hnum, show rd o.scale ip.1 = _ from hv3, Option.bind_some,
          writeComps_spec (g := fun r => vs.length / vol * ∑ v ∈ range vs.length, ent (w ip) v * t.val ip.1 r v)
            hlen, Option.map_some]
        intro cx hcx val
        rw [hi.w_eq hp.inside hpp, barySum_spec (baryW_length hw'.baryW_eq)
          (by rw [hnc]; exact (List.getElem?_eq_some_iff.mp hvs).1) (by omega) (by omega), Option.bind_some]
      · rw [if_neg (fun h => hnum (numbered_iff.mp h)), if_neg hnum]
    have hvv : ∀ ip p, rd2 pts ip = some p → ∃ vs vol, verts[ip.1]? = some vs ∧ vols[ip.1]? = some vol := by
      intro ip p hpp
      obtain ⟨vs, hvs, -⟩ := hp.inside ip p hpp
      obtain ⟨vol, hv, -⟩ := hi.scale ip.1 vs hvs
      exact ⟨vs, vol, hvs, hv⟩
    obtain ⟨pts', m1, m2, m3, m4⟩ := loopWrite_spec s1 (allItems_nodup pts) (cells := pts)
      (f := fun c p => (rd o.verts c).bind fun vs =>
          if numbered vs.length p.order then (rd o.scale c).bind fun iv =>
            (forLoop 0 ncomp (fun cx val => (barySum vs.length p.w t c cx).bind fun x => st val cx (iv * x))
              p.val).map fun val => ({ p with val := val } : BPoint)
          else some p) (by
        intro ip hip
        obtain ⟨p, hpp⟩ := mem_allItems.mp hip
        obtain ⟨vs, vol, hvs, hvol⟩ := hvv ip p hpp
        exact ⟨p, _, hpp, hker ip p vs hpp hvs vol hvol⟩)
    rw [m1, Option.map_some]
    refine ⟨_, _, rfl, hnc, hnr, hnk, hi.vertsEq, rfl, hval, ?_, ?_⟩
    · intro ip p vs vol hpp hvs hvol h0 hl
      have h := m3 ip (mem_allItems.mpr ⟨p, hpp⟩) p hpp
      rw [hker ip p vs hpp hvs vol hvol, if_pos ⟨h0, hl⟩] at h
      exact ⟨_, h, rfl⟩
    · intro ip p vs hpp hvs hnn
      obtain ⟨_, vol, -, hvol⟩ := hvv ip p hpp
      rw [m3 ip (mem_allItems.mpr ⟨p, hpp⟩) p hpp, hker ip p vs hpp hvs vol hvol, if_neg hnn]
  obtain ⟨o', pts', h1, h2⟩ := key
  exact ⟨o', pts', h1, (baryProject_same h1).1, h2⟩

theorem bary_evaluate_spec {o : BaryObj} {pts : List (List BPoint)} (hi : BaryInv verts vols o pts)
    (s0 s1 : Sched) {ncomp : Nat} {cells : List (List BPart)} {sel : List (Nat × Nat)}
    {b w : Nat × Nat → List ℝ} (hc : BPartsOk verts ncomp cells sel b) (hp : BPointsOk verts ncomp pts w)
    {q : Nat → Nat → Nat → ℝ}
    (hq : ∀ c vs, verts[c]? = some vs → ∀ r < ncomp, BHolds pts w c vs.length r (q c r)) :
    ∃ o' cells', o.evaluate s0 s1 ncomp pts cells sel = some (o', cells') ∧
      o'.tab.ncells = verts.length ∧ ncomp ≤ o'.tab.nrow ∧ o'.tab.ncol = 4 ∧ o'.verts = verts ∧
      o'.scale = o.scale ∧
      (∀ c vs, verts[c]? = some vs → ∀ r < ncomp, ∀ v < vs.length, o'.tab.val c r v = q c r v) ∧
      (∀ it ∈ sel, ∀ vs p, verts[it.1]? = some vs → rd2 cells it = some p → rd2 cells' it = some
        { p with val := (List.range ncomp).map fun r => ∑ v ∈ range vs.length, ent (b it) v * q it.1 r v }) ∧
      ∀ it, it ∉ sel → rd2 cells' it = rd2 cells it := by
  have hsc0 : (o.checkNcomp ncomp).scale = o.scale := by unfold BaryObj.checkNcomp; split <;> rfl
  obtain ⟨hi, hn⟩ := hi.check ncomp
  unfold BaryObj.evaluate
  simp only
  rw [if_pos (sym_ok hp), ← hsc0]
  generalize o.checkNcomp ncomp = o at hi hn
  obtain ⟨t, h1, h2, h3⟩ := loopTab_sum s0 (t := o.tab.fill 0) (sel := allItems pts) (cells := pts)
    (f := fun c p t => (rd o.verts c).bind fun vs =>
      if numbered vs.length p.order then
        forLoop 0 vs.length (fun vx t => forLoop 0 ncomp (fun cx t => (rd p.val cx).bind fun value =>
          (o.mats.at c vx p.order.toNat).bind fun m => CellTab.add t c cx vx (m * value)) t) t
      else some t)
    (fun ip r k => if (0 ≤ orderAt pts ip ∧ orderAt pts ip < (verts[ip.1]?.getD []).length) ∧
      r < ncomp ∧ k < (verts[ip.1]?.getD []).length then
      o.mats.val ip.1 k (orderAt pts ip).toNat * ((rd2 pts ip).bind fun p => p.val[r]?).getD 0 else 0) (by
      intro ip hip
      obtain ⟨p, hpp⟩ := mem_allItems.mp hip
      have hlen := hp.len ip p hpp
      obtain ⟨vs, hvs, hw, -⟩ := hp.inside ip p hpp
      have hs5 := hi.sz vs (List.mem_of_getElem? hvs)
      have ho : orderAt pts ip = p.order := by simp only [orderAt, hpp, Option.map_some, Option.getD_some]
      refine ⟨p, hpp, fun t' hs => ?_⟩
      have hlt := (List.getElem?_eq_some_iff.mp hvs).1
      simp only [hi.vertsEq, show rd verts ip.1 = some vs from hvs, Option.bind_some, ho, hvs, Option.getD_some,
        hpp]
      by_cases hnum : 0 ≤ p.order ∧ p.order < vs.length
      · rw [if_pos (numbered_iff.mpr hnum)]
        obtain ⟨t'', k1, k2, k3⟩ := addGrid_spec (t := t') (c := ip.1) (n := vs.length) (m := ncomp)
          (step := fun vx cx t => (rd p.val cx).bind fun value =>
            (o.mats.at ip.1 vx p.order.toNat).bind fun m => CellTab.add t ip.1 cx vx (m * value))
          (g := fun cx vx => o.mats.val ip.1 vx p.order.toNat * p.val[cx]?.getD 0)
          (by rw [hs.1]; show ip.1 < o.tab.ncells; rw [hi.tabc]; exact hlt)
          (by rw [hs.2.2]; show vs.length ≤ o.tab.ncol; rw [hi.tabk]; omega)
          (by rw [hs.2.1]; exact hn)
          (fun vx hvx cx hcx t => by
            simp only [rd]
            rw [List.getElem?_eq_getElem (by omega), Option.bind_some, CellTab.at_eq (by rw [hi.matc]; exact hlt)
              (by rw [hi.matr]; omega) (by rw [hi.matk]; omega), Option.bind_some, Option.getD_some])
        refine ⟨t'', k1, k2, fun c r k => ?_⟩
        rw [k3]
        simp only [hnum, and_self, true_and]
      · rw [if_neg (fun h => hnum (numbered_iff.mp h))]
        refine ⟨t', rfl, CellTab.Same.refl _, fun c r k => ?_⟩
        simp only [hnum, false_and, if_false]
        simp)
  rw [h1, Option.bind_some]
  have hnc : t.ncells = verts.length := h2.1.trans hi.tabc
  have hnr : ncomp ≤ t.nrow := by rw [h2.2.1]; exact hn
  have hnk : t.ncol = 4 := h2.2.2.trans hi.tabk
  have hval : ∀ c vs, verts[c]? = some vs → ∀ r < ncomp, ∀ v < vs.length, t.val c r v = q c r v := by
    intro c vs hvs r hr v hv
    obtain ⟨A, a1, a2, a3⟩ := hi.solves hp.inside hvs
    rw [h3]
    show (0 : ℝ) + _ = _
    rw [zero_add, ← a3 (q c r) v hv]
    have e : cellSum (allItems pts) c (fun ip => if (0 ≤ orderAt pts ip ∧
        orderAt pts ip < (verts[ip.1]?.getD []).length) ∧ r < ncomp ∧ v < (verts[ip.1]?.getD []).length then
          o.mats.val ip.1 v (orderAt pts ip).toNat * ((rd2 pts ip).bind fun p => p.val[r]?).getD 0 else 0) =
        cellSum (allItems pts) c (fun ip => if (0 ≤ orderAt pts ip ∧ orderAt pts ip < vs.length) then
          o.mats.val ip.1 v (orderAt pts ip).toNat * ((rd2 pts ip).bind fun p => p.val[r]?).getD 0 else 0) := by
      unfold cellSum
      congr 1
      refine List.map_congr_left fun it hit => ?_
      have hcc : it.1 = c := by simpa using (List.mem_filter.mp hit).2
      simp only [hcc, hvs, Option.getD_some, hr, hv, and_true]
    rw [e]
    refine cellSum_points (hi.one c vs hvs) (fun ip p hpp hnn => ?_) (fun ip p hpp hcc h0 hl => ?_)
    · have ho : orderAt pts ip = p.order := by simp only [orderAt, hpp, Option.map_some, Option.getD_some]
      rw [ho, if_neg hnn]
    · have ho : orderAt pts ip = p.order := by simp only [orderAt, hpp, Option.map_some, Option.getD_some]
      rw [ho, if_pos ⟨h0, hl⟩, hpp, Option.bind_some, hq c vs hvs r hr ip p hpp hcc h0 hl, Option.getD_some, hcc]
      congr 1
      exact sum_congr rfl fun k _ => by rw [a1 ip p hpp hcc h0 hl k]
  have hker : ∀ it ∈ sel, ∀ vs p, verts[it.1]? = some vs → rd2 cells it = some p →
      ((rd o.verts it.1).bind fun vs => (baryW vs p.pos).bind fun b =>
      (forLoop 0 ncomp (fun cx val => (barySum vs.length b t it.1 cx).bind fun x => st val cx x)
        p.val).map fun val => ({ p with val := val } : BPart)) = some
        { p with val := (List.range ncomp).map fun r => ∑ v ∈ range vs.length, ent (b it) v * q it.1 r v } := by
    intro it hit vs p hvs hpp
    obtain ⟨vs', p', hvs', hpp', hlen, hw⟩ := hc.exist it hit
    rw [hvs] at hvs'
    cases hvs'
    rw [hpp] at hpp'
    cases hpp'
    have hs5 := hi.sz vs (List.mem_of_getElem? hvs)
    rw [hi.vertsEq, show rd verts it.1 = some vs from hvs, Option.bind_some, hw.baryW_eq, Option.bind_some,
      writeComps_spec (g := fun r => ∑ v ∈ range vs.length, ent (b it) v * q it.1 r v) hlen, Option.map_some]
    intro cx hcx val
    rw [barySum_spec (baryW_length hw.baryW_eq)
      (by rw [hnc]; exact (List.getElem?_eq_some_iff.mp hvs).1) (by omega) (by omega), Option.bind_some]
    congr 1
    exact sum_congr rfl fun v hv => by rw [hval it.1 vs hvs cx hcx v (mem_range.mp hv)]
  obtain ⟨cells', m1, -, m3, m4⟩ := loopWrite_spec s1 hc.nodup (cells := cells)
    (f := fun c p => (rd o.verts c).bind fun vs => (baryW vs p.pos).bind fun b =>
      (forLoop 0 ncomp (fun cx val => (barySum vs.length b t c cx).bind fun x => st val cx x)
        p.val).map fun val => ({ p with val := val } : BPart)) (by
      intro it hit
      obtain ⟨vs, p, hvs, hpp, -⟩ := hc.exist it hit
      exact ⟨p, _, hpp, hker it hit vs p hvs hpp⟩)
  rw [m1, Option.map_some]
  exact ⟨_, _, rfl, hnc, hnr, hnk, hi.vertsEq, rfl, hval,
    fun it hit vs p hvs hpp => by rw [m3 it hit p hpp, hker it hit vs p hvs hpp], m4⟩


/-- The values at the vertices are determined by the values at the points. -/
theorem BaryInv.holds_unique {o : BaryObj} {pts : List (List BPoint)} (hi : BaryInv verts vols o pts)
    {w : Nat × Nat → List ℝ} (hp : PointsIn verts pts w) {c r : Nat} {vs : List (ℝ × ℝ)}
    (hvs : verts[c]? = some vs) {q q' : Nat → ℝ} (h : BHolds pts w c vs.length r q)
    (h' : BHolds pts w c vs.length r q') : ∀ v < vs.length, q v = q' v := by
  obtain ⟨A, a1, a2, a3⟩ := hi.solves hp hvs
  intro v hv
  rw [← a3 q v hv, ← a3 q' v hv]
  refine sum_congr rfl fun i hil => ?_
  congr 1
  obtain ⟨ip, p, h1, h2, h3⟩ := a2 i (mem_range.mp hil)
  have hlt := mem_range.mp hil
  have e1 := h ip p h1 h2 (by omega) (by omega)
  have e2 := h' ip p h1 h2 (by omega) (by omega)
  rw [e1] at e2
  have ha := a1 ip p h1 h2 (by omega) (by omega)
  rw [h3, Int.toNat_natCast] at ha
  simp only [ha]
  exact Option.some.inj e2

/-! ## The properties -/

/-- **C90.** Projection is defined on any mesh of triangles and quadrilaterals, for any particles in
their cells and any number of components. Afterwards the points of each cell hold the function whose
value at a vertex is the sum, over the given particles of the cell, of the weight of the vertex at the
particle times the value of the particle, times the number of vertices over the volume of the cell.
Points without a number are unchanged, and of the others only the values. -/
theorem C90_project (hs : LuSolves solve) {o : BaryObj} {pts : List (List BPoint)}
    (ho : BaryReach solve verts vols o pts) (s0 s1 : Sched) {ncomp : Nat} {cells : List (List BPart)}
    {sel : List (Nat × Nat)} {b w : Nat × Nat → List ℝ} (hc : BPartsOk verts ncomp cells sel b)
    (hp : BPointsOk verts ncomp pts w) :
    ∃ o' pts', o.project s0 s1 ncomp cells sel pts = some (o', pts') ∧
      (∀ c vs vol, verts[c]? = some vs → vols[c]? = some vol → ∀ r < ncomp,
        BHolds pts' w c vs.length r fun v =>
          vs.length / vol * cellSum sel c fun it => ent (b it) v * partVal cells r it) ∧
      SamePoints pts pts' ∧ BPointsOk verts ncomp pts' w ∧
      ∀ ip p vs, rd2 pts ip = some p → verts[ip.1]? = some vs →
        ¬ (0 ≤ p.order ∧ p.order < vs.length) → rd2 pts' ip = some p := by
  have hi := ho.inv hs
  obtain ⟨o', pts', h1, h2, -, -, -, -, -, h3, h4, h5⟩ := bary_project_spec hi s0 s1 hc hp
  have hvol : ∀ ip p, rd2 pts ip = some p → ∃ vs vol, verts[ip.1]? = some vs ∧ vols[ip.1]? = some vol := by
    intro ip p hpp
    obtain ⟨vs, hvs, -⟩ := hp.inside ip p hpp
    obtain ⟨vol, hv, -⟩ := hi.scale ip.1 vs hvs
    exact ⟨vs, vol, hvs, hv⟩
  refine ⟨o', pts', h1, ?_, h2, ⟨hp.pos, hp.small, ?_, ?_⟩, h5⟩
  · intro c vs vol hvs hv r hr ip p' hpp' hcc h0 hl
    subst hcc
    obtain ⟨p, hpp, ho', -⟩ := same_some h2 hpp'
    obtain ⟨p'', k1, k2⟩ := h4 ip p vs vol hpp hvs hv (by omega) (by omega)
    rw [hpp'] at k1
    cases k1
    rw [k2, List.getElem?_map, List.getElem?_range hr, Option.map_some, mul_sum]
    congr 1
    refine sum_congr rfl fun v hvv => ?_
    rw [h3 ip.1 vs hvs r hr v (mem_range.mp hvv)]
    ring
  · intro ip p' hpp'
    obtain ⟨p, hpp, ho', -⟩ := same_some h2 hpp'
    obtain ⟨vs, vol, hvs, hv⟩ := hvol ip p hpp
    by_cases hn : 0 ≤ p.order ∧ p.order < vs.length
    · obtain ⟨p'', k1, k2⟩ := h4 ip p vs vol hpp hvs hv hn.1 hn.2
      rw [hpp'] at k1
      cases k1
      rw [k2, List.length_map, List.length_range]
    · have := h5 ip p vs hpp hvs hn
      rw [hpp'] at this
      cases this
      exact hp.len ip p' hpp
  · intro ip p' hpp'
    obtain ⟨p, hpp, -, hpos, -⟩ := same_some h2 hpp'
    rw [← hpos]
    exact hp.inside ip p hpp

/-- **C90.** What was projected is what the points hold: for any function the points hold after a
projection, the volumes of the cells times the means of its values at their vertices add up to the sum
of the values of the particles. -/
theorem C90_conserved (hs : LuSolves solve) {o : BaryObj} {pts : List (List BPoint)}
    (ho : BaryReach solve verts vols o pts) {s0 s1 : Sched} {ncomp : Nat} {cells : List (List BPart)}
    {sel : List (Nat × Nat)} {b w : Nat × Nat → List ℝ} (hc : BPartsOk verts ncomp cells sel b)
    (hp : BPointsOk verts ncomp pts w) {o' : BaryObj} {pts' : List (List BPoint)}
    (h : o.project s0 s1 ncomp cells sel pts = some (o', pts')) {r : Nat} (hr : r < ncomp)
    {q : Nat → Nat → ℝ} (hq : ∀ c vs, verts[c]? = some vs → BHolds pts' w c vs.length r (q c)) :
    ((List.range verts.length).map fun c => vols[c]?.getD 0 *
      ((∑ v ∈ range (verts[c]?.getD []).length, q c v) / (verts[c]?.getD []).length)).sum =
      (sel.map (partVal cells r)).sum := by
  have hi := ho.inv hs
  obtain ⟨o'', pts'', h1, h2, h3, h4, -⟩ := C90_project hs ho s0 s1 hc hp
  rw [h] at h1
  cases h1
  have hi' := hi.same h3
  rw [← sum_cellSum sel (partVal cells r) verts.length fun it hit => by
    obtain ⟨vs, p, hvs, -⟩ := hc.exist it hit
    exact (List.getElem?_eq_some_iff.mp hvs).1]
  congr 1
  refine List.map_congr_left fun c hcr => ?_
  have hlt := List.mem_range.mp hcr
  have hvs := List.getElem?_eq_getElem hlt
  obtain ⟨vol, hv1, hv2, -⟩ := hi.scale c _ hvs
  have hsz := hi.sz _ (List.getElem_mem hlt)
  rw [hvs, hv1, Option.getD_some, Option.getD_some]
  have hl0 : ((verts[c].length : Nat) : ℝ) ≠ 0 := by
    have : verts[c].length ≠ 0 := by omega
    exact_mod_cast this
  rw [sum_congr rfl fun v hv => hi'.holds_unique h4.inside hvs (hq c _ hvs) (h2 c _ vol hvs hv1 r hr) v
    (mem_range.mp hv), ← mul_sum, ← cellSum_sum]
  have e : cellSum sel c (fun it => ∑ i ∈ range verts[c].length, ent (b it) i * partVal cells r it) =
      cellSum sel c (partVal cells r) := by
    unfold cellSum
    congr 1
    refine List.map_congr_left fun it hit => ?_
    obtain ⟨hit, hcc⟩ := List.mem_filter.mp hit
    have hcc : it.1 = c := by simpa using hcc
    obtain ⟨vs, p, hvs', -, -, hw⟩ := hc.exist it hit
    rw [hcc, hvs] at hvs'
    cases hvs'
    rw [← sum_mul, hw.sum_eq, one_mul]
  rw [e]
  field_simp

/-- **C90.** If the points of each cell hold a function, evaluation gives each of the given particles
its value: the sum over the vertices of the weight at the particle times the value at the vertex. Other
particles are unchanged. -/
theorem C90_evaluate (hs : LuSolves solve) {o : BaryObj} {pts : List (List BPoint)}
    (ho : BaryReach solve verts vols o pts) (s0 s1 : Sched) {ncomp : Nat} {cells : List (List BPart)}
    {sel : List (Nat × Nat)} {b w : Nat × Nat → List ℝ} (hc : BPartsOk verts ncomp cells sel b)
    (hp : BPointsOk verts ncomp pts w) {q : Nat → Nat → Nat → ℝ}
    (hq : ∀ c vs, verts[c]? = some vs → ∀ r < ncomp, BHolds pts w c vs.length r (q c r)) :
    ∃ o' cells', o.evaluate s0 s1 ncomp pts cells sel = some (o', cells') ∧
      (∀ it ∈ sel, ∀ vs p, verts[it.1]? = some vs → rd2 cells it = some p → rd2 cells' it = some
        { p with val := (List.range ncomp).map fun r => ∑ v ∈ range vs.length, ent (b it) v * q it.1 r v }) ∧
      ∀ it, it ∉ sel → rd2 cells' it = rd2 cells it := by
  obtain ⟨o', cells', h1, -, -, -, -, -, -, h2, h3⟩ := bary_evaluate_spec (ho.inv hs) s0 s1 hc hp hq
  exact ⟨o', cells', h1, h2, h3⟩

/-- **C90.** If the values at the numbered points are those of an affine function of the position,
each of the given particles gets the value of that function at its position, in triangles and in
quadrilaterals. -/
theorem C90_affine (hs : LuSolves solve) {o : BaryObj} {pts : List (List BPoint)}
    (ho : BaryReach solve verts vols o pts) (s0 s1 : Sched) {ncomp : Nat} {cells : List (List BPart)}
    {sel : List (Nat × Nat)} {b w : Nat × Nat → List ℝ} (hc : BPartsOk verts ncomp cells sel b)
    (hp : BPointsOk verts ncomp pts w) (α β γ : Nat → ℝ)
    (hq : ∀ ip p vs, rd2 pts ip = some p → verts[ip.1]? = some vs → 0 ≤ p.order → p.order < vs.length →
      ∀ r < ncomp, p.val[r]? = some (α r + β r * p.pos.1 + γ r * p.pos.2)) :
    ∃ o' cells', o.evaluate s0 s1 ncomp pts cells sel = some (o', cells') ∧
      ∀ it ∈ sel, ∀ p, rd2 cells it = some p → rd2 cells' it = some
        { p with val := (List.range ncomp).map fun r => α r + β r * p.pos.1 + γ r * p.pos.2 } := by
  obtain ⟨o', cells', h1, h2, -⟩ := C90_evaluate hs ho s0 s1 hc hp
    (q := fun c r v => α r + β r * ((verts[c]?.getD [])[v]?.getD 0).1 +
      γ r * ((verts[c]?.getD [])[v]?.getD 0).2) (by
      intro c vs hvs r hr ip p hpp hcc h0 hl
      subst hcc
      obtain ⟨vs', hvs', hw, -⟩ := hp.inside ip p hpp
      rw [hvs] at hvs'
      cases hvs'
      rw [hq ip p vs hpp hvs h0 hl r hr, hvs, Option.getD_some, hw.affine])
  refine ⟨o', cells', h1, fun it hit p hpp => ?_⟩
  obtain ⟨vs, p', hvs, hpp', -, hw⟩ := hc.exist it hit
  rw [hpp] at hpp'
  cases hpp'
  rw [h2 it hit vs p hvs hpp]
  congr 2
  refine List.map_congr_left fun r _ => ?_
  rw [hvs, Option.getD_some, hw.affine]

/-- **C90.** Projection followed by evaluation, of the same particles or others: a particle gets the
sum over the vertices of its cell of its weight times the value that was projected to the vertex. -/
theorem C90_round_trip (hs : LuSolves solve) {o : BaryObj} {pts : List (List BPoint)}
    (ho : BaryReach solve verts vols o pts) (s0 s1 s2 s3 : Sched) {ncomp : Nat}
    {cells cells2 : List (List BPart)} {sel sel2 : List (Nat × Nat)} {b b2 w : Nat × Nat → List ℝ}
    (hc : BPartsOk verts ncomp cells sel b) (hc2 : BPartsOk verts ncomp cells2 sel2 b2)
    (hp : BPointsOk verts ncomp pts w) :
    ∃ o' pts' o'' cells', o.project s0 s1 ncomp cells sel pts = some (o', pts') ∧
      o'.evaluate s2 s3 ncomp pts' cells2 sel2 = some (o'', cells') ∧
      ∀ it ∈ sel2, ∀ vs vol p, verts[it.1]? = some vs → vols[it.1]? = some vol → rd2 cells2 it = some p →
        rd2 cells' it = some { p with val := (List.range ncomp).map (fun r =>
          ∑ v ∈ range vs.length, ent (b2 it) v *
            (vs.length / vol * cellSum sel it.1 fun i => ent (b i) v * partVal cells r i)) } := by
  have hi := ho.inv hs
  obtain ⟨o', pts', h1, h2, h3, h4, -⟩ := C90_project hs ho s0 s1 hc hp
  obtain ⟨o'', cells', h5, h6, -⟩ := C90_evaluate hs (ho.project h1) s2 s3 hc2 h4
    (q := fun c r v => (verts[c]?.getD []).length / vols[c]?.getD 0 *
      cellSum sel c fun i => ent (b i) v * partVal cells r i) (by
      intro c vs hvs r hr
      obtain ⟨vol, hv, -⟩ := hi.scale c vs hvs
      rw [hvs, hv, Option.getD_some, Option.getD_some]
      exact h2 c vs vol hvs hv r hr)
  refine ⟨o', pts', o'', cells', h1, h5, fun it hit vs vol p hvs hv hpp => ?_⟩
  rw [h6 it hit vs p hvs hpp, hvs, hv, Option.getD_some, Option.getD_some]

theorem vtk_spec {o : BaryObj} (hz : ∀ vs ∈ verts, 2 < vs.length ∧ vs.length < 5) (hv : o.verts = verts)
    (h1 : o.tab.ncells = verts.length)
    (h2 : 0 < o.tab.nrow) (h3 : o.tab.ncol = 4)
    (hsc : ∀ (c : Nat) (vs : List (ℝ × ℝ)), verts[c]? = some vs → ∃ vol, vols[c]? = some vol ∧ vol ≠ 0 ∧
      o.scale[c]? = some (vs.length / vol)) : ∃ l, o.vtk = some l ∧ l.length = verts.length ∧
      ∀ c vs vol, verts[c]? = some vs → vols[c]? = some vol →
        l[c]? = some ((List.range vs.length).map fun v => vs.length / vol * o.tab.val c 0 v) := by
  refine ⟨(List.range verts.length).map fun c => (List.range (verts[c]?.getD []).length).map fun v =>
    (verts[c]?.getD []).length / vols[c]?.getD 0 * o.tab.val c 0 v, ?_, by simp, ?_⟩
  · unfold BaryObj.vtk
    rw [hv]
    refine mapM_of_forall fun c hcr => ?_
    have hlt := List.mem_range.mp hcr
    have hvs := List.getElem?_eq_getElem hlt
    have hsz := hz _ (List.getElem_mem hlt)
    obtain ⟨vol, k1, -, k2⟩ := hsc c _ hvs
    rw [show rd o.scale c = _ from k2, Option.bind_some, show rd verts c = _ from hvs, Option.bind_some,
      if_pos (by omega), hvs, k1, Option.getD_some, Option.getD_some]
    refine mapM_of_forall fun v hv => ?_
    rw [CellTab.at_eq (by omega) h2 (by have := List.mem_range.mp hv; omega), Option.map_some, mul_comm]
  · intro c vs vol hvs hvol
    have hlt := (List.getElem?_eq_some_iff.mp hvs).1
    rw [List.getElem?_map, List.getElem?_range hlt, Option.map_some, hvs, hvol, Option.getD_some,
      Option.getD_some]

/-- **C90.** After a projection the output has, for each cell, the values at its vertices of the
function the points hold. -/
theorem C90_output (hs : LuSolves solve) {o : BaryObj} {pts : List (List BPoint)}
    (ho : BaryReach solve verts vols o pts) {s0 s1 : Sched} {ncomp : Nat} {cells : List (List BPart)}
    {sel : List (Nat × Nat)} {b w : Nat × Nat → List ℝ} (hc : BPartsOk verts ncomp cells sel b)
    (hp : BPointsOk verts ncomp pts w) {o' : BaryObj} {pts' : List (List BPoint)}
    (h : o.project s0 s1 ncomp cells sel pts = some (o', pts')) {q : Nat → Nat → ℝ}
    (hq : ∀ c vs, verts[c]? = some vs → BHolds pts' w c vs.length 0 (q c)) :
    ∃ l, o'.vtk = some l ∧ l.length = verts.length ∧
      ∀ c vs, verts[c]? = some vs → l[c]? = some ((List.range vs.length).map (q c)) := by
  have hi := ho.inv hs
  obtain ⟨o'', pts'', h1, h2, h3, h4, -⟩ := C90_project hs ho s0 s1 hc hp
  rw [h] at h1
  cases h1
  obtain ⟨o2, pts2, k1, -, k3, k4, k5, k6, k7, k8, -⟩ := bary_project_spec hi s0 s1 hc hp
  rw [h] at k1
  cases k1
  have hi' := hi.same h3
  obtain ⟨l, m1, m2, m3⟩ := vtk_spec (vols := vols) hi.sz k6 k3 (lt_of_lt_of_le hp.pos k4) k5
    (by rw [k7]; exact hi.scale)
  refine ⟨l, m1, m2, fun c vs hvs => ?_⟩
  obtain ⟨vol, hv, -⟩ := hi.scale c vs hvs
  rw [m3 c vs vol hvs hv]
  congr 1
  refine List.map_congr_left fun v hv' => ?_
  have hlt := List.mem_range.mp hv'
  rw [hi'.holds_unique h4.inside hvs (hq c vs hvs) (h2 c vs vol hvs hv 0 hp.pos) v hlt, k8 c vs hvs 0 hp.pos v hlt]

/-- **C90, counterexample.** After an evaluation the output has the values at the vertices of the
function the points hold multiplied by the number of vertices over the volume of the cell. -/
theorem C90_output_evaluate (hs : LuSolves solve) {o : BaryObj} {pts : List (List BPoint)}
    (ho : BaryReach solve verts vols o pts) {s0 s1 : Sched} {ncomp : Nat} {cells : List (List BPart)}
    {sel : List (Nat × Nat)} {b w : Nat × Nat → List ℝ} (hc : BPartsOk verts ncomp cells sel b)
    (hp : BPointsOk verts ncomp pts w) {q : Nat → Nat → Nat → ℝ}
    (hq : ∀ c vs, verts[c]? = some vs → ∀ r < ncomp, BHolds pts w c vs.length r (q c r)) :
    ∃ o' cells' l, o.evaluate s0 s1 ncomp pts cells sel = some (o', cells') ∧ o'.vtk = some l ∧
      ∀ c vs vol, verts[c]? = some vs → vols[c]? = some vol →
        l[c]? = some ((List.range vs.length).map fun v => vs.length / vol * q c 0 v) := by
  have hi := ho.inv hs
  obtain ⟨o', cells', h1, k3, k4, k5, k6, k7, k8, -⟩ := bary_evaluate_spec hi s0 s1 hc hp hq
  obtain ⟨l, m1, m2, m3⟩ := vtk_spec (vols := vols) hi.sz k6 k3 (lt_of_lt_of_le hp.pos k4) k5
    (by rw [k7]; exact hi.scale)
  refine ⟨o', cells', l, h1, m1, fun c vs vol hvs hv => ?_⟩
  rw [m3 c vs vol hvs hv]
  congr 1
  refine List.map_congr_left fun v hv' => ?_
  rw [k8 c vs hvs 0 hp.pos v (List.mem_range.mp hv')]

/-- **C90.** For points in their cells and one volume per cell, an object is made exactly when the
space is the one known, of order one, in two dimensions, all cells are triangles or quadrilaterals
whose volume is not zero, the points were added, and in each cell the numbers below the number of
vertices are those of one point each, at positions which determine the function. In all other cases
the call is rejected. -/
theorem C90_new (hs : LuSolves solve) (s0 s1 s2 : Sched) {space : String} {order : Int} {ndim : Nat}
    (hlen : vols.length = verts.length) {added : Bool} {pts : List (List BPoint)}
    {w : Nat × Nat → List ℝ} (hp : PointsIn verts pts w) :
    (∃ o pts', baryNew solve s0 s1 s2 space order ndim verts vols added pts = some (o, pts')) ↔
      space = "Barycentric" ∧ order = 1 ∧ ndim = 2 ∧ (∀ vs ∈ verts, vs.length = 3 ∨ vs.length = 4) ∧
      (∀ v ∈ vols, v ≠ 0) ∧ added = true ∧ ∀ c vs, verts[c]? = some vs →
        OneEach pts c vs.length ∧ Determined pts w c vs.length := by
  have hv : ∀ ip p, rd2 pts ip = some p → ip.1 < verts.length := fun ip p hpp => by
    obtain ⟨vs, hvs, -⟩ := hp ip p hpp
    exact (List.getElem?_eq_some_iff.mp hvs).1
  constructor
  · rintro ⟨o, pts', h⟩
    have hi := baryNew_inv hs h
    unfold baryNew at h
    split at h
    · rename_i hcond
      obtain ⟨c1, c2, c3, c4⟩ := hcond
      rw [Option.bind_eq_some_iff] at h
      obtain ⟨scale, -, h⟩ := h
      split at h
      · rename_i hadd
        simp only [Option.bind_eq_some_iff, Option.map_eq_some_iff, Prod.mk.injEq] at h
        obtain ⟨cnt, hcnt, u, hchk, pts1, hpts1, t, ht, mats, hmats, rfl, rfl⟩ := h
        obtain ⟨hp1, hp2⟩ := baryPoints_spec hpts1
        have hback : ∀ ip p', rd2 pts1 ip = some p' → ∃ p, rd2 pts ip = some p ∧ p'.pos = p.pos ∧
            p'.order = p.order := by
          intro ip p' hpp'
          cases hq : rd2 pts ip with
          | none => rw [hp2 ip hq] at hpp'; cases hpp'
          | some q =>
            obtain ⟨vs, w, hvs, hw, h3⟩ := hp1 ip q hq
            rw [hpp'] at h3
            cases h3
            exact ⟨q, rfl, rfl, rfl⟩
        have hp' : PointsIn verts pts1 w := by
          intro ip p' hpp'
          obtain ⟨p, hpp, h1, -⟩ := hback ip p' hpp'
          rw [h1]
          exact hp ip p hpp
        refine ⟨c1, by omega, c3, fun vs hvs => by have := c4 vs hvs; omega, fun v hv' => ?_, hadd,
          fun c vs hvs => ⟨(oneEach_points hpts1).mp (hi.one c vs hvs), ?_⟩⟩
        · obtain ⟨c, hcl, rfl⟩ := List.mem_iff_getElem.mp hv'
          obtain ⟨vol, k1, k2, -⟩ := hi.scale c _ (List.getElem?_eq_getElem (by omega))
          rw [List.getElem?_eq_getElem hcl] at k1
          cases k1
          exact k2
        · intro q hq v hvl
          obtain ⟨A, a1, a2, a3⟩ := hi.solves hp' hvs
          rw [← a3 q v hvl]
          refine sum_eq_zero fun i hil => ?_
          have hlt := mem_range.mp hil
          obtain ⟨ip, p', h1, h2, h3⟩ := a2 i hlt
          obtain ⟨p, hpp, -, ho⟩ := hback ip p' h1
          have ha := a1 ip p' h1 h2 (by omega) (by omega)
          rw [h3, Int.toNat_natCast] at ha
          simp only [ha]
          rw [hq ip p hpp h2 (by omega) (by omega), mul_zero]
      · cases h
    · cases h
  · rintro ⟨rfl, rfl, rfl, hsz, hvn, rfl, hcell⟩
    have hsz' : ∀ vs ∈ verts, 2 < vs.length ∧ vs.length < 5 := fun vs h => by have := hsz vs h; omega
    have hsz5 : ∀ vs ∈ verts, vs.length < 5 := fun vs h => (hsz' vs h).2
    unfold baryNew
    rw [if_pos ⟨rfl, by omega, rfl, hsz'⟩, mapM_of_forall
      (g := fun c : Nat => ((verts[c]?.getD []).length : ℝ) / vols[c]?.getD 0)
      (by
        intro c hcr
        have hlt := List.mem_range.mp hcr
        have hlt' : c < vols.length := by omega
        have hvs := List.getElem?_eq_getElem hlt
        have hvl := List.getElem?_eq_getElem hlt'
        rw [show rd verts c = _ from hvs, show rd vols c = _ from hvl, Option.bind_some, Option.bind_some, hvs, hvl,
          Option.getD_some, Option.getD_some]
        unfold fdiv
        rw [if_neg (hvn _ (List.getElem_mem hlt'))]), Option.bind_some, if_pos rfl]
    have hone := (baryCheck_iff s0 hsz5 hv).mpr fun c vs hvs => (hcell c vs hvs).1
    rw [Option.bind_eq_some_iff] at hone
    obtain ⟨cnt, hcnt, hchk⟩ := hone
    rw [hcnt, Option.bind_some, hchk, Option.bind_some]
    obtain ⟨pts1, m1, -, m3, m4⟩ := loopWrite_spec s1 (allItems_nodup pts) (cells := pts)
      (f := fun c p => (rd verts c).bind fun vs => (baryW vs p.pos).map fun w =>
        ({ p with w := w } : BPoint)) (by
        intro ip hip
        obtain ⟨p, hpp⟩ := mem_allItems.mp hip
        obtain ⟨vs, hvs, hw, -⟩ := hp ip p hpp
        exact ⟨p, { p with w := w ip }, hpp, by
          rw [show rd verts ip.1 = some vs from hvs, Option.bind_some, hw.baryW_eq, Option.map_some]⟩)
    have hb : baryPoints s1 verts pts = some pts1 := m1
    rw [hb, Option.bind_some]
    have hpt : ∀ ip p, rd2 pts ip = some p → rd2 pts1 ip = some { p with w := w ip } := by
      intro ip p hpp
      obtain ⟨vs, hvs, hw, -⟩ := hp ip p hpp
      rw [m3 ip (mem_allItems.mpr ⟨p, hpp⟩) p hpp, show rd verts ip.1 = some vs from hvs, Option.bind_some,
        hw.baryW_eq, Option.map_some]
    have hback : ∀ ip p', rd2 pts1 ip = some p' → ∃ p, rd2 pts ip = some p ∧ p' = { p with w := w ip } := by
      intro ip p' hpp'
      cases hq : rd2 pts ip with
      | none => rw [(baryPoints_spec hb).2 ip hq] at hpp'; cases hpp'
      | some q =>
        rw [hpt ip q hq] at hpp'
        exact ⟨q, rfl, (Option.some.inj hpp').symm⟩
    have hone' : ∀ c vs, verts[c]? = some vs → OneEach pts1 c vs.length := fun c vs hvs =>
      (oneEach_points hb).mpr (hcell c vs hvs).1
    obtain ⟨t, ht, d1, d2, d3, hfill⟩ := baryFill_spec s2 (pts := pts1) hsz5
      (fun ip p' hpp' => by
        obtain ⟨p, hpp, rfl⟩ := hback ip p' hpp'
        obtain ⟨vs, hvs, hw, -⟩ := hp ip p hpp
        exact ⟨vs, hvs, baryW_length hw.baryW_eq⟩)
      (fun ip ip' p p' vs hpp hpp' => BaryInv.uniq hone' hpp hpp')
    rw [ht, Option.bind_some]
    have hentry : ∀ c vs, verts[c]? = some vs → ∀ i : Nat, i < vs.length → ∃ ip p, rd2 pts ip = some p ∧ ip.1 = c ∧
        p.order = i ∧ (∀ x ∈ w ip, 0 ≤ x ∧ x ≤ 1) ∧ ∀ k < vs.length, t.val c i k = ent (w ip) k := by
      intro c vs hvs i hil
      obtain ⟨ip, ⟨rfl, p, hpp, hpo⟩, -⟩ := (hcell c vs hvs).1 i hil
      obtain ⟨_, -, -, hx⟩ := hp ip p hpp
      refine ⟨ip, p, hpp, rfl, hpo, hx, fun k hk => ?_⟩
      have := hfill ip _ vs (hpt ip p hpp) hvs (show 0 ≤ p.order by omega) (show p.order < vs.length by omega) k hk
      rw [show p.order.toNat = i by omega] at this
      exact this
    obtain ⟨mats, hm⟩ := (baryInvert_spec hs hsz5 d1 d2 d3).2 (by
      intro c vs hvs
      constructor
      · intro i hil j hj he
        obtain ⟨ip, p, -, -, -, hx, hk⟩ := hentry c vs hvs i hil
        rw [hk j hj, ← clamp_id hx] at he
        have := le_max_left 0 (min 1 (ent (w ip) j))
        linarith
      · refine has_inverse fun q hq => (hcell c vs hvs).2 q fun ip p hpp hcc h0 hl => ?_
        obtain ⟨ip', p', hpp', hcc', ho', hx, hk⟩ := hentry c vs hvs p.order.toNat (by omega)
        have heq : ip = ip' := BaryInv.uniq (fun c vs hvs => (hcell c vs hvs).1) hpp hpp' (hcc.trans hcc'.symm)
          (by rw [hcc]; exact hvs) h0 hl (by omega)
        subst heq
        rw [← hq p.order.toNat (by omega)]
        refine sum_congr rfl fun k hkk => ?_
        rw [hk k (mem_range.mp hkk), clamp_id hx])
    exact ⟨_, _, by rw [hm, Option.map_some]⟩

end NP

/-! ## A concrete case -/

namespace NP.Ex

open Spec Finset

/-- Some solver: any solution, if there is one. -/
noncomputable def bSolve (N : Nat) (A B : List ℝ) : Option (List ℝ) :=
  open Classical in
  if h : ∃ X : List ℝ, X.length = N * N ∧ ∀ i < N, ∀ j < N,
      ∑ k ∈ range N, ent A (k * N + i) * ent X (j * N + k) = ent B (j * N + i) then some h.choose else none

theorem bSolve_lu : LuSolves bSolve := by
  refine ⟨fun N A B X _ _ h => ?_, fun N A B _ _ hY => ?_⟩
  · unfold bSolve at h
    split at h
    · rename_i hex
      cases h
      exact hex.choose_spec
    · cases h
  · obtain ⟨Y, hY⟩ := hY
    have hex : ∃ X : List ℝ, X.length = N * N ∧ ∀ i < N, ∀ j < N,
        ∑ k ∈ range N, ent A (k * N + i) * ent X (j * N + k) = ent B (j * N + i) := by
      refine ⟨(List.range N).flatMap fun j => (List.range N).map fun k =>
        ∑ m ∈ range N, Y k m * ent B (j * N + m), flat_length _ _ _, fun i hi j hj => ?_⟩
      have e : ∀ k ∈ range N, ent A (k * N + i) * ent ((List.range N).flatMap fun j => (List.range N).map fun k =>
          ∑ m ∈ range N, Y k m * ent B (j * N + m)) (j * N + k) =
          ∑ m ∈ range N, ent A (k * N + i) * Y k m * ent B (j * N + m) := by
        intro k hk
        rw [flat_ent _ _ _ hj (mem_range.mp hk), mul_sum]
        exact sum_congr rfl fun m _ => (mul_assoc _ _ _).symm
      rw [sum_congr rfl e, sum_comm, sum_eq_single i]
      · rw [← sum_mul, hY i hi i hi, if_pos rfl, one_mul]
      · intro m hm hne
        rw [← sum_mul, hY i hi m (mem_range.mp hm), if_neg (Ne.symm hne), zero_mul]
      · intro h
        exact absurd (mem_range.mpr hi) h
    exact ⟨_, by unfold bSolve; rw [dif_pos hex]⟩

/-- One triangle of volume one half. -/
def bVerts : List (List (ℝ × ℝ)) := [[(0, 0), (1, 0), (0, 1)]]

noncomputable def bVols : List ℝ := [1 / 2]

/-- Three numbered points and one without a number. -/
noncomputable def bPts : List (List BPoint) :=
  [[⟨1, (1 / 2, 1 / 4), [], [7]⟩, ⟨-1, (0, 0), [], [8]⟩, ⟨0, (1 / 4, 1 / 4), [], [9]⟩, ⟨2, (1 / 4, 1 / 2), [], [10]⟩]]

noncomputable def bW : Nat × Nat → List ℝ
  | (0, 0) => [1 / 4, 1 / 2, 1 / 4]
  | (0, 1) => [1, 0, 0]
  | (0, 2) => [1 / 2, 1 / 4, 1 / 4]
  | _ => [1 / 4, 1 / 4, 1 / 2]

theorem bPts_cases {ip : Nat × Nat} {p : BPoint} (h : rd2 bPts ip = some p) :
    (ip = (0, 0) ∧ p = ⟨1, (1 / 2, 1 / 4), [], [7]⟩) ∨ (ip = (0, 1) ∧ p = ⟨-1, (0, 0), [], [8]⟩) ∨
    (ip = (0, 2) ∧ p = ⟨0, (1 / 4, 1 / 4), [], [9]⟩) ∨ (ip = (0, 3) ∧ p = ⟨2, (1 / 4, 1 / 2), [], [10]⟩) := by
  obtain ⟨c, l⟩ := ip
  match c, l with
  | 0, 0 => exact Or.inl ⟨rfl, (Option.some.inj h).symm⟩
  | 0, 1 => exact Or.inr (Or.inl ⟨rfl, (Option.some.inj h).symm⟩)
  | 0, 2 => exact Or.inr (Or.inr (Or.inl ⟨rfl, (Option.some.inj h).symm⟩))
  | 0, 3 => exact Or.inr (Or.inr (Or.inr ⟨rfl, (Option.some.inj h).symm⟩))
  | 0, n + 4 => simp [rd2, bPts] at h
  | n + 1, l => simp [rd2, bPts] at h

theorem bVerts_cases {c : Nat} {vs : List (ℝ × ℝ)} (h : bVerts[c]? = some vs) :
    c = 0 ∧ vs = [(0, 0), (1, 0), (0, 1)] := by
  match c with
  | 0 => exact ⟨rfl, (Option.some.inj h).symm⟩
  | n + 1 => simp [bVerts] at h

theorem b_weights {x y : ℝ} : IsWeights [(0, 0), (1, 0), (0, 1)] (x, y) [1 - x - y, x, y] := by
  refine IsWeights.tri ?_ (by ring) ?_
  · norm_num [turnR]
  · ext <;> simp

theorem b_inside : PointsIn bVerts bPts bW := by
  intro ip p h
  refine ⟨[(0, 0), (1, 0), (0, 1)], ?_, ?_, ?_⟩
  · rcases bPts_cases h with ⟨rfl, -⟩ | ⟨rfl, -⟩ | ⟨rfl, -⟩ | ⟨rfl, -⟩ <;> rfl
  · rcases bPts_cases h with ⟨rfl, rfl⟩ | ⟨rfl, rfl⟩ | ⟨rfl, rfl⟩ | ⟨rfl, rfl⟩
    · convert b_weights (x := 1 / 2) (y := 1 / 4) using 1; norm_num [bW]
    · convert b_weights (x := 0) (y := 0) using 1; norm_num [bW]
    · convert b_weights (x := 1 / 4) (y := 1 / 4) using 1; norm_num [bW]
    · convert b_weights (x := 1 / 4) (y := 1 / 2) using 1; norm_num [bW]
  · rcases bPts_cases h with ⟨rfl, -⟩ | ⟨rfl, -⟩ | ⟨rfl, -⟩ | ⟨rfl, -⟩ <;> norm_num [bW]

theorem b_one : OneEach bPts 0 3 := by
  intro i hi
  match i, hi with
  | 0, _ =>
    refine ⟨(0, 2), ⟨rfl, _, rfl, rfl⟩, ?_⟩
    rintro ip ⟨-, p, hp, ho⟩
    rcases bPts_cases hp with ⟨rfl, rfl⟩ | ⟨rfl, rfl⟩ | ⟨rfl, rfl⟩ | ⟨rfl, rfl⟩ <;> simp_all
  | 1, _ =>
    refine ⟨(0, 0), ⟨rfl, _, rfl, rfl⟩, ?_⟩
    rintro ip ⟨-, p, hp, ho⟩
    rcases bPts_cases hp with ⟨rfl, rfl⟩ | ⟨rfl, rfl⟩ | ⟨rfl, rfl⟩ | ⟨rfl, rfl⟩ <;> simp_all
  | 2, _ =>
    refine ⟨(0, 3), ⟨rfl, _, rfl, rfl⟩, ?_⟩
    rintro ip ⟨-, p, hp, ho⟩
    rcases bPts_cases hp with ⟨rfl, rfl⟩ | ⟨rfl, rfl⟩ | ⟨rfl, rfl⟩ | ⟨rfl, rfl⟩ <;> simp_all

theorem b_det : Determined bPts bW 0 3 := by
  intro q hq v hv
  have h0 := hq (0, 2) _ rfl rfl (by norm_num) (by norm_num)
  have h1 := hq (0, 0) _ rfl rfl (by norm_num) (by norm_num)
  have h2 := hq (0, 3) _ rfl rfl (by norm_num) (by norm_num)
  simp only [sum_range_succ, sum_range_zero, ent, bW, List.getElem?_cons_zero, List.getElem?_cons_succ,
    Option.getD_some, zero_add] at h0 h1 h2
  match v, hv with
  | 0, _ => linarith
  | 1, _ => linarith
  | 2, _ => linarith

/-- An object is made in this case. -/
theorem b_new : ∃ o pts', baryNew bSolve Sched.inOrder Sched.reversed Sched.reversed "Barycentric" 1 2 bVerts bVols
    true bPts = some (o, pts') := by
  refine (C90_new bSolve_lu _ _ _ rfl b_inside).mpr ⟨rfl, rfl, rfl, ?_, ?_, rfl, ?_⟩
  · intro vs hvs
    simp only [bVerts, List.mem_singleton] at hvs
    subst hvs
    exact Or.inl rfl
  · intro v hv
    simp only [bVols, List.mem_singleton] at hv
    subst hv
    norm_num
  · intro c vs hvs
    obtain ⟨rfl, rfl⟩ := bVerts_cases hvs
    exact ⟨b_one, b_det⟩

/-- Without the third point the object is rejected. -/
example (s0 s1 s2 : Sched) : ¬ ∃ o pts', baryNew bSolve s0 s1 s2 "Barycentric" 1 2 bVerts bVols true [] =
    some (o, pts') := by
  rw [C90_new bSolve_lu s0 s1 s2 rfl (w := bW) (by intro ip p h; simp [rd2] at h)]
  rintro ⟨-, -, -, -, -, -, h⟩
  obtain ⟨ip, ⟨-, p, hp, -⟩, -⟩ := (h 0 _ rfl).1 0 (by norm_num)
  simp [rd2] at hp

/-- Two particles, of which one is given. -/
noncomputable def bCells : List (List BPart) := [[⟨(1 / 3, 1 / 3), [6]⟩, ⟨(1 / 2, 0), [4]⟩]]

noncomputable def bB : Nat × Nat → List ℝ
  | (0, 0) => [1 / 3, 1 / 3, 1 / 3]
  | _ => [1 / 2, 1 / 2, 0]

theorem b_parts : BPartsOk bVerts 1 bCells [(0, 1), (0, 0)] bB := by
  refine ⟨by decide, fun it hit => ?_⟩
  simp only [List.mem_cons, List.not_mem_nil, or_false] at hit
  rcases hit with rfl | rfl
  · refine ⟨_, _, rfl, rfl, rfl, ?_⟩
    convert b_weights (x := 1 / 2) (y := 0) using 1; norm_num [bB]
  · refine ⟨_, _, rfl, rfl, rfl, ?_⟩
    convert b_weights (x := 1 / 3) (y := 1 / 3) using 1; norm_num [bB]

/-- The points of a new object meet the hypotheses of the other theorems. -/
theorem b_reach : ∃ o pts, BaryReach bSolve bVerts bVols o pts ∧ BPointsOk bVerts 1 pts bW ∧
    (rd2 pts (0, 2)).map BPoint.order = some 0 := by
  obtain ⟨o, pts', h⟩ := b_new
  refine ⟨o, pts', .new h, ⟨by norm_num, by norm_num, ?_, ?_⟩, ?_⟩
  all_goals
    unfold baryNew at h
    rw [if_pos ⟨rfl, by omega, rfl, by
      intro vs hvs
      simp only [bVerts, List.mem_singleton] at hvs
      subst hvs
      norm_num⟩, Option.bind_eq_some_iff] at h
    obtain ⟨scale, -, h⟩ := h
    rw [if_pos rfl] at h
    simp only [Option.bind_eq_some_iff, Option.map_eq_some_iff, Prod.mk.injEq] at h
    obtain ⟨cnt, hcnt, u, hchk, pts1, hpts1, t, ht, mats, hmats, rfl, rfl⟩ := h
    obtain ⟨hp1, hp2⟩ := baryPoints_spec hpts1
    first
      | obtain ⟨vs, w, hvs, hw, h3⟩ := hp1 (0, 2) _ rfl
        rw [h3]
        rfl
      | intro ip p' hpp'
        cases hq : rd2 bPts ip with
        | none => rw [hp2 ip hq] at hpp'; cases hpp'
        | some q =>
          obtain ⟨vs, w, hvs, hw, h3⟩ := hp1 ip q hq
          rw [hpp'] at h3
          cases h3
          first
            | exact b_inside ip q hq
            | rcases bPts_cases hq with ⟨-, rfl⟩ | ⟨-, rfl⟩ | ⟨-, rfl⟩ | ⟨-, rfl⟩ <;> rfl

/-- Projection: the vertices get 6 · (6/3 + 4/2) = 24, 24 and 6 · 6/3 = 12, and the point with number
zero, whose weights are 1/2, 1/4 and 1/4, gets 21. -/
example : ∃ o pts o' pts' p, BaryReach bSolve bVerts bVols o pts ∧
    o.project Sched.inOrder Sched.reversed 1 bCells [(0, 1), (0, 0)] pts = some (o', pts') ∧
    rd2 pts' (0, 2) = some p ∧ p.val[0]? = some 21 := by
  obtain ⟨o, pts, hr, hp, ho⟩ := b_reach
  obtain ⟨o', pts', h1, h2, h3, -⟩ := C90_project bSolve_lu hr Sched.inOrder Sched.reversed b_parts hp
  obtain ⟨p, hpp, ho⟩ := Option.map_eq_some_iff.mp ho
  obtain ⟨p', hpp', ho', -⟩ := same_some (samePoints_symm h3) hpp
  refine ⟨o, pts, o', pts', p', hr, h1, hpp', ?_⟩
  rw [h2 0 _ _ rfl rfl 0 (by norm_num) (0, 2) p' hpp' rfl (by omega) (by rw [ho', ho]; norm_num)]
  norm_num [sum_range_succ, ent, bW, bB, cellSum, partVal, rd2, bCells, bVols]

/-- The hypotheses of `C90_affine` hold for the function 1 + 2x + 3y, which the particle at
(1/3, 1/3) gets as 8/3. -/
example : ∃ o pts o' cells' p, BaryReach bSolve bVerts bVols o pts ∧
    o.evaluate Sched.inOrder Sched.reversed 1 pts bCells [(0, 1), (0, 0)] = some (o', cells') ∧
    rd2 cells' (0, 0) = some p ∧ p.val = [8 / 3] := by
  obtain ⟨o, pts, hr, hp, -⟩ := b_reach
  have hsame : SamePoints pts (pts.map fun l => l.map fun p =>
      ({ p with val := [1 + 2 * p.pos.1 + 3 * p.pos.2] } : BPoint)) := by
    intro it
    simp only [rd2, rd, List.getElem?_map]
    cases pts[it.1]? with
    | none => rfl
    | some l =>
      simp only [Option.map_some, Option.bind_some, List.getElem?_map, Option.map_map]
      rfl
  have hval : ∀ ip p', rd2 (pts.map fun l => l.map fun p =>
      ({ p with val := [1 + 2 * p.pos.1 + 3 * p.pos.2] } : BPoint)) ip = some p' →
        p'.val = [1 + 2 * p'.pos.1 + 3 * p'.pos.2] := by
    intro ip p' h
    simp only [rd2, List.getElem?_map] at h
    cases hl : pts[ip.1]? with
    | none => rw [hl] at h; simp at h
    | some l =>
      rw [hl] at h
      simp only [Option.map_some, Option.bind_some, List.getElem?_map, Option.map_eq_some_iff] at h
      obtain ⟨p, -, rfl⟩ := h
      rfl
  have hp' : BPointsOk bVerts 1 (pts.map fun l => l.map fun p =>
      ({ p with val := [1 + 2 * p.pos.1 + 3 * p.pos.2] } : BPoint)) bW :=
    ⟨hp.pos, hp.small, fun ip p' h => by rw [hval ip p' h]; rfl, fun ip p' h => by
      obtain ⟨p, h1, -, h3, -⟩ := same_some hsame h
      rw [← h3]
      exact hp.inside ip p h1⟩
  obtain ⟨o', cells', h1, h2⟩ := C90_affine bSolve_lu (hr.write hsame) Sched.inOrder Sched.reversed b_parts hp'
    (fun _ => 1) (fun _ => 2) (fun _ => 3) (by
      intro ip p vs hpp hvs h0 hl r hr
      rw [hval ip p hpp, show r = 0 by omega]
      rfl)
  refine ⟨o, _, o', cells', _, hr.write hsame, h1, h2 (0, 0) (by simp) _ rfl, ?_⟩
  norm_num

end NP.Ex
