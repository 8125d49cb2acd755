import Verif.Petsc.LemmasProject
import Mathlib.Data.Rat.Defs
import Mathlib.Algebra.Field.Rat
import Mathlib.Algebra.BigOperators.Ring.List
import Mathlib.Tactic.FieldSimp

/-!
# C89: projection onto and evaluation of piecewise constant functions
-/

set_option autoImplicit false

namespace NP

open Spec

variable {K : Type} [Field K] [DecidableEq K]

/-! ## Helpers -/

omit [DecidableEq K] in
theorem dg_project_spec {vols : List K} {qpm : Bool} {o : DgObj K} (hi : DgInv vols qpm o) (s0 s1 : Sched)
    {ncomp : Nat} {cells : List (List (List K))} {sel : List (Nat × Nat)}
    (hc : HasValues vols.length ncomp cells sel) {pts : List (List (DgPoint K))}
    (hp : qpm = true → PointsOk vols.length ncomp pts) :
    ∃ o' pts', o.project s0 s1 ncomp cells sel pts = some (o', pts') ∧ o'.tab.ncells = vols.length ∧
      ncomp ≤ o'.tab.nrow ∧ o'.tab.ncol = 1 ∧
      (∀ c r vol, vols[c]? = some vol → o'.tab.val c r 0 = cellSum sel c (comp cells r) / vol) ∧
      (qpm = true → ∀ it p, rd2 pts it = some p → rd2 pts' it =
        some ⟨p.order, (List.range ncomp).map fun r => o'.tab.val it.1 r 0⟩) ∧
      (qpm = true → ∀ it, rd2 pts it = none → rd2 pts' it = none) ∧
      (qpm = false → pts' = pts) := by
  obtain ⟨hi, hn⟩ := hi.check ncomp
  unfold DgObj.project
  simp only
  generalize o.checkNcomp ncomp = o at hi hn
  obtain ⟨t, h1, h2, h3⟩ := loopTab_sum s0 (t := o.tab.fill 0) (sel := sel) (cells := cells)
    (f := fun c p t => (rd o.invVol c).bind fun iv =>
      forLoop 0 ncomp (fun cx t => (rd p cx).bind fun v => t.add c cx 0 (v * iv)) t)
    (fun it r k => if k = 0 then comp cells r it * (1 / vols[it.1]?.getD 0) else 0) (by
      intro it hit
      obtain ⟨hlt, p, hp, hlen⟩ := hc.exist it hit
      refine ⟨p, hp, fun t' hs => ?_⟩
      obtain ⟨t'', k1, k2, k3⟩ := addComps_spec (t := t') (c := it.1) (ncomp := ncomp)
        (by rw [hs.1]; show it.1 < o.tab.ncells; rw [hi.ncells]; exact hlt)
        (by rw [hs.2.1]; exact hn) (by rw [hs.2.2]; show 0 < o.tab.ncol; rw [hi.ncol]; exact Nat.one_pos)
        hlen (1 / vols[it.1])
      refine ⟨t'', ?_, k2, fun c r k => ?_⟩
      · simp only [rd, hi.inv, List.getElem?_map, List.getElem?_eq_getElem hlt, Option.map_some,
          Option.bind_some]
        exact k1
      · rw [k3]
        simp only [comp, hp, Option.bind_some, List.getElem?_eq_getElem hlt, Option.getD_some])
  rw [h1, Option.bind_some]
  have hncol : t.ncol = 1 := h2.2.2.trans hi.ncol
  have hnc : t.ncells = vols.length := h2.1.trans hi.ncells
  have hnr : ncomp ≤ t.nrow := by rw [h2.2.1]; exact hn
  have hval : ∀ c r vol, vols[c]? = some vol → t.val c r 0 = cellSum sel c (comp cells r) / vol := by
    intro c r vol hvol
    rw [h3]
    show (0 : K) + _ = _
    rw [zero_add, cellSum, cellSum, div_eq_mul_inv, ← List.sum_map_mul_right]
    congr 1
    refine List.map_congr_left fun it hit => ?_
    have hcc : it.1 = c := by simpa using (List.mem_filter.mp hit).2
    rw [if_pos rfl, hcc, hvol, Option.getD_some, one_div]
  by_cases hq : qpm = true
  · have hpo := hp hq
    have hoq : o.qpm = true := hi.qpmEq.trans hq
    have hsym : symOk ncomp = true := by unfold symOk; exact decide_eq_true ⟨hpo.pos, hpo.small⟩
    rw [if_pos hoq, if_pos hsym]
    obtain ⟨pts', m1, m2, m3, m4⟩ := loopWrite_spec s1 (sel := allItems pts) (allItems_nodup pts) (cells := pts)
      (f := fun c p => (dgRead ncomp t c p.val).map fun v => ({ p with val := v } : DgPoint K)) (by
        intro it hit
        obtain ⟨p, hpp⟩ := mem_allItems.mp hit
        have hpp' := hpp
        unfold rd2 at hpp'
        rw [Option.bind_eq_some_iff] at hpp'
        obtain ⟨row, hrow, hpr⟩ := hpp'
        have hlt : it.1 < t.ncells := by
          rw [hnc]
          exact lt_of_lt_of_le (List.getElem?_eq_some_iff.mp hrow).1 hpo.count
        have hlen := hpo.comps row (List.mem_of_getElem? hrow) p (List.mem_of_getElem? hpr)
        exact ⟨p, _, hpp, by rw [dgRead_spec hlt hnr (by rw [hncol]; exact Nat.one_pos) hlen,
          Option.map_some]⟩)
    rw [m1, Option.map_some]
    refine ⟨_, _, rfl, hnc, hnr, hncol, hval, fun _ it p hpp => ?_, fun _ it hnone => ?_,
      fun h => absurd hq (by simp [h])⟩
    · rw [m3 it (mem_allItems.mpr ⟨p, hpp⟩) p hpp]
      have hpp' := hpp
      unfold rd2 at hpp'
      rw [Option.bind_eq_some_iff] at hpp'
      obtain ⟨row, hrow, hpr⟩ := hpp'
      have hlt : it.1 < t.ncells := by
        rw [hnc]
        exact lt_of_lt_of_le (List.getElem?_eq_some_iff.mp hrow).1 hpo.count
      have hlen := hpo.comps row (List.mem_of_getElem? hrow) p (List.mem_of_getElem? hpr)
      rw [dgRead_spec hlt hnr (by rw [hncol]; exact Nat.one_pos) hlen, Option.map_some]
    · rw [m4 it fun hc => ?_, hnone]
      obtain ⟨p, hpp⟩ := mem_allItems.mp hc
      rw [hnone] at hpp
      cases hpp
  · rw [if_neg (by rw [hi.qpmEq]; exact hq), Option.map_some]
    exact ⟨_, _, rfl, hnc, hnr, hncol, hval, fun h => absurd h hq, fun h => absurd h hq, fun _ => rfl⟩

omit [Field K] [DecidableEq K] in
theorem dofIs_iff {o : DgObj K} (hk : o.tab.ncol = 1) {c r : Nat} {v : K} :
    DofIs o c r v ↔ c < o.tab.ncells ∧ r < o.tab.nrow ∧ o.tab.val c r 0 = v := by
  constructor
  · intro h
    obtain ⟨h1, h2, -, h4⟩ := CellTab.at_some h
    exact ⟨h1, h2, h4⟩
  · rintro ⟨h1, h2, rfl⟩
    exact CellTab.at_eq h1 h2 (by rw [hk]; exact Nat.one_pos)

omit [DecidableEq K] in
/-- The loop of the particles in `evaluate`. -/
theorem dg_gather {vols : List K} {t : CellTab K} (hnc : t.ncells = vols.length) (hk : t.ncol = 1)
    {ncomp : Nat} (hn : ncomp ≤ t.nrow) (s1 : Sched) {cells : List (List (List K))}
    {sel : List (Nat × Nat)} (hc : HasValues vols.length ncomp cells sel) :
    ∃ cells', loopWrite s1 (fun c p => dgRead ncomp t c p) sel cells = some cells' ∧
      (∀ it ∈ sel, rd2 cells' it = some ((List.range ncomp).map fun r => t.val it.1 r 0)) ∧
      ∀ it, it ∉ sel → rd2 cells' it = rd2 cells it := by
  have key : ∀ it ∈ sel, ∃ p, rd2 cells it = some p ∧
      dgRead ncomp t it.1 p = some ((List.range ncomp).map fun r => t.val it.1 r 0) := by
    intro it hit
    obtain ⟨hlt, p, hp, hlen⟩ := hc.exist it hit
    exact ⟨p, hp, dgRead_spec (by rw [hnc]; exact hlt) hn (by rw [hk]; exact Nat.one_pos) hlen⟩
  obtain ⟨cells', m1, -, m3, m4⟩ := loopWrite_spec s1 (f := fun c p => dgRead ncomp t c p) hc.nodup
    (cells := cells) (fun it hit => by obtain ⟨p, h1, h2⟩ := key it hit; exact ⟨p, _, h1, h2⟩)
  refine ⟨cells', m1, fun it hit => ?_, m4⟩
  obtain ⟨p, h1, h2⟩ := key it hit
  rw [m3 it hit p h1, h2]

omit [DecidableEq K] in
/-- The loop of the points in `evaluate`. -/
theorem dg_scatter {n : Nat} {t : CellTab K} (hnc : t.ncells = n) (hk : t.ncol = 1)
    {ncomp : Nat} (hn : ncomp ≤ t.nrow) (s0 : Sched) {pts : List (List (DgPoint K))}
    (hp : PointsOk n ncomp pts)
    (huniq : ∀ it it' p p', rd2 pts it = some p → rd2 pts it' = some p' → p.order = 0 → p'.order = 0 →
      it.1 = it'.1 → it = it') :
    ∃ t', loopTab s0 (fun c p t => if p.order = 0 then
        forLoop 0 ncomp (fun cx t => (rd p.val cx).bind fun v => t.put c cx 0 v) t
        else some t) (allItems pts) pts t = some t' ∧ t.Same t' ∧
      (∀ it p, rd2 pts it = some p → p.order = 0 → ∀ r < ncomp, some (t'.val it.1 r 0) = p.val[r]?) ∧
      ∀ c r, (∀ it p, rd2 pts it = some p → p.order = 0 → it.1 ≠ c) → t'.val c r 0 = t.val c r 0 := by
  have hperm := s0.perm (allItems pts)
  obtain ⟨t', h1, h2, h3, h4⟩ := runItems_invariant
    (step := fun it t => (rd2 pts it).bind fun p => if p.order = 0 then
        forLoop 0 ncomp (fun cx t => (rd p.val cx).bind fun v => CellTab.put t it.1 cx 0 v) t
        else some t) (items := s0.order (allItems pts)) (s := t)
    (P := fun done t' => t.Same t' ∧
      (∀ it ∈ done, ∀ p, rd2 pts it = some p → p.order = 0 → ∀ r < ncomp, some (t'.val it.1 r 0) = p.val[r]?) ∧
      ∀ c r, (∀ it p, rd2 pts it = some p → p.order = 0 → it.1 ≠ c) → t'.val c r 0 = t.val c r 0) (by
    rintro pre it post t1 hs ⟨k1, k2, k3⟩
    have hmem : it ∈ allItems pts := hperm.mem_iff.mp (by rw [hs]; simp)
    obtain ⟨p, hpp⟩ := mem_allItems.mp hmem
    have hpp' := hpp
    unfold rd2 at hpp'
    rw [Option.bind_eq_some_iff] at hpp'
    obtain ⟨row, hrow, hpr⟩ := hpp'
    have hlt : it.1 < n := lt_of_lt_of_le (List.getElem?_eq_some_iff.mp hrow).1 hp.count
    have hlen := hp.comps row (List.mem_of_getElem? hrow) p (List.mem_of_getElem? hpr)
    simp only [hpp, Option.bind_some]
    by_cases ho : p.order = 0
    · rw [if_pos ho]
      obtain ⟨t2, m1, m2, m3, m4⟩ := forLoop_invariant (a := 0) (b := ncomp) (s := t1)
        (step := fun cx t => (rd p.val cx).bind fun v => CellTab.put t it.1 cx 0 v)
        (P := fun i t' => t1.Same t' ∧ (∀ r < i, some (t'.val it.1 r 0) = p.val[r]?) ∧
          ∀ c r, c ≠ it.1 → t'.val c r 0 = t1.val c r 0) (Nat.zero_le _) (by
        rintro i t2 - hi ⟨a1, a2, a3⟩
        have hv : p.val[i]? = some (p.val[i]'(by omega)) := List.getElem?_eq_getElem (by omega)
        obtain ⟨t3, b1, b2, b3⟩ := CellTab.put_eq (t := t2) (c := it.1) (r := i) (k := 0) (p.val[i]'(by omega))
          (by rw [a1.1, k1.1, hnc]; exact hlt) (by rw [a1.2.1, k1.2.1]; omega)
          (by rw [a1.2.2, k1.2.2, hk]; exact Nat.one_pos)
        refine ⟨t3, by simp only [rd, hv, Option.bind_some, b1], a1.trans b2, fun r hr => ?_, fun c r hc => ?_⟩
        · rw [b3]
          by_cases hri : r = i
          · subst hri
            rw [if_pos ⟨rfl, rfl, rfl⟩, hv]
          · rw [if_neg (fun h => hri h.2.1)]
            exact a2 r (by omega)
        · rw [b3, if_neg (fun h => hc h.1), a3 c r hc]) ⟨CellTab.Same.refl _, by omega, fun _ _ _ => rfl⟩
      refine ⟨t2, m1, k1.trans m2, fun it' hit' p' hp' ho' r hr => ?_, fun c r hc => ?_⟩
      · by_cases hii : it'.1 = it.1
        · have := huniq it' it p' p hp' hpp ho' ho hii
          rw [this] at hp' ⊢
          rw [hpp] at hp'
          cases hp'
          exact m3 r hr
        · rw [m4 _ r hii]
          rcases List.mem_append.mp hit' with hm | hm
          · exact k2 it' hm p' hp' ho' r hr
          · rw [List.mem_singleton] at hm
            exact absurd (congrArg Prod.fst hm) hii
      · rw [m4 c r (Ne.symm (hc it p hpp ho)), k3 c r hc]
    · rw [if_neg ho]
      refine ⟨t1, rfl, k1, fun it' hit' p' hp' ho' r hr => ?_, k3⟩
      rcases List.mem_append.mp hit' with hm | hm
      · exact k2 it' hm p' hp' ho' r hr
      · rw [List.mem_singleton] at hm
        rw [hm, hpp] at hp'
        cases hp'
        exact absurd ho' ho) ⟨CellTab.Same.refl _, by simp, fun _ _ _ => rfl⟩
  exact ⟨t', h1, h2, fun it p hp' => h3 it (hperm.mem_iff.mpr (mem_allItems.mpr ⟨p, hp'⟩)) p hp', h4⟩

omit [DecidableEq K] in
theorem dg_setDofs_spec {vols : List K} {qpm : Bool} {o : DgObj K} (hi : DgInv vols qpm o) {ncomp : Nat}
    (hpos : 0 < ncomp) {dofs : List K} (hlen : vols.length * ncomp ≤ dofs.length) :
    ∃ o', o.setDofs ncomp dofs = some o' ∧ o'.tab.ncells = vols.length ∧ ncomp ≤ o'.tab.nrow ∧
      o'.tab.ncol = 1 ∧ ∀ c < vols.length, ∀ r < o'.tab.nrow,
        o'.tab.val c r 0 = if r < ncomp then dofs[c * ncomp + r]?.getD 0 else 0 := by
  obtain ⟨hi, hn⟩ := hi.check ncomp
  unfold DgObj.setDofs
  rw [if_pos (by omega), Int.toNat_natCast]
  simp only
  generalize o.checkNcomp ncomp = o at hi hn
  rw [if_pos (by rw [hi.ncells]; exact hlen)]
  obtain ⟨t, h1, h2, h3⟩ := forLoop_invariant (a := 0) (b := o.tab.ncells) (s := o.tab)
    (step := fun cx t =>
        (forLoop 0 ncomp (fun nx t => (rd dofs (cx * ncomp + nx)).bind fun v => CellTab.put t cx nx 0 v) t).bind
          (forLoop ncomp o.tab.nrow fun nx t => CellTab.put t cx nx 0 0))
    (P := fun i t => o.tab.Same t ∧ ∀ c < i, ∀ r < o.tab.nrow,
        t.val c r 0 = if r < ncomp then dofs[c * ncomp + r]?.getD 0 else 0) (Nat.zero_le _) (by
    rintro i t - hin ⟨k1, k2⟩
    have hi' : i < vols.length := by rw [← hi.ncells]; exact hin
    have hle : (i + 1) * ncomp ≤ vols.length * ncomp := Nat.mul_le_mul_right _ hi'
    rw [Nat.succ_mul] at hle
    obtain ⟨t1, m1, m2, m3⟩ := forLoop_invariant (a := 0) (b := ncomp) (s := t)
      (step := fun nx t => (rd dofs (i * ncomp + nx)).bind fun v => CellTab.put t i nx 0 v)
      (P := fun j t' => o.tab.Same t' ∧ ∀ c r, t'.val c r 0 =
        if c = i ∧ r < j then dofs[i * ncomp + r]?.getD 0 else t.val c r 0) (Nat.zero_le _) (by
      rintro j t' - hj ⟨a1, a2⟩
      have hv : dofs[i * ncomp + j]? = some (dofs[i * ncomp + j]'(by omega)) :=
        List.getElem?_eq_getElem (by omega)
      obtain ⟨t3, b1, b2, b3⟩ := CellTab.put_eq (t := t') (c := i) (r := j) (k := 0)
        (dofs[i * ncomp + j]'(by omega)) (by rw [a1.1]; exact hin) (by rw [a1.2.1]; omega)
        (by rw [a1.2.2, hi.ncol]; exact Nat.one_pos)
      refine ⟨t3, by simp only [rd, hv, Option.bind_some, b1], a1.trans b2, fun c r => ?_⟩
      rw [b3]
      by_cases hcr : c = i ∧ r = j
      · obtain ⟨rfl, rfl⟩ := hcr
        rw [if_pos ⟨rfl, rfl, rfl⟩, if_pos ⟨rfl, by omega⟩, hv, Option.getD_some]
      · rw [if_neg (fun h => hcr ⟨h.1, h.2.1⟩), a2]
        have : (c = i ∧ r < j) ↔ (c = i ∧ r < j + 1) := by
          constructor
          · rintro ⟨a, b⟩; exact ⟨a, by omega⟩
          · rintro ⟨a, b⟩
            refine ⟨a, ?_⟩
            by_contra hb
            exact hcr ⟨a, by omega⟩
        simp only [this]) ⟨k1, by simp⟩
    obtain ⟨t2, n1, n2, n3⟩ := forLoop_invariant (a := ncomp) (b := o.tab.nrow) (s := t1)
      (step := fun nx t => CellTab.put t i nx 0 0)
      (P := fun j t' => o.tab.Same t' ∧ ∀ c r, t'.val c r 0 =
        if c = i ∧ ncomp ≤ r ∧ r < j then 0 else t1.val c r 0) hn (by
      rintro j t' hj0 hj ⟨a1, a2⟩
      obtain ⟨t3, b1, b2, b3⟩ := CellTab.put_eq (t := t') (c := i) (r := j) (k := 0)
        (0 : K) (by rw [a1.1]; exact hin) (by rw [a1.2.1]; omega)
        (by rw [a1.2.2, hi.ncol]; exact Nat.one_pos)
      refine ⟨t3, b1, a1.trans b2, fun c r => ?_⟩
      rw [b3]
      by_cases hcr : c = i ∧ r = j
      · obtain ⟨rfl, rfl⟩ := hcr
        rw [if_pos ⟨rfl, rfl, rfl⟩, if_pos ⟨rfl, hj0, by omega⟩]
      · rw [if_neg (fun h => hcr ⟨h.1, h.2.1⟩), a2]
        have : (c = i ∧ ncomp ≤ r ∧ r < j) ↔ (c = i ∧ ncomp ≤ r ∧ r < j + 1) := by
          constructor
          · rintro ⟨a, b, d⟩; exact ⟨a, b, by omega⟩
          · rintro ⟨a, b, d⟩
            refine ⟨a, b, ?_⟩
            by_contra hb
            exact hcr ⟨a, by omega⟩
        simp only [this]) ⟨m2, fun c r => by rw [if_neg (by omega)]⟩
    refine ⟨t2, by rw [m1, Option.bind_some, n1], n2, fun c hc r hr => ?_⟩
    rw [n3, m3]
    by_cases hci : c = i
    · subst hci
      by_cases hrn : r < ncomp
      · rw [if_neg (by omega), if_pos ⟨rfl, hrn⟩, if_pos hrn]
      · rw [if_pos ⟨rfl, by omega, hr⟩, if_neg hrn]
    · rw [if_neg (fun h => hci h.1), if_neg (fun h => hci h.1)]
      exact k2 c (by omega) r hr) ⟨CellTab.Same.refl _, by omega⟩
  rw [h1, Option.map_some]
  refine ⟨_, rfl, h2.1.trans hi.ncells, by show ncomp ≤ t.nrow; rw [h2.2.1]; exact hn,
    h2.2.2.trans hi.ncol, fun c hc r hr => h3 c (by rw [hi.ncells]; exact hc) r ?_⟩
  rw [← h2.2.1]
  exact hr

omit [Field K] [DecidableEq K] in
theorem dg_getDofs_spec {o : DgObj K} (hk : o.tab.ncol = 1) {ncomp : Nat} (hpos : 0 < ncomp)
    (hn : ncomp ≤ o.tab.nrow) : o.getDofs ncomp = some
      ((List.range o.tab.ncells).flatMap fun c => (List.range ncomp).map fun r => o.tab.val c r 0) := by
  unfold DgObj.getDofs
  rw [if_pos (by omega), if_pos (by omega), Int.toNat_natCast]
  rw [mapM_of_forall (g := fun c => (List.range ncomp).map fun r => o.tab.val c r 0) (fun c hc => ?_),
    Option.map_some, List.flatMap_def]
  refine mapM_of_forall fun r hr => ?_
  rw [List.mem_range] at hc hr
  exact CellTab.at_eq hc (by omega) (by rw [hk]; exact Nat.one_pos)

theorem getElem?_flat {α : Type} (f : Nat → Nat → α) (n m : Nat) {c r : Nat} (hc : c < n) (hr : r < m) :
    ((List.range n).flatMap fun c => (List.range m).map fun r => f c r)[c * m + r]? = some (f c r) := by
  induction n with
  | zero => omega
  | succ n ih =>
    have hl : ((List.range n).flatMap fun c => (List.range m).map fun r => f c r).length = n * m := by
      simp [List.length_flatMap]
    rw [List.range_succ, List.flatMap_append]
    by_cases h : c < n
    · have : (c + 1) * m ≤ n * m := Nat.mul_le_mul_right _ h
      rw [Nat.succ_mul] at this
      rw [List.getElem?_append_left (by omega)]
      exact ih h
    · have hcn : c = n := by omega
      subst hcn
      rw [List.getElem?_append_right (by omega), hl, Nat.add_sub_cancel_left]
      simp [hr]

theorem flat_eq_take {α : Type} (f : Nat → Nat → α) (n m : Nat) (l : List α) (hl : n * m ≤ l.length)
    (h : ∀ c < n, ∀ r < m, l[c * m + r]? = some (f c r)) :
    ((List.range n).flatMap fun c => (List.range m).map fun r => f c r) = l.take (n * m) := by
  have hlen : ((List.range n).flatMap fun c => (List.range m).map fun r => f c r).length = n * m := by
    simp [List.length_flatMap]
  refine List.ext_getElem? fun i => ?_
  by_cases hi : i < n * m
  · have hm : 0 < m := by
      rcases Nat.eq_zero_or_pos m with h0 | h0
      · subst h0; omega
      · exact h0
    have e : i = i / m * m + i % m := (Nat.div_add_mod' i m).symm
    have h1 : i / m < n := Nat.div_lt_of_lt_mul (by rw [Nat.mul_comm]; exact hi)
    have h2 := Nat.mod_lt i hm
    rw [List.getElem?_take_of_lt hi]
    conv_lhs => rw [e]
    conv_rhs => rw [e]
    rw [getElem?_flat f n m h1 h2, h _ h1 _ h2]
  · rw [List.getElem?_eq_none (by omega), List.getElem?_eq_none (by rw [List.length_take]; omega)]

/-! ## The property -/

/-- **C89, projection.** After any calls on the object, projecting the values of any particles is
defined, and the value of the function in each cell is the sum of the values of the particles in
that cell divided by the volume of the cell, for each component and for every order in which the
particles are visited. With points, each point holds the values of its cell, and keeps its place
and its number. -/
theorem C89_project {vols : List K} {qpm : Bool} {o : DgObj K} (ho : DgReach vols qpm o) (s0 s1 : Sched)
    {ncomp : Nat} {cells : List (List (List K))} {sel : List (Nat × Nat)}
    (hc : HasValues vols.length ncomp cells sel) {pts : List (List (DgPoint K))}
    (hp : qpm = true → PointsOk vols.length ncomp pts) :
    ∃ o' pts', o.project s0 s1 ncomp cells sel pts = some (o', pts') ∧
      (∀ c vol, vols[c]? = some vol → ∀ r < ncomp,
        DofIs o' c r (cellSum sel c (comp cells r) / vol)) ∧
      (qpm = true → ∀ it p, rd2 pts it = some p → ∃ p', rd2 pts' it = some p' ∧ p'.order = p.order ∧
        p'.val.length = ncomp ∧ ∀ r v, p'.val[r]? = some v → DofIs o' it.1 r v) ∧
      (qpm = true → ∀ it, rd2 pts it = none → rd2 pts' it = none) ∧
      (qpm = false → pts' = pts) := by
  obtain ⟨o', pts', h1, h2, h3, h4, h5, h6, h7, h8⟩ := dg_project_spec ho.inv s0 s1 hc hp
  refine ⟨o', pts', h1, fun c vol hvol r hr => ?_, fun hq it p hpp => ?_, h7, h8⟩
  · exact (dofIs_iff h4).mpr ⟨by rw [h2]; exact (List.getElem?_eq_some_iff.mp hvol).1, by omega,
      h5 c r vol hvol⟩
  · refine ⟨_, h6 hq it p hpp, rfl, by simp, fun r v hv => ?_⟩
    obtain ⟨hr, hv⟩ := List.getElem?_eq_some_iff.mp hv
    rw [List.getElem_map, List.getElem_range] at hv
    simp only [List.length_map, List.length_range] at hr
    have hlt : it.1 < pts.length := by
      unfold rd2 at hpp
      rw [Option.bind_eq_some_iff] at hpp
      obtain ⟨row, hrow, -⟩ := hpp
      exact (List.getElem?_eq_some_iff.mp hrow).1
    exact (dofIs_iff h4).mpr ⟨by rw [h2]; exact lt_of_lt_of_le hlt (hp hq).count, by omega, hv⟩

omit [DecidableEq K] in
theorem sum_cellSum (sel : List (Nat × Nat)) (f : Nat × Nat → K) (n : Nat) (h : ∀ it ∈ sel, it.1 < n) :
    ((List.range n).map fun c => cellSum sel c f).sum = (sel.map f).sum := by
  induction sel with
  | nil => simp [cellSum]
  | cons it sel ih =>
    have hcs : ∀ c, cellSum (it :: sel) c f = (if it.1 = c then f it else 0) + cellSum sel c f := by
      intro c
      unfold cellSum
      by_cases hc : it.1 = c
      · rw [List.filter_cons_of_pos (by simp [hc]), List.map_cons, List.sum_cons, if_pos hc]
      · rw [List.filter_cons_of_neg (by simp [hc]), if_neg hc, zero_add]
    simp only [hcs]
    rw [List.sum_map_add, ih fun i hi => h i (List.mem_cons_of_mem _ hi), List.map_cons, List.sum_cons]
    congr 1
    have hlt := h it List.mem_cons_self
    have : ∀ m, ((List.range m).map fun c => if it.1 = c then f it else 0).sum
        = if it.1 < m then f it else 0 := by
      intro m
      induction m with
      | zero => simp
      | succ m ihm =>
        rw [List.range_succ, List.map_append, List.sum_append, ihm]
        by_cases h1 : it.1 < m
        · rw [if_pos h1, if_pos (by omega)]
          simp [show it.1 ≠ m by omega]
        · by_cases h2 : it.1 = m
          · simp [h2]
          · rw [if_neg h1, if_neg (by omega)]
            simp [h2]
    rw [this, if_pos hlt]

/-- **C89, conservation.** The integral of the projected function over the mesh, the sum over the
cells of volume times value, is the sum of the values of the particles. -/
theorem C89_conserved {vols : List K} {qpm : Bool} {o o' : DgObj K} (ho : DgReach vols qpm o) (s0 s1 : Sched)
    {ncomp : Nat} {cells : List (List (List K))} {sel : List (Nat × Nat)}
    (hc : HasValues vols.length ncomp cells sel) {pts pts' : List (List (DgPoint K))}
    (hp : qpm = true → PointsOk vols.length ncomp pts)
    (h : o.project s0 s1 ncomp cells sel pts = some (o', pts')) {r : Nat} (hr : r < ncomp)
    {dof : Nat → K} (hdof : ∀ c < vols.length, DofIs o' c r (dof c)) :
    ((List.range vols.length).map fun c => (vols[c]?.getD 0) * dof c).sum
      = (sel.map (comp cells r)).sum := by
  obtain ⟨o1, pts1, h1, h2, -⟩ := C89_project ho s0 s1 hc hp
  rw [h1] at h
  cases h
  rw [← sum_cellSum sel (comp cells r) vols.length fun it hit => (hc.exist it hit).1]
  congr 1
  refine List.map_congr_left fun c hcm => ?_
  rw [List.mem_range] at hcm
  have hv := List.getElem?_eq_getElem hcm
  have e := (h2 c _ hv r hr).symm.trans (hdof c hcm)
  have hne : vols[c] ≠ 0 := ho.inv.ne _ (List.getElem_mem hcm)
  rw [hv, Option.getD_some, ← Option.some.inj e, mul_div_cancel₀ _ hne]

/-- **C89, reading.** The values of a function are given cell by cell, component by component; asking
for more components than there are is rejected. -/
theorem C89_get {vols : List K} {qpm : Bool} {o : DgObj K} (ho : DgReach vols qpm o) {ncomp : Nat}
    (hpos : 0 < ncomp) (hv : vols ≠ []) :
    ((∀ c < vols.length, ∀ r < ncomp, ∃ v, DofIs o c r v) → ∃ l, o.getDofs ncomp = some l ∧
      l.length = vols.length * ncomp ∧
      ∀ c < vols.length, ∀ r < ncomp, ∀ v, DofIs o c r v → l[c * ncomp + r]? = some v) ∧
    ((∃ r < ncomp, ∀ c v, ¬ DofIs o c r v) → o.getDofs ncomp = none) := by
  have hi := ho.inv
  have hn0 : 0 < vols.length := List.length_pos_iff.mpr hv
  refine ⟨fun hd => ?_, ?_⟩
  · obtain ⟨v, hv⟩ := hd 0 hn0 (ncomp - 1) (by omega)
    obtain ⟨-, hr, -⟩ := (dofIs_iff hi.ncol).mp hv
    refine ⟨_, dg_getDofs_spec hi.ncol hpos (by omega), by simp [List.length_flatMap, hi.ncells],
      fun c hc r hr v hv => ?_⟩
    rw [getElem?_flat (fun c r => o.tab.val c r 0) _ _ (by rw [hi.ncells]; exact hc) hr,
      ((dofIs_iff hi.ncol).mp hv).2.2]
  · rintro ⟨r, hr, h⟩
    have : ¬ ncomp ≤ o.tab.nrow := fun hle =>
      h 0 _ ((dofIs_iff hi.ncol).mpr ⟨by rw [hi.ncells]; exact hn0, by omega, rfl⟩)
    unfold DgObj.getDofs
    rw [if_pos (by omega), if_neg (by omega)]

/-- **C89, writing.** Setting the values of a function is defined when there are enough of them; the
function then has those values, zero in any further component it had, and reading gives them back.
With too few the call is rejected. -/
theorem C89_set {vols : List K} {qpm : Bool} {o : DgObj K} (ho : DgReach vols qpm o) {ncomp : Nat}
    (hpos : 0 < ncomp) (dofs : List K) :
    (vols.length * ncomp ≤ dofs.length → ∃ o', o.setDofs ncomp dofs = some o' ∧
      (∀ c < vols.length, ∀ r < ncomp, ∀ v, dofs[c * ncomp + r]? = some v → DofIs o' c r v) ∧
      (∀ c r v, ncomp ≤ r → DofIs o' c r v → v = 0) ∧
      o'.getDofs ncomp = some (dofs.take (vols.length * ncomp))) ∧
    (dofs.length < vols.length * ncomp → o.setDofs ncomp dofs = none) := by
  have hi := ho.inv
  refine ⟨fun hlen => ?_, fun hlt => ?_⟩
  · obtain ⟨o', h1, h2, h3, h4, h5⟩ := dg_setDofs_spec hi hpos hlen
    refine ⟨o', h1, fun c hc r hr v hv => ?_, fun c r v hr hd => ?_, ?_⟩
    · refine (dofIs_iff h4).mpr ⟨by rw [h2]; exact hc, by omega, ?_⟩
      rw [h5 c hc r (by omega), if_pos hr, hv, Option.getD_some]
    · obtain ⟨k1, k2, rfl⟩ := (dofIs_iff h4).mp hd
      rw [h5 c (by rw [← h2]; exact k1) r k2, if_neg (by omega)]
    · rw [dg_getDofs_spec h4 hpos h3, h2]
      congr 1
      refine flat_eq_take (fun c r => o'.tab.val c r 0) _ _ dofs hlen fun c hc r hr => ?_
      have hle : (c + 1) * ncomp ≤ vols.length * ncomp := Nat.mul_le_mul_right _ hc
      rw [Nat.succ_mul] at hle
      rw [h5 c hc r (by omega), if_pos hr, List.getElem?_eq_getElem (by omega), Option.getD_some]
  · have hc := (hi.check ncomp).1.ncells
    unfold DgObj.setDofs
    rw [if_pos (by omega), Int.toNat_natCast]
    simp only
    rw [if_neg (by rw [hc]; omega)]

/-- **C89, evaluation without points.** Where the function has the components asked for, each particle
gets the values of the cell it is in, the other particles keep theirs, and the function is
unchanged. -/
theorem C89_evaluate {vols : List K} {o : DgObj K} (ho : DgReach vols false o) (s0 s1 : Sched)
    {ncomp : Nat} (hd : ∀ c < vols.length, ∀ r < ncomp, ∃ v, DofIs o c r v)
    {cells : List (List (List K))} {sel : List (Nat × Nat)} (hc : HasValues vols.length ncomp cells sel)
    (pts : List (List (DgPoint K))) :
    ∃ o' cells', o.evaluate s0 s1 ncomp pts cells sel = some (o', cells') ∧
      (∀ it ∈ sel, ∃ p, rd2 cells' it = some p ∧ p.length = ncomp ∧
        ∀ r v, p[r]? = some v → DofIs o it.1 r v) ∧
      (∀ it, it ∉ sel → rd2 cells' it = rd2 cells it) ∧
      ∀ c < vols.length, ∀ r < ncomp, ∀ v, DofIs o' c r v ↔ DofIs o c r v := by
  have hi0 := ho.inv
  obtain ⟨hi, hn⟩ := hi0.check ncomp
  have hsame : vols ≠ [] → 0 < ncomp → o.checkNcomp ncomp = o := by
    intro hv h0
    obtain ⟨v, hv⟩ := hd 0 (List.length_pos_iff.mpr hv) (ncomp - 1) (by omega)
    obtain ⟨-, hr, -⟩ := (dofIs_iff hi0.ncol).mp hv
    unfold DgObj.checkNcomp
    rw [if_neg (by omega)]
  obtain ⟨cells', g1, g2, g3⟩ := dg_gather hi.ncells hi.ncol hn s1 hc
  unfold DgObj.evaluate
  simp only
  rw [if_neg (by rw [hi.qpmEq]; simp), Option.bind_some, g1, Option.map_some]
  refine ⟨_, _, rfl, fun it hit => ⟨_, g2 it hit, by simp, fun r v hv => ?_⟩, g3, fun c hcc r hr v => ?_⟩
  · obtain ⟨hr, hv⟩ := List.getElem?_eq_some_iff.mp hv
    rw [List.getElem_map, List.getElem_range] at hv
    simp only [List.length_map, List.length_range] at hr
    have hlt := (hc.exist it hit).1
    rw [hsame (by rintro rfl; simp at hlt) (by omega)] at hv hn
    exact (dofIs_iff hi0.ncol).mpr ⟨by rw [hi0.ncells]; exact hlt, by omega, hv⟩
  · rw [hsame (by rintro rfl; simp at hcc) (by omega)]

/-- **C89, evaluation with points.** With points, where each cell has at most one point with number
zero, each particle in a cell with such a point gets the values held by that point. -/
theorem C89_evaluate_points {vols : List K} {o : DgObj K} (ho : DgReach vols true o) (s0 s1 : Sched)
    {ncomp : Nat} {cells : List (List (List K))} {sel : List (Nat × Nat)}
    (hc : HasValues vols.length ncomp cells sel) {pts : List (List (DgPoint K))}
    (hp : PointsOk vols.length ncomp pts)
    (huniq : ∀ it it' p p', rd2 pts it = some p → rd2 pts it' = some p' → p.order = 0 → p'.order = 0 →
      it.1 = it'.1 → it = it') :
    ∃ o' cells', o.evaluate s0 s1 ncomp pts cells sel = some (o', cells') ∧
      (∀ it ∈ sel, ∀ ip p, rd2 pts ip = some p → ip.1 = it.1 → p.order = 0 → rd2 cells' it = some p.val) ∧
      (∀ it, it ∉ sel → rd2 cells' it = rd2 cells it) ∧
      ∀ ip p, rd2 pts ip = some p → p.order = 0 → ∀ r v, p.val[r]? = some v → DofIs o' ip.1 r v := by
  obtain ⟨hi, hn⟩ := ho.inv.check ncomp
  unfold DgObj.evaluate
  simp only
  have hsym : symOk ncomp = true := by unfold symOk; exact decide_eq_true ⟨hp.pos, hp.small⟩
  rw [if_pos hi.qpmEq, if_pos hsym]
  obtain ⟨t, h1, h2, h3, h4⟩ := dg_scatter hi.ncells hi.ncol hn s0 hp huniq
  rw [h1, Option.bind_some]
  have hnc : t.ncells = vols.length := h2.1.trans hi.ncells
  have hnr : ncomp ≤ t.nrow := by rw [h2.2.1]; exact hn
  have hncol : t.ncol = 1 := h2.2.2.trans hi.ncol
  obtain ⟨cells', g1, g2, g3⟩ := dg_gather hnc hncol hnr s1 hc
  rw [g1, Option.map_some]
  have hlenp : ∀ ip p, rd2 pts ip = some p → p.val.length = ncomp ∧ ip.1 < vols.length := by
    intro ip p hpp
    unfold rd2 at hpp
    rw [Option.bind_eq_some_iff] at hpp
    obtain ⟨row, hrow, hpr⟩ := hpp
    exact ⟨hp.comps row (List.mem_of_getElem? hrow) p (List.mem_of_getElem? hpr),
      lt_of_lt_of_le (List.getElem?_eq_some_iff.mp hrow).1 hp.count⟩
  refine ⟨_, _, rfl, fun it hit ip p hpp hcell hord => ?_, g3, fun ip p hpp hord r v hv => ?_⟩
  · rw [g2 it hit]
    congr 1
    have hl := (hlenp ip p hpp).1
    refine List.ext_getElem? fun r => ?_
    by_cases hr : r < ncomp
    · rw [← h3 ip p hpp hord r hr, hcell]
      simp [hr]
    · rw [List.getElem?_eq_none (by simp; omega), List.getElem?_eq_none (by omega)]
  · obtain ⟨hl, hlt⟩ := hlenp ip p hpp
    have hr : r < ncomp := by rw [← hl]; exact (List.getElem?_eq_some_iff.mp hv).1
    have := h3 ip p hpp hord r hr
    rw [hv] at this
    exact (dofIs_iff (o := { o.checkNcomp ncomp with tab := t }) hncol).mpr
      ⟨by show ip.1 < t.ncells; rw [hnc]; exact hlt, by show r < t.nrow; omega, Option.some.inj this⟩

/-- **C89, projection then evaluation.** Without points, projecting and then evaluating gives each
particle the sum over its cell divided by the volume. -/
theorem C89_round_trip {vols : List K} {o : DgObj K} (ho : DgReach vols false o) (s0 s1 s2 s3 : Sched)
    {ncomp : Nat} {cells cells2 : List (List (List K))} {sel sel2 : List (Nat × Nat)}
    (hc : HasValues vols.length ncomp cells sel) (hc2 : HasValues vols.length ncomp cells2 sel2)
    (pts : List (List (DgPoint K))) :
    ∃ o1 pts1 o2 cells', o.project s0 s1 ncomp cells sel pts = some (o1, pts1) ∧
      o1.evaluate s2 s3 ncomp pts1 cells2 sel2 = some (o2, cells') ∧
      (∀ it, it ∉ sel2 → rd2 cells' it = rd2 cells2 it) ∧
      ∀ it ∈ sel2, ∀ vol, vols[it.1]? = some vol → ∃ p, rd2 cells' it = some p ∧ p.length = ncomp ∧
        ∀ r v, p[r]? = some v → v = cellSum sel it.1 (comp cells r) / vol := by
  obtain ⟨o1, pts1, h1, h2, -⟩ := C89_project ho s0 s1 hc (pts := pts) (by simp)
  obtain ⟨o2, cells', g1, g2, g3, -⟩ := C89_evaluate (DgReach.project ho h1) s2 s3
    (fun c hcc r hr => ⟨_, h2 c _ (List.getElem?_eq_getElem hcc) r hr⟩) hc2 pts1
  refine ⟨o1, pts1, o2, cells', h1, g1, g3, fun it hit vol hvol => ?_⟩
  obtain ⟨p, k1, k2, k3⟩ := g2 it hit
  refine ⟨p, k1, k2, fun r v hv => ?_⟩
  have hr : r < ncomp := by rw [← k2]; exact (List.getElem?_eq_some_iff.mp hv).1
  exact Option.some.inj ((k3 r v hv).symm.trans (h2 it.1 vol hvol r hr))

/-- **C89, output.** The values written to a file are those of component zero, cell by cell. -/
theorem C89_output {vols : List K} {qpm : Bool} {o : DgObj K} (ho : DgReach vols qpm o) :
    ∃ l, o.vtk = some l ∧ l.length = vols.length ∧ ∀ c v, l[c]? = some v → DofIs o c 0 v := by
  have hi := ho.inv
  have h : o.vtk = some ((List.range o.tab.ncells).map fun c => o.tab.val c 0 0) := by
    unfold DgObj.vtk
    refine mapM_of_forall fun c hc => ?_
    rw [List.mem_range] at hc
    exact CellTab.at_eq hc hi.nrow (by rw [hi.ncol]; exact Nat.one_pos)
  refine ⟨_, h, by simp [hi.ncells], fun c v hv => ?_⟩
  obtain ⟨hc, hv⟩ := List.getElem?_eq_some_iff.mp hv
  simp only [List.length_map, List.length_range] at hc
  rw [List.getElem_map, List.getElem_range] at hv
  exact (dofIs_iff hi.ncol).mpr ⟨hc, hi.nrow, hv⟩

/-- **C89, construction.** An object is created exactly for functions of order zero named DG on two
dimensional meshes whose cells have volume; the function is zero and has one component. -/
theorem C89_new (space : String) (order : Int) (ndim : Nat) (vols : List K) (qpm : Bool) :
    ((∃ o, dgNew space order ndim vols qpm = some o) ↔
      space = "DG" ∧ order = 0 ∧ ndim = 2 ∧ ∀ v ∈ vols, v ≠ 0) ∧
    ∀ o, dgNew space order ndim vols qpm = some o →
      ∀ c r v, DofIs o c r v ↔ c < vols.length ∧ r = 0 ∧ v = 0 := by
  refine ⟨⟨?_, ?_⟩, ?_⟩
  · rintro ⟨o, h⟩
    refine ⟨?_, ?_, ?_, (dgNew_inv h).ne⟩ <;>
    · unfold dgNew at h
      split at h
      · rename_i hc
        first
        | exact hc.1
        | exact le_antisymm hc.2.1.2 hc.2.1.1
        | exact hc.2.2
      · cases h
  · rintro ⟨rfl, rfl, rfl, h⟩
    unfold dgNew
    rw [if_pos ⟨rfl, ⟨le_refl _, le_refl _⟩, rfl⟩,
      mapM_of_forall (g := fun v : K => 1 / v) (fun v hv => by unfold kinv; rw [if_neg (h v hv)]),
      Option.map_some]
    exact ⟨_, rfl⟩
  · intro o h c r v
    have hi := dgNew_inv h
    unfold dgNew at h
    split at h
    · rw [Option.map_eq_some_iff] at h
      obtain ⟨iv, -, rfl⟩ := h
      rw [dofIs_iff hi.ncol]
      show (c < vols.length ∧ r < 1 ∧ (0 : K) = v) ↔ _
      constructor
      · rintro ⟨a, b, rfl⟩; exact ⟨a, by omega, rfl⟩
      · rintro ⟨a, b, rfl⟩; exact ⟨a, by omega, rfl⟩
    · cases h

/-- **C89, counterexample.** Evaluating more components than the function has does not fail and does
not keep the components there are: without points the function is replaced by zero in every
component and each particle gets zeros. -/
theorem C89_lost {vols : List K} {o : DgObj K} (ho : DgReach vols false o) (s0 s1 : Sched)
    {ncomp r0 : Nat} (hr0 : r0 < ncomp) (hv : vols ≠ []) (hd : ∀ c v, ¬ DofIs o c r0 v)
    {cells : List (List (List K))} {sel : List (Nat × Nat)} (hc : HasValues vols.length ncomp cells sel)
    (pts : List (List (DgPoint K))) :
    ∃ o' cells', o.evaluate s0 s1 ncomp pts cells sel = some (o', cells') ∧
      (∀ c r v, DofIs o' c r v → v = 0) ∧
      ∀ it ∈ sel, rd2 cells' it = some (List.replicate ncomp 0) := by
  have hi0 := ho.inv
  have hlt : o.tab.nrow < ncomp := by
    by_contra hge
    exact hd 0 _ ((dofIs_iff hi0.ncol).mpr
      ⟨by rw [hi0.ncells]; exact List.length_pos_iff.mpr hv, by omega, rfl⟩)
  obtain ⟨hi, hn⟩ := hi0.check ncomp
  obtain ⟨cells', g1, g2, g3⟩ := dg_gather hi.ncells hi.ncol hn s1 hc
  have hz : ∀ c r k, (o.checkNcomp ncomp).tab.val c r k = 0 := by
    intro c r k
    unfold DgObj.checkNcomp
    rw [if_pos hlt]
    rfl
  unfold DgObj.evaluate
  simp only
  rw [if_neg (by rw [hi.qpmEq]; simp), Option.bind_some, g1, Option.map_some]
  refine ⟨_, _, rfl, fun c r v hdv => ?_, fun it hit => ?_⟩
  · obtain ⟨-, -, rfl⟩ := (dofIs_iff (o := { o.checkNcomp ncomp with tab := (o.checkNcomp ncomp).tab })
      hi.ncol).mp hdv
    exact hz _ _ _
  · rw [g2 it hit]
    simp only [hz]
    rw [List.map_const', List.length_range]

end NP

/-! ## Examples -/

namespace NP.Ex

open NP NP.Spec

/-- Two cells, of volume 2 and 4. -/
def dgVols : List ℚ := [2, 4]

/-- Three particles, two in the first cell. -/
def dgCells : List (List (List ℚ)) := [[[1, 10], [3, 30]], [[8, 80]]]

def dgSel : List (Nat × Nat) := [(0, 0), (0, 1), (1, 0)]

/-- Two points in the first cell and one in the second. -/
def dgPts : List (List (DgPoint ℚ)) := [[⟨1, [0, 0]⟩, ⟨0, [0, 0]⟩], [⟨0, [0, 0]⟩]]

def dgObj (qpm : Bool) : DgObj ℚ := ⟨CellTab.filled 0 2 1 1, [1 / 2, 1 / 4], qpm⟩

theorem dgObj_reach (qpm : Bool) : DgReach dgVols qpm (dgObj qpm) := by
  refine .new (space := "DG") (order := 0) (ndim := 2) ?_
  unfold dgNew
  rw [if_pos (by decide), show dgVols.mapM kinv = some [1 / 2, 1 / 4] by decide +kernel]
  rfl

theorem dg_values : HasValues dgVols.length 2 dgCells dgSel :=
  ⟨by decide, fun it hit => by
    simp only [dgSel, List.mem_cons, List.not_mem_nil, or_false] at hit
    rcases hit with rfl | rfl | rfl
    · exact ⟨by decide, [1, 10], by decide +kernel, rfl⟩
    · exact ⟨by decide, [3, 30], by decide +kernel, rfl⟩
    · exact ⟨by decide, [8, 80], by decide +kernel, rfl⟩⟩

theorem dg_points : PointsOk dgVols.length 2 dgPts :=
  ⟨by decide, by decide +kernel, by decide, by decide⟩

/-- The hypotheses of `C89_project` hold with and without points, and the values are as expected. -/
example (qpm : Bool) : ∃ o' pts', (dgObj qpm).project Sched.reversed Sched.inOrder 2 dgCells dgSel dgPts
    = some (o', pts') ∧ DofIs o' 0 0 2 ∧ DofIs o' 0 1 20 ∧ DofIs o' 1 0 2 ∧ DofIs o' 1 1 20 := by
  obtain ⟨o', pts', h1, h2, -⟩ := C89_project (dgObj_reach qpm) Sched.reversed Sched.inOrder dg_values
    (pts := dgPts) fun _ => dg_points
  refine ⟨o', pts', h1, ?_, ?_, ?_, ?_⟩
  · simpa only [show cellSum dgSel 0 (comp dgCells 0) / 2 = (2 : ℚ) by decide +kernel] using
      h2 0 2 rfl 0 (by decide)
  · simpa only [show cellSum dgSel 0 (comp dgCells 1) / 2 = (20 : ℚ) by decide +kernel] using
      h2 0 2 rfl 1 (by decide)
  · simpa only [show cellSum dgSel 1 (comp dgCells 0) / 4 = (2 : ℚ) by decide +kernel] using
      h2 1 4 rfl 0 (by decide)
  · simpa only [show cellSum dgSel 1 (comp dgCells 1) / 4 = (20 : ℚ) by decide +kernel] using
      h2 1 4 rfl 1 (by decide)

/-- The projection with points, run. -/
example : ((dgObj true).project Sched.reversed Sched.reversed 2 dgCells dgSel dgPts).map Prod.snd
    = some [[⟨1, [2, 20]⟩, ⟨0, [2, 20]⟩], [⟨0, [2, 20]⟩]] := by decide +kernel

/-- Setting values, one component, and reading them back. -/
example : ((dgObj false).setDofs 1 [5, 7, 9]).bind (fun o => o.getDofs 1) = some [5, 7] := by
  decide +kernel

/-- Setting two values where two components need four. -/
example : (dgObj false).setDofs 2 [5, 7, 9] = none := (C89_set (dgObj_reach false) (by decide) _).2 (by decide)

/-- Evaluation without points. -/
example : ((dgObj false).setDofs 2 [5, 7, 9, 11]).bind (fun o =>
    (o.evaluate Sched.inOrder Sched.reversed 2 [] dgCells [(0, 1), (1, 0)]).map Prod.snd)
    = some [[[1, 10], [5, 7]], [[9, 11]]] := by decide +kernel

/-- Evaluation with points takes the point with number zero. -/
example : ((dgObj true).evaluate Sched.inOrder Sched.inOrder 2
    [[⟨1, [5, 6]⟩, ⟨0, [7, 8]⟩], [⟨0, [9, 10]⟩]] dgCells dgSel).map Prod.snd
    = some [[[7, 8], [7, 8]], [[9, 10]]] := by decide +kernel

/-- The points of that case have one point with number zero in each cell. -/
example : ∀ it ∈ allItems dgPts, ∀ it' ∈ allItems dgPts, it.1 = it'.1 →
    (rd2 dgPts it).map DgPoint.order = some 0 → (rd2 dgPts it').map DgPoint.order = some 0 → it = it' := by
  decide +kernel

/-- A function with the values 5 and 7 is lost when two components are evaluated. -/
example : ((dgObj false).setDofs 1 [5, 7]).bind (fun o =>
    (o.evaluate Sched.inOrder Sched.inOrder 2 [] dgCells dgSel).bind fun x => x.1.getDofs 1)
    = some [0, 0] := by decide +kernel

/-- With points, a cell without a point with number zero gives what was there before: here the
values set earlier and not those held by the only point of the cell. -/
example : ((dgObj true).setDofs 2 [5, 6, 7, 8]).bind (fun o =>
    (o.evaluate Sched.inOrder Sched.inOrder 2 [[⟨1, [1, 2]⟩], [⟨0, [3, 4]⟩]] dgCells dgSel).map Prod.snd)
    = some [[[5, 6], [5, 6]], [[3, 4]]] := by decide +kernel

end NP.Ex
