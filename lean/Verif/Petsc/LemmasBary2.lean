import Verif.Petsc.LemmasBary

/-!
# Lemmas: the constructor
-/

set_option autoImplicit false

namespace NP

open Spec Finset

theorem numbered_iff {n : Nat} {q : Int} : numbered n q = true ↔ 0 ≤ q ∧ q < n := by
  unfold numbered
  rw [decide_eq_true_iff]
  omega

theorem forLoop_unit {n : Nat} {f : Nat → Option Unit} :
    forLoop 0 n (fun i _ => f i) () = some () ↔ ∀ i < n, f i = some () := by
  constructor
  · intro h
    have := forLoop_partial (n := n) (step := fun i (_ : Unit) => f i)
      (fun i _ => ∀ j < i, f j = some ()) (s := ()) (s' := ()) (by
        intro i _ _ hi hs hp j hj
        by_cases hji : j = i
        · rw [hji]; exact hs
        · exact hp j (by omega)) (by omega) h
    exact this
  · intro h
    obtain ⟨⟨⟩, h1, -⟩ := forLoop_invariant (a := 0) (b := n) (s := ()) (step := fun i (_ : Unit) => f i)
      (P := fun _ _ => True) (Nat.zero_le _) (fun i _ _ hi _ => ⟨(), h i hi, trivial⟩) trivial
    exact h1

theorem cellSum_ind (items : List (Nat × Nat)) (c : Nat) (P : Nat × Nat → Bool) :
    cellSum items c (fun it => if P it then (1 : ℤ) else 0) =
      ((items.filter fun it => decide (it.1 = c) && P it).length : ℤ) := by
  induction items with
  | nil => simp [cellSum]
  | cons it items ih =>
    unfold cellSum at ih ⊢
    by_cases h1 : it.1 = c
    · rw [List.filter_cons_of_pos (by simp [h1]), List.map_cons, List.sum_cons, ih]
      by_cases h2 : P it
      · rw [List.filter_cons_of_pos (by simp [h1, h2]), if_pos h2, List.length_cons]
        push_cast
        ring
      · rw [List.filter_cons_of_neg (by simp [h2]), if_neg h2, zero_add]
    · rw [List.filter_cons_of_neg (by simp [h1]), List.filter_cons_of_neg (by simp [h1]), ih]

theorem length_one_iff {α : Type} {l : List α} (hnd : l.Nodup) (P : α → Bool) :
    (l.filter P).length = 1 ↔ ∃! x, x ∈ l ∧ P x = true := by
  constructor
  · intro h
    obtain ⟨x, hx⟩ := List.length_eq_one_iff.mp h
    refine ⟨x, ?_, fun y hy => ?_⟩
    · have : x ∈ l.filter P := by rw [hx]; simp
      exact List.mem_filter.mp this
    · have : y ∈ l.filter P := List.mem_filter.mpr hy
      rw [hx] at this
      exact List.mem_singleton.mp this
  · rintro ⟨x, hx, hu⟩
    have hnd' := hnd.filter P
    have hmem : ∀ y, y ∈ l.filter P ↔ y = x := by
      intro y
      rw [List.mem_filter]
      exact ⟨hu y, fun h => h ▸ hx⟩
    rcases h : l.filter P with _ | ⟨a, _ | ⟨b, t⟩⟩
    · have := (hmem x).mpr rfl
      rw [h] at this
      cases this
    · rfl
    · have ha := (hmem a).mp (by rw [h]; simp)
      have hb := (hmem b).mp (by rw [h]; simp)
      rw [h, ha, hb] at hnd'
      simp at hnd'

theorem cellSum_sum {K : Type} [AddCommMonoid K] (items : List (Nat × Nat)) (c n : Nat)
    (f : Nat → Nat × Nat → K) :
    cellSum items c (fun it => ∑ i ∈ range n, f i it) = ∑ i ∈ range n, cellSum items c (f i) := by
  induction n with
  | zero => simp [cellSum]
  | succ n ih =>
    rw [sum_range_succ, ← ih]
    simp only [cellSum, sum_range_succ]
    rw [List.sum_map_add]

/-- The number of a point, with a value no point can have for a place without a point. -/
def orderAt (pts : List (List BPoint)) (it : Nat × Nat) : Int := ((rd2 pts it).map BPoint.order).getD (-1)

theorem baryCount_spec (s : Sched) {verts : List (List (ℝ × ℝ))} {pts : List (List BPoint)}
    (hsz : ∀ vs ∈ verts, vs.length < 5) (hv : ∀ ip p, rd2 pts ip = some p → ip.1 < verts.length) :
    ∃ t, baryCount s verts pts = some t ∧ t.ncells = verts.length ∧ t.nrow = 5 ∧ t.ncol = 1 ∧
      ∀ c vs, verts[c]? = some vs →
        t.val c 0 0 = cellSum (allItems pts) c (fun it =>
          if decide (0 ≤ orderAt pts it ∧ orderAt pts it < vs.length) then (1 : ℤ) else 0) ∧
        ∀ i < vs.length, t.val c (i + 1) 0 = cellSum (allItems pts) c (fun it =>
          if decide (orderAt pts it = i) then (1 : ℤ) else 0) := by
  obtain ⟨t, h1, h2, h3⟩ := loopTab_sum s (t := CellTab.filled 0 verts.length 5 1) (sel := allItems pts)
    (cells := pts)
    (f := fun c p t => (rd verts c).bind fun vs =>
      if numbered vs.length p.order then
        (CellTab.add t c 0 0 1).bind fun t => t.add c (p.order + 1).toNat 0 1
      else some t)
    (fun it r k => if 0 ≤ orderAt pts it ∧ orderAt pts it < (verts[it.1]?.getD []).length then
      (if r = 0 ∧ k = 0 then (1 : ℤ) else 0) + (if r = (orderAt pts it + 1).toNat ∧ k = 0 then 1 else 0) else 0)
    (by
      intro it hit
      obtain ⟨p, hp⟩ := mem_allItems.mp hit
      have hlt := hv it p hp
      have ho : orderAt pts it = p.order := by simp only [orderAt, hp, Option.map_some, Option.getD_some]
      refine ⟨p, hp, fun t' hs => ?_⟩
      simp only [rd, List.getElem?_eq_getElem hlt, Option.bind_some, ho, Option.getD_some]
      have hl5 := hsz _ (List.getElem_mem hlt)
      by_cases hn : numbered verts[it.1].length p.order = true
      · rw [if_pos hn]
        have hn' := numbered_iff.mp hn
        simp only [hn', and_self, if_true]
        have d1 : it.1 < t'.ncells := by rw [hs.1]; exact hlt
        have d2 : t'.nrow = 5 := hs.2.1
        have d3 : t'.ncol = 1 := hs.2.2
        obtain ⟨t1, a1, a2, a3⟩ := CellTab.add_eq (t := t') (c := it.1) (r := 0) (k := 0) (1 : ℤ) d1
          (by omega) (by omega)
        obtain ⟨t2, b1, b2, b3⟩ := CellTab.add_eq (t := t1) (c := it.1) (r := (p.order + 1).toNat) (k := 0)
          (1 : ℤ) (by rw [a2.1]; exact d1) (by rw [a2.2.1, d2]; omega) (by rw [a2.2.2, d3]; omega)
        refine ⟨t2, by rw [a1, Option.bind_some, b1], a2.trans b2, fun c r k => ?_⟩
        rw [b3, a3]
        simp only [a3]
        by_cases hcc : c = it.1
        · subst hcc
          by_cases hk : k = 0
          · subst hk
            by_cases hr : r = (p.order + 1).toNat
            · have hr0 : r ≠ 0 := by omega
              have hr0' : (p.order + 1).toNat ≠ 0 := by omega
              simp [← hr, hr0]
            · simp only [hr, true_and, and_true, false_and, and_false, if_false, if_true, add_zero]
              by_cases h0 : r = 0
              · simp [h0]
              · simp [h0]
          · simp [hk]
        · simp [hcc]
      · rw [if_neg hn]
        have hn' : ¬ (0 ≤ p.order ∧ p.order < (verts[it.1].length : ℤ)) := fun h => hn (numbered_iff.mpr h)
        refine ⟨t', rfl, CellTab.Same.refl _, fun c r k => ?_⟩
        rw [if_neg hn']
        simp)
  refine ⟨t, h1, h2.1, h2.2.1, h2.2.2, fun c vs hvs => ⟨?_, fun i hi => ?_⟩⟩
  · rw [h3]
    show (0 : ℤ) + _ = _
    rw [zero_add]
    unfold cellSum
    congr 1
    refine List.map_congr_left fun it hit => ?_
    have hc : it.1 = c := by simpa using (List.mem_filter.mp hit).2
    simp only [hc, hvs, Option.getD_some, and_self, if_true, decide_eq_true_eq, and_true]
    by_cases h : 0 ≤ orderAt pts it ∧ orderAt pts it < vs.length
    · rw [if_pos h, if_pos h, if_neg (by omega), add_zero]
    · rw [if_neg h, if_neg h]
  · rw [h3]
    show (0 : ℤ) + _ = _
    rw [zero_add]
    unfold cellSum
    congr 1
    refine List.map_congr_left fun it hit => ?_
    have hc : it.1 = c := by simpa using (List.mem_filter.mp hit).2
    simp only [hc, hvs, Option.getD_some, decide_eq_true_eq, and_true]
    by_cases h : orderAt pts it = i
    · rw [if_pos h, if_pos (by omega), if_neg (by omega), if_pos (by omega), zero_add]
    · rw [if_neg h]
      by_cases h2 : 0 ≤ orderAt pts it ∧ orderAt pts it < vs.length
      · rw [if_pos h2, if_neg (by omega), if_neg (by omega), zero_add]
      · rw [if_neg h2]

theorem oneEach_iff {pts : List (List BPoint)} {c i : Nat} :
    (∃! ip : Nat × Nat, ip.1 = c ∧ ∃ p, rd2 pts ip = some p ∧ p.order = i) ↔
      cellSum (allItems pts) c (fun it => if decide (orderAt pts it = i) then (1 : ℤ) else 0) = 1 := by
  rw [cellSum_ind, Nat.cast_eq_one, length_one_iff (allItems_nodup pts)]
  have : ∀ ip : Nat × Nat, (ip.1 = c ∧ ∃ p, rd2 pts ip = some p ∧ p.order = i) ↔
      (ip ∈ allItems pts ∧ (decide (ip.1 = c) && decide (orderAt pts ip = i)) = true) := by
    intro ip
    rw [Bool.and_eq_true, decide_eq_true_iff, decide_eq_true_iff, mem_allItems]
    constructor
    · rintro ⟨h1, p, h2, h3⟩
      exact ⟨⟨p, h2⟩, h1, by simp only [orderAt, h2, Option.map_some, Option.getD_some, h3]⟩
    · rintro ⟨⟨p, h2⟩, h1, h3⟩
      simp only [orderAt, h2, Option.map_some, Option.getD_some] at h3
      exact ⟨h1, p, h2, h3⟩
  exact existsUnique_congr this

/-- The check passes exactly if each cell has one point for each number. -/
theorem baryCheck_iff (s : Sched) {verts : List (List (ℝ × ℝ))} {pts : List (List BPoint)}
    (hsz : ∀ vs ∈ verts, vs.length < 5) (hv : ∀ ip p, rd2 pts ip = some p → ip.1 < verts.length) :
    ((baryCount s verts pts).bind fun t => baryCheck verts t) = some () ↔
      ∀ c vs, verts[c]? = some vs → OneEach pts c vs.length := by
  obtain ⟨t, h1, h2, h3, h4, h5⟩ := baryCount_spec s hsz hv
  rw [h1, Option.bind_some]
  unfold baryCheck
  rw [forLoop_unit]
  have cellIff : ∀ c vs, verts[c]? = some vs →
      (((rd verts c).bind fun vs => (t.at c 0 0).bind fun n => if n = (vs.length : Int) then
        forLoop 0 vs.length (fun vx _ => (t.at c (vx + 1) 0).bind fun m =>
          if m = 1 then some () else none) () else none) = some () ↔ OneEach pts c vs.length) := by
    intro c vs hvs
    have hc : c < t.ncells := by rw [h2]; exact (List.getElem?_eq_some_iff.mp hvs).1
    have hl5 := hsz vs (List.mem_of_getElem? hvs)
    obtain ⟨k1, k2⟩ := h5 c vs hvs
    simp only [rd, hvs, Option.bind_some, CellTab.at_eq hc (show 0 < t.nrow by omega) (show 0 < t.ncol by omega)]
    have inner : forLoop 0 vs.length (fun vx _ => (t.at c (vx + 1) 0).bind fun m =>
          if m = 1 then some () else none) () = some () ↔ OneEach pts c vs.length := by
      rw [forLoop_unit]
      refine forall₂_congr fun i hi => ?_
      rw [CellTab.at_eq hc (by omega) (by omega), Option.bind_some, oneEach_iff, ← k2 i hi]
      split
      · rename_i h; simp [h]
      · rename_i h; simp [h]
    constructor
    · intro h
      split at h
      · exact inner.mp h
      · cases h
    · intro h
      rw [if_pos ?_, inner.mpr h]
      rw [k1]
      have hsum : cellSum (allItems pts) c (fun it => ∑ i ∈ range vs.length,
          if decide (orderAt pts it = i) then (1 : ℤ) else 0) = vs.length := by
        rw [cellSum_sum]
        rw [sum_congr rfl fun i hi => oneEach_iff.mp (h i (mem_range.mp hi))]
        simp
      refine Eq.trans ?_ hsum
      unfold cellSum
      congr 1
      refine List.map_congr_left fun it _ => ?_
      simp only [decide_eq_true_eq]
      by_cases ho : 0 ≤ orderAt pts it ∧ orderAt pts it < vs.length
      · rw [if_pos ho, sum_eq_single (orderAt pts it).toNat]
        · rw [if_pos (by omega)]
        · intro b _ hb
          rw [if_neg (by omega)]
        · intro hn
          exact absurd (mem_range.mpr (by omega)) hn
      · rw [if_neg ho]
        refine (sum_eq_zero fun i hi => ?_).symm
        have := mem_range.mp hi
        rw [if_neg (by omega)]
  constructor
  · intro h c vs hvs
    exact (cellIff c vs hvs).mp (h c (List.getElem?_eq_some_iff.mp hvs).1)
  · intro h c hc
    exact (cellIff c _ (List.getElem?_eq_getElem hc)).mpr (h c _ (List.getElem?_eq_getElem hc))

/-- The matrices of weights. -/
theorem baryFill_spec (s : Sched) {verts : List (List (ℝ × ℝ))} {pts : List (List BPoint)}
    (hsz : ∀ vs ∈ verts, vs.length < 5)
    (hw : ∀ ip p, rd2 pts ip = some p → ∃ vs, verts[ip.1]? = some vs ∧ p.w.length = vs.length)
    (huniq : ∀ ip ip' p p' vs, rd2 pts ip = some p → rd2 pts ip' = some p' → ip.1 = ip'.1 →
      verts[ip.1]? = some vs → 0 ≤ p.order → p.order < vs.length → p.order = p'.order → ip = ip') :
    ∃ t, baryFill s verts pts = some t ∧ t.ncells = verts.length ∧ t.nrow = 4 ∧ t.ncol = 4 ∧
      ∀ ip p vs, rd2 pts ip = some p → verts[ip.1]? = some vs → 0 ≤ p.order → p.order < vs.length →
        ∀ v < vs.length, t.val ip.1 p.order.toNat v = ent p.w v := by
  have hperm := s.perm (allItems pts)
  unfold baryFill
  obtain ⟨t', h1, h2, h3⟩ := runItems_invariant
    (step := fun it (t : CellTab ℝ) => (rd2 pts it).bind fun p => (rd verts it.1).bind fun vs =>
      if numbered vs.length p.order then
        forLoop 0 vs.length (fun vx t => (rd p.w vx).bind fun lx => t.put it.1 p.order.toNat vx lx) t
      else some t) (items := s.order (allItems pts)) (s := CellTab.filled (-100) verts.length 4 4)
    (P := fun done t' => (CellTab.filled (-100 : ℝ) verts.length 4 4).Same t' ∧
      ∀ ip ∈ done, ∀ p vs, rd2 pts ip = some p → verts[ip.1]? = some vs → 0 ≤ p.order →
        p.order < vs.length → ∀ v < vs.length, t'.val ip.1 p.order.toNat v = ent p.w v) (by
    rintro pre it post t1 hs ⟨k1, k2⟩
    have hmem : it ∈ allItems pts := hperm.mem_iff.mp (by rw [hs]; simp)
    obtain ⟨p, hpp⟩ := mem_allItems.mp hmem
    obtain ⟨vs, hvs, hlen⟩ := hw it p hpp
    have hlt := (List.getElem?_eq_some_iff.mp hvs).1
    have hl5 := hsz vs (List.mem_of_getElem? hvs)
    simp only [hpp, rd, hvs, Option.bind_some]
    by_cases hn : numbered vs.length p.order = true
    · rw [if_pos hn]
      have hn' := numbered_iff.mp hn
      obtain ⟨t2, m1, m2, m3, m4⟩ := forLoop_invariant (a := 0) (b := vs.length) (s := t1)
        (step := fun vx t => (p.w[vx]?).bind fun lx => CellTab.put t it.1 p.order.toNat vx lx)
        (P := fun i t' => t1.Same t' ∧ (∀ v < i, t'.val it.1 p.order.toNat v = ent p.w v) ∧
          ∀ c r k, ¬ (c = it.1 ∧ r = p.order.toNat) → t'.val c r k = t1.val c r k) (Nat.zero_le _) (by
        rintro i t2 - hi ⟨a1, a2, a3⟩
        obtain ⟨t3, b1, b2, b3⟩ := CellTab.put_eq (t := t2) (c := it.1) (r := p.order.toNat) (k := i)
          (ent p.w i) (by rw [a1.1, k1.1]; exact hlt)
          (by rw [a1.2.1, k1.2.1]; show p.order.toNat < 4; omega)
          (by rw [a1.2.2, k1.2.2]; show i < 4; omega)
        have hr := rd_ent (l := p.w) (i := i) (by omega)
        simp only [rd] at hr
        refine ⟨t3, by rw [hr, Option.bind_some, b1], a1.trans b2, fun v hv => ?_, fun c r k hc => ?_⟩
        · rw [b3]
          by_cases hvi : v = i
          · subst hvi
            rw [if_pos ⟨rfl, rfl, rfl⟩]
          · rw [if_neg (fun h => hvi h.2.2)]
            exact a2 v (by omega)
        · rw [b3, if_neg (fun h => hc ⟨h.1, h.2.1⟩), a3 c r k hc])
        ⟨CellTab.Same.refl _, by omega, fun _ _ _ _ => rfl⟩
      refine ⟨t2, m1, k1.trans m2, fun ip hip p' vs' hp' hvs' ho1 ho2 v hv => ?_⟩
      by_cases hii : ip.1 = it.1 ∧ p'.order.toNat = p.order.toNat
      · have hie := huniq ip it p' p vs' hp' hpp hii.1 hvs' ho1 ho2 (by omega)
        subst hie
        rw [hpp] at hp'
        cases hp'
        rw [hvs] at hvs'
        cases hvs'
        exact m3 v hv
      · rw [m4 _ _ _ hii]
        rcases List.mem_append.mp hip with hm | hm
        · exact k2 ip hm p' vs' hp' hvs' ho1 ho2 v hv
        · rw [List.mem_singleton] at hm
          subst hm
          rw [hpp] at hp'
          cases hp'
          exact absurd ⟨rfl, rfl⟩ hii
    · rw [if_neg hn]
      refine ⟨t1, rfl, k1, fun ip hip p' vs' hp' hvs' ho1 ho2 v hv => ?_⟩
      rcases List.mem_append.mp hip with hm | hm
      · exact k2 ip hm p' vs' hp' hvs' ho1 ho2 v hv
      · rw [List.mem_singleton] at hm
        subst hm
        rw [hpp] at hp'
        cases hp'
        rw [hvs] at hvs'
        cases hvs'
        exact absurd (numbered_iff.mpr ⟨ho1, ho2⟩) hn) ⟨CellTab.Same.refl _, by simp⟩
  exact ⟨t', h1, h2.1, h2.2.1, h2.2.2, fun ip p vs hp =>
    h3 ip (hperm.mem_iff.mpr (mem_allItems.mpr ⟨p, hp⟩)) p vs hp⟩

/-- The part of the constructor that inverts the matrix of a cell. -/
noncomputable def invertCell (solve : Nat → List ℝ → List ℝ → Option (List ℝ)) (verts : List (List (ℝ × ℝ)))
    (c : Nat) (t : CellTab ℝ) : Option (CellTab ℝ) :=
  (rd verts c).bind fun vs =>
    ((List.range vs.length).mapM fun rx => (List.range vs.length).mapM fun cx => (t.at c rx cx).bind fun v =>
      if v ≠ -100 then some (max 0 (min 1 v)) else none).bind fun L =>
    (invertMatrix solve vs.length L.flatten).bind fun M =>
    forLoop 0 vs.length (fun rx t => forLoop 0 vs.length (fun cx t => (rd M (rx * vs.length + cx)).bind fun v =>
      t.put c rx cx v) t) t

theorem putGrid_spec {t : CellTab ℝ} {c n : Nat} (hc : c < t.ncells) (hr : n ≤ t.nrow) (hk : n ≤ t.ncol)
    {M : List ℝ} (hM : M.length = n * n) :
    ∃ t', forLoop 0 n (fun rx t => forLoop 0 n (fun cx t => (rd M (rx * n + cx)).bind fun v =>
      CellTab.put t c rx cx v) t) t = some t' ∧ t.Same t' ∧
      (∀ i < n, ∀ j < n, t'.val c i j = ent M (i * n + j)) ∧
      ∀ c' r k, c' ≠ c → t'.val c' r k = t.val c' r k := by
  obtain ⟨t', h1, h2, h3, h4⟩ := forLoop_invariant (a := 0) (b := n) (s := t)
    (step := fun rx t => forLoop 0 n (fun cx t => (rd M (rx * n + cx)).bind fun v =>
      CellTab.put t c rx cx v) t)
    (P := fun a t' => t.Same t' ∧ (∀ i < a, ∀ j < n, t'.val c i j = ent M (i * n + j)) ∧
      ∀ c' r k, c' ≠ c → t'.val c' r k = t.val c' r k) (Nat.zero_le _) (by
    rintro a t1 - ha ⟨k1, k2, k3⟩
    obtain ⟨t2, m1, m2, m3, m4, m5⟩ := forLoop_invariant (a := 0) (b := n) (s := t1)
      (step := fun cx t => (rd M (a * n + cx)).bind fun v => CellTab.put t c a cx v)
      (P := fun b t' => t1.Same t' ∧ (∀ j < b, t'.val c a j = ent M (a * n + j)) ∧
        (∀ i < a, ∀ j, t'.val c i j = t1.val c i j) ∧
        ∀ c' r k, c' ≠ c → t'.val c' r k = t1.val c' r k) (Nat.zero_le _) (by
      rintro b t2 - hb ⟨a1, a2, a3, a4⟩
      obtain ⟨t3, b1, b2, b3⟩ := CellTab.put_eq (t := t2) (c := c) (r := a) (k := b)
          (ent M (a * n + b)) (by rw [a1.1, k1.1]; exact hc)
          (by rw [a1.2.1, k1.2.1]; omega) (by rw [a1.2.2, k1.2.2]; omega)
      refine ⟨t3, by rw [rd_ent (by rw [hM]; exact idx_lt ha hb), Option.bind_some, b1], a1.trans b2,
        fun j hj => ?_, fun i hi j => ?_, fun c' r k hc => ?_⟩
      · rw [b3]
        by_cases hjb : j = b
        · subst hjb
          rw [if_pos ⟨rfl, rfl, rfl⟩]
        · rw [if_neg (fun h => hjb h.2.2)]
          exact a2 j (by omega)
      · rw [b3, if_neg (by omega), a3 i hi j]
      · rw [b3, if_neg (fun h => hc h.1), a4 c' r k hc])
      ⟨CellTab.Same.refl _, by omega, fun _ _ _ => rfl, fun _ _ _ _ => rfl⟩
    refine ⟨t2, m1, k1.trans m2, fun i hi j hj => ?_, fun c' r k hc' => by rw [m5 c' r k hc', k3 c' r k hc']⟩
    by_cases hia : i = a
    · subst hia; exact m3 j hj
    · rw [m4 i (by omega) j]
      exact k2 i (by omega) j hj) ⟨CellTab.Same.refl _, by omega, fun _ _ _ _ => rfl⟩
  exact ⟨t', h1, h2, h3, h4⟩

theorem invertCell_spec {solve : Nat → List ℝ → List ℝ → Option (List ℝ)} (hs : LuSolves solve)
    {verts : List (List (ℝ × ℝ))} {c : Nat} {vs : List (ℝ × ℝ)} (hvs : verts[c]? = some vs)
    (hl : vs.length < 5) {t : CellTab ℝ} (hnc : t.ncells = verts.length) (hnr : t.nrow = 4)
    (hnk : t.ncol = 4) :
    (∀ t', invertCell solve verts c t = some t' → t.Same t' ∧
      (∀ c' r k, c' ≠ c → t'.val c' r k = t.val c' r k) ∧
      ∀ i < vs.length, ∀ j < vs.length, ∑ k ∈ range vs.length,
        max 0 (min 1 (t.val c i k)) * t'.val c k j = if i = j then 1 else 0) ∧
    ((∀ i < vs.length, ∀ j < vs.length, t.val c i j ≠ -100) →
      (∃ Y : Nat → Nat → ℝ, ∀ i < vs.length, ∀ j < vs.length, ∑ k ∈ range vs.length,
        max 0 (min 1 (t.val c i k)) * Y k j = if i = j then 1 else 0) →
      ∃ t', invertCell solve verts c t = some t') := by
  have hc : c < t.ncells := by rw [hnc]; exact (List.getElem?_eq_some_iff.mp hvs).1
  have hgrid : (∀ i < vs.length, ∀ j < vs.length, t.val c i j ≠ -100) →
      ((List.range vs.length).mapM fun rx => (List.range vs.length).mapM fun cx => (t.at c rx cx).bind fun v =>
        if v ≠ -100 then some (max 0 (min 1 v)) else none) = some ((List.range vs.length).map fun i =>
          (List.range vs.length).map fun j => max 0 (min 1 (t.val c i j))) := by
    intro h
    refine mapM_grid fun i hi j hj => ?_
    rw [CellTab.at_eq hc (by omega) (by omega), Option.bind_some, if_pos (h i hi j hj)]
  have hlen := flat_length (fun i j => max 0 (min 1 (t.val c i j))) vs.length vs.length
  have hent : ∀ i < vs.length, ∀ k < vs.length, ent ((List.range vs.length).flatMap fun i =>
      (List.range vs.length).map fun j => max 0 (min 1 (t.val c i j))) (i * vs.length + k) =
        max 0 (min 1 (t.val c i k)) := fun i hi k hk =>
    flat_ent (fun i j => max 0 (min 1 (t.val c i j))) _ _ hi hk
  obtain ⟨inv1, inv2⟩ := invertMatrix_spec hs hlen
  constructor
  · intro t' h
    unfold invertCell at h
    simp only [rd, hvs, Option.bind_some] at h
    have hne : ∀ i < vs.length, ∀ j < vs.length, t.val c i j ≠ -100 := by
      intro i hi j hj heq
      rw [Option.bind_eq_some_iff] at h
      obtain ⟨L, hL, -⟩ := h
      have h1 := mapM_some hL
      rw [List.forall₂_iff_get] at h1
      obtain ⟨hll, h1⟩ := h1
      have h2 := h1 i (by simpa using hi) (by rw [← hll]; simpa using hi)
      simp only [List.get_eq_getElem, List.getElem_range] at h2
      have h3 := mapM_some h2
      rw [List.forall₂_iff_get] at h3
      obtain ⟨hll', h3⟩ := h3
      have h4 := h3 j (by simpa using hj) (by rw [← hll']; simpa using hj)
      simp only [List.get_eq_getElem, List.getElem_range] at h4
      rw [CellTab.at_eq hc (by omega) (by omega), Option.bind_some, if_neg (by simp [heq])] at h4
      cases h4
    rw [hgrid hne, Option.bind_some, ← List.flatMap_def, Option.bind_eq_some_iff] at h
    obtain ⟨M, hM, h⟩ := h
    obtain ⟨hMl, hMe⟩ := inv1 M hM
    obtain ⟨t2, k1, k2, k3, k4⟩ := putGrid_spec (t := t) hc (by omega) (by omega) hMl
    simp only [rd] at k1
    rw [k1] at h
    cases h
    refine ⟨k2, k4, fun i hi j hj => ?_⟩
    rw [← hMe i hi j hj]
    refine sum_congr rfl fun k hk => ?_
    rw [k3 k (mem_range.mp hk) j hj, hent i hi k (mem_range.mp hk)]
  · rintro hne ⟨Y, hY⟩
    unfold invertCell
    simp only [rd, hvs, Option.bind_some]
    rw [hgrid hne, Option.bind_some, ← List.flatMap_def]
    obtain ⟨M, hM⟩ := inv2 ⟨Y, fun i hi j hj => by
      rw [← hY i hi j hj]
      exact sum_congr rfl fun k hk => by rw [hent i hi k (mem_range.mp hk)]⟩
    rw [hM, Option.bind_some]
    obtain ⟨t2, k1, -⟩ := putGrid_spec (t := t) hc (by omega : vs.length ≤ _) (by omega) (inv1 M hM).1
    simp only [rd] at k1
    exact ⟨t2, k1⟩

theorem baryInvert_spec {solve : Nat → List ℝ → List ℝ → Option (List ℝ)} (hs : LuSolves solve)
    {verts : List (List (ℝ × ℝ))} (hsz : ∀ vs ∈ verts, vs.length < 5) {t : CellTab ℝ}
    (hnc : t.ncells = verts.length) (hnr : t.nrow = 4) (hnk : t.ncol = 4) :
    (∀ t', baryInvert solve verts t = some t' → t.Same t' ∧
      ∀ c vs, verts[c]? = some vs → ∀ i < vs.length, ∀ j < vs.length, ∑ k ∈ range vs.length,
        max 0 (min 1 (t.val c i k)) * t'.val c k j = if i = j then 1 else 0) ∧
    ((∀ c vs, verts[c]? = some vs → (∀ i < vs.length, ∀ j < vs.length, t.val c i j ≠ -100) ∧
      ∃ Y : Nat → Nat → ℝ, ∀ i < vs.length, ∀ j < vs.length, ∑ k ∈ range vs.length,
        max 0 (min 1 (t.val c i k)) * Y k j = if i = j then 1 else 0) →
      ∃ t', baryInvert solve verts t = some t') := by
  have hstep : ∀ i < verts.length, ∀ t1 t2 : CellTab ℝ, t.Same t1 → invertCell solve verts i t1 = some t2 →
      (∀ c ≥ i, ∀ r k, t1.val c r k = t.val c r k) →
      (∀ c < i, ∀ vs, verts[c]? = some vs → ∀ i < vs.length, ∀ j < vs.length, ∑ k ∈ range vs.length,
        max 0 (min 1 (t.val c i k)) * t1.val c k j = if i = j then 1 else 0) →
      t.Same t2 ∧ (∀ c ≥ i + 1, ∀ r k, t2.val c r k = t.val c r k) ∧
      (∀ c < i + 1, ∀ vs, verts[c]? = some vs → ∀ i < vs.length, ∀ j < vs.length, ∑ k ∈ range vs.length,
        max 0 (min 1 (t.val c i k)) * t2.val c k j = if i = j then 1 else 0) := by
    intro i hi t1 t2 hsame hst h1 h2
    have hvs := List.getElem?_eq_getElem hi
    obtain ⟨k1, k2, k3⟩ := (invertCell_spec hs hvs (hsz _ (List.getElem_mem hi)) (t := t1)
      (hsame.1.trans hnc) (hsame.2.1.trans hnr) (hsame.2.2.trans hnk)).1 t2 hst
    refine ⟨hsame.trans k1, fun c hc r k => by rw [k2 c r k (by omega), h1 c (by omega)], ?_⟩
    intro c hc vs hvs' a ha b hb
    by_cases hci : c = i
    · subst hci
      rw [hvs] at hvs'
      cases hvs'
      rw [← k3 a ha b hb]
      exact sum_congr rfl fun k _ => by rw [h1 c (le_refl _)]
    · rw [← h2 c (by omega) vs hvs' a ha b hb]
      exact sum_congr rfl fun k _ => by rw [k2 c k b hci]
  constructor
  · intro t' h
    obtain ⟨h1, -, h3⟩ := forLoop_partial (n := verts.length) (step := invertCell solve verts)
      (fun i t1 => t.Same t1 ∧ (∀ c ≥ i, ∀ r k, t1.val c r k = t.val c r k) ∧
        (∀ c < i, ∀ vs, verts[c]? = some vs → ∀ i < vs.length, ∀ j < vs.length, ∑ k ∈ range vs.length,
          max 0 (min 1 (t.val c i k)) * t1.val c k j = if i = j then 1 else 0)) (s := t) (s' := t')
      (fun i t1 t2 hi hst hp => hstep i hi t1 t2 hp.1 hst hp.2.1 hp.2.2)
      ⟨CellTab.Same.refl _, fun _ _ _ _ => rfl, by omega⟩ h
    exact ⟨h1, fun c vs hvs => h3 c (List.getElem?_eq_some_iff.mp hvs).1 vs hvs⟩
  · intro hall
    obtain ⟨t', h1, -⟩ := forLoop_invariant (a := 0) (b := verts.length) (s := t)
      (step := invertCell solve verts)
      (P := fun i t1 => t.Same t1 ∧ (∀ c ≥ i, ∀ r k, t1.val c r k = t.val c r k) ∧
        (∀ c < i, ∀ vs, verts[c]? = some vs → ∀ i < vs.length, ∀ j < vs.length, ∑ k ∈ range vs.length,
          max 0 (min 1 (t.val c i k)) * t1.val c k j = if i = j then 1 else 0)) (Nat.zero_le _) (by
      rintro i t1 - hi ⟨p1, p2, p3⟩
      have hvs := List.getElem?_eq_getElem hi
      obtain ⟨a1, Y, a2⟩ := hall i _ hvs
      obtain ⟨t2, ht2⟩ := (invertCell_spec hs hvs (hsz _ (List.getElem_mem hi)) (t := t1)
        (p1.1.trans hnc) (p1.2.1.trans hnr) (p1.2.2.trans hnk)).2
        (fun a ha b hb => by rw [p2 i (le_refl _)]; exact a1 a ha b hb)
        ⟨Y, fun a ha b hb => by
          rw [← a2 a ha b hb]
          exact sum_congr rfl fun k _ => by rw [p2 i (le_refl _)]⟩
      exact ⟨t2, ht2, hstep i hi t1 t2 p1 ht2 p2 p3⟩)
      ⟨CellTab.Same.refl _, fun _ _ _ _ => rfl, by omega⟩
    exact ⟨t', h1⟩

end NP
