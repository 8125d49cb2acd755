import Verif.Sub.LemmasSelect
import Verif.Basics.Props

/-! The order preserving selector: `SubGroupSelectorExclusiveScan::create`. -/

set_option autoImplicit false

namespace NP

open Spec

/-- The number of elements before position `k` that pass `p`. -/
def passBefore (p : Nat → Bool) (row : List Nat) (k : Nat) : Nat := ((row.take k).filter p).length

theorem filter_passBefore {p : Nat → Bool} {row : List Nat} {k l : Nat} (h : row[k]? = some l)
    (hp : p l = true) : (row.filter p)[passBefore p row k]? = some l := by
  induction row generalizing k with
  | nil => simp at h
  | cons x xs ih =>
    cases k with
    | zero =>
      simp only [List.getElem?_cons_zero, Option.some.injEq] at h
      subst h
      simp [passBefore, hp]
    | succ k =>
      rw [List.getElem?_cons_succ] at h
      have := ih h
      unfold passBefore at this ⊢
      by_cases hx : p x
      · simp [hx, this]
      · simp [hx, this]

theorem passBefore_surj {p : Nat → Bool} {row : List Nat} {j : Nat}
    (h : j < (row.filter p).length) :
    ∃ k l, row[k]? = some l ∧ p l = true ∧ passBefore p row k = j := by
  induction row generalizing j with
  | nil => simp at h
  | cons x xs ih =>
    by_cases hx : p x
    · cases j with
      | zero => exact ⟨0, x, rfl, hx, by simp [passBefore]⟩
      | succ j =>
        rw [List.filter_cons_of_pos hx, List.length_cons] at h
        obtain ⟨k, l, h1, h2, h3⟩ := ih (j := j) (by omega)
        exact ⟨k + 1, l, h1, h2, by simpa [passBefore, hx] using h3⟩
    · rw [List.filter_cons_of_neg hx] at h
      obtain ⟨k, l, h1, h2, h3⟩ := ih h
      exact ⟨k + 1, l, h1, h2, by simpa [passBefore, hx] using h3⟩

theorem passBefore_lt {p : Nat → Bool} {row : List Nat} {k l : Nat} (h : row[k]? = some l)
    (hp : p l = true) : passBefore p row k < (row.filter p).length := by
  have := filter_passBefore h hp
  exact (List.getElem?_eq_some_iff.1 this).1

/-- The mask of a particle. -/
def maskOf (p : Nat → Bool) (l : Nat) : Nat := if p l then 1 else 0

theorem sum_maskOf (p : Nat → Bool) (row : List Nat) :
    (row.map (maskOf p)).sum = (row.filter p).length := by
  induction row with
  | nil => rfl
  | cons x xs ih =>
    by_cases hx : p x
    · simp [maskOf, hx, ih]; omega
    · simp [maskOf, hx, ih]

theorem listing_segments (L : List (List Nat)) : DisjointSegments L.length
    (fun c => before (lens L) c) (fun c => (lens L).getD c 0) (lens L).sum := by
  have hl : (lens L).length = L.length := by simp [lens]
  have hg : ∀ a, a < L.length → (lens L)[a]? = some ((lens L).getD a 0) := by
    intro a ha
    rw [List.getD_eq_getElem?_getD, List.getElem?_eq_getElem (by omega)]; rfl
  constructor
  · intro a ha
    have h1 := before_succ (hg a ha)
    have h2 := before_mono (npart := lens L) (show a + 1 ≤ (lens L).length by omega)
    rw [before_all] at h2
    omega
  · rintro a b ha hb hab k ⟨h1, h2, h3, h4⟩
    have ha' := before_succ (hg a ha)
    have hb' := before_succ (hg b hb)
    rcases Nat.lt_or_gt_of_ne hab with h | h
    · have := before_mono (npart := lens L) (show a + 1 ≤ b by omega); omega
    · have := before_mono (npart := lens L) (show b + 1 ≤ a by omega); omega

theorem loopIdx_eq {L : List (List Nat)} {c : Nat} (hc : c < L.length) (k : Nat) :
    loopIdx (npartCellEs (lens L)) c k = some (before (lens L) c + k) := by
  have hl : (lens L).length = L.length := by simp [lens]
  unfold loopIdx
  rw [rd_npartCellEs (by omega), rd_npartCellEs (by omega)]
  simp [before]

theorem scan_spec {e : SelEnv} {npart : List Nat} (he : SelOk e npart) (t0 t1 t2 t3 t4 : Sched)
    {scanLocal units : Nat} (hs : 0 < scanLocal) (hcell : 0 < npart.length) {par : Parent}
    {L : List (List Nat)} (hp : ParentLists npart par L) (hL : SoundListing npart L)
    (cond : Nat → Nat → Bool) :
    ∃ sel, scanCreate e t0 t1 t2 t3 t4 scanLocal units npart par cond = some sel ∧
      Lists sel (L.mapIdx fun c row => row.filter (cond c)) := by
  have pf := parent_facts hp
  obtain ⟨v, hv, hvnd, hvm⟩ := parentVisits_spec he pf hL
  have hvis : ∀ it ∈ v, ∃ row, L[it.1]? = some row ∧ it.1 < L.length ∧
      (lens L)[it.1]? = some row.length ∧
      it.2 < row.length ∧ row[it.2]? = some (layOf L it) ∧
      par.layerAt it.1 it.2 = some (layOf L it) := by
    rintro ⟨c, k⟩ hit
    obtain ⟨row, hrow, hk⟩ := (hvm c k).1 hit
    have hl := layOf_eq hrow hk
    exact ⟨row, hrow, lt_of_row hrow, lens_get hrow, hk, hl, by rw [pf.layer c row k hrow hk, hl]⟩
  -- masks
  set dst0 : Nat × Nat → Option Nat := fun it =>
    if cond it.1 (layOf L it) then some (before (lens L) it.1 + it.2) else none with hdst0
  obtain ⟨masks, hm, hml, hmv, hmo⟩ := runItems_put (items := e.s0.order v)
    (step := scanLoop0 npart par cond) (m := List.replicate (lens L).sum 0) dst0 (fun _ => 1)
    (by
      intro it hi a _
      obtain ⟨row, r1, r2, r3, r4, r5, r6⟩ := hvis it (((e.s0.perm v).mem_iff).1 hi)
      unfold scanLoop0
      rw [r6, Option.bind_some, pf.es, loopIdx_eq r2, Option.bind_some]
      simp only [hdst0]
      split <;> rfl)
    (by intros; rfl)
    (by
      intro it hi d hd
      obtain ⟨row, r1, r2, r3, r4, r5, r6⟩ := hvis it (((e.s0.perm v).mem_iff).1 hi)
      simp only [hdst0] at hd
      split at hd
      · rw [← Option.some.inj hd, List.length_replicate]
        exact lin_lt r3 r4
      · cases hd)
  have hmask : ∀ (c : Nat) (row : List Nat) (k l : Nat), L[c]? = some row → row[k]? = some l →
      masks[before (lens L) c + k]? = some (maskOf (cond c) l) := by
    intro c row k l hr hl
    have hk := (List.getElem?_eq_some_iff.1 hl).1
    have hmem : (c, k) ∈ e.s0.order v := ((e.s0.perm v).mem_iff).2 ((hvm c k).2 ⟨row, hr, hk⟩)
    have hlay : layOf L (c, k) = l := by
      have := layOf_eq hr hk
      rw [hl] at this; exact (Option.some.inj this).symm
    by_cases hc : cond c l = true
    · have := hmv (c, k) hmem (before (lens L) c + k) (by simp only [hdst0, hlay]; rw [if_pos hc])
      rw [this]; simp [maskOf, hc]
    · rw [hmo]
      · rw [List.getElem?_replicate, if_pos (lin_lt (lens_get hr) hk)]
        simp [maskOf, hc]
      · intro it hi hd
        obtain ⟨row', r1, r2, r3, r4, r5, r6⟩ := hvis it (((e.s0.perm v).mem_iff).1 hi)
        simp only [hdst0] at hd
        split at hd
        · rename_i hcond
          obtain ⟨g1, g2⟩ := lin_inj r3 (lens_get hr) r4 hk (Option.some.inj hd)
          have : it = (c, k) := Prod.ext g1 g2
          rw [this, hlay] at hcond
          exact hc hcond
        · cases hd
  have hseg : ∀ (c : Nat) (row : List Nat), L[c]? = some row →
      (masks.drop (before (lens L) c)).take row.length = row.map (maskOf (cond c)) := by
    intro c row hr
    apply List.ext_getElem?
    intro k
    by_cases hk : k < row.length
    · have hl := List.getElem?_eq_getElem hk
      rw [List.getElem?_take_of_lt hk, List.getElem?_drop, hmask c row k _ hr hl,
        List.getElem?_map, hl]
      rfl
    · rw [List.getElem?_eq_none (by simp; omega), List.getElem?_eq_none (by simp; omega)]
  have hlensl : (lens L).length = npart.length := by simp [lens, hL.1]
  have hgetD : ∀ (c : Nat) (row : List Nat), L[c]? = some row → (lens L).getD c 0 = row.length := by
    intro c row hr
    rw [List.getD_eq_getElem?_getD, lens_get hr]; rfl
  obtain ⟨es1, tot, h1, h1l, h1s, -, h1t, h1v, -⟩ := C04_exclusive_scan_n_sum t0 t1 scanLocal
    npart.length hs (lens L) (npartCellEs (lens L)) (fun c => before (lens L) c)
    (fun c => (lens L).getD c 0)
    (by
      intro a ha
      rw [List.getD_eq_getElem?_getD, List.getElem?_eq_getElem (by omega)]; rfl)
    (fun a ha => by
      have := rd_npartCellEs (npart := lens L) (c := a) (by omega)
      simpa only [rd] using this)
    masks (List.replicate (lens L).sum 0) e.d0 (by rw [hml])
    (by rw [he.d0]; omega) (by
      have := listing_segments L
      rw [hL.1] at this
      simpa using this)
  set L' : List (List Nat) := L.mapIdx fun c row => row.filter (cond c) with hL'
  have hL'l : L'.length = npart.length := by simp [hL', hL.1]
  have hL'get : ∀ (c : Nat) (row : List Nat), L[c]? = some row →
      L'[c]? = some (row.filter (cond c)) := by
    intro c row hr
    rw [hL', List.getElem?_mapIdx, hr]; rfl
  have hlens'l : (lens L').length = npart.length := by simp only [lens, List.length_map, hL'l]
  have htot : tot.take npart.length = lens L' := by
    apply List.ext_getElem?
    intro c
    by_cases hc : c < npart.length
    · obtain ⟨row, hr⟩ := exists_row (L := L) (c := c) (by rw [hL.1]; exact hc)
      rw [List.getElem?_take_of_lt hc, h1v c hc, lens_get (hL'get c row hr), hgetD c row hr,
        hseg c row hr, sum_maskOf]
    · rw [List.getElem?_eq_none (by simp; omega), List.getElem?_eq_none (by omega)]
  obtain ⟨h2, hh2, hh2l, hh2t⟩ := stRange_zero (m := e.h0) (vs := lens L')
    (by rw [hlens'l, he.h0]; omega)
  obtain ⟨es2, h3, h3l, h3s, -⟩ := C03_exclusive_scan_blocking t2 t3 t4 scanLocal units
    npart.length hs e.fn tot (List.replicate npart.length 0)
    (by rw [h1t, he.d0]; omega) (by simp)
  have hes2 : es2 = npartCellEs (lens L') := by
    apply List.ext_getElem?
    intro c
    by_cases hc : c < npart.length
    · have a1 := h3s c hc
      have a2 := rd_npartCellEs (npart := lens L') (c := c) (by omega)
      simp only [rd] at a2
      rw [Nat.zero_add] at a1
      rw [a1, a2]
      simp only [List.drop_zero, before, ← htot, List.take_take]
      rw [Nat.min_eq_left (by omega)]
    · rw [List.getElem?_eq_none (by rw [h3l]; simp; omega),
        List.getElem?_eq_none (by rw [length_npartCellEs]; omega)]
  obtain ⟨m, hmc, hms, hml2⟩ := mapCreate_spec e.fn (m := e.map) (counts := lens L') (h := h2)
    (by rw [he.starts, hlens'l]) hh2t
  rw [hlens'l] at hmc hml2 hh2t
  -- writing loop
  set dst : Nat × Nat → Option Nat := fun it =>
    if cond it.1 (layOf L it) then some (before (lens L') it.1 +
      passBefore (cond it.1) ((L[it.1]?).getD []) it.2) else none with hdst
  obtain ⟨layers, hly, hlyl, hlyv, -⟩ := runItems_put (items := e.s1.order v)
    (step := scanLoop1 npart par masks es1 m.starts) (m := m.layers) dst (layOf L)
    (by
      intro it hi a _
      obtain ⟨row, r1, r2, r3, r4, r5, r6⟩ := hvis it (((e.s1.perm v).mem_iff).1 hi)
      unfold scanLoop1
      rw [r6, Option.bind_some, pf.es, loopIdx_eq r2, Option.bind_some]
      have a1 := hmask it.1 row it.2 _ r1 r5
      have a2 := h1s it.1 (by rw [← hL.1]; exact r2) it.2 (by rw [hgetD it.1 row r1]; exact r4)
      have a3 : ((masks.drop (before (lens L) it.1)).take it.2).sum =
          passBefore (cond it.1) row it.2 := by
        have := congrArg (List.take it.2) (hseg it.1 row r1)
        rw [List.take_take, Nat.min_eq_left (by omega), ← List.map_take] at this
        rw [this, sum_maskOf]; rfl
      rw [a3] at a2
      simp only [rd]
      rw [a1, a2, Option.bind_some, Option.bind_some]
      have hb := rd_npartCellEs (npart := lens L') (c := it.1) (by rw [hlens'l, ← hL.1]; exact r2)
      simp only [rd] at hb
      rw [hms, hb]
      simp only [hdst, maskOf, r1, Option.getD_some, Option.bind_some]
      split <;> simp)
    (by
      rintro i hi j hj d hd hd'
      obtain ⟨row, r1, r2, r3, r4, r5, r6⟩ := hvis i (((e.s1.perm v).mem_iff).1 hi)
      obtain ⟨row', q1, q2, q3, q4, q5, q6⟩ := hvis j (((e.s1.perm v).mem_iff).1 hj)
      simp only [hdst, r1, q1, Option.getD_some] at hd hd'
      split at hd
      · split at hd'
        · rename_i c1 c2
          obtain ⟨g1, g2⟩ := lin_inj (lens_get (hL'get _ _ r1)) (lens_get (hL'get _ _ q1))
            (passBefore_lt r5 c1) (passBefore_lt q5 c2)
            ((Option.some.inj hd).trans (Option.some.inj hd').symm)
          have a1 := filter_passBefore r5 c1
          have a2 := filter_passBefore q5 c2
          rw [g1, q1] at r1
          obtain rfl := Option.some.inj r1
          rw [g1] at a1 g2
          rw [g2, a2] at a1
          exact (Option.some.inj a1).symm
        · cases hd'
      · cases hd)
    (by
      rintro i hi d hd
      obtain ⟨row, r1, r2, r3, r4, r5, r6⟩ := hvis i (((e.s1.perm v).mem_iff).1 hi)
      simp only [hdst, r1, Option.getD_some] at hd
      split at hd
      · rename_i c1
        rw [(hml2 hcell).1, ← Option.some.inj hd]
        exact lin_lt (lens_get (hL'get _ _ r1)) (passBefore_lt r5 c1)
      · cases hd)
  refine ⟨⟨(lens L').sum, lens L', lens L', npartCellEs (lens L'), npartCellEs (lens L'), layers⟩,
    ?_, ?_⟩
  · rw [hms] at hly
    unfold scanCreate
    rw [pf.es, pf.dCounts, pf.total]
    simp only [hv, Option.bind_some, hm, h1, htot, hh2, h3, hes2, hmc, hms, hly, hh2t,
      (hml2 hcell).2]
  · apply lists_of
    intro c row' k hr' hk
    obtain ⟨row, hr⟩ := exists_row (L := L) (c := c)
      (by rw [hL.1, ← hL'l]; exact lt_of_row hr')
    rw [hL'get c row hr] at hr'
    obtain rfl := Option.some.inj hr'
    obtain ⟨k0, l, a1, a2, rfl⟩ := passBefore_surj hk
    have hk0 := (List.getElem?_eq_some_iff.1 a1).1
    have hlay : layOf L (c, k0) = l := by
      have := layOf_eq hr hk0
      rw [a1] at this; exact (Option.some.inj this).symm
    have := hlyv (c, k0) (((e.s1.perm v).mem_iff).2 ((hvm c k0).2 ⟨row, hr, hk0⟩))
      (before (lens L') c + passBefore (cond c) row k0)
      (by simp only [hdst, hr, hlay, Option.getD_some]; rw [if_pos a2])
    rw [this, hlay, filter_passBefore a1 a2]

end NP
