import Verif.Sub.Lemmas

/-! The counting selector: `SubGroupSelector::create`. -/

set_option autoImplicit false

namespace NP

open Spec

/-- The slots of the counters are different from the counts and from each other. -/
theorem slot_lt {ncell pad c : Nat} (hp : 0 < pad) (h : c < ncell) :
    ncell + c * pad < ncell + ncell * pad :=
  Nat.add_lt_add_left (Nat.mul_lt_mul_of_pos_right h hp) _

theorem slot_inj {ncell pad c d : Nat} (hp : 0 < pad) (h : ncell + c * pad = ncell + d * pad) :
    c = d := Nat.eq_of_mul_eq_mul_right hp (Nat.add_left_cancel h)

/-- The counters start from zero. -/
theorem preProcess_spec {ncell pad : Nat} (hp : 0 < pad) {d : List Nat}
    (hd : d.length = ncell + ncell * pad) (h0 : ∀ c, c < ncell → d[c]? = some 0) (s : Sched) :
    ∃ d', runItems (preProcess ncell pad) (s.order (List.range ncell)) d = some d' ∧
      d'.length = d.length ∧ ∀ c, c < ncell → d'[ncell + c * pad]? = some 0 := by
  obtain ⟨d', h1, h2, -, h4⟩ := runItems_invariant (step := preProcess ncell pad)
    (items := s.order (List.range ncell)) (s := d)
    (P := fun pre (a : List Nat) => a.length = d.length ∧ (∀ c, c < ncell → a[c]? = some 0) ∧
      ∀ c ∈ pre, a[ncell + c * pad]? = some 0)
    (by
      rintro pre x post a hitems ⟨a1, a2, a3⟩
      have hx : x < ncell := by
        have : x ∈ s.order (List.range ncell) := by rw [hitems]; simp
        exact List.mem_range.1 (((s.perm _).mem_iff).1 this)
      have hs := slot_lt hp hx
      refine ⟨a.set (ncell + x * pad) 0, ?_, by simpa using a1, ?_, ?_⟩
      · unfold preProcess
        simp only [rd, a2 x hx, Option.bind_some]
        exact st_eq_some (by omega)
      · intro c hc
        rw [List.getElem?_set_ne (by omega)]
        exact a2 c hc
      · intro c hc
        by_cases hcx : ncell + x * pad = ncell + c * pad
        · rw [← hcx, List.getElem?_set_self (by omega)]
        · rw [List.getElem?_set_ne hcx]
          rcases List.mem_append.1 hc with h | h
          · exact a3 c h
          · simp only [List.mem_singleton] at h
            exact absurd (by rw [h]) hcx)
    ⟨rfl, h0, by simp⟩
  exact ⟨d', h1, h2, fun c hc => h4 c (((s.perm _).mem_iff).2 (List.mem_range.2 hc))⟩

/-- The counters are copied to the counts. -/
theorem postProcess_spec {ncell pad : Nat} (hp : 0 < pad) {d : List Nat} (f : Nat → Nat)
    (hd : d.length = ncell + ncell * pad)
    (hf : ∀ c, c < ncell → d[ncell + c * pad]? = some (f c)) (s : Sched) :
    ∃ d', runItems (postProcess ncell pad) (s.order (List.range ncell)) d = some d' ∧
      d'.length = d.length ∧ d'.take ncell = (List.range ncell).map f := by
  obtain ⟨d', h1, h2, -, h4⟩ := runItems_invariant (step := postProcess ncell pad)
    (items := s.order (List.range ncell)) (s := d)
    (P := fun pre (a : List Nat) => a.length = d.length ∧ (∀ c, c < ncell → a[ncell + c * pad]? = some (f c)) ∧
      ∀ c ∈ pre, a[c]? = some (f c))
    (by
      rintro pre x post a hitems ⟨a1, a2, a3⟩
      have hx : x < ncell := by
        have : x ∈ s.order (List.range ncell) := by rw [hitems]; simp
        exact List.mem_range.1 (((s.perm _).mem_iff).1 this)
      refine ⟨a.set x (f x), ?_, by simpa using a1, ?_, ?_⟩
      · unfold postProcess
        simp only [rd, a2 x hx, Option.bind_some]
        exact st_eq_some (by omega)
      · intro c hc
        rw [List.getElem?_set_ne (by omega)]
        exact a2 c hc
      · intro c hc
        by_cases hcx : x = c
        · subst hcx; rw [List.getElem?_set_self (by omega)]
        · rw [List.getElem?_set_ne hcx]
          rcases List.mem_append.1 hc with h | h
          · exact a3 c h
          · simp only [List.mem_singleton] at h
            exact absurd h.symm hcx)
    ⟨rfl, hf, by simp⟩
  refine ⟨d', h1, h2, ?_⟩
  apply List.ext_getElem?
  intro c
  by_cases hc : c < ncell
  · rw [List.getElem?_take_of_lt hc,
      h4 c (((s.perm _).mem_iff).2 (List.mem_range.2 hc))]
    simp [hc]
  · rw [List.getElem?_eq_none (by simp; omega), List.getElem?_eq_none (by simp; omega)]

/-- The layer of a visit. -/
def layOf (L : List (List Nat)) (it : Nat × Nat) : Nat := ((L[it.1]?).getD []).getD it.2 0

theorem layOf_eq {L : List (List Nat)} {c k : Nat} {row : List Nat} (h : L[c]? = some row)
    (hk : k < row.length) : row[k]? = some (layOf L (c, k)) := by
  simp [layOf, h, hk]

theorem lin_eq {npart : List Nat} {c l : Nat} (hc : c < npart.length) :
    localLinearIndex npart c l = some (before npart c + l) := by
  unfold localLinearIndex
  rw [rd_npartCellEs hc]; rfl

/-- Different particles have different linear indices. -/
theorem lin_inj {npart : List Nat} {c d k l n m : Nat} (hc : npart[c]? = some n)
    (hd : npart[d]? = some m) (hk : k < n) (hl : l < m)
    (h : before npart c + k = before npart d + l) : c = d ∧ k = l := by
  have h1 := before_succ hc
  have h2 := before_succ hd
  rcases Nat.lt_trichotomy c d with hlt | heq | hgt
  · have := before_mono (npart := npart) (show c + 1 ≤ d by omega)
    omega
  · subst heq; exact ⟨rfl, by omega⟩
  · have := before_mono (npart := npart) (show d + 1 ≤ c by omega)
    omega

theorem lin_lt {npart : List Nat} {c k n : Nat} (hc : npart[c]? = some n) (hk : k < n) :
    before npart c + k < npart.sum := by
  have := before_succ hc
  have h2 := before_mono (npart := npart) (show c + 1 ≤ npart.length from (List.getElem?_eq_some_iff.1 hc).1)
  rw [before_all] at h2
  omega

/-- A kernel that writes the layers of the listing `L` wherever there is one. -/
theorem fill_spec {L : List (List Nat)} {step : Nat × Nat → List Nat → Option (List Nat)}
    {items : List (Nat × Nat)} {m : List Nat} (hm : m.length = (lens L).sum)
    (hstep : ∀ it ∈ items, ∀ a : List Nat, a.length = m.length →
      step it a = match (L[it.1]?).bind (fun row => row[it.2]?) with
        | none => some a | some l => st a (before (lens L) it.1 + it.2) l)
    (hall : ∀ (c : Nat) (row : List Nat) (k : Nat), L[c]? = some row → k < row.length →
      (c, k) ∈ items) :
    ∃ layers, runItems step items m = some layers ∧
      ∀ (c : Nat) (row : List Nat) (k : Nat), L[c]? = some row → k < row.length →
        layers[before (lens L) c + k]? = row[k]? := by
  set val : Nat × Nat → Option Nat := fun it => (L[it.1]?).bind (fun row => row[it.2]?) with hval
  set dst : Nat × Nat → Option Nat := fun it =>
    (val it).map fun _ => before (lens L) it.1 + it.2 with hdst
  have hget : ∀ it d, dst it = some d → ∃ row l, L[it.1]? = some row ∧ row[it.2]? = some l ∧
      val it = some l ∧ d = before (lens L) it.1 + it.2 := by
    intro it d hd
    simp only [hdst, Option.map_eq_some_iff] at hd
    obtain ⟨l, hl, rfl⟩ := hd
    have hl' := hl
    simp only [hval, Option.bind_eq_some_iff] at hl'
    obtain ⟨row, h1, h2⟩ := hl'
    exact ⟨row, l, h1, h2, hl, rfl⟩
  obtain ⟨layers, h1, -, h3, -⟩ := runItems_put (step := step) (items := items) (m := m) dst
    (fun it => (val it).getD 0)
    (by
      intro it hi a ha
      rw [hstep it hi a ha]
      change (match val it with
        | none => some a | some l => st a (before (lens L) it.1 + it.2) l) = _
      simp only [hdst]
      cases val it <;> rfl)
    (by
      intro i _ j _ d hi hj
      obtain ⟨r1, l1, a1, a2, a3, a4⟩ := hget i d hi
      obtain ⟨r2, l2, b1, b2, b3, b4⟩ := hget j d hj
      obtain ⟨g1, g2⟩ := lin_inj (lens_get a1) (lens_get b1) (List.getElem?_eq_some_iff.1 a2).1
        (List.getElem?_eq_some_iff.1 b2).1 (a4.symm.trans b4)
      have : i = j := Prod.ext g1 g2
      rw [this])
    (by
      intro i _ d hi
      obtain ⟨r1, l1, a1, a2, a3, a4⟩ := hget i d hi
      rw [hm, a4]
      exact lin_lt (lens_get a1) (List.getElem?_eq_some_iff.1 a2).1)
  refine ⟨layers, h1, ?_⟩
  intro c row k hr hk
  have hv : val (c, k) = some row[k] := by
    simp only [hval, hr, Option.bind_some]; exact List.getElem?_eq_getElem hk
  have := h3 (c, k) (hall c row k hr hk) (before (lens L) c + k) (by simp [hdst, hv])
  rw [this, hv, List.getElem?_eq_getElem hk]; rfl

theorem runItems_flatMap {ι κ σ : Type} {step : κ → σ → Option σ} {g : ι → List κ} (items : List ι)
    (s : σ) : runItems (fun i s => runItems step (g i) s) items s =
      runItems step (items.flatMap g) s := by
  induction items generalizing s with
  | nil => rfl
  | cons i is ih =>
    rw [runItems_cons, List.flatMap_cons, runItems_append]
    congr 1
    funext s'
    exact ih s'

/-- The particles of cell `c` that pass the condition, in the order in which the counters
were incremented. -/
def selRow (L : List (List Nat)) (key : Nat × Nat → Option Nat) (slot : Nat → Nat)
    (items : List (Nat × Nat)) (c : Nat) : List Nat :=
  (items.filter fun it => key it = some (slot c)).map (layOf L)

theorem selRow_length (L : List (List Nat)) (key : Nat × Nat → Option Nat) (slot : Nat → Nat)
    (items : List (Nat × Nat)) (c : Nat) :
    (selRow L key slot items c).length = keyCount key items (slot c) := by
  simp [selRow, keyCount]

theorem rank_get {ι : Type} [DecidableEq ι] {key : ι → Option Nat} {items : List ι} {it : ι}
    {c : Nat} (hi : it ∈ items) (hk : key it = some c) :
    (items.filter fun j => key j = some c)[rank key items it]? = some it := by
  unfold rank
  rw [hk]
  have hm : it ∈ items.filter (fun j => key j = some c) := List.mem_filter.2 ⟨hi, by simp [hk]⟩
  rw [List.getElem?_eq_getElem (List.idxOf_lt_length_of_mem hm), List.getElem_idxOf]

theorem selRow_rank {L : List (List Nat)} {key : Nat × Nat → Option Nat} {slot : Nat → Nat}
    {items : List (Nat × Nat)} {c : Nat} {it : Nat × Nat} (hi : it ∈ items)
    (hk : key it = some (slot c)) :
    (selRow L key slot items c)[rank key items it]? = some (layOf L it) := by
  unfold selRow
  rw [List.getElem?_map, rank_get hi hk]
  rfl

/-- The row of a cell is a permutation of the particles that pass. -/
theorem selRow_perm {L : List (List Nat)} {key : Nat × Nat → Option Nat} {slot : Nat → Nat}
    {items : List (Nat × Nat)} (hind : items.Nodup)
    (hvm : ∀ c k, (c, k) ∈ items ↔ ∃ row, L[c]? = some row ∧ k < row.length)
    {c : Nat} {row : List Nat} (hr : L[c]? = some row) (hrnd : row.Nodup) (p : Nat → Bool)
    (hkc : ∀ it ∈ items, key it = some (slot c) ↔ it.1 = c ∧ p (layOf L it) = true) :
    (selRow L key slot items c).Perm (row.filter p) := by
  have hvis : ∀ k, (c, k) ∈ items → k < row.length ∧ row[k]? = some (layOf L (c, k)) := by
    intro k h
    obtain ⟨row', h1, h2⟩ := (hvm c k).1 h
    rw [hr] at h1
    obtain rfl := Option.some.inj h1
    exact ⟨h2, layOf_eq hr h2⟩
  apply (List.perm_ext_iff_of_nodup ?_ (hrnd.filter _)).2
  · intro l
    simp only [selRow, List.mem_map, List.mem_filter, decide_eq_true_eq]
    constructor
    · rintro ⟨⟨c', k⟩, ⟨i1, i2⟩, rfl⟩
      obtain ⟨g1, g2⟩ := (hkc _ i1).1 i2
      simp only at g1
      subst g1
      exact ⟨List.mem_of_getElem? (hvis k i1).2, g2⟩
    · rintro ⟨hl, hcl⟩
      obtain ⟨k, hk, hke⟩ := List.getElem_of_mem hl
      have hlay : layOf L (c, k) = l := by
        have := layOf_eq hr hk
        rw [List.getElem?_eq_getElem hk, hke] at this
        exact (Option.some.inj this).symm
      refine ⟨(c, k), ⟨(hvm c k).2 ⟨row, hr, hk⟩, (hkc _ ((hvm c k).2 ⟨row, hr, hk⟩)).2 ⟨rfl, ?_⟩⟩, hlay⟩
      rw [hlay]; exact hcl
  · unfold selRow
    apply List.Nodup.map_on
    · rintro ⟨c1, k1⟩ h1 ⟨c2, k2⟩ h2 heq
      simp only [List.mem_filter, decide_eq_true_eq] at h1 h2
      obtain ⟨g1, -⟩ := (hkc _ h1.1).1 h1.2
      obtain ⟨g2, -⟩ := (hkc _ h2.1).1 h2.2
      simp only at g1 g2
      subst g1; subst g2
      obtain ⟨q4, q5⟩ := hvis k1 h1.1
      obtain ⟨p4, p5⟩ := hvis k2 h2.1
      rw [← heq, ← q5] at p5
      obtain rfl : k1 = k2 := (List.getElem?_inj q4 hrnd).1 p5.symm
      rfl
    · exact hind.filter _

theorem select_spec {e : SelEnv} {npart : List Nat} (he : SelOk e npart) {par : Parent}
    {L : List (List Nat)} (hp : ParentLists npart par L) (hL : SoundListing npart L)
    (cond : Nat → Nat → Bool) :
    ∃ sel L', selectCreate e npart par cond = some sel ∧ Lists sel L' ∧
      Cellwise (fun c row row' => row'.Perm (row.filter (cond c))) L L' := by
  have pf := parent_facts hp
  obtain ⟨v, hv, hvnd, hvm⟩ := parentVisits_spec he pf hL
  -- the visits in the order of the counting loop
  set items := e.s1.order v with hitems
  have hperm : items.Perm v := e.s1.perm v
  have hind : items.Nodup := hperm.nodup_iff.2 hvnd
  set slot : Nat → Nat := fun c => npart.length + c * e.pad with hslot
  set key : Nat × Nat → Option Nat := fun it =>
    if cond it.1 (layOf L it) then some (slot it.1) else none with hkey
  have hvis : ∀ it ∈ v, ∃ row n, L[it.1]? = some row ∧ npart[it.1]? = some n ∧
      it.1 < npart.length ∧ it.2 < row.length ∧ row[it.2]? = some (layOf L it) ∧
      row.Nodup ∧ layOf L it < n ∧ par.layerAt it.1 it.2 = some (layOf L it) := by
    rintro ⟨c, k⟩ hit
    obtain ⟨row, hrow, hk⟩ := (hvm c k).1 hit
    have hc : c < npart.length := by rw [← hL.1]; exact lt_of_row hrow
    have hn := List.getElem?_eq_getElem hc
    obtain ⟨g1, g2⟩ := hL.2 c row _ hrow hn
    have hl := layOf_eq hrow hk
    exact ⟨row, _, hrow, hn, hc, hk, hl, g1, g2 _ (List.mem_of_getElem? hl),
      by rw [pf.layer c row k hrow hk, hl]⟩
  -- counters
  obtain ⟨d1, hd1, hd1l, hd1t⟩ := stRange_zero (m := e.d0) (vs := List.replicate npart.length 0)
    (by simp [he.d0])
  rw [List.length_replicate] at hd1t
  obtain ⟨d2, hd2, hd2l, hd2z⟩ := preProcess_spec he.pad (d := d1) (by rw [hd1l, he.d0])
    (fun c hc => by rw [getElem?_of_take hd1t hc]; simp [hc]) e.s0
  -- counting loop
  have hmemv : ∀ it ∈ items, it ∈ v := fun it h => (hperm.mem_iff).1 h
  obtain ⟨ml, hml, hmll, hmlv, -⟩ := runItems_put (items := items)
    (step := fun it (m : List Int) => match key it with
      | none => st m (before npart it.1 + layOf L it) (-1)
      | some c => st m (before npart it.1 + layOf L it)
        ((d2.getD c 0 + rank key items it : Nat) : Int))
    (m := (e.fi npart.sum).val) (fun it => some (before npart it.1 + layOf L it))
    (fun it => match key it with
      | none => -1
      | some c => ((d2.getD c 0 + rank key items it : Nat) : Int))
    (by
      intro it _ a _
      beta_reduce
      cases key it <;> rfl)
    (by
      rintro ⟨c, k⟩ hi ⟨c', k'⟩ hj d hd hd'
      obtain ⟨row, n, r1, r2, r3, r4, r5, r6, r7, -⟩ := hvis _ (hmemv _ hi)
      obtain ⟨row', n', q1, q2, q3, q4, q5, q6, q7, -⟩ := hvis _ (hmemv _ hj)
      simp only [Option.some.injEq] at hd hd'
      obtain ⟨hcc, hll⟩ := lin_inj r2 q2 r7 q7 (hd.trans hd'.symm)
      simp only at hcc r1 q1 r4 q4 r5 q5
      subst hcc
      obtain rfl : row = row' := by rw [r1] at q1; exact Option.some.inj q1
      rw [← hll, ← r5] at q5
      obtain rfl : k = k' := (List.getElem?_inj r4 r6).1 q5.symm
      rfl)
    (by
      rintro it hi d hd
      obtain ⟨row, n, r1, r2, r3, r4, r5, r6, r7, -⟩ := hvis _ (hmemv _ hi)
      simp only [Option.some.injEq] at hd
      rw [(e.fi _).property, ← hd]
      exact lin_lt r2 r7)
  have hloop0 : runItems (selLoop0 npart par cond e.pad) items (d2, (e.fi npart.sum).val) =
      some (addCounts key items d2, ml) := by
    rw [runItems_congr (step' := fetchStep key
      (fun it l m => st m (before npart it.1 + layOf L it) (l : Int))
      (fun it m => st m (before npart it.1 + layOf L it) (-1)))]
    · rw [runItems_fetch hind]
      · exact congrArg (Option.map fun t => (addCounts key items d2, t)) hml
      · intro it hi c hc
        obtain ⟨row, n, r1, r2, r3, -⟩ := hvis _ (hmemv _ hi)
        simp only [hkey] at hc
        split at hc
        · simp only [Option.some.injEq] at hc
          have := slot_lt he.pad r3
          rw [hd2l, hd1l, he.d0, ← hc]
          exact this
        · cases hc
    · intro it hi s
      obtain ⟨row, n, r1, r2, r3, r4, r5, r6, r7, r8⟩ := hvis _ (hmemv _ hi)
      unfold selLoop0 fetchStep
      rw [r8, Option.bind_some, lin_eq r3, Option.bind_some]
      simp only [hkey]
      split <;> rfl
  -- counts
  have hcnt : ∀ c, c < npart.length → (addCounts key items d2)[npart.length + c * e.pad]? =
      some (keyCount key items (slot c)) := by
    intro c hc
    rw [getElem?_addCounts, hd2z c hc]
    simp [hslot]
  obtain ⟨d3, hd3, hd3l, hd3t⟩ := postProcess_spec he.pad
    (fun c => keyCount key items (slot c)) (d := addCounts key items d2)
    (by simp [addCounts, hd2l, hd1l, he.d0]) hcnt e.s2
  have hlen3 : (addCounts key items d2).length = npart.length + npart.length * e.pad := by
    simp [addCounts, hd2l, hd1l, he.d0]
  set L' : List (List Nat) := (List.range npart.length).map (selRow L key slot items) with hL'
  have hlens : lens L' = (List.range npart.length).map (fun c => keyCount key items (slot c)) := by
    rw [hL', lens, List.map_map]
    exact List.map_congr_left (fun c _ => selRow_length _ _ _ _ _)
  have hlensl : (lens L').length = npart.length := by simp [lens, hL']
  have hL'get : ∀ (c : Nat) (row : List Nat), L'[c]? = some row →
      c < npart.length ∧ row = selRow L key slot items c := by
    intro c row h
    have hc := lt_of_row h
    simp only [hL', List.length_map, List.length_range] at hc
    refine ⟨hc, ?_⟩
    rw [hL', List.getElem?_map, List.getElem?_range hc] at h
    simpa using h.symm
  have hslice : slice d3 0 npart.length = some (lens L') := by
    rw [slice_eq_some (by omega) (by omega), hlens, ← hd3t]
    simp
  obtain ⟨h1, hh1, hh1l, hh1t⟩ := stRange_zero (m := e.h0) (vs := lens L')
    (by rw [hlensl, he.h0]; omega)
  have hscan := hostScan_spec (counts := lens L') (h := h1) (es := e.es0) hh1t
    (by rw [he.es0, hlensl])
  obtain ⟨m, hm, hms, hml2⟩ := mapCreate_spec e.fn (m := e.map) (counts := lens L') (h := h1)
    (by rw [he.starts, hlensl]) hh1t
  rw [hlensl] at hscan hm hh1t hml2
  -- writing loop
  set items3 := e.s3.order v with hitems3
  have hmem3 : ∀ it, it ∈ items3 ↔ it ∈ items := fun it =>
    ((e.s3.perm v).mem_iff).trans (hperm.mem_iff).symm
  set dst : Nat × Nat → Option Nat := fun it =>
    if cond it.1 (layOf L it) then some (before (lens L') it.1 + rank key items it) else none
    with hdst
  have hrow : ∀ it ∈ items, cond it.1 (layOf L it) = true → ∃ row, L'[it.1]? = some row ∧
      (lens L')[it.1]? = some row.length ∧ rank key items it < row.length ∧
      row[rank key items it]? = some (layOf L it) ∧ row = selRow L key slot items it.1 := by
    intro it hi hc
    obtain ⟨row, n, r1, r2, r3, -⟩ := hvis _ (hmemv _ hi)
    have hg : L'[it.1]? = some (selRow L key slot items it.1) := by
      rw [hL', List.getElem?_map, List.getElem?_range r3]; rfl
    have hk : key it = some (slot it.1) := by simp only [hkey]; rw [if_pos hc]
    have hs := selRow_rank (L := L) hi hk
    exact ⟨_, hg, lens_get hg, by rw [selRow_length]; exact rank_lt hi hk, hs, rfl⟩
  obtain ⟨layers, hly, hlyl, hlyv, -⟩ := runItems_put (items := items3)
    (step := selLoop1 npart par ml m.starts) (m := m.layers) dst (layOf L)
    (by
      intro it hi a _
      have hi' := (hmem3 it).1 hi
      obtain ⟨row, n, r1, r2, r3, r4, r5, r6, r7, r8⟩ := hvis _ (hmemv _ hi')
      have hv := hmlv it hi' _ rfl
      unfold selLoop1
      rw [r8, Option.bind_some, lin_eq r3, Option.bind_some]
      simp only [rd]
      rw [hv, Option.bind_some]
      simp only [hdst]
      by_cases hc : cond it.1 (layOf L it) = true
      · have hk : key it = some (slot it.1) := by simp only [hkey]; rw [if_pos hc]
        have hz : d2.getD (slot it.1) 0 = 0 := by
          rw [List.getD_eq_getElem?_getD, hd2z it.1 r3]; rfl
        have hb := rd_npartCellEs (npart := lens L') (c := it.1) (by rw [hlensl]; exact r3)
        simp only [rd] at hb
        rw [hk, if_pos hc, hms, hb]
        simp only [hz, Nat.zero_add, Option.bind_some, Int.toNat_natCast]
        rw [if_pos (by omega)]
      · have hk : key it = none := by simp only [hkey]; rw [if_neg hc]
        rw [hk, if_neg hc]
        simp)
    (by
      rintro i hi j hj d hd hd'
      simp only [hdst] at hd hd'
      split at hd
      · split at hd'
        · rename_i c1 c2
          obtain ⟨row, r1, r2, r3, r4, r5⟩ := hrow i ((hmem3 i).1 hi) c1
          obtain ⟨row', q1, q2, q3, q4, q5⟩ := hrow j ((hmem3 j).1 hj) c2
          simp only [Option.some.injEq] at hd hd'
          obtain ⟨g1, g2⟩ := lin_inj r2 q2 r3 q3 (by omega)
          rw [g1, q1] at r1
          obtain rfl := Option.some.inj r1
          rw [← g2, r4] at q4
          exact Option.some.inj q4
        · cases hd'
      · cases hd)
    (by
      rintro i hi d hd
      simp only [hdst] at hd
      split at hd
      · rename_i c1
        obtain ⟨row, r1, r2, r3, r4, r5⟩ := hrow i ((hmem3 i).1 hi) c1
        obtain ⟨row0, n0, q1, q2, q3, -⟩ := hvis _ (hmemv _ ((hmem3 i).1 hi))
        simp only [Option.some.injEq] at hd
        rw [(hml2 (by omega)).1, ← hd]
        exact lin_lt r2 r3
      · cases hd)
  refine ⟨⟨(lens L').sum, lens L', lens L', npartCellEs (lens L'), npartCellEs (lens L'), layers⟩,
    L', ?_, ?_, ?_⟩
  · rw [hms] at hly
    unfold selectCreate
    simp only [hd1, Option.bind_some, hd2, hv, ← hitems, hloop0, hd3, hslice, hh1, hscan, hm,
      ← hitems3, hly, hh1t, hms]
  · apply lists_of
    intro c row k hr hk
    obtain ⟨hc, rfl⟩ := hL'get c row hr
    rw [selRow_length] at hk
    obtain ⟨it, i1, i2, i3⟩ := rank_surj hind hk
    have hcond : cond it.1 (layOf L it) = true ∧ it.1 = c := by
      simp only [hkey] at i2
      split at i2
      · rename_i h1
        exact ⟨h1, slot_inj he.pad (Option.some.inj i2)⟩
      · cases i2
    obtain ⟨h1, rfl⟩ := hcond
    have := hlyv it ((hmem3 it).2 i1) (before (lens L') it.1 + rank key items it)
      (by simp only [hdst]; rw [if_pos h1])
    rw [← i3, this, selRow_rank i1 i2]
  · refine ⟨by simp [hL', hL.1], ?_⟩
    intro c row row' hr hr'
    obtain ⟨hc, rfl⟩ := hL'get c row' hr'
    obtain ⟨n, hn⟩ : ∃ n, npart[c]? = some n := ⟨_, List.getElem?_eq_getElem hc⟩
    obtain ⟨hrnd, hrlt⟩ := hL.2 c row n hr hn
    refine selRow_perm hind (fun c k => ((hperm.mem_iff).trans (hvm c k))) hr hrnd (cond c) ?_
    intro it _
    simp only [hkey]
    split
    · rename_i h1
      constructor
      · intro h
        have := slot_inj he.pad (Option.some.inj h)
        exact ⟨this, by rw [← this]; exact h1⟩
      · rintro ⟨rfl, -⟩; rfl
    · rename_i h1
      constructor
      · intro h; cases h
      · rintro ⟨rfl, h⟩; exact absurd h h1

end NP
