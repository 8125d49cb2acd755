import Verif.Sub.LemmasScan
import Verif.Mesh.Lemmas

/-! The selectors that derive a selection from other selections without a user condition. -/

set_option autoImplicit false

namespace NP

open Spec

/-! ## Truncate and discard -/

/-- A kernel over the cells in which work item `c` writes entry `c`. -/
theorem putRow {vs m : List Nat} {step : Nat → List Nat → Option (List Nat)} (s : Sched)
    (hstep : ∀ c x, vs[c]? = some x → ∀ a, step c a = st a c x) (hm : vs.length ≤ m.length) :
    ∃ m', runItems step (s.order (List.range vs.length)) m = some m' ∧ m'.length = m.length ∧
      m'.take vs.length = vs := by
  have hmem : ∀ c, c ∈ s.order (List.range vs.length) ↔ c < vs.length := fun c =>
    ((s.perm _).mem_iff).trans List.mem_range
  obtain ⟨m', h1, h2, h3, -⟩ := runItems_put (items := s.order (List.range vs.length))
    (step := step) (m := m) (fun c => some c) (fun c => vs.getD c 0)
    (by
      intro c hc a _
      have hc' := (hmem c).1 hc
      rw [hstep c _ (List.getElem?_eq_getElem hc')]
      simp [List.getD_eq_getElem?_getD, hc'])
    (by
      intro i _ j _ d h1 h2
      rw [Option.some.inj h1, Option.some.inj h2])
    (by
      intro c hc d h
      have := (hmem c).1 hc
      have := Option.some.inj h
      omega)
  refine ⟨m', h1, h2, ?_⟩
  apply List.ext_getElem?
  intro c
  by_cases hc : c < vs.length
  · rw [List.getElem?_take_of_lt hc, h3 c ((hmem c).2 hc) c rfl]
    simp [List.getD_eq_getElem?_getD, hc]
  · rw [List.getElem?_eq_none (by simp; omega), List.getElem?_eq_none (by omega)]

/-- The same for two arrays. -/
theorem putRow2 {vs ws m m2 : List Nat}
    {step : Nat → List Nat × List Nat → Option (List Nat × List Nat)} (s : Sched)
    (hl : ws.length = vs.length)
    (hstep : ∀ c x y, vs[c]? = some x → ws[c]? = some y → ∀ a b, step c (a, b) =
      (st a c x).bind fun a => (st b c y).bind fun b => some (a, b))
    (hm : vs.length ≤ m.length) (hm2 : m2.length = ws.length) :
    ∃ m', runItems step (s.order (List.range vs.length)) (m, m2) = some (m', ws) ∧
      m'.length = m.length ∧ m'.take vs.length = vs := by
  obtain ⟨m', a1, a2, a3⟩ := putRow (vs := vs) (m := m) (step := fun c a => st a c (vs.getD c 0)) s
    (by intro c x hx a; simp [List.getD_eq_getElem?_getD, hx]) hm
  obtain ⟨n', b1, b2, b3⟩ := putRow (vs := ws) (m := m2) (step := fun c a => st a c (ws.getD c 0)) s
    (by intro c x hx a; simp [List.getD_eq_getElem?_getD, hx]) (by omega)
  rw [List.take_of_length_le (by omega)] at b3
  subst b3
  rw [hl] at b1
  refine ⟨m', runItems_prod ?_ a1 b1, a2, a3⟩
  intro c hc x y
  have hc' : c < vs.length := List.mem_range.1 (((s.perm _).mem_iff).1 hc)
  have hc2 : c < n'.length := by omega
  rw [hstep c _ _ (List.getElem?_eq_getElem hc') (List.getElem?_eq_getElem hc2)]
  simp [List.getD_eq_getElem?_getD, hc', hc2]

theorem occKernel_spec {occ : Nat → Nat} {counts d i : List Nat} {s : Sched}
    (hd : counts.length ≤ d.length) (hi : i.length = counts.length) :
    ∃ r, runItems (occKernel occ counts) (s.order (List.range counts.length)) (d, i) =
        some (r, counts.map occ) ∧ r.take counts.length = counts.map occ ∧
        r.length = d.length := by
  obtain ⟨r, h1, h2, h3⟩ := putRow2 (vs := counts.map occ) (ws := counts.map occ) (m := d) (m2 := i)
    (step := occKernel occ counts) s rfl
    (by
      intro c x y hx hy a b
      rw [List.getElem?_map, Option.map_eq_some_iff] at hx hy
      obtain ⟨n, hn, rfl⟩ := hx
      obtain ⟨n', hn', rfl⟩ := hy
      rw [hn] at hn'
      obtain rfl := Option.some.inj hn'
      simp only [occKernel, rd, hn, Option.bind_some])
    (by simpa using hd) (by simpa using hi)
  simp only [List.length_map] at h1 h3
  exact ⟨r, h1, h3, h2⟩

theorem occMax_spec {counts h : List Nat} (hh : h.take counts.length = counts) :
    ∃ mx, maxOcc counts.length h = some mx ∧ ∀ n ∈ counts, n ≤ mx := by
  obtain ⟨mx, h1, h2⟩ := forLoop_invariant (a := 0) (b := counts.length)
    (step := fun c s => (rd h c).bind fun n => some (max s n)) (s := 0)
    (fun i s => ∀ c n, c < i → counts[c]? = some n → n ≤ s) (by omega)
    (by
      intro c s _ hc ih
      obtain ⟨n, hn⟩ : ∃ n, counts[c]? = some n := ⟨_, List.getElem?_eq_getElem hc⟩
      refine ⟨max s n, by simp only [rd]; rw [getElem?_of_take hh hc, hn]; rfl, ?_⟩
      intro d k hd hk
      by_cases hdc : d = c
      · subst hdc; rw [hn] at hk; have := Option.some.inj hk; omega
      · have := ih d k (by omega) hk; omega)
    (by intro c n hc; omega)
  refine ⟨mx, h1, fun n hn => ?_⟩
  obtain ⟨c, hc, rfl⟩ := List.getElem_of_mem hn
  exact h2 c _ hc (List.getElem?_eq_getElem hc)

theorem shift_spec {e : SelEnv} {npart : List Nat} (he : SelOk e npart) {scanLocal : Nat}
    (hs : 0 < scanLocal) (hcell : 0 < npart.length) {par : Parent} {L : List (List Nat)}
    (hp : ParentLists npart par L) (hLl : L.length = npart.length) (occ : Nat → Nat)
    (shift : Nat) (f : List Nat → List Nat) (hf : ∀ row, (f row).length = occ row.length)
    (hfget : ∀ row k, k < (f row).length → shift + k < row.length ∧ (f row)[k]? = row[shift + k]?) :
    ∃ sel, shiftCreate e scanLocal npart par occ shift = some sel ∧ Lists sel (L.map f) := by
  have pf := parent_facts hp
  have hll : (lens L).length = npart.length := by simp [lens, hLl]
  have hl' : lens (L.map f) = (lens L).map occ := by
    simp only [lens, List.map_map]
    exact List.map_congr_left (fun row _ => hf row)
  set L' := L.map f with hL'
  have hll' : (lens L').length = npart.length := by rw [hl', List.length_map, hll]
  obtain ⟨r, h1, h1a, h1l⟩ := occKernel_spec (occ := occ) (counts := lens L) (d := e.d0)
    (i := (e.fn npart.length).val) (s := e.s0) (by rw [he.d0, hll]; omega)
    (by rw [(e.fn _).property, hll])
  rw [hll, ← hl'] at h1a
  rw [hll, ← hl'] at h1
  obtain ⟨h2, hh2, hh2l, hh2t⟩ := stRange_zero (m := e.h0) (vs := lens L')
    (by rw [hll', he.h0]; omega)
  obtain ⟨es, h3, h3l, h3s, -⟩ := jointExclusiveScanGroup_spec (N := npart.length) hs (lens L') e.es0
    (by rw [hll']) (by rw [he.es0])
  have hes : es = npartCellEs (lens L') := by
    apply List.ext_getElem?
    intro c
    by_cases hc : c < npart.length
    · have a2 := rd_npartCellEs (npart := lens L') (c := c) (by omega)
      simp only [rd] at a2
      rw [h3s c hc, a2]; rfl
    · rw [List.getElem?_eq_none (by rw [h3l, he.es0]; omega),
        List.getElem?_eq_none (by rw [length_npartCellEs]; omega)]
  obtain ⟨mx, h4, h4m⟩ := occMax_spec hh2t
  obtain ⟨m, hmc, hms, hml2⟩ := mapCreate_spec e.fn (m := e.map) (counts := lens L') (h := h2)
    (by rw [he.starts, hll']) hh2t
  rw [hll'] at h4 hmc hml2 hh2t
  obtain ⟨range, h5, ⟨h5a, -⟩, -⟩ := C06_next_multiple mx e.localSize he.localSize
  have hlast := rd_npartCellEs (npart := lens L') (c := npart.length - 1) (by omega)
  obtain ⟨nl, hnl⟩ : ∃ n, (lens L')[npart.length - 1]? = some n :=
    ⟨_, List.getElem?_eq_getElem (by omega)⟩
  have hnl' : rd h2 (npart.length - 1) = some nl := by
    simp only [rd]; rw [getElem?_of_take hh2t (by omega), hnl]
  have htot : before (lens L') (npart.length - 1) + nl = (lens L').sum := by
    have := before_succ hnl
    rw [show npart.length - 1 + 1 = (lens L').length by omega, before_all] at this
    omega
  have hmxrow : ∀ (c : Nat) (row : List Nat), L'[c]? = some row → row.length ≤ mx := by
    intro c row hr
    exact h4m _ (List.mem_of_getElem? (lens_get hr))
  have hfill : ∃ layers, (if mx > 0 then
      runItems (shiftKernel par shift r m.starts) (e.s1.order (pairs npart.length range)) m.layers
      else some m.layers) = some layers ∧
      ∀ (c : Nat) (row : List Nat) (k : Nat), L'[c]? = some row → k < row.length →
        layers[before (lens L') c + k]? = row[k]? := by
    by_cases hmx : mx > 0
    · rw [if_pos hmx]
      apply fill_spec (hml2 hcell).1
      · intro it hi a _
        obtain ⟨i1, i2⟩ := mem_pairs.1 (((e.s1.perm _).mem_iff).1 hi)
        obtain ⟨row, hr⟩ := exists_row (L := L) (c := it.1) (by omega)
        have hr' : L'[it.1]? = some (f row) := by rw [hL', List.getElem?_map, hr]; rfl
        have hb := rd_npartCellEs (npart := lens L') (c := it.1) (by omega)
        have hcnt : r[it.1]? = some (f row).length := by
          rw [getElem?_of_take h1a i1, lens_get hr']
        unfold shiftKernel
        simp only [rd] at hb ⊢
        rw [hcnt, Option.bind_some, hr', Option.bind_some, hms, hb]
        by_cases hk : it.2 < (f row).length
        · obtain ⟨g1, g2⟩ := hfget row it.2 hk
          rw [if_pos hk, pf.layer it.1 row _ hr g1, ← g2, List.getElem?_eq_getElem hk]
          rfl
        · rw [if_neg hk, List.getElem?_eq_none (by omega)]
      · intro c row k hr hk
        have := hmxrow c row hr
        have hc := lt_of_row hr
        have : L'.length = npart.length := by simp [hL', hLl]
        exact ((e.s1.perm _).mem_iff).2 (mem_pairs.2 ⟨by simp only; omega, by simp only; omega⟩)
    · rw [if_neg hmx]
      refine ⟨m.layers, rfl, ?_⟩
      intro c row k hr hk
      have := hmxrow c row hr
      omega
  obtain ⟨layers, hly, hlyv⟩ := hfill
  refine ⟨⟨(lens L').sum, lens L', lens L', npartCellEs (lens L'), npartCellEs (lens L'), layers⟩,
    ?_, lists_of hlyv⟩
  rw [hms] at hly
  unfold shiftCreate
  rw [pf.dCounts]
  simp only [h1, Option.bind_some, h1a, hh2, h3, hes, h4, if_neg (show ¬ npart.length = 0 by omega),
    hlast, hnl', hmc, h5, hms, hly, hh2t, htot]

theorem truncate_spec {e : SelEnv} {npart : List Nat} (he : SelOk e npart) {scanLocal : Nat}
    (hs : 0 < scanLocal) (hcell : 0 < npart.length) {par : Parent} {L : List (List Nat)}
    (hp : ParentLists npart par L) (hL : L.length = npart.length) (n : Nat) :
    ∃ sel, truncateCreate e scanLocal npart par n = some sel ∧ Lists sel (L.map (List.take n)) := by
  refine shift_spec he hs hcell hp hL _ 0 (List.take n) (by simp) ?_
  intro row k hk
  simp only [List.length_take] at hk
  refine ⟨by omega, ?_⟩
  rw [List.getElem?_take_of_lt (by omega), Nat.zero_add]

theorem discard_spec {e : SelEnv} {npart : List Nat} (he : SelOk e npart) {scanLocal : Nat}
    (hs : 0 < scanLocal) (hcell : 0 < npart.length) {par : Parent} {L : List (List Nat)}
    (hp : ParentLists npart par L) (hL : L.length = npart.length) (n : Nat) :
    ∃ sel, discardCreate e scanLocal npart par n = some sel ∧ Lists sel (L.map (List.drop n)) := by
  refine shift_spec he hs hcell hp hL _ n (List.drop n) (by simp) ?_
  intro row k hk
  simp only [List.length_drop] at hk
  exact ⟨by omega, by rw [List.getElem?_drop]⟩

/-! ## Copy -/

/-- Work items `(cell, local_id)` that stride over the rows cover every loop layer. -/
theorem strided_cover {ls n k : Nat} (hls : 0 < ls) (hk : k < n) :
    k ∈ strided (k % ls) n ls := by
  rw [mem_strided hls]
  refine ⟨Nat.mod_le _ _, hk, ?_⟩
  have := Nat.mod_add_div k ls
  rw [show k - k % ls = ls * (k / ls) by omega]
  exact Nat.mul_mod_right _ _

theorem copy_spec {e : SelEnv} {npart : List Nat} (he : SelOk e npart) {s : Selection}
    {L : List (List Nat)} (hp : Lists s L) (hLl : L.length = npart.length) :
    ∃ sel, copyCreate e s = some sel ∧ Lists sel L := by
  have hll : (lens L).length = npart.length := by simp only [lens, List.length_map, hLl]
  obtain ⟨d, h1, h1l, h1t⟩ := putRow2 (vs := lens L) (ws := npartCellEs (lens L)) (m := e.d0)
    (m2 := e.es0)
    (step := fun c d => (rd s.dNpart c).bind fun n => (rd s.dEs c).bind fun o =>
      (st d.1 c n).bind fun a => (st d.2 c o).bind fun b => some (a, b)) e.s0
    (length_npartCellEs _)
    (by
      intro c x y hx hy a b
      rw [hp.deviceCounts, lists_es hp]
      simp only [rd, hx, hy, Option.bind_some])
    (by rw [he.d0, hll]; omega) (by rw [he.es0, length_npartCellEs, hll])
  obtain ⟨h2, hh2, hh2l, hh2t⟩ := stRange_zero (m := e.h0) (vs := lens L)
    (by rw [hll, he.h0]; omega)
  obtain ⟨m, hmc, hms, hml2⟩ := mapCreate_spec e.fn (m := e.map) (counts := lens L) (h := h2)
    (by rw [he.starts, hll]) hh2t
  have hfill : ∃ layers, runItems (copyItem s e.localSize d m.starts)
      (e.s1.order (pairs (lens L).length e.localSize)) m.layers = some layers ∧
      ∀ (c : Nat) (row : List Nat) (k : Nat), L[c]? = some row → k < row.length →
        layers[before (lens L) c + k]? = row[k]? := by
    by_cases hc0 : 0 < npart.length
    · have hml := (hml2 (by omega)).1
      obtain ⟨layers, a1, a2⟩ := fill_spec (L := L)
        (items := (e.s1.order (pairs (lens L).length e.localSize)).flatMap fun it =>
          (strided it.2 ((lens L).getD it.1 0) e.localSize).map fun k => (it.1, k))
        (step := fun it a => match (L[it.1]?).bind (fun row => row[it.2]?) with
          | none => some a | some l => st a (before (lens L) it.1 + it.2) l)
        hml (fun _ _ _ _ => rfl)
        (by
          intro c row k hr hk
          refine List.mem_flatMap.2 ⟨(c, k % e.localSize), ((e.s1.perm _).mem_iff).2
            (mem_pairs.2 ⟨by simpa [lens] using lt_of_row hr, Nat.mod_lt _ he.localSize⟩), ?_⟩
          refine List.mem_map.2 ⟨k, ?_, rfl⟩
          simp only [List.getD_eq_getElem?_getD, lens_get hr, Option.getD_some]
          exact strided_cover he.localSize hk)
      refine ⟨layers, ?_, a2⟩
      rw [← a1, ← runItems_flatMap]
      apply runItems_congr
      intro it hi a
      obtain ⟨i1, i2⟩ := mem_pairs.1 (((e.s1.perm _).mem_iff).1 hi)
      obtain ⟨row, hr⟩ := exists_row (L := L) (c := it.1) (by omega)
      have hcnt : d[it.1]? = some row.length := by rw [getElem?_of_take h1t i1, lens_get hr]
      have hb := rd_npartCellEs (npart := lens L) (c := it.1) (by omega)
      unfold copyItem
      simp only [rd] at hb ⊢
      rw [runItems_map, hcnt, Option.bind_some, List.getD_eq_getElem?_getD, lens_get hr,
        Option.getD_some]
      apply runItems_congr
      intro k hk a
      obtain ⟨-, hk2, -⟩ := (mem_strided he.localSize).1 hk
      rw [hp.layer it.1 row k hr hk2, hms, hb]
      simp only [hr, Option.bind_some]
      rw [List.getElem?_eq_getElem hk2]
      rfl
    · have hL0 : L = [] := List.length_eq_zero_iff.1 (by omega)
      subst hL0
      have : e.s1.order (pairs (lens ([] : List (List Nat))).length e.localSize) = [] := by
        apply List.eq_nil_iff_forall_not_mem.2
        intro it hi
        have := (mem_pairs.1 (((e.s1.perm _).mem_iff).1 hi)).1
        simp [lens] at this
      rw [this]
      exact ⟨m.layers, rfl, by simp⟩
  obtain ⟨layers, hly, hlyv⟩ := hfill
  refine ⟨⟨(lens L).sum, lens L, lens L, npartCellEs (lens L), npartCellEs (lens L), layers⟩,
    ?_, lists_of hlyv⟩
  rw [hms] at hly
  have hc : s.hNpart = lens L := hp.hostCounts
  have ht : s.npartLocal = (lens L).sum := hp.total
  unfold copyCreate
  simp only [hc, ht, h1, Option.bind_some, hh2, hmc, hms, hly, hh2t, h1t]

/-! ## Cell ranges -/

/-- `SubGroupParticleMap::create` for a range of cells. -/
theorem mapCreate_range (f : Fresh Nat) {m : LayerMap} {counts h : List Nat} {cs ce : Nat}
    (hm : m.starts.length = counts.length) (hh : h.take counts.length = counts) (h1 : cs < ce)
    (h2 : ce ≤ counts.length) :
    ∃ m', mapCreate f m cs ce h (npartCellEs counts) = some m' ∧
      m'.layers.length = before counts ce ∧
      ∀ c, cs ≤ c → c < ce → m'.starts[c]? = some (before counts c) := by
  unfold mapCreate
  rw [if_pos ⟨by omega, by omega⟩, if_pos h1]
  have e1 := rd_npartCellEs (npart := counts) (c := ce - 1) (by omega)
  obtain ⟨n, hn⟩ : ∃ n, counts[ce - 1]? = some n := ⟨_, List.getElem?_eq_getElem (by omega)⟩
  have e2 : rd h (ce - 1) = some n := by
    simp only [rd]; rw [getElem?_of_take hh (by omega), hn]
  have e3 : before counts (ce - 1) + n = before counts ce := by
    have := before_succ hn
    rw [show ce - 1 + 1 = ce by omega] at this
    omega
  obtain ⟨starts, a1, a2, a3⟩ := forLoop_invariant (a := cs) (b := ce)
    (step := fun c (starts : List Nat) => (rd (npartCellEs counts) c).bind fun o => st starts c o)
    (s := m.starts)
    (fun i s => s.length = counts.length ∧ ∀ c, cs ≤ c → c < i → s[c]? = some (before counts c))
    (by omega) (by
      rintro c s hc1 hc ⟨b1, b2⟩
      have hr := rd_npartCellEs (npart := counts) (c := c) (by omega)
      refine ⟨s.set c (before counts c), by rw [hr]; exact st_eq_some (by omega),
        by simpa using b1, ?_⟩
      intro d hd1 hd
      by_cases hdc : d = c
      · subst hdc
        rw [List.getElem?_set_self (by omega)]
      · rw [List.getElem?_set_ne (by omega)]
        exact b2 d hd1 (by omega))
    ⟨hm, by intro c _ _; omega⟩
  refine ⟨_, by rw [e1, e2]; simp only [Option.bind_some]; rw [a1]; rfl, ?_, a3⟩
  rw [(f _).property]; exact e3

/-- The rows of the cells of a range. -/
def cellRows (cs ce : Nat) (L : List (List Nat)) : List (List Nat) :=
  L.mapIdx fun c row => if cs ≤ c ∧ c < ce then row else []

theorem cellRows_get {cs ce : Nat} {L : List (List Nat)} {c : Nat} {row : List Nat}
    (h : L[c]? = some row) :
    (cellRows cs ce L)[c]? = some (if cs ≤ c ∧ c < ce then row else []) := by
  unfold cellRows; rw [List.getElem?_mapIdx, h]; rfl

/-- Before the range there are no particles. -/
theorem before_cellRows_low {cs ce : Nat} {L : List (List Nat)} {c : Nat} (hc : c ≤ cs)
    (hcl : c ≤ L.length) : before (lens (cellRows cs ce L)) c = 0 := by
  induction c with
  | zero => simp [before]
  | succ c ih =>
    obtain ⟨row, hr⟩ := exists_row (L := L) (c := c) (by omega)
    have := lens_get (cellRows_get (cs := cs) (ce := ce) hr)
    rw [if_neg (by omega)] at this
    rw [before_succ this, ih (by omega) (by omega)]
    rfl

/-- After the range the sum stays the same. -/
theorem before_cellRows_high {cs ce : Nat} {L : List (List Nat)} {c : Nat} (hc : ce ≤ c)
    (hcl : c ≤ L.length) : before (lens (cellRows cs ce L)) c = before (lens (cellRows cs ce L)) ce := by
  induction c with
  | zero => rw [show ce = 0 by omega]
  | succ c ih =>
    by_cases hce : ce = c + 1
    · rw [hce]
    · obtain ⟨row, hr⟩ := exists_row (L := L) (c := c) (by omega)
      have := lens_get (cellRows_get (cs := cs) (ce := ce) hr)
      rw [if_neg (by omega)] at this
      rw [before_succ this, ih (by omega) (by omega)]
      rfl

theorem cellCounts_spec {cs ce : Nat} {L : List (List Nat)} {h es : List Nat} (h1 : cs ≤ ce)
    (h2 : ce ≤ L.length) (hh : L.length ≤ h.length) (hes : es.length = L.length) :
    ∃ h' mx, cellCounts L.length cs ce (lens L) h es = some
        (h', npartCellEs (lens (cellRows cs ce L)), (lens (cellRows cs ce L)).sum, mx) ∧
      h'.take L.length = lens (cellRows cs ce L) ∧ h'.length = h.length ∧
      ∀ n ∈ lens (cellRows cs ce L), n ≤ mx := by
  set L' := cellRows cs ce L with hL'
  have hl' : (lens L').length = L.length := by simp [lens, hL', cellRows]
  have hget : ∀ c, c < L.length → ∃ row, L[c]? = some row ∧
      (lens L)[c]? = some row.length ∧ (lens L')[c]? = some (if cs ≤ c ∧ c < ce then row.length else 0) := by
    intro c hc
    obtain ⟨row, hr⟩ := exists_row hc
    refine ⟨row, hr, lens_get hr, ?_⟩
    rw [lens_get (cellRows_get hr)]
    split <;> rfl
  obtain ⟨⟨g0, f0⟩, a1, a2, a3, a4, a5⟩ := forLoop_invariant (a := 0) (b := cs)
    (step := fun c (s : List Nat × List Nat) => (st s.1 c 0).bind fun h =>
      (st s.2 c 0).bind fun es => some (h, es)) (s := (h, es))
    (fun i s => s.1.length = h.length ∧ s.2.length = es.length ∧
      (∀ c, c < i → s.1[c]? = (lens L')[c]?) ∧ ∀ c, c < i → s.2[c]? = some (before (lens L') c))
    (by omega) (by
      rintro c ⟨a, b⟩ - hc ⟨b1, b2, b3, b4⟩
      simp only at b1 b2 b3 b4
      obtain ⟨row, -, -, r3⟩ := hget c (by omega)
      rw [if_neg (by omega)] at r3
      refine ⟨(a.set c 0, b.set c 0), by simp only [st_eq_some (show c < a.length by omega), st_eq_some (show c < b.length by omega), Option.bind_some], by simpa using b1, by simpa using b2, ?_, ?_⟩
      · intro d hd
        by_cases hdc : c = d
        · subst hdc; simp only; rw [List.getElem?_set_self (by omega), r3]
        · simp only; rw [List.getElem?_set_ne hdc]; exact b3 d (by omega)
      · intro d hd
        by_cases hdc : c = d
        · subst hdc; simp only
          rw [List.getElem?_set_self (by omega), before_cellRows_low (by omega) (by omega)]
        · simp only; rw [List.getElem?_set_ne hdc]; exact b4 d (by omega))
    ⟨rfl, rfl, by intro c hc; omega, by intro c hc; omega⟩
  simp only at a2 a3 a4 a5
  obtain ⟨⟨g1, f1, t1, m1⟩, c1, c2, c3, c4, c5, c6, c7⟩ := forLoop_invariant (a := cs) (b := ce)
    (step := fun c (s : List Nat × List Nat × Nat × Nat) => (rd (lens L) c).bind fun total =>
      (st s.1 c total).bind fun h => (st s.2.1 c s.2.2.1).bind fun es =>
      some (h, es, s.2.2.1 + total, max total s.2.2.2)) (s := (g0, f0, 0, 0))
    (fun i s => s.1.length = h.length ∧ s.2.1.length = es.length ∧
      (∀ c, c < i → s.1[c]? = (lens L')[c]?) ∧
      (∀ c, c < i → s.2.1[c]? = some (before (lens L') c)) ∧ s.2.2.1 = before (lens L') i ∧
      ∀ c n, c < i → (lens L')[c]? = some n → n ≤ s.2.2.2)
    (by omega) (by
      rintro c ⟨a, b, t, m⟩ hc0 hc ⟨b1, b2, b3, b4, b5, b6⟩
      simp only at b1 b2 b3 b4 b5 b6
      obtain ⟨row, -, r2, r3⟩ := hget c (by omega)
      rw [if_pos (by omega)] at r3
      refine ⟨(a.set c row.length, b.set c t, t + row.length, max row.length m), by simp only [rd, r2, st_eq_some (show c < a.length by omega), st_eq_some (show c < b.length by omega), Option.bind_some], by simpa using b1, by simpa using b2, ?_, ?_, ?_, ?_⟩
      · intro d hd
        by_cases hdc : c = d
        · subst hdc; simp only; rw [List.getElem?_set_self (by omega), r3]
        · simp only; rw [List.getElem?_set_ne hdc]; exact b3 d (by omega)
      · intro d hd
        by_cases hdc : c = d
        · subst hdc; simp only
          rw [List.getElem?_set_self (by omega), b5]
        · simp only; rw [List.getElem?_set_ne hdc]; exact b4 d (by omega)
      · simp only; rw [before_succ r3, b5]
      · intro d n hd hn
        simp only
        by_cases hdc : c = d
        · subst hdc; rw [r3] at hn; have := Option.some.inj hn; omega
        · have := b6 d n (by omega) hn; omega)
    ⟨a2, a3, a4, a5, (before_cellRows_low (by omega) (by omega)).symm, by
      intro c n hc hn
      obtain ⟨row, -, -, r3⟩ := hget c (by omega)
      rw [if_neg (by omega), hn] at r3
      have := Option.some.inj r3
      simp only; omega⟩
  simp only at c2 c3 c4 c5 c6 c7
  obtain ⟨⟨g2, f2⟩, d1, d2, d3, d4, d5⟩ := forLoop_invariant (a := ce) (b := L.length)
    (step := fun c (s : List Nat × List Nat) => (st s.1 c 0).bind fun h =>
      (st s.2 c t1).bind fun es => some (h, es)) (s := (g1, f1))
    (fun i s => s.1.length = h.length ∧ s.2.length = es.length ∧
      (∀ c, c < i → s.1[c]? = (lens L')[c]?) ∧ ∀ c, c < i → s.2[c]? = some (before (lens L') c))
    (by omega) (by
      rintro c ⟨a, b⟩ hc0 hc ⟨b1, b2, b3, b4⟩
      simp only at b1 b2 b3 b4
      obtain ⟨row, -, -, r3⟩ := hget c (by omega)
      rw [if_neg (by omega)] at r3
      refine ⟨(a.set c 0, b.set c t1), by simp only [st_eq_some (show c < a.length by omega), st_eq_some (show c < b.length by omega), Option.bind_some], by simpa using b1, by simpa using b2, ?_, ?_⟩
      · intro d hd
        by_cases hdc : c = d
        · subst hdc; simp only; rw [List.getElem?_set_self (by omega), r3]
        · simp only; rw [List.getElem?_set_ne hdc]; exact b3 d (by omega)
      · intro d hd
        by_cases hdc : c = d
        · subst hdc; simp only
          rw [List.getElem?_set_self (by omega), before_cellRows_high (by omega) (by omega), c6]
        · simp only; rw [List.getElem?_set_ne hdc]; exact b4 d (by omega))
    ⟨c2, c3, c4, c5⟩
  simp only at d2 d3 d4 d5
  have hsum : t1 = (lens L').sum := by
    rw [c6, ← before_cellRows_high (c := L.length) h2 (Nat.le_refl _), ← before_all, hl']
  have hf2 : f2 = npartCellEs (lens L') := by
    apply List.ext_getElem?
    intro c
    by_cases hc : c < L.length
    · have := rd_npartCellEs (npart := lens L') (c := c) (by omega)
      simp only [rd] at this
      rw [d5 c hc, this]
    · rw [List.getElem?_eq_none (by omega), List.getElem?_eq_none (by rw [length_npartCellEs]; omega)]
  refine ⟨g2, m1, ?_, ?_, d2, ?_⟩
  · unfold cellCounts
    rw [a1, Option.bind_some]
    simp only
    rw [c1, Option.bind_some]
    simp only
    rw [d1, Option.bind_some, hf2, hsum]
  · apply List.ext_getElem?
    intro c
    by_cases hc : c < L.length
    · rw [List.getElem?_take_of_lt hc, d4 c hc]
    · rw [List.getElem?_eq_none (by simp; omega), List.getElem?_eq_none (by omega)]
  · intro n hn
    obtain ⟨c, hc, rfl⟩ := List.getElem_of_mem hn
    by_cases hce : c < ce
    · exact c7 c _ hce (List.getElem?_eq_getElem hc)
    · obtain ⟨row, -, -, r3⟩ := hget c (by omega)
      rw [if_neg (by omega), List.getElem?_eq_getElem hc] at r3
      rw [Option.some.inj r3]; omega

theorem cell_spec {e : SelEnv} {npart : List Nat} (he : SelOk e npart) {des0 : List Nat}
    (hdes : des0.length = npart.length) {cs ce : Nat} (h1 : cs ≤ ce) (h2 : ce ≤ npart.length)
    (hempty : cs = ce → des0 = List.replicate npart.length 0 ∧
      e.d0.take npart.length = List.replicate npart.length 0)
    {par : Parent} {L : List (List Nat)} (hp : ParentLists npart par L)
    (hLl : L.length = npart.length) :
    ∃ sel, cellCreate e des0 npart par cs ce = some sel ∧ Lists sel (cellRows cs ce L) := by
  have pf := parent_facts hp
  obtain ⟨g, hg, hgl, -⟩ := stRange_zero (m := e.h0) (vs := List.replicate npart.length 0)
    (by rw [he.h0]; simp)
  obtain ⟨h', mx, b1, b2, b3, b4⟩ := cellCounts_spec (cs := cs) (ce := ce) (L := L) (h := g)
    (es := e.es0) h1 (by omega) (by rw [hgl, he.h0]; omega) (by rw [he.es0, hLl])
  set L' := cellRows cs ce L with hL'
  have hl' : (lens L').length = npart.length := by simp only [lens, hL', cellRows, List.length_map, List.length_mapIdx, hLl]
  have hll' : L'.length = npart.length := by simpa [lens] using hl'
  obtain ⟨range, h5, ⟨h5a, -⟩, -⟩ := C06_next_multiple mx e.localSize he.localSize
  rw [hLl] at b1 b2
  by_cases hlt : cs < ce
  · obtain ⟨des, c1, c2, c3⟩ := stRange_zero (m := des0) (vs := npartCellEs (lens L'))
      (by rw [length_npartCellEs, hl', hdes])
    obtain ⟨d, d1, d2, d3⟩ := stRange_zero (m := e.d0) (vs := lens L') (by rw [hl', he.d0]; omega)
    rw [length_npartCellEs, hl', List.take_of_length_le (by omega)] at c3
    subst c3
    rw [hl'] at d3
    obtain ⟨m, m1, m2, m3⟩ := mapCreate_range e.fn (m := e.map) (counts := lens L') (h := h')
      (cs := cs) (ce := ce) (by rw [he.starts, hl']) (by rw [hl', b2]) hlt (by omega)
    have hsum : before (lens L') ce = (lens L').sum := by
      rw [← before_cellRows_high (c := L.length) (by omega) (Nat.le_refl _), hLl, ← hl', before_all]
    have hrow : ∀ (c : Nat) (row : List Nat), L'[c]? = some row → 0 < row.length →
        cs ≤ c ∧ c < ce ∧ L[c]? = some row := by
      intro c row hr h0
      obtain ⟨row0, hr0⟩ := exists_row (L := L) (c := c) (by have := lt_of_row hr; omega)
      rw [hL', cellRows_get hr0] at hr
      have hr := Option.some.inj hr
      split at hr
      · rename_i hc
        subst hr
        exact ⟨hc.1, hc.2, hr0⟩
      · subst hr
        simp at h0
    have hfill : ∃ layers, (if ce - cs > 0 ∧ mx > 0 then
        runItems (fun it layers => shiftKernel par 0 d m.starts (it.1 + cs, it.2) layers)
          (e.s0.order (pairs (ce - cs) range)) m.layers else some m.layers) = some layers ∧
        ∀ (c : Nat) (row : List Nat) (k : Nat), L'[c]? = some row → k < row.length →
          layers[before (lens L') c + k]? = row[k]? := by
      by_cases hmx : mx > 0
      · rw [if_pos ⟨by omega, hmx⟩]
        rw [← runItems_map (fun it : Nat × Nat => (it.1 + cs, it.2)) (shiftKernel par 0 d m.starts)]
        apply fill_spec (by rw [m2, hsum])
        · intro it hi a _
          obtain ⟨jt, hj, rfl⟩ := List.mem_map.1 hi
          obtain ⟨j1, j2⟩ := mem_pairs.1 (((e.s0.perm _).mem_iff).1 hj)
          obtain ⟨row, hr⟩ := exists_row (L := L) (c := jt.1 + cs) (by omega)
          have hr' : L'[jt.1 + cs]? = some row := by
            rw [hL', cellRows_get hr, if_pos (by omega)]
          have hb := m3 (jt.1 + cs) (by omega) (by omega)
          have hcnt : d[jt.1 + cs]? = some row.length := by
            rw [getElem?_of_take d3 (by omega), lens_get hr']
          unfold shiftKernel
          simp only [rd] at hb ⊢
          rw [hcnt, Option.bind_some, hr', Option.bind_some, hb]
          by_cases hk : jt.2 < row.length
          · rw [if_pos hk, Nat.zero_add, pf.layer _ row _ hr hk, List.getElem?_eq_getElem hk]
            rfl
          · rw [if_neg hk, List.getElem?_eq_none (by omega)]
        · intro c row k hr hk
          obtain ⟨r1, r2, r3⟩ := hrow c row hr (by omega)
          have := b4 _ (List.mem_of_getElem? (lens_get hr))
          refine List.mem_map.2 ⟨(c - cs, k), ((e.s0.perm _).mem_iff).2
            (mem_pairs.2 ⟨by simp only; omega, by simp only; omega⟩), ?_⟩
          simp only [Prod.mk.injEq, and_true]; omega
      · rw [if_neg (by omega)]
        refine ⟨m.layers, rfl, ?_⟩
        intro c row k hr hk
        have := b4 _ (List.mem_of_getElem? (lens_get hr))
        omega
    obtain ⟨layers, hly, hlyv⟩ := hfill
    refine ⟨⟨(lens L').sum, lens L', lens L', npartCellEs (lens L'), m.starts, layers⟩, ?_,
      lists_of_starts ?_ hlyv⟩
    · have s1 : slice (npartCellEs (lens L')) 0 npart.length = some (npartCellEs (lens L')) := by
        rw [slice_eq_some (by omega) (by rw [length_npartCellEs]; omega)]
        simp only [List.drop_zero, Nat.sub_zero]
        rw [List.take_of_length_le (by rw [length_npartCellEs]; omega)]
      have s2 : slice h' 0 npart.length = some (lens L') := by
        rw [slice_eq_some (by omega) (by rw [b3, hgl, he.h0]; omega), ← b2]; simp
      unfold cellCreate
      simp only
      rw [if_pos ⟨by omega, by omega, by omega⟩, pf.counts]
      simp only [hg, Option.bind_some, b1, if_pos (show ce - cs > 0 by omega), s1, s2, c1, d1, m1,
        h5, hly, b2, d3]
    · intro c row hr h0
      obtain ⟨r1, r2, r3⟩ := hrow c row hr h0
      exact m3 c r1 r2
  · have hcc : cs = ce := by omega
    subst hcc
    obtain ⟨z1, z2⟩ := hempty rfl
    have hrow : ∀ (c : Nat) (row : List Nat), L'[c]? = some row → row = [] := by
      intro c row hr
      obtain ⟨row0, hr0⟩ := exists_row (L := L) (c := c) (by have := lt_of_row hr; omega)
      rw [hL', cellRows_get hr0, if_neg (by omega)] at hr
      exact (Option.some.inj hr).symm
    have hz : lens L' = List.replicate npart.length 0 := by
      rw [List.eq_replicate_iff]
      refine ⟨hl', ?_⟩
      intro n hn
      obtain ⟨row, hr, rfl⟩ := List.mem_map.1 hn
      obtain ⟨c, hc⟩ := List.mem_iff_getElem?.1 hr
      rw [hrow c row hc]; rfl
    have hes : npartCellEs (lens L') = List.replicate npart.length 0 := by
      apply List.ext_getElem?
      intro c
      by_cases hc : c < npart.length
      · have := rd_npartCellEs (npart := lens L') (c := c) (by omega)
        simp only [rd] at this
        rw [this, List.getElem?_replicate, if_pos hc]
        simp [before, hz]
      · rw [List.getElem?_eq_none (by rw [length_npartCellEs]; omega),
          List.getElem?_eq_none (by simp; omega)]
    refine ⟨⟨(lens L').sum, lens L', lens L', npartCellEs (lens L'), e.map.starts, e.map.layers⟩,
      ?_, lists_of_starts ?_ ?_⟩
    · unfold cellCreate
      simp only
      rw [if_pos ⟨by omega, by omega, by omega⟩, pf.counts]
      have m1 : ∀ (a b : List Nat), mapCreate e.fn e.map cs cs a b = some e.map := by
        intro a b
        unfold mapCreate
        rw [if_pos ⟨by rw [he.starts]; omega, by rw [he.starts]; omega⟩, if_neg (by omega)]
      simp only [hg, Option.bind_some, b1, Nat.sub_self, if_neg (show ¬ (0 > 0) by omega), m1, h5,
        if_neg (show ¬ (0 > 0 ∧ mx > 0) by omega), b2, z2, z1, hes]
      rw [hz]
    · intro c row hr h0
      rw [hrow c row hr] at h0
      simp at h0
    · intro c row k hr hk
      rw [hrow c row hr] at hk
      simp at hk

/-! ## Disjoint union -/

/-- Row `c` of the union. -/
def unionRow (Ls : List (List (List Nat))) (c : Nat) : List Nat :=
  (Ls.map fun L => (L[c]?).getD []).flatten

theorem length_unionRow (Ls : List (List (List Nat))) (c : Nat) :
    (unionRow Ls c).length = (Ls.map fun L => (lens L).getD c 0).sum := by
  unfold unionRow
  rw [List.length_flatten, List.map_map]
  congr 1
  apply List.map_congr_left
  intro L _
  simp only [Function.comp, lens, List.getD_eq_getElem?_getD, List.getElem?_map]
  cases L[c]? <;> rfl

/-- The listing of the union. -/
def unionRows (ncell : Nat) (Ls : List (List (List Nat))) : List (List Nat) :=
  (List.range ncell).map (unionRow Ls)

theorem unionRows_get {ncell : Nat} {Ls : List (List (List Nat))} {c : Nat} (hc : c < ncell) :
    (unionRows ncell Ls)[c]? = some (unionRow Ls c) := by
  unfold unionRows; rw [List.getElem?_map, List.getElem?_range hc]; rfl

theorem before_unionRows {ncell : Nat} {Ls : List (List (List Nat))}
    (hl : ∀ L ∈ Ls, L.length = ncell) {c : Nat} (hc : c ≤ ncell) :
    before (lens (unionRows ncell Ls)) c = (Ls.map fun L => before (lens L) c).sum := by
  induction c with
  | zero =>
    have : (Ls.map fun L => before (lens L) 0) = List.replicate Ls.length 0 := by
      rw [List.eq_replicate_iff]
      refine ⟨by simp, ?_⟩
      intro b hb
      obtain ⟨L, -, rfl⟩ := List.mem_map.1 hb
      simp [before]
    rw [this]; simp [before]
  | succ c ih =>
    rw [before_succ (lens_get (unionRows_get (by omega))), ih (by omega), length_unionRow,
      ← List.sum_map_add]
    congr 1
    apply List.map_congr_left
    intro L hL
    have hc' : c < (lens L).length := by
      have := hl L hL
      simp only [lens, List.length_map]; omega
    rw [before_succ (List.getElem?_eq_getElem hc'), List.getD_eq_getElem?_getD,
      List.getElem?_eq_getElem hc', Option.getD_some]

/-- The loop over the parents that adds up counts and exclusive sums. -/
theorem unionAdd_spec {parents : List Selection} {Ls : List (List (List Nat))}
    (h : List.Forall₂ Lists parents Ls) {ncell c : Nat} (hl : ∀ L ∈ Ls, L.length = ncell)
    (hc : c < ncell) (t : Nat × Nat) :
    runItems (fun (p : Selection) (t : Nat × Nat) => (rd p.dNpart c).bind fun n =>
      (rd p.dEs c).bind fun o => some (t.1 + n, t.2 + o)) parents t =
    some (t.1 + (Ls.map fun L => (lens L).getD c 0).sum,
      t.2 + (Ls.map fun L => before (lens L) c).sum) := by
  induction h generalizing t with
  | nil => simp
  | @cons p L ps Ls hp hps ih =>
    have hcl : c < (lens L).length := by
      simp only [lens, List.length_map, hl L List.mem_cons_self]; exact hc
    have hn : rd p.dNpart c = some ((lens L).getD c 0) := by
      rw [hp.deviceCounts]
      simp only [rd, List.getD_eq_getElem?_getD]
      rw [List.getElem?_eq_getElem hcl]; rfl
    have ho : rd p.dEs c = some (before (lens L) c) := by
      rw [lists_es hp]; exact rd_npartCellEs hcl
    rw [runItems_cons, hn, Option.bind_some, ho, Option.bind_some, Option.bind_some,
      ih (fun L hL => hl L (List.mem_cons_of_mem _ hL))]
    simp only [List.map_cons, List.sum_cons]
    congr 2 <;> omega

/-- The loop layers written by one work item of the union kernel. -/
def unionIdx (id ls : Nat) : List (List Nat) → Nat → List Nat
  | [], _ => []
  | row :: rows, off => (strided id row.length ls).map (off + ·) ++
      unionIdx id ls rows (off + row.length)

theorem mem_unionIdx {ls : Nat} (hls : 0 < ls) {rows : List (List Nat)} {off k : Nat}
    (h1 : off ≤ k) (h2 : k < off + rows.flatten.length) :
    ∃ id, id < ls ∧ k ∈ unionIdx id ls rows off := by
  induction rows generalizing off with
  | nil => simp at h2; omega
  | cons row rows ih =>
    by_cases hk : k < off + row.length
    · refine ⟨(k - off) % ls, Nat.mod_lt _ hls, ?_⟩
      unfold unionIdx
      refine List.mem_append_left _ (List.mem_map.2 ⟨k - off, ?_, by omega⟩)
      exact strided_cover hls (by omega)
    · obtain ⟨id, i1, i2⟩ := ih (off := off + row.length) (by omega)
        (by simp only [List.flatten_cons, List.length_append] at h2; omega)
      exact ⟨id, i1, by unfold unionIdx; exact List.mem_append_right _ i2⟩

theorem unionRun_spec {parents : List Selection} {Ls : List (List (List Nat))}
    (h : List.Forall₂ Lists parents Ls) {ncell c id ls : Nat} (hls : 0 < ls)
    (hl : ∀ L ∈ Ls, L.length = ncell)
    (hc : c < ncell) {starts : List Nat} {o : Nat} (ho : rd starts c = some o)
    {full pre : List Nat} (hfull : full = pre ++ unionRow Ls c) (layers : List Nat) :
    runItems (fun (p : Selection) (t : Nat × List Nat) => (rd p.dNpart c).bind fun n =>
      (runItems (fun ix layers => (p.layerAt c ix).bind fun l =>
        (rd starts c).bind fun o => st layers (o + (t.1 + ix)) l) (strided id n ls)
        t.2).bind fun layers => some (t.1 + n, layers)) parents (pre.length, layers) =
    (runItems (fun k a => match full[k]? with | none => some a | some l => st a (o + k) l)
      (unionIdx id ls (Ls.map fun L => (L[c]?).getD []) pre.length) layers).map
      (fun a => (full.length, a)) := by
  induction h generalizing pre layers with
  | nil =>
    simp only [unionRow, List.map_nil, List.flatten_nil, List.append_nil] at hfull
    subst hfull
    rfl
  | @cons p L ps Ls hp hps ih =>
    obtain ⟨row, hr⟩ := exists_row (L := L) (c := c)
      (by rw [hl L List.mem_cons_self]; exact hc)
    have hn : rd p.dNpart c = some row.length := by
      rw [hp.deviceCounts]
      simp only [rd]
      exact lens_get hr
    have hfull' : full = (pre ++ row) ++ unionRow Ls c := by
      rw [hfull]
      simp [unionRow, hr]
    rw [runItems_cons, hn, Option.bind_some]
    simp only [List.map_cons, hr, Option.getD_some, unionIdx]
    rw [runItems_append, runItems_map]
    have hin : runItems (fun ix layers => (p.layerAt c ix).bind fun l =>
        (rd starts c).bind fun o => st layers (o + (pre.length + ix)) l)
          (strided id row.length ls) layers =
        runItems (fun i a => match full[pre.length + i]? with
          | none => some a | some l => st a (o + (pre.length + i)) l)
          (strided id row.length ls) layers := by
      apply runItems_congr
      intro ix hix a
      obtain ⟨-, hk, -⟩ := (mem_strided hls).1 hix
      have hf : full[pre.length + ix]? = some row[ix] := by
        rw [hfull', List.append_assoc, List.getElem?_append_right (by omega),
          Nat.add_sub_cancel_left, List.getElem?_append_left hk, List.getElem?_eq_getElem hk]
      rw [hp.layer c row ix hr hk, List.getElem?_eq_getElem hk, ho, hf]
      rfl
    rw [hin]
    cases runItems (fun i a => match full[pre.length + i]? with
          | none => some a | some l => st a (o + (pre.length + i)) l)
          (strided id row.length ls) layers with
    | none => rfl
    | some a =>
      simp only [Option.bind_some]
      have := ih (fun L hL => hl L (List.mem_cons_of_mem _ hL)) hfull' a
      rw [List.length_append] at this
      exact this

theorem union_total {parents : List Selection} {Ls : List (List (List Nat))}
    (hp : List.Forall₂ Lists parents Ls) {ncell : Nat} (hl : ∀ L ∈ Ls, L.length = ncell) :
    (parents.map Selection.npartLocal).sum = (Ls.map fun L => before (lens L) ncell).sum := by
  induction hp with
  | nil => rfl
  | @cons p L ps Ls hp hps ih =>
    have : (lens L).length = ncell := by
      simp only [lens, List.length_map]; exact hl L List.mem_cons_self
    simp only [List.map_cons, List.sum_cons]
    rw [ih (fun L hL => hl L (List.mem_cons_of_mem _ hL)), hp.total, ← this, before_all]

theorem union_spec {e : SelEnv} {npart : List Nat} (he : SelOk e npart)
    (hcell : 0 < npart.length) {parents : List Selection} {Ls : List (List (List Nat))}
    (hp : List.Forall₂ Lists parents Ls) (hl : ∀ L ∈ Ls, L.length = npart.length) :
    ∃ sel, unionCreate e npart.length parents = some sel ∧
      Lists sel (unionRows npart.length Ls) := by
  set L' := unionRows npart.length Ls with hL'
  have hll' : L'.length = npart.length := by simp [hL', unionRows]
  have hl' : (lens L').length = npart.length := by simp only [lens, List.length_map, hll']
  obtain ⟨d, h1, h1l, h1t⟩ := putRow2 (vs := lens L') (ws := npartCellEs (lens L')) (m := e.d0)
    (m2 := e.es0) (step := unionCounts parents) e.s0 (length_npartCellEs _)
    (by
      intro c x y hx hy a b
      have hc : c < npart.length := by
        have := (List.getElem?_eq_some_iff.1 hx).1
        omega
      rw [lens_get (unionRows_get hc)] at hx
      have hy' := rd_npartCellEs (npart := lens L') (c := c) (by omega)
      simp only [rd] at hy'
      rw [hy', before_unionRows hl (by omega)] at hy
      unfold unionCounts
      rw [unionAdd_spec hp hl hc]
      simp only [Option.bind_some, Nat.zero_add]
      rw [← Option.some.inj hy, ← Option.some.inj hx, length_unionRow])
    (by rw [he.d0, hl']; omega) (by rw [he.es0, length_npartCellEs, hl'])
  obtain ⟨h2, hh2, hh2l, hh2t⟩ := stRange_zero (m := e.h0) (vs := lens L')
    (by rw [hl', he.h0]; omega)
  obtain ⟨m, hmc, hms, hml2⟩ := mapCreate_spec e.fn (m := e.map) (counts := lens L') (h := h2)
    (by rw [he.starts, hl']) hh2t
  rw [hl'] at h1 h1t hmc hml2 hh2t
  obtain ⟨layers, a1, a2⟩ := fill_spec (L := L')
    (items := (e.s1.order (pairs npart.length e.localSize)).flatMap fun it =>
      (unionIdx it.2 e.localSize (Ls.map fun L => (L[it.1]?).getD []) 0).map fun k => (it.1, k))
    (step := fun it a => match (L'[it.1]?).bind (fun row => row[it.2]?) with
      | none => some a | some l => st a (before (lens L') it.1 + it.2) l)
    (hml2 hcell).1 (fun _ _ _ _ => rfl)
    (by
      intro c row k hr hk
      have hc : c < npart.length := by have := lt_of_row hr; omega
      rw [unionRows_get hc] at hr
      obtain rfl := Option.some.inj hr
      obtain ⟨id, i1, i2⟩ := mem_unionIdx he.localSize (rows := Ls.map fun L => (L[c]?).getD [])
        (off := 0) (k := k) (by omega) (by rw [Nat.zero_add]; exact hk)
      exact List.mem_flatMap.2 ⟨(c, id), ((e.s1.perm _).mem_iff).2 (mem_pairs.2 ⟨hc, i1⟩),
        List.mem_map.2 ⟨k, i2, rfl⟩⟩)
  have hly : runItems (unionItem parents e.localSize m.starts)
      (e.s1.order (pairs npart.length e.localSize)) m.layers = some layers := by
    rw [← a1, ← runItems_flatMap]
    apply runItems_congr
    intro it hi a
    obtain ⟨i1, i2⟩ := mem_pairs.1 (((e.s1.perm _).mem_iff).1 hi)
    have hb := rd_npartCellEs (npart := lens L') (c := it.1) (by omega)
    rw [← hms] at hb
    unfold unionItem
    have := unionRun_spec hp (id := it.2) he.localSize hl i1 hb
      (full := unionRow Ls it.1) (pre := []) rfl a
    rw [List.length_nil] at this
    rw [this, runItems_map]
    simp only [unionRows_get i1, Option.bind_some, hL']
    cases runItems (fun k a => match (unionRow Ls it.1)[k]? with
      | none => some a | some l => st a (before (lens L') it.1 + k) l)
      (unionIdx it.2 e.localSize (Ls.map fun L => (L[it.1]?).getD []) 0) a with
    | none => rfl
    | some b => rfl
  have hlast := rd_npartCellEs (npart := lens L') (c := npart.length - 1) (by omega)
  obtain ⟨nl, hnl⟩ : ∃ n, (lens L')[npart.length - 1]? = some n :=
    ⟨_, List.getElem?_eq_getElem (by omega)⟩
  have hnl' : rd h2 (npart.length - 1) = some nl := by
    simp only [rd]; rw [getElem?_of_take hh2t (by omega), hnl]
  have htot : before (lens L') (npart.length - 1) + nl = (lens L').sum := by
    have := before_succ hnl
    rw [show npart.length - 1 + 1 = (lens L').length by omega, before_all] at this
    omega
  have hcheck : (parents.map Selection.npartLocal).sum = (lens L').sum := by
    rw [← before_all (npart := lens L'), hl', before_unionRows hl (Nat.le_refl _)]
    exact union_total hp hl
  refine ⟨⟨(lens L').sum, lens L', lens L', npartCellEs (lens L'), npartCellEs (lens L'), layers⟩,
    ?_, lists_of a2⟩
  rw [hms] at hly
  unfold unionCreate
  simp only [h1, Option.bind_some, h1t, hh2, hmc, hms, hly,
    if_neg (show ¬ npart.length = 0 by omega), hlast, hnl', htot, hcheck, if_true, hh2t]

end NP
