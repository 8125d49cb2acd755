import Verif.Io.Spec
import Verif.Group.LemmasGet
import Verif.Group.LemmasGet2
import Verif.Sub.LemmasBuilt
import Verif.Sub.LemmasSelect

/-! Helper lemmas for H5Part: the columns of one rank, the slabs of all ranks. -/

set_option autoImplicit false

namespace NP

open Spec

/-! ## Positions in joined lists -/

theorem flatten_getElem? {α : Type} (ll : List (List α)) {c k : Nat} {row : List α}
    (hr : ll[c]? = some row) (hk : k < row.length) :
    ll.flatten[before (ll.map List.length) c + k]? = row[k]? := by
  induction ll generalizing c with
  | nil => simp at hr
  | cons x xs ih =>
    cases c with
    | zero =>
      simp only [List.getElem?_cons_zero, Option.some.injEq] at hr
      subst hr
      have : before ((x :: xs).map List.length) 0 = 0 := by simp [before]
      rw [this, List.flatten_cons, Nat.zero_add, List.getElem?_append_left hk]
    | succ c =>
      rw [List.getElem?_cons_succ] at hr
      have : before ((x :: xs).map List.length) (c + 1) =
          x.length + before (xs.map List.length) c := by simp [before]
      rw [this, List.flatten_cons, List.getElem?_append_right (by omega), ← ih hr]
      congr 1; omega

theorem length_inOrder (L : List (List Nat)) : (inOrder L).length = (lens L).sum := by
  unfold inOrder lens
  rw [List.length_flatten]
  congr 1
  apply List.ext_getElem <;> simp

theorem inOrder_getElem? {L : List (List Nat)} {c k : Nat} {row : List Nat}
    (hr : L[c]? = some row) (hk : k < row.length) :
    (inOrder L)[before (lens L) c + k]? = (row[k]?).map fun l => (c, l) := by
  have h := flatten_getElem? (L.mapIdx fun c row => row.map fun k => (c, k)) (c := c) (k := k)
    (row := row.map fun k => (c, k)) (by rw [List.getElem?_mapIdx, hr]; rfl) (by simpa using hk)
  have hl : (L.mapIdx fun c row => row.map fun k => (c, k)).map List.length = lens L := by
    unfold lens
    apply List.ext_getElem <;> simp
  rw [hl] at h
  rw [List.getElem?_map] at h
  exact h

theorem lens_getElem? {L : List (List Nat)} {c k : Nat} :
    IsParticle (lens L) c k ↔ ∃ row : List Nat, L[c]? = some row ∧ k < row.length := by
  unfold IsParticle lens
  simp only [List.getElem?_map, Option.map_eq_some_iff]
  constructor
  · rintro ⟨n, ⟨row, h1, rfl⟩, h2⟩; exact ⟨row, h1, h2⟩
  · rintro ⟨row, h1, h2⟩; exact ⟨_, ⟨row, h1, rfl⟩, h2⟩

/-- The segments `segs` written at their offsets, in any order. -/
theorem runItems_slabs {α : Type} {step : Nat → List α → Option (List α)} {segs : List (List α)}
    {items : List Nat} (hp : items.Perm (List.range segs.length)) {m : List α}
    (hm : m.length = (segs.map List.length).sum)
    (hstep : ∀ i, i < segs.length → ∀ s : List α,
      step i s = stRange s (before (segs.map List.length) i) ((segs[i]?).getD [])) :
    runItems step items m = some segs.flatten := by
  have hfit : ∀ i, i < segs.length → before (segs.map List.length) i +
      ((segs[i]?).getD []).length ≤ m.length := by
    intro i hi
    have h1 := before_succ (npart := segs.map List.length) (c := i) (n := ((segs[i]?).getD []).length)
      (by rw [List.getElem?_map, List.getElem?_eq_getElem hi]; rfl)
    have h2 := before_mono (npart := segs.map List.length) (show i + 1 ≤ segs.length from hi)
    have h3 := before_all (npart := segs.map List.length)
    rw [List.length_map] at h3
    omega
  have hat : ∀ i k, i < segs.length → k < ((segs[i]?).getD []).length →
      segs.flatten[before (segs.map List.length) i + k]? = ((segs[i]?).getD [])[k]? := by
    intro i k hi hk
    rw [List.getElem?_eq_getElem hi, Option.getD_some] at hk ⊢
    exact flatten_getElem? segs (List.getElem?_eq_getElem hi) hk
  by_cases h0 : segs.flatten = []
  · -- nothing is written
    have hall : ∀ i, i < segs.length → (segs[i]?).getD [] = [] := by
      intro i hi
      rw [List.getElem?_eq_getElem hi, Option.getD_some]
      exact List.flatten_eq_nil_iff.1 h0 _ (List.getElem_mem hi)
    have hm0 : m = [] := by
      rw [← List.length_eq_zero_iff, hm, ← List.length_flatten, h0]; rfl
    have : ∀ l : List Nat, (∀ i ∈ l, i < segs.length) → runItems step l m = some m := by
      intro l hl
      induction l with
      | nil => rfl
      | cons i l ih =>
        have hi := hl i List.mem_cons_self
        rw [runItems_cons, hstep i hi, hall i hi, stRange_eq_some (by
          have := hfit i hi; rw [hall i hi] at this; exact this), Option.bind_some]
        have : m.take (before (segs.map List.length) i) ++ [] ++
            m.drop (before (segs.map List.length) i + ([] : List α).length) = m := by simp
        rw [this]
        exact ih fun j hj => hl j (List.mem_cons_of_mem i hj)
    rw [this items (fun i hi => List.mem_range.1 (hp.mem_iff.1 hi)), hm0, h0]
  · obtain ⟨d, -⟩ := List.exists_mem_of_ne_nil _ h0
    obtain ⟨m', h1, h2, h3, -⟩ := runItems_region (step := step) (items := items) (m := m)
      (fun i k => before (segs.map List.length) i ≤ k ∧
        k < before (segs.map List.length) i + ((segs[i]?).getD []).length)
      (fun _ k => segs.flatten.getD k d)
      (by
        intro i hi s hs
        have hi := List.mem_range.1 (hp.mem_iff.1 hi)
        have hf := hfit i hi
        obtain ⟨s', e⟩ : ∃ s', stRange s (before (segs.map List.length) i)
            ((segs[i]?).getD []) = some s' := ⟨_, stRange_eq_some (by omega)⟩
        refine ⟨s', by rw [hstep i hi, e], (length_of_stRange e).1, ?_, ?_⟩
        · intro k hk
          rw [getElem?_of_stRange e, if_pos hk, ← hat i _ hi (by omega)]
          rw [show before (segs.map List.length) i + (k - before (segs.map List.length) i) = k by
            omega]
          rw [List.getD_eq_getElem?_getD]
          have hlt : k < segs.flatten.length := by rw [List.length_flatten, ← hm]; omega
          rw [List.getElem?_eq_getElem hlt]; rfl
        · intro k hk
          rw [getElem?_of_stRange e, if_neg hk])
      (fun _ _ _ _ _ _ _ => rfl)
    rw [h1, Option.some.injEq]
    apply List.ext_getElem?
    intro k
    by_cases hk : k < m.length
    · obtain ⟨c, l, -, hc, hpart, he⟩ := before_exists (npart := segs.map List.length) (cs := 0)
        (ce := segs.length) (i := k) (by simp) (by simp [before])
        (by
          have h3 := before_all (npart := segs.map List.length)
          rw [List.length_map] at h3
          omega)
      obtain ⟨n, hn, hl⟩ := hpart
      rw [List.getElem?_map, List.getElem?_eq_getElem hc, Option.map_some, Option.some.injEq] at hn
      rw [h3 c (hp.mem_iff.2 (List.mem_range.2 hc)) k (by
        rw [List.getElem?_eq_getElem hc, Option.getD_some]; omega)]
      rw [List.getD_eq_getElem?_getD, List.getElem?_eq_getElem (by
        rw [List.length_flatten, ← hm]; exact hk)]
      rfl
    · rw [List.getElem?_eq_none (by omega), List.getElem?_eq_none (by
        rw [List.length_flatten, ← hm]; omega)]

/-! ## One rank -/

theorem io_visits {r : IoRank} (hr : IoOk r) {L : List (List Nat)} (hL : Writes r L) :
    ∃ v, parentVisits r.P r.g.hNpart r.par = some v ∧ v.Nodup ∧
      ∀ c k, (c, k) ∈ v ↔ ∃ row : List Nat, L[c]? = some row ∧ k < row.length := by
  obtain ⟨L', h1, h2⟩ := built_spec hr.built
  obtain rfl := parentLists_unique hL h1
  have pf := parent_facts hL
  have hok : LaunchOk r.P (lens L) true (lens L).sum := by
    refine ⟨hr.localSize_pos, hr.localSize_int, hr.nbin_pos, ?_, ?_⟩
    · intro n hn
      obtain ⟨row, hrow, rfl⟩ := List.mem_map.1 hn
      obtain ⟨c, hc, hce⟩ := List.getElem_of_mem hrow
      have hc' : c < r.g.hNpart.length := by rw [← h2.1]; exact hc
      obtain ⟨a1, a2⟩ := h2.2 c row r.g.hNpart[c] (by rw [List.getElem?_eq_getElem hc, hce])
        (List.getElem?_eq_getElem hc')
      exact Nat.lt_of_le_of_lt (row_length_le a1 a2) (hr.small _ (List.getElem_mem hc'))
    · intro _ h0 n hn
      have := le_sum_of_mem hn
      omega
  obtain ⟨v, a1, a2, a3⟩ := C07_each_particle_once hok (cs := none) (ce := none) trivial
  refine ⟨v, ?_, a2, ?_⟩
  · unfold parentVisits; rw [pf.counts, pf.total]; exact a1
  · intro c k
    rw [a3, ← lens_getElem?]
    simp [CellRequested]

theorem io_npart {r : IoRank} {L : List (List Nat)} (hL : Writes r L) :
    r.npart = (inOrder L).length := by
  unfold IoRank.npart
  rw [(parent_facts hL).total, length_inOrder]

theorem io_mem {r : IoRank} (hr : IoOk r) {L : List (List Nat)} (hL : Writes r L) {d : Dat}
    (hd : d ∈ r.g.dats) {j : Nat} (hj : j < d.ncomp) {p : Nat × Nat} (hp : p ∈ inOrder L) :
    (r.g.mem ⟨d.sym, p.1, j, p.2⟩).isSome = true := by
  obtain ⟨L', h1, h2⟩ := built_spec hr.built
  obtain rfl := parentLists_unique hL h1
  unfold inOrder at hp
  obtain ⟨row', h3, h4⟩ := List.mem_flatten.1 hp
  obtain ⟨c, hc, rfl⟩ := List.mem_mapIdx.1 h3
  obtain ⟨k, hk, rfl⟩ := List.mem_map.1 h4
  have hc' : c < r.g.hNpart.length := by rw [← h2.1]; exact hc
  have hlt := (h2.2 c _ _ (List.getElem?_eq_getElem hc) (List.getElem?_eq_getElem hc')).2 k hk
  have hok := hr.group.dats d hd
  have hn : c < d.nrow.length := by rw [hok.mem.nrow_len, ← hr.group.len]; exact hc'
  have ha : c < d.alloc.length := by rw [hok.mem.alloc_len, ← hr.group.len]; exact hc'
  have e1 := hok.rows c _ _ (List.getElem?_eq_getElem hc') (List.getElem?_eq_getElem hn)
  have e2 := hok.mem.le c _ _ (List.getElem?_eq_getElem hn) (List.getElem?_eq_getElem ha)
  exact hok.mem.alloc c _ j k (List.getElem?_eq_getElem ha) hj (by omega)

/-- The buffer of a dat: component `j` of the particles at `j * npart`. -/
theorem ioColumns_spec {r : IoRank} (hr : IoOk r) {L : List (List Nat)} (hL : Writes r L) (t : Nat)
    {d : Dat} (hd : d ∈ r.g.dats) (hdat : r.g.dat? d.sym = some d) :
    ∃ buf, ioColumns r t d.sym = some (d.ncomp, buf) ∧
      ∀ j, j < d.ncomp → ∃ src, slice buf (r.npart * j) (r.npart * j + r.npart) = some src ∧
        src.map some = (inOrder L).map fun p => r.g.mem ⟨d.sym, p.1, j, p.2⟩ := by
  obtain ⟨vis, v1, v2, v3⟩ := io_visits hr hL
  have pf := parent_facts hL
  set n := r.npart with hnn
  have hn : n = (inOrder L).length := io_npart hL
  set B := before (lens L) with hB
  set comps : Nat × Nat → List ((Nat × Nat) × Nat) := fun it =>
    (List.range d.ncomp).map fun j => (it, j) with hcomps
  set val : (Nat × Nat) × Nat → Int := fun x =>
    ((inOrder L)[B x.1.1 + x.1.2]?.bind fun p => r.g.mem ⟨d.sym, p.1, x.2, p.2⟩).getD 0 with hval
  set dst : (Nat × Nat) × Nat → Option Nat := fun x => some (x.2 * n + (B x.1.1 + x.1.2)) with hdst
  have hvis : ∀ c k, (c, k) ∈ (r.sched t).order vis ↔
      ∃ row : List Nat, L[c]? = some row ∧ k < row.length := by
    intro c k
    rw [((r.sched t).perm _).mem_iff, v3]
  have hBlt : ∀ c k, (c, k) ∈ (r.sched t).order vis → B c + k < n := by
    intro c k h
    have hp := lens_getElem?.2 ((hvis c k).1 h)
    have h1 := before_le hp (d := (lens L).length) (lt_length_of_isParticle hp)
    rw [before_all] at h1
    rw [hn, length_inOrder]; exact h1
  have hitem : ∀ x ∈ ((r.sched t).order vis).flatMap comps,
      x.1 ∈ (r.sched t).order vis ∧ x.2 < d.ncomp := by
    intro x hx
    obtain ⟨it, h1, h2⟩ := List.mem_flatMap.1 hx
    simp only [hcomps, List.mem_map, List.mem_range] at h2
    obtain ⟨j, h3, rfl⟩ := h2
    exact ⟨h1, h3⟩
  have hpos : ∀ c k, (c, k) ∈ (r.sched t).order vis → ∃ l, r.par.layerAt c k = some l ∧
      (inOrder L)[B c + k]? = some (c, l) := by
    intro c k h
    obtain ⟨row, h1, h2⟩ := (hvis c k).1 h
    refine ⟨row[k], ?_, ?_⟩
    · rw [pf.layer c row k h1 h2, List.getElem?_eq_getElem h2]
    · rw [inOrder_getElem? h1 h2, List.getElem?_eq_getElem h2]; rfl
  have hstep : ∀ it ∈ (r.sched t).order vis, ∀ buf : List Int,
      ioGatherStep r d.sym d.ncomp it buf = runItems (putStep dst val) (comps it) buf := by
    rintro ⟨c, k⟩ hit buf
    obtain ⟨l, h1, h2⟩ := hpos c k hit
    have hp := lens_getElem?.2 ((hvis c k).1 hit)
    have hlin : loopLinearIndex (r.par.counts r.g.hNpart) 0 c k = some ((B c + k : Nat) : Int) := by
      rw [pf.counts]
      have hl := lt_length_of_isParticle hp
      unfold loopLinearIndex
      rw [rd_npartCellEs hl, rd_npartCellEs (by omega)]
      simp only [Option.bind_some, Option.some.injEq, hB]
      have : before (lens L) 0 = 0 := by simp [before]
      rw [this]; push_cast; omega
    unfold ioGatherStep
    simp only [hlin, Option.bind_some, index_nat, h1]
    unfold forLoop
    rw [Nat.sub_zero, ← List.range_eq_range']
    simp only [hcomps]
    generalize hr' : List.range d.ncomp = rr
    have hrr : ∀ j ∈ rr, j < d.ncomp := by
      intro j hj; rw [← hr'] at hj; exact List.mem_range.1 hj
    clear hr'
    induction rr generalizing buf with
    | nil => rfl
    | cons j rr ih =>
      rw [List.map_cons, runItems_cons, runItems_cons]
      have hj := hrr j List.mem_cons_self
      obtain ⟨v, hv⟩ := Option.isSome_iff_exists.1 (io_mem hr hL hd hj (List.mem_of_getElem? h2))
      dsimp only at hv
      have h4 : val ((c, k), j) = v := by simp only [hval, h2, Option.bind_some, hv]; rfl
      rw [hv, Option.bind_some]
      unfold putStep
      simp only [hdst, h4]
      congr 1
      funext b
      exact ih b (fun j' hj' => hrr j' (List.mem_cons_of_mem _ hj'))
  have hf0 : (r.fresh t (d.ncomp * n)).1.length = d.ncomp * n := (r.fresh t _).2
  obtain ⟨buf, r1, r2, r3, -⟩ := runItems_putStep
    (items := ((r.sched t).order vis).flatMap comps)
    (m := (r.fresh t (d.ncomp * n)).1) dst val
    (by
      intro x hx y hy e h1 h2
      obtain ⟨a1, a2⟩ := hitem x hx
      obtain ⟨b1, b2⟩ := hitem y hy
      simp only [hdst, Option.some.injEq] at h1 h2
      obtain ⟨h3, h4⟩ := colMajor_inj (hBlt _ _ a1) (hBlt _ _ b1) (h1.trans h2.symm)
      obtain ⟨h5, h6⟩ := before_inj (lens_getElem?.2 ((hvis _ _).1 a1))
        (lens_getElem?.2 ((hvis _ _).1 b1)) h4
      have : x = y := by
        obtain ⟨⟨x1, x2⟩, x3⟩ := x
        obtain ⟨⟨y1, y2⟩, y3⟩ := y
        simp only at h3 h5 h6
        rw [h3, h5, h6]
      rw [this])
    (by
      intro x hx e h1
      obtain ⟨a1, a2⟩ := hitem x hx
      simp only [hdst, Option.some.injEq] at h1
      rw [hf0, ← h1, Nat.mul_comm d.ncomp]
      exact colMajor_lt (hBlt _ _ a1) a2)
  refine ⟨buf, ?_, ?_⟩
  · unfold ioColumns
    rw [hdat, Option.bind_some, v1, Option.bind_some,
      runItems_congr (fun it hit b => hstep it hit b), runItems_flatMap, ← hnn, r1]
    rfl
  · intro j hj
    have hfit : n * j + n ≤ buf.length := by
      rw [r2, hf0]
      calc n * j + n = (j + 1) * n := by ring
        _ ≤ d.ncomp * n := Nat.mul_le_mul_right _ hj
    refine ⟨_, slice_eq_some (by omega) hfit, ?_⟩
    apply List.ext_getElem?
    intro i
    rw [List.getElem?_map, List.getElem?_map]
    by_cases hi : i < n
    · rw [List.getElem?_take_of_lt (by omega), List.getElem?_drop]
      obtain ⟨c, k, -, -, hpart, he⟩ := before_exists (npart := lens L) (cs := 0)
        (ce := (lens L).length) (i := i) (Nat.le_refl _) (by simp [before])
        (by rw [before_all, ← length_inOrder, ← hn]; exact hi)
      have hmem : (c, k) ∈ (r.sched t).order vis := (hvis c k).2 (lens_getElem?.1 hpart)
      obtain ⟨l, h1, h2⟩ := hpos c k hmem
      have hx : ((c, k), j) ∈ ((r.sched t).order vis).flatMap comps := by
        refine List.mem_flatMap.2 ⟨(c, k), hmem, ?_⟩
        simp only [hcomps, List.mem_map, List.mem_range]
        exact ⟨j, hj, rfl⟩
      have := r3 _ hx _ rfl
      dsimp only at this
      have hBi : B c + k = i := he
      rw [hBi] at this h2
      rw [show n * j + i = j * n + i by ring, this, h2]
      obtain ⟨v, hv⟩ := Option.isSome_iff_exists.1 (io_mem hr hL hd hj (List.mem_of_getElem? h2))
      dsimp only at hv
      simp only [hval, hBi, h2, Option.bind_some, Option.map_some, hv, Option.getD_some]
    · rw [List.getElem?_eq_none (by rw [List.length_take]; omega),
        List.getElem?_eq_none (by omega)]
      rfl

end NP
