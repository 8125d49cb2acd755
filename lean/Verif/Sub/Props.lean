import Verif.Sub.LemmasBuilt

/-!
# Properties of sub groups (C21, C22, C23, C25)

`SelEnv` holds everything a selector's result might depend on apart from the particles: the
orders in which the work items of its kernels run and the previous contents of its memory.
-/

set_option autoImplicit false

namespace NP

open Spec

/-! ## Concrete cases -/

namespace Ex

/-- The environment of the examples: kernels run in reverse order and memory holds junk. -/
def subEnv (ncell : Nat) : SelEnv where
  P := ⟨1024, 4, 1⟩
  s0 := Sched.reversed
  s1 := Sched.reversed
  s2 := Sched.reversed
  s3 := Sched.reversed
  fi := fun n => ⟨List.replicate n 77, by simp⟩
  fn := fun n => ⟨List.replicate n 55, by simp⟩
  pad := 2
  map := ⟨List.replicate ncell 9, [], 3⟩
  h0 := List.replicate (ncell + ncell * 2) 5
  d0 := List.replicate (ncell + ncell * 2) 6
  es0 := List.replicate ncell 7
  localSize := 4

theorem subEnv_ok (npart : List Nat) (h : ∀ n ∈ npart, n < 2 ^ 31) :
    SelOk (subEnv npart.length) npart := by
  constructor <;> simp [subEnv] <;> assumption

/-- Three cells with 3, 0 and 2 particles. -/
def subCounts : List Nat := [3, 0, 2]

/-- A condition that holds for layers 0 and 2. -/
def subCond : Nat → Nat → Bool := fun _ l => l % 2 = 0

/-- A sub group of `subCounts`: layers 2, 0 of cell 0 and layer 0 of cell 2. -/
def subSel : Selection := ⟨3, [2, 0, 1], [2, 0, 1], [0, 2, 2], [0, 2, 2], [2, 0, 0]⟩

theorem subSel_made : selectCreate (subEnv 3) subCounts .whole subCond = some subSel := by decide +kernel

theorem subSel_built : Built subCounts (.sub subSel) :=
  .select (par := .whole) .whole (subEnv_ok subCounts (by decide)) subSel_made

theorem subSel_lists : Lists subSel [[2, 0], [], [0]] := by
  constructor <;> try decide
  intro c row k hc hk
  match c, k with
  | 0, 0 => simp at hc; subst hc; decide
  | 0, 1 => simp at hc; subst hc; decide
  | 0, k + 2 => simp at hc; subst hc; simp at hk
  | 1, k => simp at hc; subst hc; simp at hk
  | 2, 0 => simp at hc; subst hc; decide
  | 2, k + 1 => simp at hc; subst hc; simp at hk
  | c + 3, k => simp at hc

end Ex

/-! ## C21 -/

/-- A sub group made with a condition: the selector succeeds, and in each cell it lists the
particles of the parent which satisfy the condition, each once, in some order; its counts,
exclusive sums and total are those of this listing. -/
theorem C21_selected {e : SelEnv} {npart : List Nat} (he : SelOk e npart) {par : Parent}
    {L : List (List Nat)} (hp : ParentLists npart par L) (hL : SoundListing npart L)
    (cond : Nat → Nat → Bool) :
    ∃ sel L', selectCreate e npart par cond = some sel ∧ Lists sel L' ∧
      Cellwise (fun c row row' => row'.Perm (row.filter (cond c))) L L' :=
  select_spec he hp hL cond

example : ∃ sel L', selectCreate (Ex.subEnv 3) Ex.subCounts .whole Ex.subCond = some sel ∧
    Lists sel L' ∧ Cellwise (fun c row row' => row'.Perm (row.filter (Ex.subCond c)))
      (Ex.subCounts.map List.range) L' :=
  C21_selected (par := .whole) (Ex.subEnv_ok Ex.subCounts (by decide)) rfl (whole_sound _) _

/-- The particles of the sub group are exactly the particles of its parent that satisfy the
condition, and none is in it twice. The parent is any sub group that the API can make. -/
theorem C21_members {e : SelEnv} {npart : List Nat} (he : SelOk e npart) {par : Parent}
    (hp : Built npart par) (cond : Nat → Nat → Bool) :
    ∃ sel, selectCreate e npart par cond = some sel ∧ NoRepeats sel ∧
      ∀ c l, InParent npart (.sub sel) c l ↔ InParent npart par c l ∧ cond c l = true := by
  obtain ⟨L, h1, h2⟩ := built_spec hp
  obtain ⟨sel, L', a1, a2, a3⟩ := select_spec he h1 h2 cond
  refine ⟨sel, a1, noRepeats_of a2 (sound_filter h2 a3), fun c l => ?_⟩
  rw [inParent_iff (par := .sub sel) a2, inParent_iff h1]
  constructor
  · rintro ⟨row', hr', hl⟩
    obtain ⟨row, hr⟩ := exists_row (L := L) (c := c) (by rw [← a3.1]; exact lt_of_row hr')
    obtain ⟨m1, m2⟩ := List.mem_filter.1 (((a3.2 c row row' hr hr').mem_iff).1 hl)
    exact ⟨⟨row, hr, m1⟩, m2⟩
  · rintro ⟨⟨row, hr, hl⟩, hcond⟩
    obtain ⟨row', hr'⟩ := exists_row (L := L') (c := c) (by rw [a3.1]; exact lt_of_row hr)
    exact ⟨row', hr', ((a3.2 c row row' hr hr').mem_iff).2 (List.mem_filter.2 ⟨hl, hcond⟩)⟩

example : ∃ sel, selectCreate (Ex.subEnv 3) Ex.subCounts (.sub Ex.subSel) (fun _ l => l = 2) =
    some sel ∧ NoRepeats sel ∧ ∀ c l, InParent Ex.subCounts (.sub sel) c l ↔
      InParent Ex.subCounts (.sub Ex.subSel) c l ∧ decide (l = 2) = true :=
  C21_members (Ex.subEnv_ok Ex.subCounts (by decide)) Ex.subSel_built _

example : selectCreate (Ex.subEnv 3) Ex.subCounts (.sub Ex.subSel) (fun _ l => l = 2) =
    some ⟨1, [1, 0, 0], [1, 0, 0], [0, 1, 1], [0, 1, 1], [2]⟩ := by decide +kernel

/-- However sub groups are nested, each lists particles of the group, none of them twice, with
consistent counts. -/
theorem C21_nested {npart : List Nat} {par : Parent} (h : Built npart par) :
    ∃ L, ParentLists npart par L ∧ SoundListing npart L :=
  built_spec h

example : ∃ L, ParentLists Ex.subCounts (.sub Ex.subSel) L ∧ SoundListing Ex.subCounts L :=
  C21_nested Ex.subSel_built

/-- `get_cells_layers` of a sub group gives the cells and layers of exactly its particles, cell
by cell. -/
theorem C21_cells_layers {npart : List Nat} {s : Selection} (h : Built npart (.sub s)) :
    ∃ l, s.cellsLayers = some l ∧ l.Nodup ∧ l.length = s.npartLocal ∧
      ∀ c y, (c, y) ∈ l ↔ InParent npart (.sub s) c y := by
  obtain ⟨L, h1, h2⟩ := built_spec h
  change Lists s L at h1
  have hl : s.hNpart.length = L.length := by rw [h1.hostCounts, List.length_map]
  refine ⟨_, cellsLayers_spec h1, ?_, ?_, ?_⟩
  · exact rowsOf_nodup h2
  · rw [length_rowsOf, h1.total]
  · intro c y
    rw [mem_rowsOf, inParent_iff (par := .sub s) h1]

example : Ex.subSel.cellsLayers = some [(0, 2), (0, 0), (2, 0)] := by decide

/-! ## C22 -/

/-- The scan selector lists in each cell the particles of the parent which satisfy the condition
in the order in which the parent lists them. -/
theorem C22_order_preserved {e : SelEnv} {npart : List Nat} (he : SelOk e npart)
    (t0 t1 t2 t3 t4 : Sched) {scanLocal units : Nat} (hs : 0 < scanLocal)
    (hcell : 0 < npart.length) {par : Parent} {L : List (List Nat)}
    (hp : ParentLists npart par L) (hL : SoundListing npart L) (cond : Nat → Nat → Bool) :
    ∃ sel, scanCreate e t0 t1 t2 t3 t4 scanLocal units npart par cond = some sel ∧
      Lists sel (L.mapIdx fun c row => row.filter (cond c)) :=
  scan_spec he t0 t1 t2 t3 t4 hs hcell hp hL cond

example : ∃ sel, scanCreate (Ex.subEnv 3) Sched.reversed Sched.reversed Sched.reversed
    Sched.reversed Sched.reversed 2 3 Ex.subCounts .whole Ex.subCond = some sel ∧
    Lists sel [[0, 2], [], [0]] :=
  C22_order_preserved (par := .whole) (Ex.subEnv_ok Ex.subCounts (by decide)) Sched.reversed
    Sched.reversed Sched.reversed Sched.reversed Sched.reversed (by decide) (by decide) rfl
    (whole_sound _) _

/-- For a sub group of the whole group the layers of each cell increase. -/
theorem C22_increasing {e : SelEnv} {npart : List Nat} (he : SelOk e npart)
    (t0 t1 t2 t3 t4 : Sched) {scanLocal units : Nat} (hs : 0 < scanLocal)
    (hcell : 0 < npart.length) (cond : Nat → Nat → Bool) :
    ∃ sel, scanCreate e t0 t1 t2 t3 t4 scanLocal units npart .whole cond = some sel ∧
      (∀ c l, InParent npart (.sub sel) c l ↔ InParent npart .whole c l ∧ cond c l = true) ∧
      ∀ (c n k k' l l' : Nat), sel.hNpart[c]? = some n → k < k' → k' < n →
        sel.layerAt c k = some l → sel.layerAt c k' = some l' → l < l' := by
  obtain ⟨sel, a1, a2⟩ := scan_spec he t0 t1 t2 t3 t4 (units := units) hs hcell (par := .whole)
    rfl (whole_sound npart) cond
  refine ⟨sel, a1, fun c l => ?_, ?_⟩
  · rw [inParent_iff (par := .sub sel) a2, inParent_iff (par := .whole) rfl]
    simp only [List.getElem?_mapIdx, Option.map_eq_some_iff]
    constructor
    · rintro ⟨row', ⟨row, hr, rfl⟩, hl⟩
      exact ⟨⟨row, hr, (List.mem_filter.1 hl).1⟩, (List.mem_filter.1 hl).2⟩
    · rintro ⟨⟨row, hr, hl⟩, hc⟩
      exact ⟨_, ⟨row, hr, rfl⟩, List.mem_filter.2 ⟨hl, hc⟩⟩
  · intro c n k k' l l' hn hk hk' e1 e2
    rw [a2.hostCounts, List.getElem?_map, Option.map_eq_some_iff] at hn
    obtain ⟨row', hr', rfl⟩ := hn
    rw [a2.layer c row' k hr' (by omega)] at e1
    rw [a2.layer c row' k' hr' hk'] at e2
    rw [List.getElem?_mapIdx, Option.map_eq_some_iff] at hr'
    obtain ⟨row, hr, rfl⟩ := hr'
    rw [List.getElem?_map, Option.map_eq_some_iff] at hr
    obtain ⟨m, -, rfl⟩ := hr
    have hpw : ((List.range m).filter (cond c)).Pairwise (· < ·) :=
      (List.pairwise_lt_range (n := m)).filter _
    have := List.pairwise_iff_getElem.1 hpw k k' (by omega) hk' hk
    rw [List.getElem?_eq_getElem (by omega)] at e1 e2
    rw [← Option.some.inj e1, ← Option.some.inj e2]
    exact this

/-- Two runs of the scan selector on the same data agree on the counts, the exclusive sums, the
total and the particle at every loop layer, whatever the schedules and the memory were. -/
theorem C22_deterministic {e e' : SelEnv} {npart : List Nat} (he : SelOk e npart)
    (he' : SelOk e' npart) (t0 t1 t2 t3 t4 t0' t1' t2' t3' t4' : Sched)
    {scanLocal units scanLocal' units' : Nat} (hs : 0 < scanLocal) (hs' : 0 < scanLocal')
    (hcell : 0 < npart.length) {par : Parent} (hp : Built npart par) (cond : Nat → Nat → Bool) :
    ∃ sel sel', scanCreate e t0 t1 t2 t3 t4 scanLocal units npart par cond = some sel ∧
      scanCreate e' t0' t1' t2' t3' t4' scanLocal' units' npart par cond = some sel' ∧
      sel.npartLocal = sel'.npartLocal ∧ sel.hNpart = sel'.hNpart ∧ sel.dNpart = sel'.dNpart ∧
      sel.dEs = sel'.dEs ∧ ∀ (c n k : Nat), sel.hNpart[c]? = some n → k < n →
        sel.layerAt c k = sel'.layerAt c k := by
  obtain ⟨L, h1, h2⟩ := built_spec hp
  obtain ⟨sel, a1, a2⟩ := scan_spec he t0 t1 t2 t3 t4 (units := units) hs hcell h1 h2 cond
  obtain ⟨sel', b1, b2⟩ := scan_spec he' t0' t1' t2' t3' t4' (units := units') hs' hcell h1 h2 cond
  refine ⟨sel, sel', a1, b1, a2.total.trans b2.total.symm, a2.hostCounts.trans b2.hostCounts.symm,
    a2.deviceCounts.trans b2.deviceCounts.symm, (lists_es a2).trans (lists_es b2).symm, ?_⟩
  intro c n k hn hk
  rw [a2.hostCounts, List.getElem?_map, Option.map_eq_some_iff] at hn
  obtain ⟨row, hr, rfl⟩ := hn
  rw [a2.layer c row k hr hk, b2.layer c row k hr hk]

/-! ## C23 -/

/-- Truncation keeps the first `n` particles of each cell of the parent, or all of them if there
are fewer. -/
theorem C23_truncate {e : SelEnv} {npart : List Nat} (he : SelOk e npart) {scanLocal : Nat}
    (hs : 0 < scanLocal) (hcell : 0 < npart.length) {par : Parent} {L : List (List Nat)}
    (hp : ParentLists npart par L) (hL : L.length = npart.length) (n : Nat) :
    ∃ sel, truncateCreate e scanLocal npart par n = some sel ∧ Lists sel (L.map (List.take n)) :=
  truncate_spec he hs hcell hp hL n

example : ∃ sel, truncateCreate (Ex.subEnv 3) 2 Ex.subCounts (.sub Ex.subSel) 1 = some sel ∧
    Lists sel [[2], [], [0]] :=
  C23_truncate (par := .sub Ex.subSel) (Ex.subEnv_ok Ex.subCounts (by decide)) (by decide)
    (by decide) Ex.subSel_lists rfl 1

/-- Discarding drops the first `n` particles of each cell of the parent and keeps the others. -/
theorem C23_discard {e : SelEnv} {npart : List Nat} (he : SelOk e npart) {scanLocal : Nat}
    (hs : 0 < scanLocal) (hcell : 0 < npart.length) {par : Parent} {L : List (List Nat)}
    (hp : ParentLists npart par L) (hL : L.length = npart.length) (n : Nat) :
    ∃ sel, discardCreate e scanLocal npart par n = some sel ∧ Lists sel (L.map (List.drop n)) :=
  discard_spec he hs hcell hp hL n

example : ∃ sel, discardCreate (Ex.subEnv 3) 2 Ex.subCounts (.sub Ex.subSel) 1 = some sel ∧
    Lists sel [[0], [], []] :=
  C23_discard (par := .sub Ex.subSel) (Ex.subEnv_ok Ex.subCounts (by decide)) (by decide)
    (by decide) Ex.subSel_lists rfl 1

/-- Truncation and discarding with the same `n` split the parent: each of its particles is in
exactly one of the two sub groups, and they have no others. -/
theorem C23_truncate_discard {e e' : SelEnv} {npart : List Nat} (he : SelOk e npart)
    (he' : SelOk e' npart) {scanLocal scanLocal' : Nat} (hs : 0 < scanLocal)
    (hs' : 0 < scanLocal') (hcell : 0 < npart.length) {par : Parent} (hp : Built npart par)
    (n : Nat) :
    ∃ t d, truncateCreate e scanLocal npart par n = some t ∧
      discardCreate e' scanLocal' npart par n = some d ∧ NoRepeats t ∧ NoRepeats d ∧
      (∀ c l, InParent npart par c l ↔
        (InParent npart (.sub t) c l ∨ InParent npart (.sub d) c l)) ∧
      (∀ c l, ¬ (InParent npart (.sub t) c l ∧ InParent npart (.sub d) c l)) ∧
      ∀ (c : Nat) (m : Nat), t.hNpart[c]? = some m → m ≤ n := by
  obtain ⟨L, h1, h2⟩ := built_spec hp
  obtain ⟨t, a1, a2⟩ := truncate_spec he hs hcell h1 h2.1 n
  obtain ⟨d, b1, b2⟩ := discard_spec he' hs' hcell h1 h2.1 n
  have hb : Built npart (.sub t) := .truncate hcell hp he hs a1
  have hb' : Built npart (.sub d) := .discard hcell hp he' hs' b1
  refine ⟨t, d, a1, b1, ?_, ?_, ?_, ?_, ?_⟩
  · refine noRepeats_of a2 (sound_sub h2 (Cellwise.imp (cellwise_map _ _) ?_))
    rintro c row row' rfl
    exact ⟨fun hn => hn.sublist (List.take_sublist _ _), fun l hl => List.mem_of_mem_take hl⟩
  · refine noRepeats_of b2 (sound_sub h2 (Cellwise.imp (cellwise_map _ _) ?_))
    rintro c row row' rfl
    exact ⟨fun hn => hn.sublist (List.drop_sublist _ _), fun l hl => List.mem_of_mem_drop hl⟩
  · intro c l
    rw [inParent_iff h1, inParent_iff (par := .sub t) a2, inParent_iff (par := .sub d) b2]
    simp only [List.getElem?_map, Option.map_eq_some_iff]
    constructor
    · rintro ⟨row, hr, hl⟩
      rw [← List.take_append_drop n row, List.mem_append] at hl
      rcases hl with hl | hl
      · exact .inl ⟨_, ⟨row, hr, rfl⟩, hl⟩
      · exact .inr ⟨_, ⟨row, hr, rfl⟩, hl⟩
    · rintro (⟨_, ⟨row, hr, rfl⟩, hl⟩ | ⟨_, ⟨row, hr, rfl⟩, hl⟩)
      · exact ⟨row, hr, List.mem_of_mem_take hl⟩
      · exact ⟨row, hr, List.mem_of_mem_drop hl⟩
  · intro c l
    rw [inParent_iff (par := .sub t) a2, inParent_iff (par := .sub d) b2]
    simp only [List.getElem?_map, Option.map_eq_some_iff]
    rintro ⟨⟨_, ⟨row, hr, rfl⟩, hl⟩, ⟨_, ⟨row2, hr2, rfl⟩, hl2⟩⟩
    rw [hr] at hr2
    obtain rfl := Option.some.inj hr2
    have hc : c < npart.length := by rw [← h2.1]; exact lt_of_row hr
    have hnd := (h2.2 c row _ hr (List.getElem?_eq_getElem hc)).1
    rw [← List.take_append_drop n row, List.nodup_append] at hnd
    exact hnd.2.2 l hl l hl2 rfl
  · intro c m hm
    rw [a2.hostCounts, List.map_map, List.getElem?_map, Option.map_eq_some_iff] at hm
    obtain ⟨row, -, rfl⟩ := hm
    simp only [Function.comp, List.length_take]
    omega

/-- A cell range sub group lists the particles of the parent in these cells and no others. If
the range is empty the device buffers are those the constructor filled with zeros. -/
theorem C23_cells {e : SelEnv} {npart : List Nat} (he : SelOk e npart) {des0 : List Nat}
    (hdes : des0.length = npart.length) {cs ce : Nat} (h1 : cs ≤ ce) (h2 : ce ≤ npart.length)
    (hempty : cs = ce → des0 = List.replicate npart.length 0 ∧
      e.d0.take npart.length = List.replicate npart.length 0)
    {par : Parent} {L : List (List Nat)} (hp : ParentLists npart par L)
    (hLl : L.length = npart.length) :
    ∃ sel, cellCreate e des0 npart par cs ce = some sel ∧ Lists sel (inCells cs ce L) :=
  cell_spec he hdes h1 h2 hempty hp hLl

example : ∃ sel, cellCreate (Ex.subEnv 3) [8, 8, 8] Ex.subCounts (.sub Ex.subSel) 1 3 = some sel ∧
    Lists sel [[], [], [0]] :=
  C23_cells (par := .sub Ex.subSel) (Ex.subEnv_ok Ex.subCounts (by decide)) rfl (by decide)
    (by decide) (by decide) Ex.subSel_lists rfl

/-- A copy lists the same particles as its parent at the same loop layers. -/
theorem C23_copy {e : SelEnv} {npart : List Nat} (he : SelOk e npart) {s : Selection}
    {L : List (List Nat)} (hp : Lists s L) (hLl : L.length = npart.length) :
    ∃ sel, copyCreate e s = some sel ∧ Lists sel L :=
  copy_spec he hp hLl

example : ∃ sel, copyCreate (Ex.subEnv 3) Ex.subSel = some sel ∧ Lists sel [[2, 0], [], [0]] :=
  C23_copy (Ex.subEnv_ok Ex.subCounts (by decide)) Ex.subSel_lists rfl

/-- A union lists, cell by cell, the particles of its parents one after the other. -/
theorem C23_union {e : SelEnv} {npart : List Nat} (he : SelOk e npart)
    (hcell : 0 < npart.length) {parents : List Selection} {Ls : List (List (List Nat))}
    (hp : List.Forall₂ Lists parents Ls) (hl : ∀ L ∈ Ls, L.length = npart.length) :
    ∃ sel, unionCreate e npart.length parents = some sel ∧ Lists sel (joined npart.length Ls) :=
  union_spec he hcell hp hl

/-- A union of sub groups without common particles contains exactly the particles that are in
one of them, each once. -/
theorem C23_disjoint_union {e : SelEnv} {npart : List Nat} (he : SelOk e npart)
    (hcell : 0 < npart.length) {parents : List Selection}
    (hp : ∀ p ∈ parents, Built npart (.sub p))
    (hd : parents.Pairwise fun a b => ∀ c l, InParent npart (.sub a) c l →
      ¬ InParent npart (.sub b) c l) :
    ∃ sel, unionCreate e npart.length parents = some sel ∧ NoRepeats sel ∧
      ∀ c l, InParent npart (.sub sel) c l ↔ ∃ p ∈ parents, InParent npart (.sub p) c l := by
  obtain ⟨Ls, b1, b2⟩ := built_list (fun p h => built_spec (hp p h))
  obtain ⟨sel, a1, a2⟩ := union_spec he hcell b1 (fun L hL => (b2 L hL).1)
  refine ⟨sel, a1, noRepeats_of a2 (sound_joined b1 b2 hd), ?_⟩
  intro c l
  rw [inParent_iff (par := .sub sel) (L := joined npart.length Ls) a2, mem_joined b1 b2]

/-- A second sub group of the example without particles of the first. -/
def Ex.subSel2 : Selection := ⟨2, [1, 0, 1], [1, 0, 1], [0, 1, 1], [0, 1, 1], [1, 1]⟩

theorem Ex.subSel2_made :
    selectCreate (Ex.subEnv 3) Ex.subCounts .whole (fun _ l => l % 2 = 1) = some Ex.subSel2 := by
  decide +kernel

example : ∃ sel, unionCreate (Ex.subEnv 3) 3 [Ex.subSel, Ex.subSel2] = some sel ∧
    NoRepeats sel ∧ ∀ c l, InParent Ex.subCounts (.sub sel) c l ↔
      ∃ p ∈ [Ex.subSel, Ex.subSel2], InParent Ex.subCounts (.sub p) c l := by
  have ok := Ex.subEnv_ok Ex.subCounts (by decide)
  refine C23_disjoint_union (npart := Ex.subCounts) ok (by decide) ?_ ?_
  · intro p hp
    simp only [List.mem_cons, List.not_mem_nil, or_false] at hp
    rcases hp with rfl | rfl
    · exact Ex.subSel_built
    · exact .select (par := .whole) .whole ok Ex.subSel2_made
  · simp only [List.pairwise_cons, List.mem_singleton, forall_eq, List.not_mem_nil,
      false_imp_iff, implies_true, List.Pairwise.nil, and_true]
    intro c l h1 h2
    obtain ⟨s1, e1, -, m1⟩ := C21_members ok .whole Ex.subCond
    obtain ⟨s2, e2, -, m2⟩ := C21_members ok .whole (fun _ l => decide (l % 2 = 1))
    have f1 := Ex.subSel_made.symm.trans e1
    have f2 := Ex.subSel2_made.symm.trans e2
    obtain rfl := Option.some.inj f1
    obtain rfl := Option.some.inj f2
    have p1 := ((m1 c l).1 h1).2
    have p2 := ((m2 c l).1 h2).2
    simp [Ex.subCond] at p1 p2
    omega

example : unionCreate (Ex.subEnv 3) 3 [Ex.subSel, Ex.subSel2] =
    some ⟨5, [3, 0, 2], [3, 0, 2], [0, 3, 3], [0, 3, 3], [2, 0, 1, 0, 1]⟩ := by decide +kernel

/-- The selectors do not check that the parents of a union are disjoint: a sub group joined with
itself has each of its particles twice. -/
theorem C23_union_overlap :
    ∃ sel, unionCreate (Ex.subEnv 3) 3 [Ex.subSel, Ex.subSel] = some sel ∧ ¬ NoRepeats sel := by
  refine ⟨⟨6, [4, 0, 2], [4, 0, 2], [0, 4, 4], [0, 4, 4], [2, 0, 2, 0, 0, 0]⟩, by decide +kernel, ?_⟩
  intro h
  exact absurd (h 0 4 0 2 rfl (by decide) (by decide) (by decide)) (by decide)

/-- Without cells, as on a rank that owns no part of the mesh, truncation, discarding and unions
access memory out of bounds. -/
theorem C23_no_cells (e : SelEnv) (scanLocal : Nat) (par : Parent) (n : Nat)
    (parents : List Selection) :
    truncateCreate e scanLocal [] par n = none ∧ discardCreate e scanLocal [] par n = none ∧
      unionCreate e 0 parents = none := by
  refine ⟨?_, ?_, ?_⟩
  · simp [truncateCreate, shiftCreate]
  · simp [discardCreate, shiftCreate]
  · simp [unionCreate]

/-! ## C25 -/

/-- A partition: the sub group with index `px` lists in each cell the particles of the parent
whose value is `px`, each once. Sub groups that no longer exist are not touched. -/
theorem C25_partition {e : SelEnv} {npart : List Nat} (he : SelOk e npart) {scanLocal : Nat}
    (hs : 0 < scanLocal) (hcell : 0 < npart.length) {par : Parent}
    {L : List (List Nat)} (hp : ParentLists npart par L) (hL : SoundListing npart L)
    (f : Nat → Nat → Int) (bufs : List PartBuf) (hb : ∀ b ∈ bufs, PartSizes npart.length b) :
    ∃ sels, partitionCreate e scanLocal npart par f bufs = some sels ∧
      sels.length = bufs.length ∧ ∀ (px : Nat) (b : PartBuf), bufs[px]? = some b →
        (b.alive = false → sels[px]? = some none) ∧ (b.alive = true →
          ∃ sel L', sels[px]? = some (some sel) ∧ Lists sel L' ∧
          Cellwise (fun c row row' => row'.Perm (row.filter fun l => decide (f c l = px))) L L') :=
  partition_spec he hs hcell hp hL f bufs hb

/-- While all sub groups of a partition exist, a particle of the parent is in the sub group with
index `px` exactly if its value is `px`, and in no sub group twice. -/
theorem C25_members {e : SelEnv} {npart : List Nat} (he : SelOk e npart) {scanLocal : Nat}
    (hs : 0 < scanLocal) (hcell : 0 < npart.length) {par : Parent} (hp : Built npart par)
    (f : Nat → Nat → Int) (bufs : List PartBuf) (hb : ∀ b ∈ bufs, PartSizes npart.length b)
    (hall : ∀ b ∈ bufs, b.alive = true) :
    ∃ sels : List Selection, partitionCreate e scanLocal npart par f bufs = some (sels.map some) ∧
      sels.length = bufs.length ∧ (∀ s ∈ sels, NoRepeats s) ∧
      ∀ (px : Nat) (s : Selection), sels[px]? = some s → ∀ c l,
        (InParent npart (.sub s) c l ↔ InParent npart par c l ∧ f c l = px) := by
  obtain ⟨L, h1, h2⟩ := built_spec hp
  obtain ⟨sels, a1, a2, a3⟩ := partition_spec he hs hcell h1 h2 f bufs hb
  have hall' : ∀ px, px < sels.length → ∃ sel L', sels[px]? = some (some sel) ∧ Lists sel L' ∧
      Cellwise (fun c row row' => row'.Perm (row.filter fun l => decide (f c l = px))) L L' := by
    intro px hpx
    exact (a3 px _ (List.getElem?_eq_getElem (by omega))).2 (hall _ (List.getElem_mem _))
  obtain ⟨ss, hss⟩ := all_some (l := sels) (fun px hpx => by
    obtain ⟨sel, _, h, _⟩ := hall' px hpx; exact ⟨sel, h⟩)
  subst hss
  rw [List.length_map] at a2
  have hget : ∀ (px : Nat) (s : Selection), ss[px]? = some s → ∃ L', Lists s L' ∧
      Cellwise (fun c row row' => row'.Perm (row.filter fun l => decide (f c l = px))) L L' := by
    intro px s hs
    obtain ⟨sel, L', b1, b2, b3⟩ := hall' px (by
      rw [List.length_map]; exact (List.getElem?_eq_some_iff.1 hs).1)
    rw [List.getElem?_map, hs] at b1
    obtain rfl := Option.some.inj (Option.some.inj b1)
    exact ⟨L', b2, b3⟩
  refine ⟨ss, a1, a2, ?_, ?_⟩
  · intro s hs
    obtain ⟨px, hpx, rfl⟩ := List.getElem_of_mem hs
    obtain ⟨L', b2, b3⟩ := hget px _ (List.getElem?_eq_getElem hpx)
    exact noRepeats_of b2 (sound_filter (p := fun c l => decide (f c l = px)) h2 b3)
  · intro px s hs c l
    obtain ⟨L', a2, a3⟩ := hget px s hs
    rw [inParent_iff (par := .sub s) a2, inParent_iff h1]
    constructor
    · rintro ⟨row', hr', hl⟩
      obtain ⟨row, hr⟩ := exists_row (L := L) (c := c) (by rw [← a3.1]; exact lt_of_row hr')
      obtain ⟨m1, m2⟩ := List.mem_filter.1 (((a3.2 c row row' hr hr').mem_iff).1 hl)
      exact ⟨⟨row, hr, m1⟩, of_decide_eq_true m2⟩
    · rintro ⟨⟨row, hr, hl⟩, hcond⟩
      obtain ⟨row', hr'⟩ := exists_row (L := L') (c := c) (by rw [a3.1]; exact lt_of_row hr)
      exact ⟨row', hr', ((a3.2 c row row' hr hr').mem_iff).2
        (List.mem_filter.2 ⟨hl, by simpa using hcond⟩)⟩

/-- Memory of a partition of the example. -/
def Ex.partBuf : PartBuf := ⟨true, ⟨[4, 4, 4], [], 8⟩, [1, 1, 1], [2, 2, 2], [3, 3, 3]⟩

/-- A partition function: the layer, with values outside the partition for cell 2. -/
def Ex.partFun : Nat → Nat → Int := fun c l => if c = 2 then (l : Int) - 1 else l

example : partitionCreate (Ex.subEnv 3) 2 Ex.subCounts .whole Ex.partFun
    [Ex.partBuf, Ex.partBuf] = some [
      some ⟨2, [1, 0, 1], [1, 0, 1], [0, 1, 1], [0, 1, 1], [0, 1]⟩,
      some ⟨1, [1, 0, 0], [1, 0, 0], [0, 1, 1], [0, 1, 1], [1]⟩] := by decide +kernel

example : ∃ sels : List Selection, partitionCreate (Ex.subEnv 3) 2 Ex.subCounts .whole Ex.partFun
    [Ex.partBuf, Ex.partBuf] = some (sels.map some) ∧ sels.length = 2 ∧
    (∀ s ∈ sels, NoRepeats s) ∧ ∀ (px : Nat) (s : Selection), sels[px]? = some s → ∀ c l,
      (InParent Ex.subCounts (.sub s) c l ↔
        InParent Ex.subCounts .whole c l ∧ Ex.partFun c l = px) := by
  have hb : PartSizes 3 Ex.partBuf := by constructor <;> decide
  refine C25_members (Ex.subEnv_ok Ex.subCounts (by decide)) (by decide) (by decide) .whole
    Ex.partFun _ ?_ ?_ <;>
  · intro b hb'
    simp only [List.mem_cons, List.not_mem_nil, or_false, or_self] at hb'
    subst hb'
    first | exact hb | rfl

end NP
