import Verif.Petsc.SpecCoupler
import Verif.Petsc.LemmasHalo
import Verif.Boundary.LemmasExchange6

/-!
# Lemmas for the mesh coupler: owners of cells and the maps of the constructor
-/

set_option autoImplicit false

namespace NP

open Spec

theorem exists_table {A : Type} [Nonempty A] (l : List A) :
    ∃ W : Nat → A, l = (List.range l.length).map W := by
  obtain ⟨x⟩ := ‹Nonempty A›
  refine ⟨fun i => (l[i]?).getD x, List.ext_getElem? fun k => ?_⟩
  by_cases hk : k < l.length
  · rw [List.getElem?_map, List.getElem?_range hk, Option.map_some, List.getElem?_eq_getElem hk]; rfl
  · rw [List.getElem?_eq_none (by omega), List.getElem?_eq_none (by simp; omega)]

/-! ## One part of the mesh -/

theorem partB_global {dm : Plex} {gs : List Int} (h : PartB dm gs) {j : Nat} {g : Int}
    (hj : gs[j]? = some g) : plexGlobal dm j = some g := by
  obtain ⟨h0, h1, -⟩ := h.owned j g hj
  unfold plexGlobal unsignedId
  rw [h1, Option.map_some, if_pos (by omega)]

theorem partB_le {dm : Plex} {gs : List Int} (h : PartB dm gs) : gs.length ≤ dm.points.length := by
  by_contra hc
  have hlt : dm.points.length < gs.length := by omega
  obtain ⟨-, -, x, hx, -⟩ := h.owned _ _ (List.getElem?_eq_getElem hlt)
  rw [List.getElem?_eq_none (Nat.le_refl _)] at hx
  cases hx

theorem coupFilter_range {n k : Nat} (hk : k ≤ n) (p : Nat → Bool)
    (h1 : ∀ i, i < k → p i = true) (h2 : ∀ i, k ≤ i → i < n → p i = false) :
    (List.range n).filter p = List.range k := by
  obtain ⟨m, rfl⟩ := Nat.exists_eq_add_of_le hk
  rw [List.range_add, List.filter_append, List.filter_eq_self.2, List.filter_eq_nil_iff.2,
    List.append_nil]
  · intro x hx
    obtain ⟨i, hi, rfl⟩ := List.mem_map.1 hx
    rw [h2 _ (by omega) (by have := List.mem_range.1 hi; omega)]
    simp
  · intro x hx
    exact h1 x (List.mem_range.1 hx)

theorem partB_cells {dm : Plex} {gs : List Int} (h : PartB dm gs) :
    plexCells dm = List.range gs.length := by
  unfold plexCells
  refine coupFilter_range (partB_le h) _ (fun i hi => ?_) (fun i hi hn => ?_)
  · obtain ⟨h0, h1, x, h2, h3⟩ := h.owned _ _ (List.getElem?_eq_getElem hi)
    rw [h1, h2]
    simp only [Option.any_some, Bool.and_eq_true, beq_iff_eq, decide_eq_true_eq]
    exact ⟨h3, by omega⟩
  · have hx : dm.points[i]? = some dm.points[i] := List.getElem?_eq_getElem hn
    have hi' : i < dm.numbers.length := by rw [h.numbered]; exact hn
    have hg : dm.numbers[i]? = some dm.numbers[i] := List.getElem?_eq_getElem hi'
    rw [hx, hg]
    simp only [Option.any_some, Bool.and_eq_false_iff, beq_eq_false_iff_ne, decide_eq_false_iff_not]
    by_cases hh : dm.points[i].height = 0
    · right; have := h.others _ _ _ hi hx hg hh; omega
    · exact Or.inl hh

theorem partB_coupCells {dm : Plex} {gs : List Int} (h : PartB dm gs) (hne : gs ≠ []) :
    coupCells dm = some gs := by
  unfold coupCells
  rw [partB_cells h, if_pos (by
    intro e
    have := congrArg List.length e
    rw [List.length_range, List.length_nil] at this
    exact hne (List.length_eq_zero_iff.1 this))]
  have : gs = (List.range gs.length).map (fun i => (gs[i]?).getD 0) := by
    apply List.ext_getElem? fun k => ?_
    by_cases hk : k < gs.length
    · rw [List.getElem?_map, List.getElem?_range hk, Option.map_some, List.getElem?_eq_getElem hk]; rfl
    · rw [List.getElem?_eq_none (by omega), List.getElem?_eq_none (by simp; omega)]
  conv_rhs => rw [this]
  refine mapM_of_forall fun i hi => ?_
  have hi := List.mem_range.1 hi
  rw [partB_global h (List.getElem?_eq_getElem hi), List.getElem?_eq_getElem hi]
  rfl

theorem plexLocalMap_nodup {dm : Plex} (hlen : dm.numbers.length = dm.points.length)
    (hnd : (dm.numbers.map unsignedId).Nodup) {p : Nat} {g : Int} (hp : plexGlobal dm p = some g) :
    omGet (plexLocalMap dm) g = some p := by
  have key : ∀ n, n ≤ dm.points.length → ∀ p g, p < n → plexGlobal dm p = some g →
      omGet ((List.range n).foldl (fun m p =>
        match plexGlobal dm p with
        | some g => omPut m g p
        | none => m) []) g = some p := by
    intro n
    induction n with
    | zero => intro _ p g hp; omega
    | succ n ih =>
      intro hn p g hp hg
      rw [List.range_succ, List.foldl_append]
      simp only [List.foldl_cons, List.foldl_nil]
      have hn' : n < dm.numbers.length := by omega
      have hgn : plexGlobal dm n = some (unsignedId dm.numbers[n]) := by
        unfold plexGlobal
        rw [List.getElem?_eq_getElem hn']; rfl
      rw [hgn]
      simp only
      rw [omGet_put]
      by_cases e : unsignedId dm.numbers[n] = g
      · rw [if_pos e]
        congr 1
        have hp' : p < (dm.numbers.map unsignedId).length := by
          rw [List.length_map]; omega
        have hn'' : n < (dm.numbers.map unsignedId).length := by
          rw [List.length_map]; omega
        refine (List.Nodup.getElem_inj_iff hnd (hi := hn'') (hj := hp')).1 ?_
        unfold plexGlobal at hg
        rw [← List.getElem?_map, List.getElem?_eq_getElem hp'] at hg
        rw [Option.some.inj hg, ← e, List.getElem_map]
      · rw [if_neg e]
        refine ih (by omega) p g ?_ hg
        by_contra hh
        have : p = n := by omega
        subst this
        rw [hgn] at hg
        exact e (Option.some.inj hg)
  have hp' : p < dm.points.length := by
    unfold plexGlobal at hp
    cases hh : dm.numbers[p]? with
    | none => rw [hh] at hp; cases hp
    | some x => rw [← hlen]; exact (List.getElem?_eq_some_iff.1 hh).1
  exact key _ (Nat.le_refl _) p g hp' hp

theorem partB_local {dm : Plex} {gs : List Int} (h : PartB dm gs) {j : Nat} {g : Int}
    (hj : gs[j]? = some g) :
    localOfGlobal (plexLocalMap dm) g = some (j, plexLocalMap dm) := by
  have hg := plexLocalMap_nodup h.numbered h.distinct (partB_global h hj)
  obtain ⟨h0, -, -⟩ := h.owned j g hj
  have hu : unsignedId g = g := by unfold unsignedId; rw [if_pos (by omega)]
  unfold localOfGlobal
  rw [hu, hg]
  rfl

theorem coupLocal_eq {lids : OMap Nat} {loc : Int → Nat} (cells : List Int)
    (h : ∀ g ∈ cells, localOfGlobal lids g = some (loc g, lids)) :
    coupLocal lids cells = some (cells.map loc, lids) := by
  unfold coupLocal
  have key : ∀ (l : List Int) (acc : List Nat), (∀ g ∈ l, localOfGlobal lids g = some (loc g, lids)) →
      l.foldlM (fun s g => (localOfGlobal s.2 g).map fun p => (s.1 ++ [p.1], p.2)) (acc, lids) =
        some (acc ++ l.map loc, lids) := by
    intro l
    induction l with
    | nil => intro acc _; simp
    | cons g l ih =>
      intro acc hl
      rw [List.foldlM_cons]
      simp only [hl g (by simp), Option.map_some, Option.bind_eq_bind, Option.bind_some]
      rw [ih _ fun x hx => hl x (by simp [hx])]
      simp
  simpa using key cells [] h

/-! ## The owners -/

theorem coupFoldl_min (l : List Int) (a : Int) :
    l.foldl min a ≤ a ∧ (∀ x ∈ l, l.foldl min a ≤ x) ∧ (l.foldl min a = a ∨ l.foldl min a ∈ l) := by
  induction l generalizing a with
  | nil => simp
  | cons y l ih =>
    obtain ⟨h1, h2, h3⟩ := ih (min a y)
    rw [List.foldl_cons]
    refine ⟨by omega, fun x hx => ?_, ?_⟩
    · rcases List.mem_cons.1 hx with rfl | hx
      · omega
      · exact h2 x hx
    · rcases h3 with h3 | h3
      · rcases Int.le_total a y with h | h
        · left; omega
        · right; rw [h3, min_eq_right h]; simp
      · right; simp [h3]

theorem coupFoldl_max (l : List Int) (a : Int) :
    a ≤ l.foldl max a ∧ (∀ x ∈ l, x ≤ l.foldl max a) ∧ (l.foldl max a = a ∨ l.foldl max a ∈ l) := by
  induction l generalizing a with
  | nil => simp
  | cons y l ih =>
    obtain ⟨h1, h2, h3⟩ := ih (max a y)
    rw [List.foldl_cons]
    refine ⟨by omega, fun x hx => ?_, ?_⟩
    · rcases List.mem_cons.1 hx with rfl | hx
      · omega
      · exact h2 x hx
    · rcases h3 with h3 | h3
      · rcases Int.le_total a y with h | h
        · right; rw [h3, max_eq_right h]; simp
        · left; omega
      · right; simp [h3]

theorem coupOwnersLocal_eq {count : Nat} {pmin : Int} (rank : Nat) (gids : List Int)
    (h : ∀ g ∈ gids, pmin ≤ g ∧ g < pmin + count) :
    coupOwnersLocal count pmin rank gids = some ((List.range count).map fun (i : Nat) =>
      if pmin + (i : Int) ∈ gids then (rank : Int) else -1) := by
  unfold coupOwnersLocal
  have key : ∀ (l done : List Int), (∀ g ∈ l, pmin ≤ g ∧ g < pmin + count) →
      l.foldlM (fun m g => if 0 ≤ g - pmin then st m (g - pmin).toNat (rank : Int) else none)
        ((List.range count).map fun (i : Nat) =>
          if pmin + (i : Int) ∈ done then (rank : Int) else -1) =
      some ((List.range count).map fun (i : Nat) =>
        if pmin + (i : Int) ∈ done ++ l then (rank : Int) else -1) := by
    intro l
    induction l with
    | nil => intro done _; simp
    | cons g l ih =>
      intro done hl
      obtain ⟨h1, h2⟩ := hl g (by simp)
      rw [List.foldlM_cons, if_pos (by omega), st_eq_some (by simp; omega)]
      simp only [Option.bind_eq_bind, Option.bind_some]
      have : (((List.range count).map fun (i : Nat) =>
          if pmin + (i : Int) ∈ done then (rank : Int) else -1).set (g - pmin).toNat (rank : Int)) =
          (List.range count).map fun (i : Nat) =>
            if pmin + (i : Int) ∈ done ++ [g] then (rank : Int) else -1 := by
        apply List.ext_getElem? fun k => ?_
        rw [List.getElem?_set]
        by_cases hk : k < count
        · rw [List.getElem?_map, List.getElem?_map, List.getElem?_range hk, Option.map_some,
            Option.map_some, List.length_map, List.length_range]
          by_cases e : (g - pmin).toNat = k
          · rw [if_pos e, if_pos (by omega)]
            have : pmin + (k : Int) = g := by omega
            rw [this, if_pos (by simp)]
          · rw [if_neg e]
            have hne : pmin + (k : Int) ≠ g := by omega
            simp only [List.mem_append, List.mem_singleton, hne, or_false]
        · rw [if_neg (by omega), List.getElem?_eq_none (by simp; omega),
            List.getElem?_eq_none (by simp; omega)]
      rw [this, ih _ fun x hx => hl x (by simp [hx])]
      simp
  have := key gids [] h
  simp only [List.not_mem_nil, if_false, List.nil_append] at this
  rw [← this]
  congr 1
  apply List.ext_getElem? fun k => ?_
  simp only [List.getElem?_replicate, List.getElem?_map]
  by_cases hk : k < count
  · rw [if_pos hk, List.getElem?_range hk]; rfl
  · rw [if_neg hk, List.getElem?_eq_none (by simpa using hk)]; rfl

/-- The owner of a cell: the first rank that has it. -/
def coupOwner (cells : List (List Int)) (g : Int) : Nat := cells.findIdx fun gs => gs.contains g

theorem coupOwner_spec {cells : List (List Int)} {g : Int} (h : ∃ gs ∈ cells, g ∈ gs) :
    ∃ gs, cells[coupOwner cells g]? = some gs ∧ g ∈ gs := by
  obtain ⟨gs, h1, h2⟩ := h
  have hlt : coupOwner cells g < cells.length :=
    List.findIdx_lt_length_of_exists ⟨gs, h1, by simpa using h2⟩
  refine ⟨cells[coupOwner cells g], List.getElem?_eq_getElem hlt, ?_⟩
  exact List.contains_iff_mem.1 (List.findIdx_getElem (w := hlt))

theorem coupOwner_eq {cells : List (List Int)} (hnd : cells.flatten.Nodup) {g : Int} {q : Nat}
    {gs : List Int} (hq : cells[q]? = some gs) (hg : g ∈ gs) : coupOwner cells g = q := by
  obtain ⟨gs', h1, h2⟩ := coupOwner_spec ⟨gs, List.mem_of_getElem? hq, hg⟩
  by_contra hne
  have hp := (List.nodup_flatten.1 hnd).2
  rw [List.pairwise_iff_getElem] at hp
  obtain ⟨hql, hqe⟩ := List.getElem?_eq_some_iff.1 hq
  obtain ⟨hol, hoe⟩ := List.getElem?_eq_some_iff.1 h1
  rcases Nat.lt_or_gt_of_ne hne with hlt | hlt
  · have := hp _ _ hol hql hlt
    rw [hoe, hqe] at this
    exact this h2 hg
  · have := hp _ _ hql hol hlt
    rw [hoe, hqe] at this
    exact this hg h2

theorem coupOwners_eq {dms : List Plex} {cells : List (List Int)} (h : MeshB dms cells)
    {first : Int} {count : Nat} (hfit : first + count ≤ 2147483648)
    (hperm : cells.flatten.Perm ((List.range count).map fun (i : Nat) => first + (i : Int))) :
    coupOwners dms = some (first, (List.range count).map fun (i : Nat) =>
      (coupOwner cells (first + i) : Int)) := by
  have hlen : dms.length = cells.length := h.parts.length_eq
  have hmem : ∀ g, (∃ gs ∈ cells, g ∈ gs) ↔ first ≤ g ∧ g < first + count := by
    intro g
    rw [← List.mem_flatten, hperm.mem_iff, List.mem_map]
    constructor
    · rintro ⟨i, hi, rfl⟩
      have := List.mem_range.1 hi
      omega
    · intro hg
      exact ⟨(g - first).toNat, List.mem_range.2 (by omega), by omega⟩
  have hnd : cells.flatten.Nodup := by
    rw [hperm.nodup_iff]
    exact (List.nodup_range).map fun a b e => by omega
  have hcells : dms.mapM coupCells = some cells := by
    have hp := h.parts
    have hne := h.nonempty
    clear hlen hmem hnd hperm h
    induction hp with
    | nil => rfl
    | cons hx _ ih =>
      rw [List.mapM_cons, partB_coupCells hx (hne _ (by simp)), ih fun gs hgs => hne gs (by simp [hgs])]
      rfl
  obtain ⟨dm0, hdm0⟩ := List.exists_mem_of_ne_nil dms h.ranks
  have hn0 : 0 < cells.length := by
    rw [← hlen]; exact List.length_pos_of_mem hdm0
  have hcnt : 0 < count := by
    obtain ⟨g0, hg0⟩ := List.exists_mem_of_ne_nil _ (h.nonempty _ (List.getElem_mem hn0))
    have := (hmem g0).1 ⟨_, List.getElem_mem hn0, hg0⟩
    omega
  have hcount : (cells.map List.length).sum = count := by
    rw [← List.length_flatten, hperm.length_eq]; simp
  have hall : ∀ gs ∈ cells, ∀ g ∈ gs, first ≤ g ∧ g < first + count := fun gs hgs g hg =>
    (hmem g).1 ⟨gs, hgs, hg⟩
  have hpos : 0 ≤ first := by
    obtain ⟨gs, h1, h2⟩ := (hmem first).2 ⟨Int.le_refl _, by omega⟩
    obtain ⟨q, hq⟩ := List.mem_iff_getElem?.1 h1
    obtain ⟨j, hj⟩ := List.mem_iff_getElem?.1 h2
    obtain ⟨hql, hqe⟩ := List.getElem?_eq_some_iff.1 hq
    have hpart := (List.forall₂_iff_get.1 h.parts).2 q (by omega) hql
    rw [List.get_eq_getElem, List.get_eq_getElem, hqe] at hpart
    exact (hpart.owned j _ hj).1
  have hmin : (cells.map fun g => g.foldl min 2147483647).min? = some first := by
    rw [List.min?_eq_some_iff]
    constructor
    · obtain ⟨gs, h1, h2⟩ := (hmem first).2 ⟨Int.le_refl _, by omega⟩
      refine List.mem_map.2 ⟨gs, h1, ?_⟩
      obtain ⟨a1, a2, a3⟩ := coupFoldl_min gs 2147483647
      have := a2 first h2
      rcases a3 with a3 | a3
      · omega
      · have := (hall gs h1 _ a3).1
        omega
    · intro b hb
      obtain ⟨gs, h1, rfl⟩ := List.mem_map.1 hb
      obtain ⟨a1, a2, a3⟩ := coupFoldl_min gs 2147483647
      rcases a3 with a3 | a3
      · omega
      · exact (hall gs h1 _ a3).1
  have hmax : (cells.map fun g => g.foldl max (-2147483648)).max? = some (first + count - 1) := by
    rw [List.max?_eq_some_iff]
    constructor
    · obtain ⟨gs, h1, h2⟩ := (hmem (first + count - 1)).2 ⟨by omega, by omega⟩
      refine List.mem_map.2 ⟨gs, h1, ?_⟩
      obtain ⟨a1, a2, a3⟩ := coupFoldl_max gs (-2147483648)
      have := a2 _ h2
      rcases a3 with a3 | a3
      · omega
      · have := (hall gs h1 _ a3).2
        omega
    · intro b hb
      obtain ⟨gs, h1, rfl⟩ := List.mem_map.1 hb
      obtain ⟨a1, a2, a3⟩ := coupFoldl_max gs (-2147483648)
      rcases a3 with a3 | a3
      · omega
      · have := (hall gs h1 _ a3).2
        omega
  unfold coupOwners
  rw [hcells, Option.bind_some]
  simp only [hcount]
  rw [hmin, Option.bind_some, hmax, Option.bind_some, if_pos (by omega)]
  obtain ⟨G, hG⟩ := exists_table cells
  have hGr : ∀ r, r < cells.length → cells[r]? = some (G r) := fun r hr => by
    conv_lhs => rw [hG]
    rw [List.getElem?_map, List.getElem?_range hr, Option.map_some]
  have hw : (mapRanks cells fun r g => coupOwnersLocal count first r g) =
      some ((List.range cells.length).map fun r => (List.range count).map fun (i : Nat) =>
        if first + (i : Int) ∈ G r then (r : Int) else -1) := by
    conv_lhs => rw [hG]
    exact mapRanks_table fun r hr => coupOwnersLocal_eq r (G r)
      (hall _ (List.mem_of_getElem? (hGr r hr)))
  rw [hw, Option.bind_some]
  have : coupAllMax count ((List.range cells.length).map fun r => (List.range count).map fun (i : Nat) =>
      if first + (i : Int) ∈ G r then (r : Int) else -1) =
      some ((List.range count).map fun (i : Nat) => (coupOwner cells (first + i) : Int)) := by
    unfold coupAllMax
    refine mapM_of_forall fun i hi => ?_
    have hi := List.mem_range.1 hi
    rw [mapM_of_forall (g := fun v => (v[i]?).getD 0) fun v hv => by
      obtain ⟨r, hr, rfl⟩ := List.mem_map.1 hv
      simp [rd, hi], Option.bind_some, List.map_map, List.max?_eq_some_iff]
    obtain ⟨gs, h1, h2⟩ := coupOwner_spec ((hmem (first + i)).2 ⟨by omega, by omega⟩)
    have hol : coupOwner cells (first + i) < cells.length := (List.getElem?_eq_some_iff.1 h1).1
    have hval : ∀ r, r < cells.length → (((fun v : List Int => (v[i]?).getD 0) ∘ fun r =>
        (List.range count).map fun (i : Nat) => if first + (i : Int) ∈ G r then (r : Int) else -1) r) =
        if first + (i : Int) ∈ G r then (r : Int) else -1 := fun r _ => by
      simp [hi]
    constructor
    · refine List.mem_map.2 ⟨_, List.mem_range.2 hol, ?_⟩
      rw [hval _ hol, if_pos]
      have := hGr _ hol
      rw [h1] at this
      rw [← Option.some.inj this]
      exact h2
    · intro b hb
      obtain ⟨r, hr, rfl⟩ := List.mem_map.1 hb
      have hr := List.mem_range.1 hr
      rw [hval r hr]
      split
      · next hin => rw [coupOwner_eq hnd (hGr r hr) hin]
      · omega
  rw [this]
  rfl

/-! ## The maps of the constructor -/

theorem coupGet_pushAll {α : Type} (m : OMap (List α)) (k j : Int) (xs : List α) :
    omGet (omPushAll m k xs) j = if k = j then some ((omGet m k).getD [] ++ xs) else omGet m j := by
  unfold omPushAll
  rw [omGet_put]

/-- The entries of a coupling map with the cell they belong to, in order. -/
def coupFlat {T : Type} (map : List (List (CoupEntry T))) : List (Nat × CoupEntry T) :=
  map.zipIdx.flatMap fun p => p.1.map fun e => (p.2, e)

/-- What the maps contain after the entries `P`. -/
structure MapsOf {T : Type} (own : Int → Nat) (P : List (Nat × CoupEntry T)) (m : CoupMaps T) :
    Prop where
  cellsA : ∀ k : Nat, omGet m.cellsA (k : Int) = if P.filter (fun p => own p.2.cell = k) = [] then none
    else some ((P.filter fun p => own p.2.cell = k).map fun p => p.1)
  cellsB : ∀ k : Nat, omGet m.cellsB (k : Int) = if P.filter (fun p => own p.2.cell = k) = [] then none
    else some ((P.filter fun p => own p.2.cell = k).map fun p => p.2.cell)
  fwd : ∀ k : Nat, omGet m.fwd (k : Int) = if P.filter (fun p => own p.2.cell = k) = [] then none
    else some ((P.filter fun p => own p.2.cell = k).map fun p => p.2.fwd)
  bwd : ∀ k : Nat, omGet m.bwd (k : Int) = if P.filter (fun p => own p.2.cell = k) = [] then none
    else some ((P.filter fun p => own p.2.cell = k).map fun p => p.2.bwd)
  sorted : m.ranks.Pairwise (· < ·)
  ranks : ∀ z : Int, z ∈ m.ranks ↔ ∃ p ∈ P, (own p.2.cell : Int) = z

theorem push_filter {α T : Type} {own : Int → Nat} {P : List (Nat × CoupEntry T)} {m : OMap (List α)}
    (f : Nat × CoupEntry T → α) (x : Nat × CoupEntry T)
    (h : ∀ k : Nat, omGet m (k : Int) = if P.filter (fun p => own p.2.cell = k) = [] then none
      else some ((P.filter fun p => own p.2.cell = k).map f)) (k : Nat) :
    omGet (omPushAll m (own x.2.cell : Int) [f x]) (k : Int) =
      if (P ++ [x]).filter (fun p => own p.2.cell = k) = [] then none
      else some (((P ++ [x]).filter fun p => own p.2.cell = k).map f) := by
  rw [coupGet_pushAll, List.filter_append, List.map_append, List.filter_singleton]
  by_cases e : own x.2.cell = k
  · subst e
    rw [if_pos rfl, h]
    simp only [decide_true, cond_true, List.append_eq_nil_iff, List.cons_ne_nil, and_false, if_false,
      List.map_singleton]
    split
    · next h0 => rw [h0]; simp
    · simp
  · rw [if_neg (by omega), h]
    have hd : decide (own x.2.cell = k) = false := by simpa using e
    simp only [hd, Bool.false_eq_true, if_false, cond_false, List.append_nil, List.map_nil]

theorem coupEntry_eq {T : Type} {own : Int → Nat} {pmin : Int} {owners : List Int}
    {P : List (Nat × CoupEntry T)} {m : CoupMaps T} (hm : MapsOf own P m) (a : Nat) (e : CoupEntry T)
    (h0 : pmin ≤ e.cell) (h1 : owners[(e.cell - pmin).toNat]? = some (own e.cell : Int)) :
    ∃ m', coupEntry pmin owners a m e = some m' ∧ MapsOf own (P ++ [(a, e)]) m' := by
  unfold coupEntry
  simp only [rd]
  rw [if_pos (by omega), h1, Option.map_some]
  refine ⟨_, rfl, ?_⟩
  exact {
    cellsA := push_filter (fun p => p.1) (a, e) hm.cellsA
    cellsB := push_filter (fun p => p.2.cell) (a, e) hm.cellsB
    fwd := push_filter (fun p => p.2.fwd) (a, e) hm.fwd
    bwd := push_filter (fun p => p.2.bwd) (a, e) hm.bwd
    sorted := intSetInsert_sorted hm.sorted
    ranks := fun z => by
      rw [mem_intSetInsert, hm.ranks]
      constructor
      · rintro (rfl | ⟨p, hp, rfl⟩)
        · exact ⟨(a, e), by simp, rfl⟩
        · exact ⟨p, by simp [hp], rfl⟩
      · rintro ⟨p, hp, rfl⟩
        rcases List.mem_append.1 hp with hp | hp
        · exact Or.inr ⟨p, hp, rfl⟩
        · rw [List.mem_singleton] at hp
          subst hp
          exact Or.inl rfl }

theorem coupMaps_eq {T : Type} {own : Int → Nat} {pmin : Int} {owners : List Int}
    (map : List (List (CoupEntry T)))
    (h : ∀ es ∈ map, ∀ e ∈ es, pmin ≤ e.cell ∧
      owners[(e.cell - pmin).toNat]? = some (own e.cell : Int)) :
    ∃ m, coupMaps pmin owners map = some m ∧ MapsOf own (coupFlat map) m := by
  have inner : ∀ (a : Nat) (es : List (CoupEntry T)) (P : List (Nat × CoupEntry T)) (m : CoupMaps T),
      (∀ e ∈ es, pmin ≤ e.cell ∧ owners[(e.cell - pmin).toNat]? = some (own e.cell : Int)) →
      MapsOf own P m → ∃ m', es.foldlM (coupEntry pmin owners a) m = some m' ∧
        MapsOf own (P ++ es.map fun e => (a, e)) m' := by
    intro a es
    induction es with
    | nil => intro P m _ hm; exact ⟨m, rfl, by simpa using hm⟩
    | cons e es ih =>
      intro P m he hm
      obtain ⟨h0, h1⟩ := he e (by simp)
      obtain ⟨m1, e1, hm1⟩ := coupEntry_eq hm a e h0 h1
      obtain ⟨m2, e2, hm2⟩ := ih _ m1 (fun x hx => he x (by simp [hx])) hm1
      refine ⟨m2, ?_, ?_⟩
      · rw [List.foldlM_cons, e1]; exact e2
      · simpa using hm2
  have outer : ∀ (map : List (List (CoupEntry T))) (k : Nat) (P : List (Nat × CoupEntry T))
      (m : CoupMaps T),
      (∀ es ∈ map, ∀ e ∈ es, pmin ≤ e.cell ∧
        owners[(e.cell - pmin).toNat]? = some (own e.cell : Int)) →
      MapsOf own P m → ∃ m', (map.foldlM (fun (s : CoupMaps T × Nat) (es : List (CoupEntry T)) =>
        (es.foldlM (coupEntry pmin owners s.2) s.1).map fun m => (m, s.2 + 1)) (m, k)) =
          some (m', k + map.length) ∧
        MapsOf own (P ++ (map.zipIdx k).flatMap fun p => p.1.map fun e => (p.2, e)) m' := by
    intro map
    induction map with
    | nil => intro k P m _ hm; exact ⟨m, rfl, by simpa using hm⟩
    | cons es map ih =>
      intro k P m he hm
      obtain ⟨m1, e1, hm1⟩ := inner k es P m (he es (by simp)) hm
      obtain ⟨m2, e2, hm2⟩ := ih (k + 1) _ m1 (fun x hx => he x (by simp [hx])) hm1
      refine ⟨m2, ?_, ?_⟩
      · rw [List.foldlM_cons]
        simp only [e1, Option.map_some, Option.bind_eq_bind, Option.bind_some]
        rw [e2, List.length_cons]
        congr 2
        omega
      · simpa [List.zipIdx_cons] using hm2
  obtain ⟨m, e1, hm⟩ := outer map 0 [] CoupMaps.new h
    ⟨fun k => rfl, fun k => rfl, fun k => rfl, fun k => rfl, List.Pairwise.nil, by simp [CoupMaps.new]⟩
  refine ⟨m, ?_, by simpa [coupFlat] using hm⟩
  unfold coupMaps
  rw [e1]
  rfl

end NP
