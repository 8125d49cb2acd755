import Verif.Petsc.SpecInterface
import Verif.Petsc.PropsHalo
import Verif.Mesh.Props
import Verif.Mesh.PropsBox
import Verif.Containers.PropsMHC
import Verif.Comm.LemmasExchange

/-!
# Lemmas: the halo of an unstructured mesh
-/

set_option autoImplicit false

namespace NP

open Spec

/-! ## Shares -/

theorem overlap_nonneg (a b c d : ℚ) : 0 ≤ overlap a b c d := le_max_left _ _

theorem overlap_le {w : ℚ} (hw : 0 ≤ w) (a b o : ℚ) (i : Int) :
    overlap a b (o + i * w) (o + (i + 1) * w) ≤ w := by
  unfold overlap
  apply max_le hw
  have h1 := min_le_right b (o + (i + 1) * w)
  have h2 := le_max_right a (o + i * w)
  linarith

theorem overlapVolume_nonneg {w : ℚ} : ∀ (os los his : List ℚ) (is : List Int),
    0 ≤ overlapVolume w os los his is
  | o :: os, lo :: los, hi :: his, i :: is => by
    unfold overlapVolume
    exact mul_nonneg (overlap_nonneg _ _ _ _) (overlapVolume_nonneg os los his is)
  | [], _, _, _ => by unfold overlapVolume; exact zero_le_one
  | _ :: _, [], _, _ => by unfold overlapVolume; exact zero_le_one
  | _ :: _, _ :: _, [], _ => by unfold overlapVolume; exact zero_le_one
  | _ :: _, _ :: _, _ :: _, [] => by unfold overlapVolume; exact zero_le_one

theorem overlapVolume_le {w : ℚ} (hw : 0 ≤ w) : ∀ (n : Nat) (os los his : List ℚ) (is : List Int),
    os.length = n → n ≤ los.length → n ≤ his.length → is.length = n →
    overlapVolume w os los his is ≤ w ^ n
  | 0, [], _, _, _, _, _, _, _ => by unfold overlapVolume; simp
  | n + 1, o :: os, lo :: los, hi :: his, i :: is, h1, h2, h3, h4 => by
    unfold overlapVolume
    simp only [List.length_cons] at h1 h2 h3 h4
    have ih := overlapVolume_le hw n os los his is (by omega) (by omega) (by omega) (by omega)
    rw [pow_succ, mul_comm]
    exact mul_le_mul ih (overlap_le hw _ _ _ _) (overlap_nonneg _ _ _ _) (pow_nonneg hw n)

theorem isCellAt_length {mh : MeshHierarchy} {t : List Int} {c : Int} (h : IsCellAt mh t c) :
    t.length = mh.dims.length := by
  have := isCellAt_inRange h
  unfold InRange at this
  rw [← this.length_eq, List.length_map]

theorem fineWidth_pos {g : MeshGeom} (hg : ValidGeom g) : 0 < fineWidth g :=
  div_pos hg.2.2 (by positivity)

theorem share_le_one {g : MeshGeom} (hg : ValidGeom g) {lo hi : List ℚ} (hb : BoxFor g lo hi) {c : Int}
    {share : ℚ} (h : Overlaps g lo hi c share) : share ≤ 1 := by
  obtain ⟨t, ht, -, rfl⟩ := h
  have hw := fineWidth_pos hg
  rw [div_le_one (by positivity)]
  exact overlapVolume_le hw.le _ _ _ _ _ hg.2.1 hb.1 hb.2 (isCellAt_length ht)

theorem overlaps_range {g : MeshGeom} (hg : ValidGeom g) {lo hi : List ℚ} {c : Int} {s : ℚ}
    (h : Overlaps g lo hi c s) : 0 ≤ c ∧ c < g.mh.ncellsGlobal := by
  obtain ⟨t, ht, -, -⟩ := h
  exact isCellAt_bounds hg.1 ht

/-! ## Lists -/

theorem rd_map_range {α : Type} (f : Nat → α) {n r : Nat} (h : r < n) :
    rd ((List.range n).map f) r = some (f r) := by
  unfold rd
  rw [List.getElem?_map, List.getElem?_range h]
  rfl

theorem flatMap_keys {β : Type} (f : Int → Option (List β)) (c : Int) : ∀ l : List Int, l.Nodup →
    ((l.filterMap fun k => (f k).map fun es => (k, es)).flatMap fun p => if p.1 = c then p.2 else []) =
      if c ∈ l then (f c).getD [] else []
  | [], _ => rfl
  | k :: l, h => by
    obtain ⟨h1, h2⟩ := List.nodup_cons.1 h
    have ih := flatMap_keys f c l h2
    rw [List.filterMap_cons]
    by_cases e : k = c
    · subst e
      rw [if_neg h1] at ih
      cases hf : f k with
      | none => simp only [Option.map_none]; rw [ih]; simp
      | some es => simp only [Option.map_some]; rw [List.flatMap_cons, ih]; simp
    · have hiff : c ∈ k :: l ↔ c ∈ l := by
        rw [List.mem_cons]
        exact ⟨fun h => h.resolve_left (fun h => e h.symm), Or.inr⟩
      simp only [hiff]
      cases hf : f k with
      | none => simp only [Option.map_none]; exact ih
      | some es =>
        simp only [Option.map_some]
        rw [List.flatMap_cons, ih, if_neg e]
        rfl

theorem intRange_mem {a b c : Int} : c ∈ intRange a b ↔ a ≤ c ∧ c < b := by
  unfold intRange
  rw [List.mem_map]
  constructor
  · rintro ⟨k, hk, rfl⟩
    rw [List.mem_range] at hk
    omega
  · rintro ⟨h1, h2⟩
    exact ⟨(c - a).toNat, List.mem_range.2 (by omega), by omega⟩

theorem intRange_nodup' (a b : Int) : (intRange a b).Nodup := by
  unfold intRange
  exact List.Nodup.map (fun x y h => by
    have : a + (x : Int) = a + (y : Int) := h
    omega) List.nodup_range

theorem serialBytes_sublist {T : Type} (I : Serial T) {l l' : List T} (h : List.Sublist l l') :
    serialBytes I l ≤ serialBytes I l' := by
  induction h with
  | slnil => exact Nat.le_refl _
  | cons a _ ih =>
    simp only [serialBytes]
    omega
  | cons_cons a _ ih =>
    simp only [serialBytes]
    omega

theorem flatMap_sublist {α β : Type} {f f' : α → List β} : ∀ {l : List α},
    (∀ x ∈ l, List.Sublist (f x) (f' x)) → List.Sublist (l.flatMap f) (l.flatMap f')
  | [], _ => List.Sublist.refl _
  | a :: l, h => by
    rw [List.flatMap_cons, List.flatMap_cons]
    exact (h a (by simp)).append (flatMap_sublist fun x hx => h x (by simp [hx]))

/-! ## One rank -/

/-- The claims of a rank, and which of its cells are listed for each cell of the hierarchy. -/
structure DmLocalOk (g : MeshGeom) (cells : List DmCell) (s : LocalClaims) : Prop where
  mem : ∀ c, c ∈ s.cells ↔ Claims g cells c
  weight : ∀ c, c ∈ s.cells → ∃ e ∈ cells, ∃ share, Overlaps g e.lower e.upper c share ∧
    1 ≤ 1000000 * share ∧ s.weights c = some (⌊1000000 * share⌋, share) ∧
    ∀ e' ∈ cells, ∀ share', Overlaps g e'.lower e'.upper c share' →
      ⌊1000000 * share'⌋ ≤ ⌊1000000 * share⌋
  geoms : open Classical in ∀ c, (s.geoms c).getD [] =
    (cells.zipIdx.filter fun ci => decide (Touches g ci.1 c)).map fun ci => (ci.2 : Int)

theorem mem_elements {cells : List DmCell} {x : Int × List ℚ × List ℚ}
    (h : x ∈ cells.zipIdx.map fun ci => ((ci.2 : Int), ci.1.lower, ci.1.upper)) :
    ∃ e ∈ cells, x.2 = (e.lower, e.upper) := by
  obtain ⟨ci, h1, rfl⟩ := List.mem_map.1 h
  exact ⟨ci.1, List.fst_mem_of_mem_zipIdx h1, rfl⟩

theorem elements_mem {cells : List DmCell} {e : DmCell} (h : e ∈ cells) :
    ∃ x ∈ cells.zipIdx.map fun ci => ((ci.2 : Int), ci.1.lower, ci.1.upper),
      x.2 = (e.lower, e.upper) := by
  obtain ⟨i, hi, rfl⟩ := List.mem_iff_getElem.1 h
  refine ⟨_, List.mem_map.2 ⟨(cells[i], i), ?_, rfl⟩, rfl⟩
  rw [List.mem_zipIdx_iff_getElem?]
  simp [hi]

theorem dmLocalClaims_spec {g : MeshGeom} (hg : ValidGeom g) {cells : List DmCell}
    (hb : ∀ e ∈ cells, BoxFor g e.lower e.upper) :
    ∃ s, dmLocalClaims g cells = some s ∧ DmLocalOk g cells s := by
  obtain ⟨s, h1, h2⟩ := C43_claims g hg
    (cells.zipIdx.map fun ci => ((ci.2 : Int), ci.1.lower, ci.1.upper)) (by
      intro x hx
      obtain ⟨e, he, ex⟩ := mem_elements hx
      rw [ex]
      exact hb e he)
  have hmem : ∀ c, c ∈ s.cells ↔ Claims g cells c := by
    intro c
    rw [(h2 c).1]
    constructor
    · rintro ⟨x, hx, r, hr⟩
      obtain ⟨e, he, ex⟩ := mem_elements hx
      rw [ex] at hr
      exact ⟨e, he, r, hr⟩
    · rintro ⟨e, he, r, hr⟩
      obtain ⟨x, hx, ex⟩ := elements_mem he
      refine ⟨x, hx, r, ?_⟩
      rw [ex]
      exact hr
  refine ⟨s, h1, hmem, ?_, ?_⟩
  · intro c hc
    obtain ⟨x, hx, r, hr, hw, hmax⟩ := (h2 c).2.2.1 hc
    obtain ⟨e, he, ex⟩ := mem_elements hx
    rw [ex] at hr
    have hm : ∀ e' ∈ cells, ∀ share', Overlaps g e'.lower e'.upper c share' →
        ⌊1000000 * share'⌋ ≤ ⌊1000000 * r⌋ := by
      intro e' he' r' hr'
      obtain ⟨x', hx', ex'⟩ := elements_mem he'
      refine hmax x' hx' r' ?_
      rw [ex']
      exact hr'
    refine ⟨e, he, r, hr, ?_, hw, hm⟩
    obtain ⟨e', he', r', hr', hone⟩ := (hmem c).1 hc
    have h3 := hm e' he' r' hr'
    have h4 : (1 : Int) ≤ ⌊1000000 * r'⌋ := Int.le_floor.2 (by exact_mod_cast hone)
    have h5 := Int.le_floor.1 (h4.trans h3)
    exact_mod_cast h5
  · intro c
    rw [(h2 c).2.2.2, List.filter_map, List.map_map]
    rfl

theorem dmRankClaims_spec {g : MeshGeom} {cells : List DmCell} {s : LocalClaims}
    (h : DmLocalOk g cells s) (rank : Nat) :
    dmRankClaims rank s = some (s.cells.map fun c => ⟨rank, c, ((s.weights c).getD (0, 0)).1⟩) := by
  unfold dmRankClaims
  refine mapM_of_forall fun c hc => ?_
  obtain ⟨e, -, share, -, -, hw, -⟩ := h.weight c hc
  rw [hw]
  rfl

/-- The packed cells listed for a cell of the hierarchy. -/
noncomputable def touching (g : MeshGeom) (cells : List DmCell) (c : Int) : List PackedCell :=
  open Classical in (cells.filter fun e => decide (Touches g e c)).map (·.packed)

theorem touching_mem {g : MeshGeom} {cells : List DmCell} {c : Int} {p : PackedCell} :
    p ∈ touching g cells c ↔ ∃ e ∈ cells, Touches g e c ∧ e.packed = p := by
  classical
  unfold touching
  rw [List.mem_map]
  constructor
  · rintro ⟨e, he, rfl⟩
    rw [List.mem_filter, decide_eq_true_eq] at he
    exact ⟨e, he.1, he.2, rfl⟩
  · rintro ⟨e, h1, h2, rfl⟩
    exact ⟨e, List.mem_filter.2 ⟨h1, decide_eq_true h2⟩, rfl⟩

theorem dmPackedMap_spec {g : MeshGeom} (hg : ValidGeom g) {cells : List DmCell} {s : LocalClaims}
    (h : DmLocalOk g cells s) :
    ∃ data, dmPackedMap g cells s = some data ∧
      (∀ p ∈ data, (0 ≤ p.1 ∧ p.1 < g.mh.ncellsGlobal) ∧ ∀ t ∈ p.2, ∃ e ∈ cells, e.packed = t) ∧
      ∀ c, (data.flatMap fun p => if p.1 = c then p.2 else []) = touching g cells c := by
  classical
  -- the packed cell of an entry
  let pk : Int → PackedCell := fun e => ((cells[e.toNat]?).map (·.packed)).getD ⟨0, 0, 0, 0, []⟩
  have hpk : ∀ (c : Int) (es : List Int), s.geoms c = some es →
      es.map pk = touching g cells c ∧
      (es.mapM fun e => (index e).bind fun i => (rd cells i).map fun x => x.packed) =
        some (es.map pk) := by
    intro c es hes
    have e1 := h.geoms c
    rw [hes] at e1
    simp only [Option.getD_some] at e1
    constructor
    · rw [e1, List.map_map]
      unfold touching
      have e2 : (cells.filter fun e => decide (Touches g e c)) =
          (cells.zipIdx.filter fun ci => decide (Touches g ci.1 c)).map Prod.fst := by
        conv_lhs => rw [← List.zipIdx_map_fst 0 cells]
        rw [List.filter_map]
        rfl
      rw [e2, List.map_map]
      refine List.map_congr_left fun ci hci => ?_
      have := (List.mem_filter.1 hci).1
      rw [List.mem_zipIdx_iff_getElem?] at this
      simp only [Function.comp_apply, pk, Int.toNat_natCast, this, Option.map_some, Option.getD_some]
    · refine mapM_of_forall fun e he => ?_
      rw [e1, List.mem_map] at he
      obtain ⟨ci, hci, rfl⟩ := he
      have := (List.mem_filter.1 hci).1
      rw [List.mem_zipIdx_iff_getElem?] at this
      unfold index rd
      rw [if_pos (by omega)]
      simp only [Option.bind_some, pk, Int.toNat_natCast, this, Option.map_some, Option.getD_some]
  have hgm : ∀ ce ∈ dmGeomMap g s, (0 ≤ ce.1 ∧ ce.1 < g.mh.ncellsGlobal) ∧ s.geoms ce.1 = some ce.2 := by
    intro ce hce
    unfold dmGeomMap at hce
    obtain ⟨c, hc, e⟩ := List.mem_filterMap.1 hce
    cases hs : s.geoms c with
    | none => rw [hs] at e; cases e
    | some es =>
      rw [hs] at e
      cases e
      exact ⟨intRange_mem.1 hc, hs⟩
  refine ⟨(dmGeomMap g s).map fun ce => (ce.1, ce.2.map pk), ?_, ?_, ?_⟩
  · unfold dmPackedMap
    refine mapM_of_forall fun ce hce => ?_
    rw [(hpk ce.1 ce.2 (hgm ce hce).2).2]
    rfl
  · intro p hp
    obtain ⟨ce, hce, rfl⟩ := List.mem_map.1 hp
    refine ⟨(hgm ce hce).1, fun t ht => ?_⟩
    have e1 := (hpk ce.1 ce.2 (hgm ce hce).2).1
    have ht' : t ∈ ce.2.map pk := ht
    rw [e1] at ht'
    obtain ⟨e, he, -, hp⟩ := touching_mem.1 ht'
    exact ⟨e, he, hp⟩
  · intro c
    have e1 : ((dmGeomMap g s).map fun ce => (ce.1, ce.2.map pk)) =
        (intRange 0 g.mh.ncellsGlobal).filterMap fun k =>
          ((s.geoms k).map fun es => es.map pk).map fun es => (k, es) := by
      unfold dmGeomMap
      rw [List.map_filterMap]
      refine List.filterMap_congr fun k _ => ?_
      cases s.geoms k <;> rfl
    rw [e1, flatMap_keys _ _ _ (intRange_nodup' _ _)]
    have hempty : s.geoms c = none → touching g cells c = [] := by
      intro hs
      have e2 := h.geoms c
      rw [hs] at e2
      have e3 : cells.zipIdx.filter (fun ci => decide (Touches g ci.1 c)) = [] :=
        List.map_eq_nil_iff.1 e2.symm
      unfold touching
      rw [List.map_eq_nil_iff, List.filter_eq_nil_iff]
      intro e he
      obtain ⟨i, hi, rfl⟩ := List.mem_iff_getElem.1 he
      exact List.filter_eq_nil_iff.1 e3 (cells[i], i) (by
        rw [List.mem_zipIdx_iff_getElem?]; simp [hi])
    by_cases hc : c ∈ intRange 0 g.mh.ncellsGlobal
    · rw [if_pos hc]
      cases hs : s.geoms c with
      | none => rw [hempty hs]; rfl
      | some es => exact (hpk c es hs).1
    · rw [if_neg hc]
      unfold touching
      symm
      rw [List.map_eq_nil_iff, List.filter_eq_nil_iff]
      intro e he ht
      obtain ⟨share, hsh⟩ := of_decide_eq_true ht
      exact hc (intRange_mem.2 (overlaps_range hg hsh))

/-! ## All ranks -/

/-- The parts that the ranks compute for themselves. -/
theorem dm_locals {ki n : Nat} {g : MeshGeom} {cells : Nat → List DmCell} (h : DmOk ki n g cells) :
    ∃ L : Nat → LocalClaims, (∀ r, r < n → DmLocalOk g (cells r) (L r)) ∧
      ((List.range n).mapM fun r => dmLocalClaims g (cells r)) = some ((List.range n).map L) := by
  have hex : ∀ r, ∃ s, r < n → dmLocalClaims g (cells r) = some s ∧ DmLocalOk g (cells r) s := by
    intro r
    by_cases hr : r < n
    · obtain ⟨s, hs⟩ := dmLocalClaims_spec h.geom (h.boxes r hr)
      exact ⟨s, fun _ => hs⟩
    · exact ⟨LocalClaims.empty, fun hh => absurd hh hr⟩
  choose L hL using hex
  exact ⟨L, fun r hr => (hL r hr).2,
    mapM_of_forall fun r hr => (hL r (List.mem_range.1 hr)).1⟩

/-- The claims of all ranks. -/
def dmClaimList (n : Nat) (L : Nat → LocalClaims) : List Claim :=
  ((List.range n).map fun r => (L r).cells.map fun c => ⟨r, c, (((L r).weights c).getD (0, 0)).1⟩).flatten

theorem dmClaimList_mem {n : Nat} {L : Nat → LocalClaims} {e : Claim} :
    e ∈ dmClaimList n L ↔ e.rank < n ∧ e.cell ∈ (L e.rank).cells ∧
      e.weight = (((L e.rank).weights e.cell).getD (0, 0)).1 := by
  unfold dmClaimList
  simp only [List.mem_flatten, List.mem_map, List.mem_range]
  constructor
  · rintro ⟨_, ⟨r, hr, rfl⟩, he⟩
    obtain ⟨c, hc, rfl⟩ := List.mem_map.1 he
    exact ⟨hr, hc, rfl⟩
  · rintro ⟨h1, h2, h3⟩
    refine ⟨_, ⟨e.rank, h1, rfl⟩, List.mem_map.2 ⟨e.cell, h2, ?_⟩⟩
    rw [← h3]

section

variable {ki n : Nat} {g : MeshGeom} {cells : Nat → List DmCell} {L : Nat → LocalClaims}

theorem dmClaim_share (hL : ∀ r, r < n → DmLocalOk g (cells r) (L r)) {e : Claim}
    (he : e ∈ dmClaimList n L) :
    ∃ x ∈ cells e.rank, ∃ share, Overlaps g x.lower x.upper e.cell share ∧ 1 ≤ 1000000 * share ∧
      e.weight = ⌊1000000 * share⌋ ∧
      ∀ x' ∈ cells e.rank, ∀ share', Overlaps g x'.lower x'.upper e.cell share' →
        ⌊1000000 * share'⌋ ≤ ⌊1000000 * share⌋ := by
  obtain ⟨h1, h2, h3⟩ := dmClaimList_mem.1 he
  obtain ⟨x, hx, share, ho, hone, hw, hm⟩ := (hL _ h1).weight _ h2
  refine ⟨x, hx, share, ho, hone, ?_, hm⟩
  rw [h3, hw]
  rfl

/-- A cell of the hierarchy that a bounding box covers to at least a millionth is claimed. -/
theorem dmClaim_exists (hL : ∀ r, r < n → DmLocalOk g (cells r) (L r)) {r : Nat} (hr : r < n) {c : Int}
    (hc : Claims g (cells r) c) : ∃ e ∈ dmClaimList n L, e.rank = r ∧ e.cell = c :=
  ⟨⟨r, c, (((L r).weights c).getD (0, 0)).1⟩,
    dmClaimList_mem.2 ⟨hr, ((hL r hr).mem c).2 hc, rfl⟩, rfl, rfl⟩

theorem dmClaims_valid (h : DmOk ki n g cells) (hL : ∀ r, r < n → DmLocalOk g (cells r) (L r))
    {layout : NodeLayout} (hr : ∀ r, r ∈ layout.flatten ↔ r < n) {e : Claim}
    (he : e ∈ dmClaimList n L) : ValidClaim layout g.mh.ncellsGlobal.toNat e := by
  obtain ⟨h1, h2, -⟩ := dmClaimList_mem.1 he
  obtain ⟨x, hx, share, ho, hone, hw, -⟩ := dmClaim_share hL he
  have hrange := overlaps_range h.geom ho
  have hle := share_le_one h.geom (h.boxes _ h1 x hx) ho
  refine ⟨(hr _).2 h1, hrange.1, by omega, ?_, ?_⟩
  · rw [hw]
    have : (1 : Int) ≤ ⌊1000000 * share⌋ := Int.le_floor.2 (by exact_mod_cast hone)
    omega
  · rw [hw]
    have : ⌊1000000 * share⌋ ≤ ⌊(1000000 : ℚ)⌋ := Int.floor_mono (by linarith)
    rw [show ⌊(1000000 : ℚ)⌋ = 1000000 from Int.floor_intCast (R := ℚ) 1000000] at this
    omega

theorem dm_isOwner (hL : ∀ r, r < n → DmLocalOk g (cells r) (L r)) {claims : List Claim}
    (hp : claims.Perm (dmClaimList n L)) (c : Int) (r : Nat) :
    IsOwner claims c r ↔ IsDmOwner g n cells c r := by
  constructor
  · rintro ⟨e, he, rfl, rfl, hm⟩
    have he' := hp.subset he
    obtain ⟨h1, h2, -⟩ := dmClaimList_mem.1 he'
    obtain ⟨x, hx, share, ho, hone, hw, hmax⟩ := dmClaim_share hL he'
    refine ⟨h1, x, hx, share, ho, hone, ?_⟩
    intro q hq x' hx' share' ho'
    by_cases h' : 1 ≤ 1000000 * share'
    · obtain ⟨e2, he2, rfl, e2c⟩ := dmClaim_exists hL hq (c := e.cell) ⟨x', hx', share', ho', h'⟩
      obtain ⟨x2, hx2, share2, ho2, hone2, hw2, hmax2⟩ := dmClaim_share hL he2
      rw [e2c] at ho2 hmax2
      have h3 := hm e2 (hp.symm.subset he2) e2c
      have h4 := hmax2 x' hx' share' ho'
      rw [hw, hw2] at h3
      exact ⟨h4.trans h3.1, fun heq => h3.2 (le_antisymm h3.1 (heq ▸ h4))⟩
    · have h5 : ⌊1000000 * share'⌋ < 1 := Int.floor_lt.2 (by push_cast; linarith)
      have h6 : (1 : Int) ≤ ⌊1000000 * share⌋ := Int.le_floor.2 (by exact_mod_cast hone)
      exact ⟨by omega, fun heq => by omega⟩
  · rintro ⟨hr, x, hx, share, ho, hone, hm⟩
    obtain ⟨e, he, rfl, rfl⟩ := dmClaim_exists hL hr (c := c) ⟨x, hx, share, ho, hone⟩
    obtain ⟨x1, hx1, share1, ho1, hone1, hw1, hmax1⟩ := dmClaim_share hL he
    have heq : ⌊1000000 * share1⌋ = ⌊1000000 * share⌋ :=
      le_antisymm (hm _ hr x1 hx1 share1 ho1).1 (hmax1 x hx share ho)
    refine ⟨e, hp.symm.subset he, rfl, rfl, ?_⟩
    intro e' he' ec
    have he2 := hp.subset he'
    obtain ⟨x2, hx2, share2, ho2, hone2, hw2, -⟩ := dmClaim_share hL he2
    rw [ec] at ho2
    have := hm _ (dmClaimList_mem.1 he2).1 x2 hx2 share2 ho2
    rw [hw1, hw2, heq]
    exact this

theorem dmOwner_claims {c : Int} {r : Nat} (h : IsDmOwner g n cells c r) : Claims g (cells r) c := by
  obtain ⟨-, e, he, share, ho, hone, -⟩ := h
  exact ⟨e, he, share, ho, hone⟩

theorem claims_range (hg : ValidGeom g) {es : List DmCell} {c : Int} (h : Claims g es c) :
    0 ≤ c ∧ c < g.mh.ncellsGlobal := by
  obtain ⟨e, -, share, ho, -⟩ := h
  exact overlaps_range hg ho

/-- The cells that a rank gathers. -/
theorem dmToGather_spec (h : DmOk ki n g cells) {owner : Int → Int} {r : Nat} {s : LocalClaims}
    (hs : DmLocalOk g (cells r) s)
    (hown : ∀ c, Claims g (cells r) c → (owner c = r ↔ IsDmOwner g n cells c r)) :
    ∃ out, dmToGather g r owner s = some out ∧ ∀ c, c ∈ out ↔ Claims g (cells r) c ∨
      ∃ c0, IsDmOwner g n cells c0 r ∧ Adjacent g c0 c := by
  have hmem1 : ∀ c, c ∈ (dmOwned r owner s).1 ↔ IsDmOwner g n cells c r := by
    intro c
    unfold dmOwned
    simp only [List.mem_reverse, List.mem_filter, beq_iff_eq]
    rw [hs.mem]
    exact ⟨fun hh => (hown c hh.1).1 hh.2, fun hh => ⟨dmOwner_claims hh, (hown c (dmOwner_claims hh)).2 hh⟩⟩
  have hmem2 : ∀ c, c ∈ (dmOwned r owner s).2 ↔ Claims g (cells r) c ∧ ¬ IsDmOwner g n cells c r := by
    intro c
    unfold dmOwned
    simp only [List.mem_reverse, List.mem_filter, bne_iff_ne]
    rw [hs.mem]
    exact ⟨fun hh => ⟨hh.1, fun h' => hh.2 ((hown c hh.1).2 h')⟩,
      fun hh => ⟨hh.1, fun h' => hh.2 ((hown c hh.1).1 h')⟩⟩
  obtain ⟨out, h1, -, h2⟩ := C35_neighbours_partial g.mh h.geom.1 h.dims (dmOwned r owner s).1
    (dmOwned r owner s).2 dmStencil false
    (fun c hc => claims_range h.geom (dmOwner_claims ((hmem1 c).1 hc))) (by
      intro d hd
      have h3 := h.geom.1.2 d hd
      have h4 : (0 : Int) < 2 ^ g.mh.order := by positivity
      unfold dmStencil
      nlinarith)
  refine ⟨out, h1, fun c => ?_⟩
  rw [h2, hmem1, hmem2]
  constructor
  · rintro (hh | hh | ⟨c0, h0, x, y, hx, hy, hn⟩)
    · exact Or.inl (dmOwner_claims hh)
    · exact Or.inl hh.1
    · exact Or.inr ⟨c0, (hmem1 c0).1 h0, x, y, hx, hy, hn⟩
  · rintro (hh | ⟨c0, h0, x, y, hx, hy, hn⟩)
    · by_cases ho : IsDmOwner g n cells c r
      · exact Or.inl ho
      · exact Or.inr (Or.inl ⟨hh, ho⟩)
    · exact Or.inr (Or.inr ⟨c0, (hmem1 c0).2 h0, x, y, hx, hy, hn⟩)

theorem dm_data (h : DmOk ki n g cells) (hL : ∀ r, r < n → DmLocalOk g (cells r) (L r)) :
    ∃ D : Nat → List (Int × List PackedCell),
      ((List.range n).mapM fun r => (rd ((List.range n).map L) r).bind (dmPackedMap g (cells r))) =
        some ((List.range n).map D) ∧
      DataOk (packedCellSerial ki) n (fun r => (((List.range n).map D)[r]?).getD []) ∧
      ∀ c p, p ∈ contributed n (fun r => (((List.range n).map D)[r]?).getD []) c ↔
        ∃ q, q < n ∧ ∃ e ∈ cells q, Touches g e c ∧ e.packed = p := by
  have hex : ∀ r, ∃ data, r < n → dmPackedMap g (cells r) (L r) = some data ∧
      (∀ p ∈ data, (0 ≤ p.1 ∧ p.1 < g.mh.ncellsGlobal) ∧ ∀ t ∈ p.2, ∃ e ∈ cells r, e.packed = t) ∧
      ∀ c, (data.flatMap fun p => if p.1 = c then p.2 else []) = touching g (cells r) c := by
    intro r
    by_cases hr : r < n
    · obtain ⟨d, hd⟩ := dmPackedMap_spec h.geom (hL r hr)
      exact ⟨d, fun _ => hd⟩
    · exact ⟨[], fun hh => absurd hh hr⟩
  choose D hD using hex
  have hget : ∀ r, r < n → (((List.range n).map D)[r]?).getD [] = D r := by
    intro r hr
    rw [List.getElem?_map, List.getElem?_range hr]
    rfl
  have hcon : ∀ c, contributed n (fun r => (((List.range n).map D)[r]?).getD []) c =
      (List.range n).flatMap fun r => touching g (cells r) c := by
    intro c
    unfold contributed
    rw [List.flatMap_congr]
    intro r hr
    beta_reduce
    rw [hget r (List.mem_range.1 hr), (hD r (List.mem_range.1 hr)).2.2 c]
  refine ⟨D, ?_, ⟨?_, ?_, ?_⟩, ?_⟩
  · refine mapM_of_forall fun r hr => ?_
    rw [rd_map_range L (List.mem_range.1 hr)]
    exact (hD r (List.mem_range.1 hr)).1
  · intro r hr p hp t ht
    rw [hget r hr] at hp
    obtain ⟨e, he, rfl⟩ := ((hD r hr).2.1 p hp).2 t ht
    exact h.good r hr e he
  · intro r hr p hp
    rw [hget r hr] at hp
    have := ((hD r hr).2.1 p hp).1
    have := h.count
    unfold Fits32
    omega
  · intro c
    rw [hcon]
    refine Nat.lt_of_le_of_lt ?_ h.size
    have : List.Sublist ((List.range n).flatMap fun r => touching g (cells r) c)
        ((List.range n).flatMap fun r => (cells r).map (·.packed)) := by
      refine flatMap_sublist fun r _ => ?_
      unfold touching
      exact List.Sublist.map _ List.filter_sublist
    have := serialBytes_sublist (packedCellSerial ki) this
    omega
  · intro c p
    rw [hcon, List.mem_flatMap]
    constructor
    · rintro ⟨q, hq, hp⟩
      exact ⟨q, List.mem_range.1 hq, touching_mem.1 hp⟩
    · rintro ⟨q, hq, hp⟩
      exact ⟨q, List.mem_range.2 hq, touching_mem.2 hp⟩

/-- Everything together. -/
theorem dmSetup_spec (s0 : Nat → Sched) (s1 sc : Sched) (layout : NodeLayout) (w : ClaimState)
    (db : CellBuffer) (dp : PackedCell) (h : DmOk ki n g cells) (hw : ClaimReady layout n g w) :
    ∃ st, dmSetup s0 s1 sc layout w ki db dp n g cells = some st ∧
      (∀ c, 0 ≤ c → c < g.mh.ncellsGlobal → ∀ r : Nat, st.owner c = r ↔ IsDmOwner g n cells c r) ∧
      (∀ c, 0 ≤ c → c < g.mh.ncellsGlobal → (∀ r, r < n → ¬ Claims g (cells r) c) → st.owner c < 0) ∧
      st.halo.length = n ∧
      ∀ r, r < n → ∃ halo, st.halo[r]? = some halo ∧ ∀ p, p ∈ halo ↔ p.rank ≠ r ∧
        ∃ c o, IsDmOwner g n cells c o ∧
          (Claims g (cells r) c ∨ ∃ c0, IsDmOwner g n cells c0 r ∧ Adjacent g c0 c) ∧
          ∃ q, q < n ∧ ∃ e ∈ cells q, Touches g e c ∧ e.packed = p := by
  obtain ⟨L, hL, hlocals⟩ := dm_locals h
  have hclaims : ((List.range n).mapM fun r => (rd ((List.range n).map L) r).bind (dmRankClaims r)) =
      some ((List.range n).map fun r => (L r).cells.map fun c =>
        (⟨r, c, (((L r).weights c).getD (0, 0)).1⟩ : Claim)) := by
    refine mapM_of_forall fun r hr => ?_
    rw [rd_map_range L (List.mem_range.1 hr)]
    exact dmRankClaims_spec (hL r (List.mem_range.1 hr)) r
  have hperm : (sc.order (dmClaimList n L)).Perm (dmClaimList n L) := sc.perm _
  obtain ⟨w', hep, how, hno, -⟩ := C34_owner s0 s1 layout g.mh.ncellsGlobal.toNat
    (sc.order (dmClaimList n L)) w hw.valid hw.pending hw.length hw.maps
    (fun e he => dmClaims_valid h hL hw.ranks (hperm.subset he))
  have h0 : 0 ∈ layout.flatten := (hw.ranks 0).2 h.pos
  obtain ⟨owner, howner⟩ : ∃ owner : Int → Int, owner = fun c => (getOwner layout w' 0 c).getD (-1) :=
    ⟨_, rfl⟩
  have hclaimed : ∀ c, (∃ e ∈ sc.order (dmClaimList n L), e.cell = c) ↔ ∃ r, r < n ∧ Claims g (cells r) c := by
    intro c
    constructor
    · rintro ⟨e, he, rfl⟩
      obtain ⟨h1, h2, -⟩ := dmClaimList_mem.1 (hperm.subset he)
      exact ⟨e.rank, h1, ((hL _ h1).mem _).1 h2⟩
    · rintro ⟨r, hr, hc⟩
      obtain ⟨e, he, -, hec⟩ := dmClaim_exists hL hr hc
      exact ⟨e, hperm.symm.subset he, hec⟩
  have hneg : ∀ c, 0 ≤ c → c < g.mh.ncellsGlobal → (∀ r, r < n → ¬ Claims g (cells r) c) →
      owner c < 0 := by
    intro c c0 c1 hc
    have := hno c c0 (by omega) (fun e he hec => by
      obtain ⟨r, hr, hcl⟩ := (hclaimed c).1 ⟨e, he, hec⟩
      exact hc r hr hcl) 0 h0
    rw [howner]
    simp only [this, Option.getD_some]
    decide
  have hown : ∀ c, 0 ≤ c → c < g.mh.ncellsGlobal → ∀ r : Nat, owner c = r ↔ IsDmOwner g n cells c r := by
    intro c c0 c1 r
    by_cases hc : ∃ r, r < n ∧ Claims g (cells r) c
    · obtain ⟨o, ho, hget⟩ := how c c0 (by omega) ((hclaimed c).2 hc)
      have e1 : owner c = o := by
        rw [howner]
        simp only [hget 0 h0, Option.getD_some]
      rw [e1]
      constructor
      · intro e
        have : o = r := by omega
        subst this
        exact (dm_isOwner hL hperm c o).1 ho
      · intro hr
        have := C34_owner_unique _ c r o ((dm_isOwner hL hperm c r).2 hr) ho
        omega
    · have hlt := hneg c c0 c1 fun r hr hcl => hc ⟨r, hr, hcl⟩
      constructor
      · intro e; omega
      · intro hr; exact absurd ⟨r, hr.1, dmOwner_claims hr⟩ hc
  have hhas : ∀ c, 0 ≤ c → c < g.mh.ncellsGlobal → (HasOwner n owner c ↔ ∃ o, IsDmOwner g n cells c o) := by
    intro c c0 c1
    unfold HasOwner
    constructor
    · rintro ⟨a, b⟩
      exact ⟨(owner c).toNat, (hown c c0 c1 _).1 (by omega)⟩
    · rintro ⟨o, ho⟩
      have := (hown c c0 c1 o).2 ho
      have := ho.1
      omega
  obtain ⟨D, hdata, hdok, hcon⟩ := dm_data h hL
  -- the cells to gather
  have hexG : ∀ r, ∃ out, r < n → dmToGather g r owner (L r) = some out ∧
      ∀ c, c ∈ out ↔ Claims g (cells r) c ∨ ∃ c0, IsDmOwner g n cells c0 r ∧ Adjacent g c0 c := by
    intro r
    by_cases hr : r < n
    · obtain ⟨out, ho⟩ := dmToGather_spec h (hL r hr) (owner := owner) fun c hc =>
        hown c (claims_range h.geom hc).1 (claims_range h.geom hc).2 r
      exact ⟨out, fun _ => ho⟩
    · exact ⟨[], fun hh => absurd hh hr⟩
  choose G hG using hexG
  have hgather : ((List.range n).mapM fun r => (rd ((List.range n).map L) r).bind (dmToGather g r owner)) =
      some ((List.range n).map G) := by
    refine mapM_of_forall fun r hr => ?_
    rw [rd_map_range L (List.mem_range.1 hr)]
    exact (hG r (List.mem_range.1 hr)).1
  have hGrange : ∀ r, r < n → ∀ c ∈ G r, 0 ≤ c ∧ c < g.mh.ncellsGlobal := by
    intro r hr c hc
    rcases ((hG r hr).2 c).1 hc with hh | ⟨c0, -, x, y, -, hy, -⟩
    · exact claims_range h.geom hh
    · exact isCellAt_bounds h.geom.1 hy
  have hGget : ∀ r, r < n → (((List.range n).map G)[r]?).getD [] = G r := by
    intro r hr
    rw [List.getElem?_map, List.getElem?_range hr]
    rfl
  obtain ⟨c0, c1, hc0, hc1, hget⟩ := C46_get (packedCellSerial ki) dp db n owner _ hdok
    [fun r => (((List.range n).map G)[r]?).getD []] (by
      intro cs hcs r hr c hc
      rw [List.mem_singleton] at hcs
      subst hcs
      beta_reduce at hc
      rw [hGget r hr] at hc
      have := hGrange r hr c hc
      have := h.count
      unfold Fits32
      omega)
  have hc1' : mhcGather db n owner c0 (fun r => (((List.range n).map G)[r]?).getD []) = some c1 := by
    unfold gathers at hc1
    obtain ⟨c', e1, e2⟩ := Option.bind_eq_some_iff.1 hc1
    unfold gathers at e2
    cases e2
    exact e1
  classical
  let got : Nat → Int → List PackedCell := fun r c => if HasOwner n owner c then
    contributed n (fun r => (((List.range n).map D)[r]?).getD []) c else []
  have hhalo : ((List.range n).mapM fun (r : Nat) => (rd ((List.range n).map G) r).bind fun cs =>
      (cs.mapM fun c => (c1 r).get (packedCellSerial ki) dp c).map fun got => collectHalo r got) =
      some ((List.range n).map fun (r : Nat) => collectHalo r ((G r).map (got r))) := by
    refine mapM_of_forall fun r hr => ?_
    have hr' := List.mem_range.1 hr
    rw [rd_map_range G hr']
    simp only [Option.bind_some]
    rw [mapM_of_forall (g := got r) fun c hc => ?_]
    · rfl
    · have := hget r hr' c ⟨_, List.mem_singleton.2 rfl, by beta_reduce; rw [hGget r hr']; exact hc⟩
      by_cases ho : HasOwner n owner c
      · rw [this.1 ho]; simp only [got, if_pos ho]
      · rw [this.2 ho]; simp only [got, if_neg ho]
  refine ⟨⟨owner, (List.range n).map fun (r : Nat) => collectHalo r ((G r).map (got r))⟩, ?_, hown, hneg,
    by simp, ?_⟩
  · unfold dmSetup
    rw [hlocals]
    simp only [Option.bind_some]
    rw [hclaims]
    simp only [Option.bind_some]
    rw [show ((List.range n).map fun r => (L r).cells.map fun c =>
        (⟨r, c, (((L r).weights c).getD (0, 0)).1⟩ : Claim)).flatten = dmClaimList n L from rfl, hep]
    simp only [Option.bind_some]
    rw [hdata]
    simp only [Option.bind_some]
    rw [← howner, hc0]
    simp only [Option.bind_some]
    rw [hgather]
    simp only [Option.bind_some]
    rw [hc1']
    simp only [Option.bind_some]
    rw [hhalo]
    rfl
  · intro r hr
    refine ⟨_, rd_map_range _ hr, fun p => ?_⟩
    rw [C84_collect]
    refine and_congr_right fun _ => ?_
    constructor
    · rintro ⟨cs, hcs, hp⟩
      obtain ⟨c, hc, rfl⟩ := List.mem_map.1 hcs
      have hcr := hGrange r hr c hc
      by_cases ho : HasOwner n owner c
      · simp only [got, if_pos ho] at hp
        obtain ⟨o, hoo⟩ := (hhas c hcr.1 hcr.2).1 ho
        exact ⟨c, o, hoo, ((hG r hr).2 c).1 hc, (hcon c p).1 hp⟩
      · simp only [got, if_neg ho] at hp
        cases hp
    · rintro ⟨c, o, hoo, hc, hp⟩
      have hc' := ((hG r hr).2 c).2 hc
      have hcr := hGrange r hr c hc'
      refine ⟨got r c, List.mem_map.2 ⟨c, hc', rfl⟩, ?_⟩
      simp only [got]
      rw [if_pos ((hhas c hcr.1 hcr.2).2 ⟨o, hoo⟩)]
      exact (hcon c p).2 hp

end

end NP
