import Verif.Petsc.LemmasMapper

/-!
# C85: particles to cells of two dimensional unstructured meshes
-/

set_option autoImplicit false

namespace NP

open Spec

/-- **C85** Whatever the arithmetic is (rounding included), what the test finds for an edge does not
depend on the order of its ends: two cells which share an edge agree on it. -/
theorem C85_orientation {R : Type} [LinearOrder R] [Sub R] [Mul R] [Zero R] (p a b : R × R) :
    edgeTest p a b = edgeTest p b a := by
  unfold edgeTest
  rw [lineOrient_comm]

/-- **C85** For a triangle or convex quadrilateral, exact arithmetic: `cell_contains_point` and the
mapper agree; a point is contained if and only if it is in the closed cell and has a corner of the
cell above it, or is a corner at the top of the cell which is not the first from the left. -/
theorem C85_contains (vs : List (ℚ × ℚ)) (h : Convex2D vs) (rank localId : Int) (p : ℚ × ℚ) :
    ∃ data b, populateCell (flatCoords vs) rank localId = some data ∧ data.rank = rank ∧
      data.localId = localId ∧ data.contains p = some b ∧
      cellContainsPoint (flatCoords vs) p = some b ∧ (b = true ↔ Binned vs p) := by
  obtain ⟨data, h1, h2, h3, h4⟩ := contains_spec h rank localId
  obtain ⟨b, h5, h6⟩ := h4 p
  exact ⟨data, b, h1, h2, h3, h5, by rw [cellContainsPoint_eq h rank localId h1, h5], h6⟩

/-- **C85** Points of a horizontal edge at the top of a cell, other than corners, are not
contained although they are in the closed cell. -/
theorem C85_top_missed (vs : List (ℚ × ℚ)) (h : Convex2D vs) (p : ℚ × ℚ)
    (htop : ∀ v ∈ vs, v.2 ≤ p.2) (hn : p ∉ vs) : cellContainsPoint (flatCoords vs) p = some false := by
  obtain ⟨data, b, -, -, -, -, h5, h6⟩ := C85_contains vs h 0 0 p
  rw [h5]
  cases b with
  | false => rfl
  | true =>
    exfalso
    rcases (h6.mp rfl).2 with ⟨v, hv, hlt⟩ | ⟨hp, -⟩
    · exact absurd (htop v hv) (not_le.mpr hlt)
    · exact hn hp

theorem addAll_inv {β : Type} {ov : OverlayMesh} (big : ℚ) (f : Mapper2D → β → Option Mapper2D)
    {bs : List β} {cs : List MeshCell}
    (hf : List.Forall₂ (fun b c => ∀ m : Mapper2D,
      f m b = m.addCell big (flatCoords c.corners, c.rank, c.localId)) bs cs)
    (hc : ∀ c ∈ cs, Convex2D c.corners ∧ ∀ p, InCell2D c.corners p → OverMesh ov p)
    {cells : List MeshCell} {m : Mapper2D} (hm : MapInv ov cells m) :
    ∃ m', bs.foldlM f m = some m' ∧ MapInv ov (cells ++ cs) m' := by
  induction hf generalizing cells m with
  | nil => exact ⟨m, rfl, by rw [List.append_nil]; exact hm⟩
  | cons hb _ ih =>
    rename_i b c bs cs _
    obtain ⟨m1, e1, e2⟩ := addCell_inv big hm c (hc c (by simp)).1 (hc c (by simp)).2
    obtain ⟨m2, e3, e4⟩ := ih (fun c h => hc c (by simp [h])) e2
    refine ⟨m2, ?_, ?_⟩
    · rw [List.foldlM_cons, hb m, e1]
      exact e3
    · rw [List.append_assoc] at e4
      exact e4

theorem mapper_spec (fuel : Nat) (big : ℚ) (rank : Int) (loc : List (List (ℚ × ℚ)))
    (cached : Option BBox) (halo : Option (List (Int × List (ℚ × ℚ)))) (lids : LidMap)
    (cells : List MeshCell) (hk : KnownCells rank loc (halo.getD []) lids cells) (hne : cells ≠ [])
    (hcv : ∀ c ∈ cells, Convex2D c.corners) (hfuel : cells.length ≤ fuel)
    (hcache : ∀ b, cached = some b → IsBox b ∧ ∀ vs ∈ loc, ∀ v ∈ vs, InBox2 b v) :
    ∃ m b o0 o1 e0 e1 n0 n1, mapper2D fuel big rank (loc.map flatCoords) cached
        (halo.map fun l => l.map fun h => (h.1, flatCoords h.2)) lids = some (m, b) ∧
      MapInv (ov2 o0 o1 e0 e1 n0 n1) cells m ∧ 0 < e0 ∧ 0 < e1 ∧ 0 < n0 ∧ 0 < n1 ∧
      ∀ c ∈ cells, ∀ v ∈ c.corners, InBox2 b v := by
  obtain ⟨hal, rfl, hhal⟩ := hk
  have hloc : ∀ vs ∈ loc, Convex2D vs := by
    intro vs hvs
    obtain ⟨i, hi, rfl⟩ := List.getElem_of_mem hvs
    exact hcv ⟨rank, (i : Int), loc[i]⟩ (List.mem_append_left _ (List.mem_mapIdx.mpr ⟨i, hi, rfl⟩))
  have hhc : ∀ h ∈ halo.getD [], Convex2D h.2 := by
    intro h hh
    obtain ⟨i, hi, rfl⟩ := List.getElem_of_mem hh
    have hlen := hhal.length_eq
    have := (List.forall₂_iff_get.mp hhal).2 i hi (by omega)
    simp only [List.get_eq_getElem] at this
    rw [← this.1]
    exact hcv _ (List.mem_append_right _ (List.getElem_mem _))
  -- the box of the local cells
  obtain ⟨b0, hb0, hb1, hb2⟩ : ∃ b0, cachedBox big (loc.map flatCoords) cached = some b0 ∧ IsBox b0 ∧
      ∀ vs ∈ loc, ∀ v ∈ vs, InBox2 b0 v := by
    cases hcd : cached with
    | none => exact meshBox_spec big loc hloc
    | some b => exact ⟨b, rfl, hcache b hcd⟩
  -- the box of all cells
  obtain ⟨b, hb3, hb4, hb5, hb6⟩ : ∃ b, expandHalo big b0
      (halo.map fun l => l.map fun h => (h.1, flatCoords h.2)) = some b ∧ IsBox b ∧
      (∀ vs ∈ loc, ∀ v ∈ vs, InBox2 b v) ∧ ∀ h ∈ halo.getD [], ∀ v ∈ h.2, InBox2 b v := by
    cases halo with
    | none => exact ⟨b0, rfl, hb1, hb2, by simp⟩
    | some l =>
      obtain ⟨hb, k1, k2, k3⟩ := meshBox_spec big (l.map (·.2)) (by
        intro vs hvs
        obtain ⟨h, hh, rfl⟩ := List.mem_map.mp hvs
        exact hhc h hh)
      refine ⟨b0.expand hb, ?_, expand_isBox hb1 k2, fun vs hvs v hv => expand_left k2 (hb2 vs hvs v hv),
        fun h hh v hv => expand_right hb1 (k3 h.2 (List.mem_map.mpr ⟨h, hh, rfl⟩) v hv)⟩
      simp only [Option.map_some, expandHalo, List.map_map]
      rw [List.map_map] at k1
      rw [show ((fun x : Int × List ℚ => x.2) ∘ fun h : Int × List (ℚ × ℚ) => (h.1, flatCoords h.2)) =
        flatCoords ∘ fun x => x.2 from rfl, k1]
      rfl
  have hcells : ∀ c ∈ loc.mapIdx (fun i vs => (⟨rank, (i : Int), vs⟩ : MeshCell)) ++ hal,
      ∀ v ∈ c.corners, InBox2 b v := by
    intro c hc v hv
    rcases List.mem_append.mp hc with h | h
    · obtain ⟨i, hi, rfl⟩ := List.mem_mapIdx.mp h
      exact hb5 _ (List.getElem_mem hi) v hv
    · obtain ⟨i, hi, rfl⟩ := List.getElem_of_mem h
      have hlen := hhal.length_eq
      have := (List.forall₂_iff_get.mp hhal).2 i (by omega) hi
      simp only [List.get_eq_getElem] at this
      rw [this.1] at hv
      exact hb6 _ (List.getElem_mem _) v hv
  obtain ⟨c0, hc0⟩ := List.exists_mem_of_ne_nil _ hne
  obtain ⟨lx, ly, lz, ux, uy, uz, rfl⟩ := isBox_iff.mp hb4
  have inb : ∀ {p : ℚ × ℚ}, InBox2 ([lx, ly, lz], [ux, uy, uz]) p →
      lx ≤ p.1 ∧ p.1 ≤ ux ∧ ly ≤ p.2 ∧ p.2 ≤ uy := by
    rintro p ⟨_, _, _, _, _, _, e, q⟩
    simp only [Prod.mk.injEq, List.cons.injEq, and_true] at e
    obtain ⟨⟨rfl, rfl, rfl⟩, rfl, rfl, rfl⟩ := e
    exact q
  obtain ⟨⟨u, hu, v, hv, huv⟩, u', hu', v', hv', huv'⟩ := convex_wide (hcv c0 hc0)
  have hx : lx < ux := by
    have a1 := inb (hcells c0 hc0 u hu)
    have a2 := inb (hcells c0 hc0 v hv)
    linarith [a1.1, a2.2.1]
  have hy : ly < uy := by
    have a1 := inb (hcells c0 hc0 u' hu')
    have a2 := inb (hcells c0 hc0 v' hv')
    linarith [a1.2.2.1, a2.2.2.2]
  have hlen : (loc.mapIdx (fun i vs => (⟨rank, (i : Int), vs⟩ : MeshCell)) ++ hal).length =
      loc.length + (halo.getD []).length := by
    rw [List.length_append, List.length_mapIdx, hhal.length_eq]
  obtain ⟨ov, o1, o2, o3, o4, o5, -, -, -⟩ := C44_create [lx, ly, lz] [ux, uy, uz] 2 (by omega)
    (show 2 ≤ 3 by omega) (show 2 ≤ 3 by omega) (by
      intro d lo hi hd hlo hhi
      match d with
      | 0 =>
        obtain rfl := Option.some.inj hlo
        obtain rfl := Option.some.inj hhi
        exact hx
      | 1 =>
        obtain rfl := Option.some.inj hlo
        obtain rfl := Option.some.inj hhi
        exact hy
      | d + 2 => omega) ((loc.length + (halo.getD []).length : Nat) : Int) fuel (by
      rw [← hlen]
      exact_mod_cast hfuel)
  obtain ⟨n0, n1, hov⟩ : ∃ n0 n1, ov = ov2 lx ly (ux - lx) (uy - ly) n0 n1 := by
    obtain ⟨og, ex, ct⟩ := ov
    simp only at o3 o4 o5
    have oe := (validOverlay_iff.mp o2).2.2.1
    simp only at oe
    match ct, ex, o3, oe with
    | [n0, n1], [e0, e1], _, _ =>
      have k0 := o5 0 lx ux (by omega) rfl rfl
      have k1 := o5 1 ly uy (by omega) rfl rfl
      refine ⟨n0, n1, ?_⟩
      obtain rfl := Option.some.inj k0
      obtain rfl := Option.some.inj k1
      rw [o4]
      rfl
  subst hov
  have hpos : 0 < n0 ∧ 0 < n1 := by
    have := (validOverlay_iff.mp o2).2.2.2.2
    exact ⟨this n0 (by simp [ov2]), this n1 (by simp [ov2])⟩
  have hover : ∀ c ∈ loc.mapIdx (fun i vs => (⟨rank, (i : Int), vs⟩ : MeshCell)) ++ hal,
      ∀ p, InCell2D c.corners p → OverMesh (ov2 lx ly (ux - lx) (uy - ly) n0 n1) p := by
    intro c hc p hp
    have := inb (hull_inBox hb4 (hcells c hc) hp)
    exact ⟨_, _, _, _, _, _, rfl, by linarith, by linarith, hpos.1, hpos.2, this.1, by linarith,
      this.2.2.1, by linarith⟩
  -- local cells
  obtain ⟨m1, l1, l2⟩ := addAll_inv big
    (fun (m : Mapper2D) (c : List ℚ × Nat) => m.addCell big (c.1, rank, (c.2 : Int)))
    (bs := (loc.map flatCoords).zipIdx)
    (cs := loc.mapIdx (fun i vs => (⟨rank, (i : Int), vs⟩ : MeshCell))) (by
      rw [List.forall₂_iff_get]
      refine ⟨by simp, ?_⟩
      intro i h1 h2 m
      simp only [List.get_eq_getElem, List.getElem_zipIdx, List.getElem_map, List.getElem_mapIdx,
        Nat.zero_add])
    (fun c hc => ⟨hcv c (List.mem_append_left _ hc), hover c (List.mem_append_left _ hc)⟩)
    (mapInv_new (ov2 lx ly (ux - lx) (uy - ly) n0 n1))
  rw [List.nil_append] at l2
  -- halo cells
  obtain ⟨m2, l3, l4⟩ := addAll_inv big
    (fun (m : Mapper2D) (h : Int × List ℚ) => (omGet lids h.1).bind fun id =>
      m.addCell big (h.2, id.1, id.2.1))
    (bs := (halo.getD []).map fun h => (h.1, flatCoords h.2)) (cs := hal) (by
      rw [List.forall₂_map_left_iff]
      refine hhal.imp ?_
      rintro h c ⟨k1, g, k2⟩ m
      simp only
      rw [k2, Option.bind_some, k1])
    (fun c hc => ⟨hcv c (List.mem_append_right _ hc), hover c (List.mem_append_right _ hc)⟩) l2
  refine ⟨m2, _, lx, ly, ux - lx, uy - ly, n0, n1, ?_, l4, by linarith, by linarith, hpos.1, hpos.2,
    hcells⟩
  unfold mapper2D
  rw [hb0, Option.bind_some, hb3, Option.bind_some]
  have hg : (halo.map fun l => l.map fun h : Int × List (ℚ × ℚ) => (h.1, flatCoords h.2)).getD [] =
      (halo.getD []).map fun h => (h.1, flatCoords h.2) := by
    cases halo <;> rfl
  rw [hg, List.length_map, List.length_map]
  simp only
  rw [o1, Option.bind_some]
  unfold Mapper2D.addLocal Mapper2D.addHalo
  rw [l1, Option.bind_some, l3, Option.bind_some]

/-- **C85** The mapper can be created for every mesh of triangles and convex quadrilaterals with at
least one local or halo cell, and then sets cell and rank of a particle to those of the cell that
contains it; if several do then it is the last one, halo cells come after local cells. Cell and
rank of a particle that no cell contains are not changed. Points outside of the bounding box of the
mesh are allowed. -/
theorem C85_map (fuel : Nat) (big : ℚ) (rank : Int) (loc : List (List (ℚ × ℚ)))
    (cached : Option BBox) (halo : Option (List (Int × List (ℚ × ℚ)))) (lids : LidMap)
    (cells : List MeshCell) (hk : KnownCells rank loc (halo.getD []) lids cells) (hne : cells ≠ [])
    (hcv : ∀ c ∈ cells, Convex2D c.corners) (hfuel : cells.length ≤ fuel)
    (hcache : ∀ b, cached = some b → IsBox b ∧ ∀ vs ∈ loc, ∀ v ∈ vs, InBox2 b v) :
    ∃ m b, mapper2D fuel big rank (loc.map flatCoords) cached
        (halo.map fun l => l.map fun h => (h.1, flatCoords h.2)) lids = some (m, b) ∧
      ∀ p s, ∃ r, m.particle p s = some r ∧
        ((∀ c ∈ cells, ¬ Binned c.corners p) → r = s) ∧
        ∀ (i : Nat) (c : MeshCell), cells[i]? = some c → Binned c.corners p →
          (∀ (j : Nat) (d : MeshCell), i < j → cells[j]? = some d → ¬ Binned d.corners p) →
          r = (c.localId, c.rank) := by
  obtain ⟨m, b, o0, o1, e0, e1, n0, n1, h1, h2, h3, h4, h5, h6, -⟩ :=
    mapper_spec fuel big rank loc cached halo lids cells hk hne hcv hfuel hcache
  refine ⟨m, b, h1, fun p s => ?_⟩
  obtain ⟨oc, hoc⟩ := pointCell_some (o0 := o0) (o1 := o1) h3 h4 h5 h6 p
  exact particle_spec h2 hoc s

/-- **C85** `map` treats each particle as above. With a cell it fails if and only if a particle
has no rank afterwards. -/
theorem C85_check (m : Mapper2D) (ps : List ((ℚ × ℚ) × Int × Int))
    (f : (ℚ × ℚ) × Int × Int → Int × Int) (hf : ∀ x ∈ ps, m.particle x.1 x.2 = some (f x)) :
    m.map false ps = some (ps.map fun x => (x.1, f x)) ∧
    (m.map true ps = none ↔ ∃ x ∈ ps, (f x).2 < 0) ∧
    (∀ qs, m.map true ps = some qs → qs = ps.map fun x => (x.1, f x)) := by
  have hmap : (ps.mapM fun x => (m.particle x.1 x.2).bind fun s => some (x.1, s)) =
      some (ps.map fun x => (x.1, f x)) := by
    clear * - hf
    induction ps with
    | nil => rfl
    | cons x xs ih =>
      rw [List.mapM_cons, hf x (by simp), ih (fun y hy => hf y (by simp [hy]))]
      rfl
  have key : ((ps.map fun x => (x.1, f x)).any fun x => !decide (x.2.2 > -1)) = true ↔
      ∃ x ∈ ps, (f x).2 < 0 := by
    rw [List.any_eq_true]
    constructor
    · rintro ⟨y, hy, h⟩
      obtain ⟨x, hx, rfl⟩ := List.mem_map.mp hy
      refine ⟨x, hx, ?_⟩
      simp at h
      omega
    · rintro ⟨x, hx, h⟩
      refine ⟨_, List.mem_map.mpr ⟨x, hx, rfl⟩, ?_⟩
      simp
      omega
  unfold Mapper2D.map
  rw [hmap]
  simp only [Option.bind_some, Bool.false_and, Bool.true_and, Bool.false_eq_true, if_false]
  refine ⟨trivial, ?_, ?_⟩
  · rw [← key]
    split_ifs with h
    · simp [h]
    · simp [h]
  · intro qs h
    split_ifs at h
    exact (Option.some.inj h).symm

/-- **C85** The bounding box of the local mesh contains the local cells when it is computed first.
Creating a mapper changes it: from then on it contains the halo cells too. -/
theorem C85_box (fuel : Nat) (big : ℚ) (rank : Int) (loc : List (List (ℚ × ℚ)))
    (halo : Option (List (Int × List (ℚ × ℚ)))) (lids : LidMap)
    (cells : List MeshCell) (hk : KnownCells rank loc (halo.getD []) lids cells) (hne : cells ≠ [])
    (hcv : ∀ c ∈ cells, Convex2D c.corners) (hfuel : cells.length ≤ fuel) :
    ∃ m b, mapper2D fuel big rank (loc.map flatCoords) none
        (halo.map fun l => l.map fun h => (h.1, flatCoords h.2)) lids = some (m, b) ∧
      ∀ c ∈ cells, ∀ v ∈ c.corners, InBox2 b v := by
  obtain ⟨m, b, o0, o1, e0, e1, n0, n1, h1, -, -, -, -, -, h2⟩ :=
    mapper_spec fuel big rank loc none halo lids cells hk hne hcv hfuel (fun b h => nomatch h)
  exact ⟨m, b, h1, h2⟩

/-! ## Examples -/

namespace Ex

/-- The unit square. -/
def sq : List (ℚ × ℚ) := [(0, 0), (1, 0), (1, 1), (0, 1)]

/-- A triangle to the right of the square. -/
def tr : List (ℚ × ℚ) := [(1, 0), (3, 0), (1, 1)]

theorem sq_convex : Convex2D sq := by left; norm_num [turn]

theorem tr_convex : Convex2D tr := by norm_num [Convex2D, tr, turn]

/-- Rank 4 has the square, the triangle is cell 7 of rank 2. -/
def mcells : List MeshCell := [⟨4, 0, sq⟩, ⟨2, 7, tr⟩]

theorem mcells_known : KnownCells 4 [sq] [(0, tr)] [(0, (2, 7, 11))] mcells :=
  ⟨[⟨2, 7, tr⟩], rfl, .cons ⟨rfl, 11, rfl⟩ .nil⟩

theorem mcells_convex : ∀ c ∈ mcells, Convex2D c.corners := by
  intro c hc
  rcases List.mem_pair.mp hc with rfl | rfl
  · exact sq_convex
  · exact tr_convex

-- the hypotheses of `C85_contains` and `C85_top_missed`
example := C85_contains sq sq_convex 4 0 (1, 1 / 2)

theorem sq_top_missed : cellContainsPoint (flatCoords sq) (1 / 2, 1) = some false :=
  C85_top_missed sq sq_convex _ (by intro v hv; simp [sq] at hv; rcases hv with rfl | rfl | rfl | rfl <;> norm_num)
    (by norm_num [sq])

/-- The point which is missed is in the closed square: half way between two corners. -/
theorem sq_top_in : InCell2D sq (1 / 2, 1) := by
  have h : segment ℚ ((1 : ℚ), (1 : ℚ)) ((0 : ℚ), (1 : ℚ)) ⊆ convexHull ℚ {v | v ∈ sq} :=
    segment_subset_convexHull (by simp [sq]) (by simp [sq])
  exact h ⟨1 / 2, 1 / 2, by norm_num, by norm_num, by norm_num, by ext <;> norm_num⟩

-- the hypotheses of `C85_map` and `C85_box`
example := C85_map 2 1000 4 [sq] none (some [(0, tr)]) [(0, (2, 7, 11))] mcells mcells_known
  (by simp [mcells]) mcells_convex (by simp [mcells]) (fun _ h => nomatch h)

example := C85_map 2 1000 4 [sq] (some ([0, 0, 0], [1, 1, 0])) (some [(0, tr)]) [(0, (2, 7, 11))]
  mcells mcells_known (by simp [mcells]) mcells_convex (by simp [mcells]) (by
    intro b h
    obtain rfl := Option.some.inj h
    refine ⟨⟨rfl, rfl⟩, ?_⟩
    intro vs hvs v hv
    obtain rfl := List.mem_singleton.mp hvs
    refine ⟨0, 0, 0, 1, 1, 0, rfl, ?_⟩
    simp [sq] at hv
    rcases hv with rfl | rfl | rfl | rfl <;> norm_num)

example := C85_box 2 1000 4 [sq] (some [(0, tr)]) [(0, (2, 7, 11))] mcells mcells_known
  (by simp [mcells]) mcells_convex (by simp [mcells])

-- the hypothesis of `C85_check` holds for each mapper that the constructor makes
example (ps : List ((ℚ × ℚ) × Int × Int)) : ∃ (m : Mapper2D) (f : (ℚ × ℚ) × Int × Int → Int × Int),
    m.map false ps = some (ps.map fun x => (x.1, f x)) := by
  obtain ⟨m, b, -, h⟩ := C85_map 2 1000 4 [sq] none (some [(0, tr)]) [(0, (2, 7, 11))] mcells
    mcells_known (by simp [mcells]) mcells_convex (by simp [mcells]) (fun _ h => nomatch h)
  choose f hf _ _ using h
  exact ⟨m, fun x => f x.1 x.2, (C85_check m ps _ fun x _ => hf x.1 x.2).1⟩

/-- A mapper for the two cells with the particles of the example: one in the square, one on the
shared edge, one in the triangle, one outside of the mesh, one at the top of the square. -/
theorem mapper_run : (mapper2D 2 1000 4 [flatCoords sq] none (some [(0, flatCoords tr)])
      [(0, (2, 7, 11))]).bind (fun m => m.1.map false
        [((1 / 2, 1 / 2), -1, -1), ((1, 1 / 2), -1, -1), ((2, 1 / 4), -1, -1), ((9, 9), -1, -1),
          ((1 / 2, 1), 5, 3)]) =
    some [((1 / 2, 1 / 2), 0, 4), ((1, 1 / 2), 7, 2), ((2, 1 / 4), 7, 2), ((9, 9), -1, -1),
      ((1 / 2, 1), 5, 3)] := by
  decide +kernel

end Ex

/-- **C85** What goes wrong at the top: the point is in the closed unit square, which is the only
cell of the mesh, and keeps its cell and rank; with a cell that is looped over this is an error. -/
theorem C85_top_edge_lost :
    InCell2D Ex.sq (1 / 2, 1) ∧
    (mapper2D 1 1000 0 [flatCoords Ex.sq] none none []).bind (fun m => m.1.map false
      [((1 / 2, 1), -1, -1)]) = some [((1 / 2, 1), -1, -1)] ∧
    (mapper2D 1 1000 0 [flatCoords Ex.sq] none none []).bind (fun m => m.1.map true
      [((1 / 2, 1), -1, -1)]) = none :=
  ⟨Ex.sq_top_in, by decide +kernel, by decide +kernel⟩

/-- **C85** The bounding box of the local mesh is another one once a mapper has been created. -/
theorem C85_box_changed :
    meshBox 1000 [flatCoords Ex.sq] = some ([0, 0, 0], [1, 1, 0]) ∧
    (mapper2D 2 1000 4 [flatCoords Ex.sq] none (some [(0, flatCoords Ex.tr)])
      [(0, (2, 7, 11))]).map (fun m => m.2) = some ([0, 0, 0], [3, 1, 0]) := by
  constructor <;> decide +kernel

end NP
