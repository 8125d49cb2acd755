import Verif.Petsc.LemmasMesh
import Verif.Containers.PropsSerial

/-!
# Property C84: copies of cells of an unstructured mesh and the mesh of halo cells
-/

set_option autoImplicit false

namespace NP

open Spec

/-- **C84** A cell in memory written to bytes and read into a new object is the same cell. -/
theorem C84_round_trip {ki ks : Nat} (hki : 0 < ki) (hks : 0 < ks) {c : StdCell}
    (h : CellStored c ki ks) (hsize : ∀ b, repSerialise ki ks c = some b → b.length < sizeTMax) :
    ∃ b c', repSerialise ki ks c = some b ∧ repDeserialise ki ks StdCell.new b = some c' ∧
      c'.cones = c.cones ∧ c'.ornts = c.ornts ∧ c'.vertices = c.vertices := by
  obtain ⟨b, h1, h2⟩ := rep_round_trip hki hks h hsize
  exact ⟨b, _, h1, h2 StdCell.new rfl rfl rfl, rfl, rfl, rfl⟩

/-- **C84** Reading into an object that holds a cell already appends to the coordinates of its
vertices. -/
theorem C84_used_object :
    ∃ (c : StdCell) (b : List Byte) (c' : StdCell), CellStored c 4 1 ∧
      repSerialise 4 1 c = some b ∧ repDeserialise 4 1 c b = some c' ∧
      omGet c.vertices 7 = some [[1], [2]] ∧ omGet c'.vertices 7 = some [[1], [2], [1], [2]] := by
  refine ⟨⟨[(7, [])], [(7, [])], [(7, [[1], [2]])], []⟩, _, ⟨[(7, [])], [(7, [])],
    [(7, [[1], [2], [1], [2]])], []⟩, ?_, rfl, by decide +kernel, by decide, by decide⟩
  refine ⟨by simp [OMapOk], by simp [OMapOk], by simp [OMapOk], fun p => rfl, ?_, ?_, ?_, ?_⟩
  · intro e he
    rw [List.mem_singleton] at he
    subst he
    exact ⟨⟨by decide, by decide⟩, ⟨by decide, by decide⟩, fun q hq => (nomatch hq)⟩
  · intro e he
    rw [List.mem_singleton] at he
    subst he
    exact fun q hq => (nomatch hq)
  · intro e he
    rw [List.mem_singleton] at he
    subst he
    refine ⟨⟨by decide, by decide⟩, ⟨by decide, by decide⟩, ?_⟩
    intro x hx
    simp only [List.mem_cons, List.not_mem_nil, or_false] at hx
    rcases hx with rfl | rfl <;> rfl
  · exact ⟨⟨by decide, by decide⟩, ⟨by decide, by decide⟩⟩

/-- **C84** Containers of packed cells: everything that was put in comes out. -/
theorem C84_container {ki : Nat} (default : PackedCell) (e : SerialExpr PackedCell)
    (h : ∀ c ∈ e.objects, FitsIn ki c.localId ∧ FitsIn ki c.globalId ∧ FitsIn 4 c.rank ∧
      FitsIn 4 c.type ∧ 2 * ki + 8 + c.rep.length < sizeTMax) :
    ∃ buffer, e.build (packedCellSerial ki) = some buffer ∧
      serialGet (packedCellSerial ki) default buffer = some e.objects :=
  C45_round_trip _ default e fun c hc =>
    packed_good c (h c hc).1 (h c hc).2.1 (h c hc).2.2.1 (h c hc).2.2.2.1 (h c hc).2.2.2.2

/-- **C84** A cell is packed with its ids, and what is unpacked elsewhere is exactly the cell with
all its faces, edges and vertices, in terms of global ids. -/
theorem C84_pack {g : GMesh} {ndim ki ks fuel : Nat} (hg : GMeshOk g ndim ks) (hki : 0 < ki)
    (hks : 0 < ks) {dm : Plex} {glob : Nat → Int} (h : PlexOf dm g glob) (hf : dm.depth < fuel)
    (hfit : ∀ (p : Nat) (x : PlexPoint), dm.points[p]? = some x → FitsIn ki (glob p) ∧
      FitsIn ki x.cone.length ∧ (∀ o ∈ x.ornt, FitsIn ki o) ∧ FitsIn ki x.coords.length)
    (hn : FitsIn ki dm.points.length) (rank type : Int) {cell point : Nat}
    (hcell : (plexCells dm)[cell]? = some point) :
    ∃ c, getCopyableCell ki ks fuel dm rank type cell = some c ∧ c.localId = cell ∧
      c.globalId = glob point ∧ c.rank = rank ∧ c.type = type ∧
      (c.rep.length < sizeTMax → PackedOf ki ks fuel g c ∧
        ∃ r, repDeserialise ki ks StdCell.new c.rep = some r ∧ CellIs r g (glob point)) := by
  have hlt := plexCells_lt hcell
  obtain ⟨r, e1, his, o1, o2, o3, -, l1, l2⟩ := repOfPlex_spec hg h (fuel := fuel) hlt hf
  have hst := cellIs_stored hg h hlt hfit hn his o1 o2 o3 l1 l2
  obtain ⟨pi, hpi⟩ := pointInts_spec r.ornts r.cones (stored_matching hst)
  have hb : ∃ b, repSerialise ki ks r = some b := by
    unfold repSerialise
    rw [hpi]
    exact ⟨_, rfl⟩
  obtain ⟨b, hb⟩ := hb
  have hget : getCopyableCell ki ks fuel dm rank type cell =
      some ⟨cell, glob point, rank, type, b⟩ := by
    unfold getCopyableCell
    rw [hcell]
    simp only [Option.bind_some]
    rw [e1]
    simp only [Option.bind_some]
    rw [hb]
    simp only [Option.bind_some]
    rw [plexOf_global h hlt]
    rfl
  refine ⟨_, hget, rfl, rfl, rfl, rfl, ?_⟩
  intro hmem
  have hp : PackedOf ki ks fuel g ⟨cell, glob point, rank, type, b⟩ :=
    ⟨⟨dm, glob, cell, h, hf, rfl, hfit, hn, hget⟩, hmem⟩
  refine ⟨hp, ?_⟩
  obtain ⟨r', h1, h2, -⟩ := packed_is hg hki hks hp
  exact ⟨r', h1, h2⟩

/-- **C84** The cells of a rank are its points of height zero with a non-negative number: those it
owns. -/
theorem C84_cells (dm : Plex) (point : Nat) :
    point ∈ plexCells dm ↔ ∃ x n, dm.points[point]? = some x ∧ dm.numbers[point]? = some n ∧
      x.height = 0 ∧ 0 ≤ n := by
  unfold plexCells
  rw [List.mem_filter, List.mem_range, Bool.and_eq_true]
  constructor
  · rintro ⟨hlt, h1, h2⟩
    rw [List.getElem?_eq_getElem hlt] at h1
    cases hn : dm.numbers[point]? with
    | none => rw [hn] at h2; cases h2
    | some n =>
      rw [hn] at h2
      simp only [Option.any_some, decide_eq_true_eq, beq_iff_eq] at h1 h2
      exact ⟨_, n, List.getElem?_eq_getElem hlt, rfl, h1, by omega⟩
  · rintro ⟨x, n, hx, hn, h0, h1⟩
    refine ⟨(List.getElem?_eq_some_iff.1 hx).1, ?_, ?_⟩
    · rw [hx]; simp [h0]
    · rw [hn]; simp only [Option.any_some, decide_eq_true_eq]; omega

/-- **C84** The mesh made from any packed cells (of any ranks, in any order, with any repetitions)
is the part of the global mesh that consists of these cells, their faces, edges and vertices, with
the same cones, orientations and coordinates; and the map gives for each of the cells the rank that
owns it, its local id there and its global id, and marks all other points. -/
theorem C84_halo {g : GMesh} {ndim ki ks fuel : Nat} (hg : GMeshOk g ndim ks) (hki : 0 < ki)
    (hks : 0 < ks) (fresh : Fresh Scal) (cells : List PackedCell)
    (hc : ∀ c ∈ cells, PackedOf ki ks fuel g c)
    (hown : ∀ c ∈ cells, ∀ d ∈ cells, c.globalId = d.globalId → c.rank = d.rank ∧ c.localId = d.localId)
    (hne : cells ≠ []) :
    ∃ ix h lids loc, dmFromCells ki ks fuel ndim fresh cells [] = some (some (ix, h), lids) ∧
      HaloPlexIs h ix g ndim (cells.map (·.globalId)) loc ∧
      (∀ c ∈ cells, omGet lids (loc c.globalId) = some (c.rank, c.localId, c.globalId)) ∧
      (∀ c ∈ cells, ∀ p, InClosure g c.globalId p → (∀ d ∈ cells, d.globalId ≠ p) →
        omGet lids (loc p) = some (-1, -1, p)) ∧
      (∀ l v, omGet lids l = some v → 0 ≤ l ∧ l < ix.chartEnd) :=
  halo_spec hg hki hks fresh cells hc hown hne

/-- **C84** Without cells there is no mesh, and the map does not change. -/
theorem C84_halo_empty (ki ks fuel ndim : Nat) (fresh : Fresh Scal) (lids : LidMap) :
    dmFromCells ki ks fuel ndim fresh [] lids = some (none, lids) := rfl

/-- **C84** The halo cells of a rank are the gathered cells of other ranks: none of its own, none
missing. -/
theorem C84_collect (rank : Int) (gathered : List (List PackedCell)) (c : PackedCell) :
    c ∈ collectHalo rank gathered ↔ c.rank ≠ rank ∧ ∃ cs ∈ gathered, c ∈ cs := by
  unfold collectHalo
  rw [List.mem_flatMap]
  constructor
  · rintro ⟨cs, hcs, hc⟩
    obtain ⟨h1, h2⟩ := List.mem_filter.1 hc
    exact ⟨by simpa using h2, cs, hcs, h1⟩
  · rintro ⟨h2, cs, hcs, h1⟩
    exact ⟨cs, hcs, List.mem_filter.2 ⟨h1, by simpa using h2⟩⟩

/-! ## From global to local points -/

theorem plexLocalMap_get {g : GMesh} {dm : Plex} {glob : Nat → Int} (h : PlexOf dm g glob) :
    (∀ p, p < dm.points.length → omGet (plexLocalMap dm) (glob p) = some p) ∧
    ∀ k q, omGet (plexLocalMap dm) k = some q → q < dm.points.length ∧ glob q = k := by
  have key : ∀ n, n ≤ dm.points.length →
      (∀ p, p < n → omGet ((List.range n).foldl (fun m p =>
        match plexGlobal dm p with
        | some g => omPut m g p
        | none => m) []) (glob p) = some p) ∧
      ∀ k q, omGet ((List.range n).foldl (fun m p =>
        match plexGlobal dm p with
        | some g => omPut m g p
        | none => m) []) k = some q → q < n ∧ glob q = k := by
    intro n
    induction n with
    | zero => intro _; exact ⟨fun p hp => by omega, fun k q hh => (nomatch hh)⟩
    | succ n ih =>
      intro hn
      obtain ⟨i1, i2⟩ := ih (by omega)
      rw [List.range_succ, List.foldl_append]
      simp only [List.foldl_cons, List.foldl_nil]
      rw [plexOf_global h (show n < dm.points.length by omega)]
      simp only
      constructor
      · intro p hp
        rw [omGet_put]
        by_cases e : glob n = glob p
        · rw [if_pos e, h.inj n p (by omega) (by omega) e]
        · rw [if_neg e]
          refine i1 p ?_
          by_contra hh
          exact e (by rw [show n = p by omega])
      · intro k q hk
        rw [omGet_put] at hk
        by_cases e : glob n = k
        · rw [if_pos e] at hk
          cases hk
          exact ⟨by omega, e⟩
        · rw [if_neg e] at hk
          obtain ⟨a, b⟩ := i2 k q hk
          exact ⟨by omega, b⟩
  exact key _ (Nat.le_refl _)

/-- **C84** The local point of a global id is found. -/
theorem C84_point_lookup {g : GMesh} {dm : Plex} {glob : Nat → Int} (h : PlexOf dm g glob) {p : Nat}
    (hp : p < dm.points.length) (hnn : 0 ≤ glob p) :
    localOfGlobal (plexLocalMap dm) (glob p) = some (p, plexLocalMap dm) := by
  have hg := (plexLocalMap_get h).1 p hp
  unfold localOfGlobal
  have hu : unsignedId (glob p) = glob p := by unfold unsignedId; rw [if_pos (by omega)]
  rw [hu, hg]
  rfl

/-- **C84** A signed id, `-i-1` for a point `i` of another rank, passes the check but the answer is
point zero, whichever point it is. -/
theorem C84_point_lookup_signed {g : GMesh} {dm : Plex} {glob : Nat → Int} (h : PlexOf dm g glob)
    {p : Nat} {n : Int} (hn : dm.numbers[p]? = some n) (hneg : n < 0) :
    ∃ m, localOfGlobal (plexLocalMap dm) n = some (0, m) := by
  have hp : p < dm.points.length := by
    rw [← h.numbered]
    exact (List.getElem?_eq_some_iff.1 hn).1
  have hid := h.ids p n hn
  rw [if_neg (by omega)] at hid
  have hu : unsignedId n = glob p := by unfold unsignedId; rw [if_neg (by omega)]; omega
  have hnone : omGet (plexLocalMap dm) n = none := by
    cases hh : omGet (plexLocalMap dm) n with
    | none => rfl
    | some q =>
      obtain ⟨hq, e⟩ := (plexLocalMap_get h).2 n q hh
      have hq' : q < dm.numbers.length := by rw [h.numbered]; exact hq
      have := h.ids q _ (List.getElem?_eq_getElem hq')
      rw [e] at this
      split at this <;> omega
  refine ⟨omPut (plexLocalMap dm) n 0, ?_⟩
  unfold localOfGlobal
  rw [hu, (plexLocalMap_get h).1 p hp, hnone]
  rfl

/-! ## Examples -/

/-- An interval with two cells: cell 0 has vertices 2 and 3, cell 1 has vertices 3 and 4. -/
def Ex.line : GMesh where
  depth p := if p = 0 ∨ p = 1 then 1 else 0
  cone p := if p = 0 then [2, 3] else if p = 1 then [3, 4] else []
  ornt p := if p = 0 ∨ p = 1 then [0, -1] else []
  coords p := if p = 2 then [[20]] else if p = 3 then [[30]] else [[40]]

/-- The part of rank 0: cell 0, and vertex 3 of which rank 1 is the owner. -/
def Ex.line0 : Plex := ⟨1, [⟨0, [1, 2], [0, -1], []⟩, ⟨1, [], [], [[20]]⟩, ⟨1, [], [], [[30]]⟩],
  [0, 2, -4]⟩

/-- The part of rank 1: cell 1. -/
def Ex.line1 : Plex := ⟨1, [⟨0, [2, 1], [0, -1], []⟩, ⟨1, [], [], [[40]]⟩, ⟨1, [], [], [[30]]⟩],
  [1, 4, 3]⟩

theorem Ex.line_ok : GMeshOk Ex.line 1 1 := by
  refine ⟨?_, ?_, ?_, ?_, ?_⟩
  · intro p
    simp only [Ex.line]
    by_cases h0 : p = 0 <;> by_cases h1 : p = 1 <;> simp [h0, h1]
  · intro p q hq
    simp only [Ex.line] at hq ⊢
    by_cases h0 : p = 0
    · subst h0
      simp at hq
      rcases hq with rfl | rfl <;> rfl
    · by_cases h1 : p = 1
      · subst h1
        simp at hq
        rcases hq with rfl | rfl <;> rfl
      · simp [h0, h1] at hq
  · intro p
    simp only [Ex.line]
    by_cases h0 : p = 0 <;> by_cases h1 : p = 1 <;> simp [h0, h1]
  · intro p
    simp only [Ex.line]
    split
    · rfl
    · split <;> rfl
  · intro p x hx
    simp only [Ex.line] at hx
    split at hx
    · rw [List.mem_singleton] at hx; subst hx; rfl
    · split at hx <;> (rw [List.mem_singleton] at hx; subst hx; rfl)

theorem Ex.three {α : Type} {P : Nat → α → Prop} {a b c : α} (h0 : P 0 a) (h1 : P 1 b) (h2 : P 2 c) :
    ∀ (p : Nat) (x : α), [a, b, c][p]? = some x → P p x := by
  intro p x hx
  match p with
  | 0 => cases hx; exact h0
  | 1 => cases hx; exact h1
  | 2 => cases hx; exact h2
  | p + 3 => cases hx

theorem Ex.line0_of : PlexOf Ex.line0 Ex.line (fun p => [0, 2, 3].getD p 9) := by
  refine ⟨rfl, Ex.three rfl rfl rfl, ?_, ?_, Ex.three rfl rfl rfl, Ex.three rfl rfl rfl,
    Ex.three rfl rfl rfl, ?_⟩
  · intro p q hp hq
    match p, q with
    | 0, 0 | 0, 1 | 0, 2 | 1, 0 | 1, 1 | 1, 2 | 2, 0 | 2, 1 | 2, 2 => decide
    | p + 3, _ => exact absurd hp (by simp [Ex.line0])
    | _, q + 3 => exact absurd hq (by simp [Ex.line0])
  · exact Ex.three (P := fun _ (x : PlexPoint) => ∀ q ∈ x.cone, q < 3) (by decide) (by decide) (by decide)
  · exact Ex.three (P := fun p (x : PlexPoint) => x.height = 1 → Ex.line.coords ([0, 2, 3].getD p 9) = x.coords)
      (by decide) (by decide) (by decide)

theorem Ex.line1_of : PlexOf Ex.line1 Ex.line (fun p => [1, 4, 3].getD p 9) := by
  refine ⟨rfl, Ex.three rfl rfl rfl, ?_, ?_, Ex.three rfl rfl rfl, Ex.three rfl rfl rfl,
    Ex.three rfl rfl rfl, ?_⟩
  · intro p q hp hq
    match p, q with
    | 0, 0 | 0, 1 | 0, 2 | 1, 0 | 1, 1 | 1, 2 | 2, 0 | 2, 1 | 2, 2 => decide
    | p + 3, _ => exact absurd hp (by simp [Ex.line1])
    | _, q + 3 => exact absurd hq (by simp [Ex.line1])
  · exact Ex.three (P := fun _ (x : PlexPoint) => ∀ q ∈ x.cone, q < 3) (by decide) (by decide) (by decide)
  · exact Ex.three (P := fun p (x : PlexPoint) => x.height = 1 → Ex.line.coords ([1, 4, 3].getD p 9) = x.coords)
      (by decide) (by decide) (by decide)

/-- The packed cell of rank 0. -/
def Ex.packed0 : PackedCell := ⟨0, 0, 0, 1, ((repOfPlex 5 Ex.line0 0).bind (repSerialise 4 1)).getD []⟩

/-- The packed cell of rank 1. -/
def Ex.packed1 : PackedCell := ⟨0, 1, 1, 1, ((repOfPlex 5 Ex.line1 0).bind (repSerialise 4 1)).getD []⟩

theorem Ex.packed0_of : PackedOf 4 1 5 Ex.line Ex.packed0 := by
  refine ⟨⟨Ex.line0, _, 0, Ex.line0_of, by decide, rfl, ?_, ⟨by decide, by decide⟩, by decide +kernel⟩,
    by decide +kernel⟩
  unfold FitsIn
  exact Ex.three (by decide) (by decide) (by decide)

theorem Ex.packed1_of : PackedOf 4 1 5 Ex.line Ex.packed1 := by
  refine ⟨⟨Ex.line1, _, 0, Ex.line1_of, by decide, rfl, ?_, ⟨by decide, by decide⟩, by decide +kernel⟩,
    by decide +kernel⟩
  unfold FitsIn
  exact Ex.three (by decide) (by decide) (by decide)

-- The packed cells of the two ranks, one of them twice, meet the hypotheses of `C84_halo`; what
-- comes out are two cells (points 3 and 4) with three vertices.
example : (∀ c ∈ [Ex.packed1, Ex.packed0, Ex.packed1], PackedOf 4 1 5 Ex.line c) ∧
    (∀ c ∈ [Ex.packed1, Ex.packed0, Ex.packed1], ∀ d ∈ [Ex.packed1, Ex.packed0, Ex.packed1],
      c.globalId = d.globalId → c.rank = d.rank ∧ c.localId = d.localId) ∧
    dmFromCells 4 1 5 1 (fun n => ⟨List.replicate n [99], by simp⟩)
      [Ex.packed1, Ex.packed0, Ex.packed1] [] =
    some (some (⟨5, [0, 3], [3, 5], [(0, 3), (1, 4), (2, 0), (3, 1), (4, 2)]⟩,
      ⟨[0, 0, 0, 2, 2], [[], [], [], [0, 1], [1, 2]], [[], [], [], [0, -1], [0, -1]],
        [[20], [30], [40]]⟩),
      [(0, (-1, -1, 2)), (1, (-1, -1, 3)), (2, (-1, -1, 4)), (3, (0, 0, 0)), (4, (1, 0, 1))]) := by
  refine ⟨?_, by decide +kernel, by decide +kernel⟩
  intro c hc
  simp only [List.mem_cons, List.not_mem_nil, or_false] at hc
  rcases hc with rfl | rfl | rfl
  · exact Ex.packed1_of
  · exact Ex.packed0_of
  · exact Ex.packed1_of

-- Rank 0 has one cell, and looks up a vertex that it owns and one of rank 1.
example : plexCells Ex.line0 = [0] ∧
    (localOfGlobal (plexLocalMap Ex.line0) 3).map (·.1) = some 2 ∧
    (localOfGlobal (plexLocalMap Ex.line0) (-4)).map (·.1) = some 0 := by decide

-- The hypotheses of `C84_container`.
example : ∀ c ∈ (SerialExpr.ofList [Ex.packed0, Ex.packed1]).objects, FitsIn 4 c.localId ∧
    FitsIn 4 c.globalId ∧ FitsIn 4 c.rank ∧ FitsIn 4 c.type ∧ 2 * 4 + 8 + c.rep.length < sizeTMax := by
  unfold FitsIn
  decide +kernel

end NP
