import Verif.Petsc.LemmasEdges3
import Verif.Loop.Props

/-!
# Lemmas: finding the cells that particles visit, searching them
-/

set_option autoImplicit false

namespace NP

open Spec

/-- The index of a position in a dimension. -/
def posIndex (g : MeshGeom) (o x : ℚ) : Int := cartIndexNoTrunc g.mh.ncellsDimFine g.width o x

theorem mapToCartNoTrunc_eq {g : MeshGeom} {n0 n1 : Int} {o0 o1 : ℚ} (hd : g.mh.dims = [n0, n1])
    (ho : g.origin = [o0, o1]) (x y : ℚ) :
    g.mapToCartNoTrunc [x, y] = some [posIndex g o0 x, posIndex g o1 y] := by
  unfold MeshGeom.mapToCartNoTrunc MeshHierarchy.ndim
  rw [hd, ho]
  rfl

theorem cdcUpdate_eq {g : MeshGeom} {n0 n1 : Int} {o0 o1 : ℚ} (hd : g.mh.dims = [n0, n1])
    (ho : g.origin = [o0, o1]) (x y : ℚ) (b0 b1 : Int × Int) :
    cdcUpdate g [x, y] [b0, b1] =
      some [(min b0.1 (posIndex g o0 x), max b0.2 (posIndex g o0 x)),
        (min b1.1 (posIndex g o1 y), max b1.2 (posIndex g o1 y))] := by
  unfold cdcUpdate
  rw [mapToCartNoTrunc_eq hd ho]
  unfold MeshHierarchy.ndim
  rw [hd]
  rfl

theorem cdcTrunc_eq {g : MeshGeom} {n0 n1 : Int} (hd : g.mh.dims = [n0, n1]) (b0 b1 : Int × Int) :
    cdcTrunc g [b0, b1] =
      some [(max 0 b0.1, min (n0 * g.mh.ncellsDimFine - 1) b0.2),
        (max 0 b1.1, min (n1 * g.mh.ncellsDimFine - 1) b1.2)] := by
  unfold cdcTrunc cellBounds MeshHierarchy.ndim
  rw [hd]
  rfl

/-- A row covers a position. -/
def RowHas (g : MeshGeom) (o0 o1 : ℚ) (row : List (Int × Int)) (p : Pt) : Prop :=
  ∃ b0 b1, row = [b0, b1] ∧ b0.1 ≤ posIndex g o0 p.1 ∧ posIndex g o0 p.1 ≤ b0.2 ∧
    b1.1 ≤ posIndex g o1 p.2 ∧ posIndex g o1 p.2 ≤ b1.2

theorem pair_cases {α : Type} {l : List α} (h : l.length = 2) : ∃ x y, l = [x, y] := by
  match l, h with
  | [x, y], _ => exact ⟨x, y, rfl⟩

theorem cdcLoop_spec {g : MeshGeom} {n0 n1 : Int} {o0 o1 : ℚ} (hd : g.mh.dims = [n0, n1])
    (ho : g.origin = [o0, o1]) {cellCount : Nat} {c : EdgeCall} (hc : CallOk2D cellCount c) :
    ∃ cdc, cdcLoop c.env.s0 g cellCount c.cells c.sel = some cdc ∧
      (∀ row ∈ cdc, ∃ b0 b1, row = [b0, b1]) ∧
      ∀ it ∈ c.sel, ∀ a b, Stepped c it a b → ∃ row, cdc[it.1]? = some row ∧
        RowHas g o0 o1 row a ∧ RowHas g o0 o1 row b := by
  unfold cdcLoop
  obtain ⟨cdc, h1, h2, h3, h4⟩ := runItems_invariant (items := c.env.s0.order c.sel)
    (step := fun it cdc => (rd2 c.cells it).bind fun p => (rd cdc it.1).bind fun row =>
      (cdcUpdate g p.pos row).bind fun row => (cdcUpdate g p.prev row).bind fun row =>
      st cdc it.1 row)
    (P := fun done cdc => cdc.length = cellCount ∧ (∀ row ∈ cdc, ∃ b0 b1, row = [b0, b1]) ∧
      ∀ it ∈ done, ∀ a b, Stepped c it a b → ∃ row, cdc[it.1]? = some row ∧
        RowHas g o0 o1 row a ∧ RowHas g o0 o1 row b)
    (s := List.replicate cellCount (List.replicate g.mh.ndim (2147483647, -2147483648)))
    (by
      rintro pre it post cdc hitems ⟨hlen, hrows, hdone⟩
      have hit : it ∈ c.sel := (c.env.s0.perm c.sel).subset (by rw [hitems]; simp)
      obtain ⟨p, hp, hp1, hp2⟩ := hc.exist it hit
      obtain ⟨b0, b1, hb⟩ := pair_cases hp1
      obtain ⟨a0, a1, ha⟩ := pair_cases hp2
      have hlt : it.1 < cdc.length := by
        rw [hlen, ← hc.count]
        unfold rd2 at hp
        simp only [rd] at hp
        by_contra hge
        rw [List.getElem?_eq_none (by omega)] at hp
        cases hp
      obtain ⟨r0, r1, hr⟩ := hrows _ (List.getElem_mem hlt)
      simp only [rd]
      rw [hp, Option.bind_some, List.getElem?_eq_getElem hlt, Option.bind_some, hr, hb, ha,
        cdcUpdate_eq hd ho, Option.bind_some, cdcUpdate_eq hd ho, Option.bind_some]
      have hst : ∀ row, st cdc it.1 row = some (cdc.set it.1 row) := fun row => by
        unfold st; rw [if_pos hlt]
      rw [hst]
      refine ⟨_, rfl, by rw [List.length_set]; exact hlen, ?_, ?_⟩
      · intro row hrow
        rcases List.mem_or_eq_of_mem_set hrow with hm | rfl
        · exact hrows row hm
        · exact ⟨_, _, rfl⟩
      · intro it' hit' a b hab
        by_cases hcell : it.1 = it'.1
        · rw [← hcell, List.getElem?_set_self hlt]
          refine ⟨_, rfl, ?_⟩
          rcases List.mem_append.mp hit' with hm | hm
          · obtain ⟨row, hrow, ⟨x0, x1, hx, k1, k2, k3, k4⟩, ⟨y0, y1, hy, m1, m2, m3, m4⟩⟩ :=
              hdone it' hm a b hab
            rw [← hcell, List.getElem?_eq_getElem hlt, hr, Option.some.injEq] at hrow
            rw [← hrow] at hx hy
            simp only [List.cons.injEq, and_true] at hx hy
            obtain ⟨rfl, rfl⟩ := hx
            obtain ⟨rfl, rfl⟩ := hy
            refine ⟨⟨_, _, rfl, ?_⟩, ⟨_, _, rfl, ?_⟩⟩ <;> simp only <;> omega
          · rw [List.mem_singleton] at hm
            subst hm
            unfold Stepped at hab
            rw [hp] at hab
            cases hab
            simp only [List.cons.injEq, and_true] at hb ha
            rw [← hb.1, ← hb.2, ← ha.1, ← ha.2]
            refine ⟨⟨_, _, rfl, ?_⟩, ⟨_, _, rfl, ?_⟩⟩ <;> simp only <;> omega
        · rw [List.getElem?_set_ne hcell]
          rcases List.mem_append.mp hit' with hm | hm
          · exact hdone it' hm a b hab
          · rw [List.mem_singleton] at hm
            exact absurd (congrArg Prod.fst hm).symm hcell)
    ⟨by simp, fun row hrow => by
      rw [List.eq_of_mem_replicate hrow]
      unfold MeshHierarchy.ndim
      rw [hd]
      exact ⟨_, _, rfl⟩, fun it hit => by simp at hit⟩
  exact ⟨cdc, h1, h3, fun it hit => h4 it ((c.env.s0.perm c.sel).symm.subset hit)⟩

theorem mem_boxTuples {x y z : Int × Int} {t : List Int} : t ∈ boxTuples x y z ↔
    ∃ c0 c1 c2, t = [c0, c1, c2] ∧ (x.1 ≤ c0 ∧ c0 < x.2) ∧ (y.1 ≤ c1 ∧ c1 < y.2) ∧
      (z.1 ≤ c2 ∧ c2 < z.2) := by
  unfold boxTuples
  simp only [List.mem_flatMap, List.mem_map, mem_intRange]
  constructor
  · rintro ⟨c2, h2, c1, h1, c0, h0, rfl⟩
    exact ⟨c0, c1, c2, rfl, h0, h1, h2⟩
  · rintro ⟨c0, c1, c2, rfl, h0, h1, h2⟩
    exact ⟨c2, h2, c1, h1, c0, h0, rfl⟩

theorem boxTuples_length (x y : Int × Int) :
    (boxTuples x y (0, 1)).length = (x.2 - x.1).toNat * (y.2 - y.1).toNat := by
  unfold boxTuples
  have : intRange 0 1 = [0] := rfl
  rw [this]
  simp only [List.flatMap_cons, List.flatMap_nil, List.append_nil, List.length_flatMap,
    List.length_map, intRange_length, List.map_const', List.sum_replicate, smul_eq_mul]
  exact Nat.mul_comm _ _

theorem wrap32_eq {x : Int} (h0 : 0 ≤ x) (h1 : x < 2147483648) : wrap32 x = x := by
  unfold wrap32
  omega

theorem cellColumn_spec {g : MeshGeom} (hg : Grid2D g) {n0 n1 : Int} (hd : g.mh.dims = [n0, n1])
    {b0 b1 : Int × Int} (h00 : 0 ≤ b0.1) (h01 : b0.2 ≤ n0 * g.mh.ncellsDimFine - 1)
    (h10 : 0 ≤ b1.1) (h11 : b1.2 ≤ n1 * g.mh.ncellsDimFine - 1) {maxBox : Int}
    (hm0 : 0 ≤ maxBox) (hm : boxCount [b0, b1] ≤ maxBox) :
    ∃ col, cellColumn g maxBox.toNat [b0, b1] = some col ∧
      ∀ x y c, (b0.1 ≤ x ∧ x ≤ b0.2) → (b1.1 ≤ y ∧ y ≤ b1.2) → IsCellAt g.mh [x, y] c → c ∈ col := by
  have hidx : ∀ t ∈ boxTuples (b0.1, b0.2 + 1) (b1.1, b1.2 + 1) (0, 1),
      ∃ c, boxCellIndex g.mh (t.take g.mh.ndim) = some c ∧ IsCellAt g.mh (t.take g.mh.ndim) c := by
    intro t ht
    obtain ⟨c0, c1, c2, rfl, k0, k1, -⟩ := mem_boxTuples.mp ht
    simp only at k0 k1
    refine boxCellIndex_spec hg.valid.1 ?_
    unfold MeshHierarchy.ndim
    rw [hd]
    exact List.Forall₂.cons ⟨by omega, by beta_reduce; omega⟩ (List.Forall₂.cons ⟨by omega, by beta_reduce; omega⟩
      List.Forall₂.nil)
  have hmap : (boxTuples (b0.1, b0.2 + 1) (b1.1, b1.2 + 1) (0, 1)).mapM (fun t =>
      boxCellIndex g.mh (t.take g.mh.ndim)) =
      some ((boxTuples (b0.1, b0.2 + 1) (b1.1, b1.2 + 1) (0, 1)).map fun t =>
        (boxCellIndex g.mh (t.take g.mh.ndim)).getD 0) := by
    refine mapM_of_forall fun t ht => ?_
    obtain ⟨c, hc, -⟩ := hidx t ht
    rw [hc]; rfl
  have hlen : (boxTuples (b0.1, b0.2 + 1) (b1.1, b1.2 + 1) (0, 1)).length ≤ maxBox.toNat := by
    rw [boxTuples_length]
    simp only
    have e0 : b0.2 + 1 - b0.1 = b0.2 - b0.1 + 1 := by ring
    have e1 : b1.2 + 1 - b1.1 = b1.2 - b1.1 + 1 := by ring
    rw [e0, e1]
    rcases Int.lt_or_le 0 (b0.2 - b0.1 + 1) with hp0 | hp0
    · rcases Int.lt_or_le 0 (b1.2 - b1.1 + 1) with hp1 | hp1
      · have s0 := hg.small n0 (by rw [hd]; simp)
        have s1 := hg.small n1 (by rw [hd]; simp)
        have : boxCount [b0, b1] = (b0.2 - b0.1 + 1) * (b1.2 - b1.1 + 1) := by
          unfold boxCount
          simp only [List.foldl_cons, List.foldl_nil]
          rw [wrap32_eq (by omega) (by omega), wrap32_eq (by omega) (by omega), one_mul]
        rw [this] at hm
        have hz : (((b0.2 - b0.1 + 1).toNat * (b1.2 - b1.1 + 1).toNat : Nat) : Int) =
            (b0.2 - b0.1 + 1) * (b1.2 - b1.1 + 1) := by
          push_cast
          rw [Int.toNat_of_nonneg hp0.le, Int.toNat_of_nonneg hp1.le]
        omega
      · rw [Int.toNat_of_nonpos hp1, Nat.mul_zero]
        omega
    · rw [Int.toNat_of_nonpos hp0, Nat.zero_mul]
      omega
  unfold cellColumn
  have e0 : boxEnds [b0, b1] 0 = (b0.1, b0.2 + 1) := rfl
  have e1 : boxEnds [b0, b1] 1 = (b1.1, b1.2 + 1) := rfl
  have e2 : boxEnds [b0, b1] 2 = (0, 1) := rfl
  rw [e0, e1, e2, hmap, Option.bind_some, if_pos (by rw [List.length_map]; exact hlen)]
  refine ⟨_, rfl, fun x y c hx hy hcell => List.mem_append_left _ ?_⟩
  rw [List.mem_map]
  have hmem : [x, y, 0] ∈ boxTuples (b0.1, b0.2 + 1) (b1.1, b1.2 + 1) (0, 1) :=
    mem_boxTuples.mpr ⟨x, y, 0, rfl, ⟨hx.1, by simp only; omega⟩, ⟨hy.1, by simp only; omega⟩,
      by simp, by simp⟩
  refine ⟨_, hmem, ?_⟩
  obtain ⟨c', hc', hcell'⟩ := hidx _ hmem
  rw [hc', Option.getD_some]
  have htake : ([x, y, 0] : List Int).take g.mh.ndim = [x, y] := by
    unfold MeshHierarchy.ndim; rw [hd]; rfl
  rw [htake] at hcell'
  exact isCellAt_unique hg.valid.1 hcell' hcell

theorem edgeFoldl_max_ge (l : List Int) : ∀ (x : Int), x ≤ l.foldl max x ∧ ∀ y ∈ l, y ≤ l.foldl max x := by
  induction l with
  | nil => intro x; exact ⟨le_refl x, fun y hy => by simp at hy⟩
  | cons a l ih =>
    intro x
    obtain ⟨h1, h2⟩ := ih (max x a)
    rw [List.foldl_cons]
    refine ⟨(le_max_left _ _).trans h1, fun y hy => ?_⟩
    rcases List.mem_cons.mp hy with rfl | hy
    · exact (le_max_right _ _).trans h1
    · exact h2 y hy

theorem isCellAt_nonneg {mh : MeshHierarchy} (h : ValidMesh mh) {t : List Int} {c : Int}
    (hc : IsCellAt mh t c) : 0 ≤ c := (isCellAt_bounds h hc).1

/-- After the search for cells, all cells that a selected particle visits are known. -/
theorem findCells_spec {e : Edges2D} (hg : Grid2D e.geom) {c : EdgeCall}
    (hc : CallOk2D e.cellCount c) :
    ∃ req, e.findCells c.env c.cells c.sel = some req ∧
      ∀ it ∈ c.sel, ∀ a b, Stepped c it a b → ∀ x y cell, InTrajBox e.geom a b x y →
        IsCellAt e.geom.mh [x, y] cell → cell ∈ req ∨ cell ∈ e.collected := by
  obtain ⟨n0, n1, o0, o1, hd, ho, hn0, hn1, hw, hnf, -, -, -⟩ := hg.cases
  obtain ⟨cdc, h1, h2, h3⟩ := cdcLoop_spec hd ho hc
  obtain ⟨rows, h4, h5⟩ := forAllM_exists (l := cdc) (f := cdcTrunc e.geom)
    (fun row r => ∃ b0 b1 : Int × Int, row = [b0, b1] ∧
      r = [(max 0 b0.1, min (n0 * e.geom.mh.ncellsDimFine - 1) b0.2),
        (max 0 b1.1, min (n1 * e.geom.mh.ncellsDimFine - 1) b1.2)])
    (fun row hrow => by
      obtain ⟨b0, b1, rfl⟩ := h2 row hrow
      exact ⟨_, cdcTrunc_eq hd b0 b1, b0, b1, rfl, rfl⟩)
  unfold Edges2D.findCells
  rw [h1, Option.bind_some, h4, Option.bind_some]
  simp only
  obtain ⟨hm0, hm1⟩ := edgeFoldl_max_ge (rows.map boxCount) 0
  generalize (rows.map boxCount).foldl max 0 = mb at *
  have hcol : ∀ r ∈ rows, ∃ col, cellColumn e.geom mb.toNat r = some col ∧
      ∃ c0 c1 : Int × Int, r = [c0, c1] ∧
      ∀ x y c, (c0.1 ≤ x ∧ x ≤ c0.2) → (c1.1 ≤ y ∧ y ≤ c1.2) → IsCellAt e.geom.mh [x, y] c → c ∈ col := by
    intro r hr
    obtain ⟨i, hi⟩ := List.getElem?_of_mem hr
    have hlen := h5.length_eq
    obtain ⟨row, hrow⟩ : ∃ row, cdc[i]? = some row := by
      have := (List.getElem?_eq_some_iff.mp hi).1
      exact ⟨_, List.getElem?_eq_getElem (by omega)⟩
    obtain ⟨b0, b1, -, rfl⟩ := forall₂_get h5 hrow hi
    have hm2 := hm1 _ (List.mem_map.mpr ⟨_, hr, rfl⟩)
    obtain ⟨col, k1, k2⟩ := cellColumn_spec hg hd (b0 := (max 0 b0.1, min (n0 * e.geom.mh.ncellsDimFine - 1) b0.2))
      (b1 := (max 0 b1.1, min (n1 * e.geom.mh.ncellsDimFine - 1) b1.2)) (le_max_left _ _)
      (min_le_left _ _) (le_max_left _ _) (min_le_left _ _) hm0 hm2
    exact ⟨col, k1, _, _, rfl, k2⟩
  have hcoll : collectM (cellColumn e.geom mb.toNat) rows =
      some (rows.flatMap fun r => (cellColumn e.geom mb.toNat r).getD []) := by
    refine collectM_eq_flatMap fun r hr => ?_
    obtain ⟨col, k1, -⟩ := hcol r hr
    rw [k1]; rfl
  rw [hcoll, Option.map_some]
  refine ⟨_, rfl, fun it hit a b hab x y cell hbox hcell => ?_⟩
  by_cases hcd : cell ∈ e.collected
  · exact Or.inr hcd
  left
  rw [List.mem_filter]
  refine ⟨?_, by
    rw [Bool.not_eq_true', ← Bool.not_eq_true, List.contains_iff_mem]; exact hcd⟩
  rw [(setOf_spec _ [] List.Pairwise.nil).2]
  left
  rw [List.mem_filter]
  have hnn := isCellAt_nonneg hg.valid.1 hcell
  refine ⟨?_, by simpa using (by omega : cell > -1)⟩
  obtain ⟨row, hrow, ⟨x0, x1, hx, k1, k2, k3, k4⟩, ⟨y0, y1, hy, m1, m2, m3, m4⟩⟩ := h3 it hit a b hab
  have hlen := h5.length_eq
  obtain ⟨r, hr⟩ : ∃ r, rows[it.1]? = some r := by
    have := (List.getElem?_eq_some_iff.mp hrow).1
    exact ⟨_, List.getElem?_eq_getElem (by omega)⟩
  obtain ⟨b0, b1, hb, rfl⟩ := forall₂_get h5 hrow hr
  subst hb
  simp only [List.cons.injEq, and_true] at hx hy
  obtain ⟨rfl, rfl⟩ := hx
  obtain ⟨rfl, rfl⟩ := hy
  obtain ⟨col, hc1, c0, c1, hc2, hc3⟩ := hcol _ (List.mem_of_getElem? hr)
  simp only [List.cons.injEq, and_true] at hc2
  obtain ⟨rfl, rfl⟩ := hc2
  rw [List.mem_flatMap]
  refine ⟨_, List.mem_of_getElem? hr, ?_⟩
  rw [hc1, Option.getD_some]
  obtain ⟨n0', n1', o0', o1', hd', ho', q0, q1⟩ := hbox
  rw [hd] at hd'
  rw [ho] at ho'
  simp only [List.cons.injEq, and_true] at hd' ho'
  obtain ⟨rfl, rfl⟩ := hd'
  obtain ⟨rfl, rfl⟩ := ho'
  unfold posIndex at *
  unfold trajEnds at q0 q1
  simp only at q0 q1
  refine hc3 x y cell ?_ ?_ hcell <;> simp only <;> omega

/-! ## The search for one particle -/

/-- What is known about a particle that moved from `a` to `b`. -/
def PartHit (e : Edges2D) (fn : Int → Option (ℚ × ℚ)) (big : ℚ) (a b : Pt) (h : HitState) : Prop :=
  ∃ S, EdgeHitInv big e.tol a b S h ∧ (h.flag = 1 → fn h.edge = some (h.nx, h.ny)) ∧
    (∀ d ∈ S, ∃ c, d ∈ (e.cellEdges c).getD []) ∧
    ∀ x y c, InTrajBox e.geom a b x y → IsCellAt e.geom.mh [x, y] c →
      ∀ d ∈ (e.cellEdges c).getD [], d ∈ S

theorem findParticle_spec {e : Edges2D} (hg : Grid2D e.geom) {fd : Int → Option (List DevEdge)}
    {fn : Int → Option (ℚ × ℚ)} (hdyn : EdgeDyn e fd fn) {root : Nat}
    (hroot : e.discovery.root = some root) (big : ℚ) {a b : Pt}
    (hcol : ∀ x y c, InTrajBox e.geom a b x y → IsCellAt e.geom.mh [x, y] c → c ∈ e.collected) :
    ∃ h, e.findParticle big root 2 ⟨[b.1, b.2], [a.1, a.2]⟩ = some h ∧ PartHit e fn big a b h := by
  obtain ⟨n0, n1, o0, o1, hd, ho, hn0, hn1, hw, hnf, -, -, -⟩ := hg.cases
  have r1 : forAllM (rd [a.1, a.2]) (List.range 2) = some [a.1, a.2] := rfl
  have r2 : forAllM (rd [b.1, b.2]) (List.range 2) = some [b.1, b.2] := rfl
  have q1 : rd [a.1, a.2] 0 = some a.1 := rfl
  have q2 : rd [a.1, a.2] 1 = some a.2 := rfl
  have q3 : rd [b.1, b.2] 0 = some b.1 := rfl
  have q4 : rd [b.1, b.2] 1 = some b.2 := rfl
  unfold Edges2D.findParticle
  simp only
  rw [r1, Option.bind_some, r2, Option.bind_some, mapToCartNoTrunc_eq hd ho, Option.bind_some,
    mapToCartNoTrunc_eq hd ho, Option.bind_some, q1, Option.bind_some, q2, Option.bind_some, q3,
    Option.bind_some, q4, Option.bind_some]
  have l0 : loopEnds e.geom 2 [posIndex e.geom o0 a.1, posIndex e.geom o1 a.2]
      [posIndex e.geom o0 b.1, posIndex e.geom o1 b.2] 0 =
      trajEnds (n0 * e.geom.mh.ncellsDimFine) (posIndex e.geom o0 a.1) (posIndex e.geom o0 b.1) := by
    unfold loopEnds cellBounds; rw [hd]; rfl
  have l1 : loopEnds e.geom 2 [posIndex e.geom o0 a.1, posIndex e.geom o1 a.2]
      [posIndex e.geom o0 b.1, posIndex e.geom o1 b.2] 1 =
      trajEnds (n1 * e.geom.mh.ncellsDimFine) (posIndex e.geom o1 a.2) (posIndex e.geom o1 b.2) := by
    unfold loopEnds cellBounds; rw [hd]; rfl
  have l2 : loopEnds e.geom 2 [posIndex e.geom o0 a.1, posIndex e.geom o1 a.2]
      [posIndex e.geom o0 b.1, posIndex e.geom o1 b.2] 2 = (0, 1) := rfl
  rw [l0, l1, l2]
  have htuple : ∀ t ∈ boxTuples
      (trajEnds (n0 * e.geom.mh.ncellsDimFine) (posIndex e.geom o0 a.1) (posIndex e.geom o0 b.1))
      (trajEnds (n1 * e.geom.mh.ncellsDimFine) (posIndex e.geom o1 a.2) (posIndex e.geom o1 b.2)) (0, 1),
      ∃ x y c, t.take e.geom.mh.ndim = [x, y] ∧ InTrajBox e.geom a b x y ∧
        boxCellIndex e.geom.mh (t.take e.geom.mh.ndim) = some c ∧ IsCellAt e.geom.mh [x, y] c := by
    intro t ht
    obtain ⟨c0, c1, c2, rfl, k0, k1, -⟩ := mem_boxTuples.mp ht
    have htake : ([c0, c1, c2] : List Int).take e.geom.mh.ndim = [c0, c1] := by
      unfold MeshHierarchy.ndim; rw [hd]; rfl
    obtain ⟨c, hc1, hc2⟩ := boxCellIndex_spec hg.valid.1 (t := [c0, c1]) (by
      rw [hd]
      unfold trajEnds at k0 k1
      simp only at k0 k1
      exact List.Forall₂.cons ⟨by omega, by beta_reduce; omega⟩ (List.Forall₂.cons ⟨by omega, by beta_reduce; omega⟩
        List.Forall₂.nil))
    exact ⟨c0, c1, c, htake, ⟨n0, n1, o0, o1, hd, ho, k0, k1⟩, by rw [htake]; exact hc1, hc2⟩
  have hback : ∀ x y, InTrajBox e.geom a b x y → [x, y, 0] ∈ boxTuples
      (trajEnds (n0 * e.geom.mh.ncellsDimFine) (posIndex e.geom o0 a.1) (posIndex e.geom o0 b.1))
      (trajEnds (n1 * e.geom.mh.ncellsDimFine) (posIndex e.geom o1 a.2) (posIndex e.geom o1 b.2)) (0, 1) := by
    rintro x y ⟨n0', n1', o0', o1', hd', ho', k0, k1⟩
    rw [hd] at hd'
    rw [ho] at ho'
    simp only [List.cons.injEq, and_true] at hd' ho'
    obtain ⟨rfl, rfl⟩ := hd'
    obtain ⟨rfl, rfl⟩ := ho'
    exact mem_boxTuples.mpr ⟨x, y, 0, rfl, k0, k1, by simp, by simp⟩
  generalize boxTuples
      (trajEnds (n0 * e.geom.mh.ncellsDimFine) (posIndex e.geom o0 a.1) (posIndex e.geom o0 b.1))
      (trajEnds (n1 * e.geom.mh.ncellsDimFine) (posIndex e.geom o1 a.2) (posIndex e.geom o1 b.2))
      (0, 1) = ts at *
  have hfn : ∀ c d, d ∈ (fd c).getD [] → (fn d.edge).isSome = true := by
    intro c d hdm
    rw [hdyn.cells] at hdm
    split at hdm
    · rename_i hcc
      exact hdyn.has c hcc d hdm
    · simp at hdm
  have main : ∀ (ts : List (List Int)), (∀ t ∈ ts, ∃ x y c, t.take e.geom.mh.ndim = [x, y] ∧
        InTrajBox e.geom a b x y ∧ boxCellIndex e.geom.mh (t.take e.geom.mh.ndim) = some c ∧
        IsCellAt e.geom.mh [x, y] c) →
      ∀ (S : List DevEdge) (s : HitState), EdgeHitInv big e.tol a b S s →
      (s.flag = 1 → fn s.edge = some (s.nx, s.ny)) → (∀ d ∈ S, ∃ c, d ∈ (fd c).getD []) →
      ∃ s', ts.foldlM (fun s t => (boxCellIndex e.geom.mh (t.take e.geom.mh.ndim)).bind fun c =>
          e.find root c (a.1, a.2) (b.1, b.2) s) s = some s' ∧
        ∃ S', EdgeHitInv big e.tol a b S' s' ∧ (s'.flag = 1 → fn s'.edge = some (s'.nx, s'.ny)) ∧
          (∀ d ∈ S', ∃ c, d ∈ (fd c).getD []) ∧ (∀ d ∈ S, d ∈ S') ∧
          ∀ t ∈ ts, ∀ c, boxCellIndex e.geom.mh (t.take e.geom.mh.ndim) = some c →
            ∀ d ∈ (fd c).getD [], d ∈ S' := by
    intro ts
    induction ts with
    | nil =>
      intro _ S s h1 h2 h3
      exact ⟨s, rfl, S, h1, h2, h3, fun _ h => h, fun t ht => by simp at ht⟩
    | cons t ts ih =>
      intro hts S s h1 h2 h3
      obtain ⟨x, y, c, -, -, hc, -⟩ := hts t List.mem_cons_self
      obtain ⟨s1, g1, g2, g3⟩ := find_spec hdyn.disc hdyn.norm hroot h1 h2 c (fun d hdm => by
        rcases List.mem_append.mp hdm with hm | hm
        · obtain ⟨c', hc'⟩ := h3 d hm
          exact hfn c' d hc'
        · exact hfn c d hm)
      obtain ⟨s2, k1, S2, k2, k3, k4, k5, k6⟩ := ih (fun t ht => hts t (List.mem_cons_of_mem _ ht)) _ s1
        g2 g3 (fun d hdm => by
          rcases List.mem_append.mp hdm with hm | hm
          · exact h3 d hm
          · exact ⟨c, hm⟩)
      refine ⟨s2, ?_, S2, k2, k3, k4, fun d hdm => k5 d (List.mem_append_left _ hdm), ?_⟩
      · rw [List.foldlM_cons, hc, Option.bind_some, g1]
        exact k1
      · intro t' ht' c' hc' d hdm
        rcases List.mem_cons.mp ht' with rfl | ht'
        · rw [hc] at hc'
          cases hc'
          exact k5 d (List.mem_append_right _ hdm)
        · exact k6 t' ht' c' hc' d hdm
  obtain ⟨h, m1, S, m2, m3, m4, -, m6⟩ := main ts htuple [] ⟨big, 0, 0, 0, 0, 0, 0, 0⟩
    (Or.inl ⟨rfl, fun d hdm => by simp at hdm⟩) (fun h => by simp at h) (fun d hdm => by simp at hdm)
  refine ⟨h, m1, S, m2, m3, ?_, ?_⟩
  · intro d hdm
    obtain ⟨c, hc⟩ := m4 d hdm
    rw [hdyn.cells] at hc
    split at hc
    · exact ⟨c, hc⟩
    · simp at hc
  · intro x y c hbox hcell d hdm
    have ht := hback x y hbox
    obtain ⟨x', y', c', e1, -, e2, e3⟩ := htuple _ ht
    have htake : ([x, y, 0] : List Int).take e.geom.mh.ndim = [x, y] := by
      unfold MeshHierarchy.ndim; rw [hd]; rfl
    rw [htake] at e1
    simp only [List.cons.injEq, and_true] at e1
    obtain ⟨rfl, rfl⟩ := e1
    have := isCellAt_unique hg.valid.1 e3 hcell
    subst this
    refine m6 _ ht c' e2 d ?_
    rw [hdyn.cells, if_pos (hcol x y c' hbox hcell)]
    exact hdm

/-- If nothing was put on the device there is nothing to find. -/
theorem partHit_none {e : Edges2D} {fd : Int → Option (List DevEdge)}
    {fn : Int → Option (ℚ × ℚ)} (hdyn : EdgeDyn e fd fn) (hroot : e.discovery.root = none)
    (big : ℚ) {a b : Pt}
    (hcol : ∀ x y c, InTrajBox e.geom a b x y → IsCellAt e.geom.mh [x, y] c → c ∈ e.collected) :
    PartHit e fn big a b ⟨big, 0, 0, 0, 0, 0, 0, 0⟩ := by
  refine ⟨[], Or.inl ⟨rfl, fun d hdm => by simp at hdm⟩, fun h => by simp at h,
    fun d hdm => by simp at hdm, fun x y c hbox hcell d hdm => ?_⟩
  have h1 := hdyn.cells c
  rw [hdyn.disc.root_none hroot c, if_pos (hcol x y c hbox hcell)] at h1
  rw [← h1] at hdm
  simp at hdm

end NP
