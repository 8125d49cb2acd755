import Verif.Petsc.LemmasEdges
import Verif.Petsc.LemmasCell
import Verif.Mesh.PropsBox
import Mathlib.Algebra.Order.Group.MinMax

/-!
# Lemmas: cells of positions, steps and edges
-/

set_option autoImplicit false

namespace NP

open Spec

theorem noTrunc_mono {nf : Int} {w o p q : ℚ} (hnf : 0 < nf) (hw : 0 < w) (h : p ≤ q) :
    cartIndexNoTrunc nf w o p ≤ cartIndexNoTrunc nf w o q := by
  have hnfq : (0 : ℚ) < nf := by exact_mod_cast hnf
  have hinv : 0 < (nf : ℚ) / w := by positivity
  unfold cartIndexNoTrunc
  simp only
  by_cases hp : p < o
  · rw [if_pos hp, truncZ_of_nonneg (mul_nonneg (by linarith) hinv.le)]
    by_cases hq : q < o
    · rw [if_pos hq, truncZ_of_nonneg (mul_nonneg (by linarith) hinv.le)]
      have : ⌊(o - q) * ((nf : ℚ) / w)⌋ ≤ ⌊(o - p) * ((nf : ℚ) / w)⌋ :=
        Int.floor_le_floor (mul_le_mul_of_nonneg_right (by linarith) hinv.le)
      omega
    · rw [if_neg hq, truncZ_of_nonneg (mul_nonneg (by linarith) hinv.le)]
      have h1 : 0 ≤ ⌊(o - p) * ((nf : ℚ) / w)⌋ := Int.floor_nonneg.mpr (mul_nonneg (by linarith) hinv.le)
      have h2 : 0 ≤ ⌊(q - o) * ((nf : ℚ) / w)⌋ := Int.floor_nonneg.mpr (mul_nonneg (by linarith) hinv.le)
      omega
  · rw [if_neg hp, if_neg (by linarith), truncZ_of_nonneg (mul_nonneg (by linarith) hinv.le),
      truncZ_of_nonneg (mul_nonneg (by linarith) hinv.le)]
    exact Int.floor_le_floor (mul_le_mul_of_nonneg_right (by linarith) hinv.le)

/-- The cell of a position inside the domain: at the upper end the last one. -/
def clampCell (n nf : Int) (w o p : ℚ) : Int := min (n * nf - 1) (cartIndexNoTrunc nf w o p)

theorem clampCell_spec {n nf : Int} {w o p : ℚ} (hn : 0 < n) (hnf : 0 < nf) (hw : 0 < w)
    (h0 : o ≤ p) (h1 : p ≤ o + n * w) :
    0 ≤ clampCell n nf w o p ∧ clampCell n nf w o p < n * nf ∧
    o + (clampCell n nf w o p : ℚ) * (w / nf) ≤ p ∧
    p ≤ o + ((clampCell n nf w o p : ℚ) + 1) * (w / nf) ∧
    (p < o + n * w → cartIndexNoTrunc nf w o p ≤ n * nf - 1) := by
  have hnfq : (0 : ℚ) < nf := by exact_mod_cast hnf
  have hinv : 0 < (nf : ℚ) / w := by positivity
  have hwf : 0 < w / (nf : ℚ) := by positivity
  have hmul : (p - o) * ((nf : ℚ) / w) * (w / nf) = p - o := by field_simp
  have hnn : 0 < n * nf := Int.mul_pos hn hnf
  have hidx : cartIndexNoTrunc nf w o p = ⌊(p - o) * ((nf : ℚ) / w)⌋ := by
    unfold cartIndexNoTrunc
    simp only
    rw [if_neg (by linarith), truncZ_of_nonneg (mul_nonneg (by linarith) hinv.le)]
  have h2 := Int.floor_le ((p - o) * ((nf : ℚ) / w))
  have h3 := Int.lt_floor_add_one ((p - o) * ((nf : ℚ) / w))
  have h2' := mul_le_mul_of_nonneg_right h2 hwf.le
  have h3' := mul_lt_mul_of_pos_right h3 hwf
  rw [hmul] at h2' h3'
  have h4 : 0 ≤ ⌊(p - o) * ((nf : ℚ) / w)⌋ := Int.floor_nonneg.mpr (mul_nonneg (by linarith) hinv.le)
  have hlast : p < o + n * w → ⌊(p - o) * ((nf : ℚ) / w)⌋ ≤ n * nf - 1 := by
    intro hlt
    have : ⌊(p - o) * ((nf : ℚ) / w)⌋ < n * nf := by
      rw [Int.floor_lt]
      push_cast
      have : (p - o) * ((nf : ℚ) / w) < n * w * ((nf : ℚ) / w) :=
        mul_lt_mul_of_pos_right (by linarith) hinv
      have e : (n : ℚ) * w * ((nf : ℚ) / w) = n * nf := by field_simp
      linarith
    omega
  unfold clampCell
  rw [hidx]
  refine ⟨by omega, by omega, ?_, ?_, hlast⟩
  · have : ((min (n * nf - 1) ⌊(p - o) * ((nf : ℚ) / w)⌋ : Int) : ℚ) ≤
        (⌊(p - o) * ((nf : ℚ) / w)⌋ : ℚ) := by exact_mod_cast min_le_right _ _
    have := mul_le_mul_of_nonneg_right this hwf.le
    linarith
  · rcases lt_or_ge p (o + n * w) with hlt | hge
    · rw [min_eq_right (hlast hlt)]
      linarith
    · have hp : p = o + n * w := le_antisymm h1 hge
      have e : (n * nf : ℚ) * (w / nf) = n * w := by field_simp
      have hfl : ⌊(p - o) * ((nf : ℚ) / w)⌋ = n * nf := by
        have : (p - o) * ((nf : ℚ) / w) = ((n * nf : Int) : ℚ) := by
          rw [hp]; push_cast; field_simp; ring
        rw [this, Int.floor_intCast]
      rw [hfl, min_eq_left (by omega)]
      push_cast
      rw [sub_add_cancel, e, hp]

theorem trajEnds_clamp {n nf : Int} {w o p a b : ℚ} (hn : 0 < n) (hnf : 0 < nf) (hw : 0 < w)
    (h0 : o ≤ p) (h1 : p ≤ o + n * w) (hpa : min a b ≤ p) (hpb : p ≤ max a b)
    (htop : min a b < o + n * w) :
    (trajEnds (n * nf) (cartIndexNoTrunc nf w o a) (cartIndexNoTrunc nf w o b)).1 ≤
        clampCell n nf w o p ∧
      clampCell n nf w o p <
        (trajEnds (n * nf) (cartIndexNoTrunc nf w o a) (cartIndexNoTrunc nf w o b)).2 := by
  obtain ⟨hc0, hc1, -, -, hc4⟩ := clampCell_spec hn hnf hw h0 h1
  have hmin : min (cartIndexNoTrunc nf w o a) (cartIndexNoTrunc nf w o b) =
      cartIndexNoTrunc nf w o (min a b) := by
    rcases le_total a b with h | h
    · rw [min_eq_left h, min_eq_left (noTrunc_mono hnf hw h)]
    · rw [min_eq_right h, min_eq_right (noTrunc_mono hnf hw h)]
  have hmax : max (cartIndexNoTrunc nf w o a) (cartIndexNoTrunc nf w o b) =
      cartIndexNoTrunc nf w o (max a b) := by
    rcases le_total a b with h | h
    · rw [max_eq_right h, max_eq_right (noTrunc_mono hnf hw h)]
    · rw [max_eq_left h, max_eq_left (noTrunc_mono hnf hw h)]
  have hl := noTrunc_mono (o := o) hnf hw hpa
  have hu := noTrunc_mono (o := o) hnf hw hpb
  unfold trajEnds
  simp only
  rw [hmin, hmax]
  have hlo : cartIndexNoTrunc nf w o (min a b) ≤ n * nf - 1 := by
    rcases lt_or_ge (min a b) o with hb | hb
    · have : cartIndexNoTrunc nf w o (min a b) ≤ cartIndexNoTrunc nf w o o := noTrunc_mono hnf hw hb.le
      have e : cartIndexNoTrunc nf w o o = 0 := by
        unfold cartIndexNoTrunc
        simp [truncZ]
      have : 0 < n * nf := Int.mul_pos hn hnf
      omega
    · exact (clampCell_spec hn hnf hw hb htop.le).2.2.2.2 htop
  unfold clampCell at *
  omega

theorem overlap_pos {lo hi L H p : ℚ} (h1 : lo < p) (h2 : p < hi) (h3 : L ≤ p) (h4 : p ≤ H)
    (h5 : L < H) : 0 < overlap lo hi L H := by
  unfold overlap
  apply lt_max_of_lt_right
  rw [sub_pos]
  exact max_lt (lt_min (by linarith) (by linarith)) (lt_min (by linarith) h5)

theorem facetBox_eq (big : ℚ) (f : Facet) :
    facetBox big f =
      ([min (min big (f.x0 - edgePadding)) (f.x1 - edgePadding),
        min (min big (f.y0 - edgePadding)) (f.y1 - edgePadding), min (min big 0) 0],
       [max (max (-big) (f.x0 + edgePadding)) (f.x1 + edgePadding),
        max (max (-big) (f.y0 + edgePadding)) (f.y1 + edgePadding), max (max (-big) 0) 0]) := rfl

/-- The two extents of a grid. -/
theorem Spec.Grid2D.cases {g : MeshGeom} (h : Grid2D g) :
    ∃ n0 n1 o0 o1, g.mh.dims = [n0, n1] ∧ g.origin = [o0, o1] ∧ 0 < n0 ∧ 0 < n1 ∧ 0 < g.width ∧
      0 < g.mh.ncellsDimFine ∧ fineWidth g = g.width / (g.mh.ncellsDimFine : ℚ) ∧
      n0 * g.mh.ncellsDimFine < 2147483648 ∧ n1 * g.mh.ncellsDimFine < 2147483648 := by
  have h2 := h.two
  have ho := h.valid.2.1
  have hp := h.valid.1.2
  have hs := h.small
  match hd : g.mh.dims, h2 with
  | [n0, n1], _ =>
    rw [hd] at ho hp hs
    match hoo : g.origin, ho with
    | [o0, o1], _ =>
      refine ⟨n0, n1, o0, o1, rfl, rfl, hp n0 (by simp), hp n1 (by simp), h.valid.2.2,
        ncellsDimFine_pos, ?_, hs n0 (by simp), hs n1 (by simp)⟩
      unfold Spec.fineWidth MeshHierarchy.ncellsDimFine
      push_cast
      rfl

/-- The cells listed for an edge. -/
def FacetIn (big : ℚ) (g : MeshGeom) (f : Facet) (c : Int) : Prop :=
  ∃ t, IsCellAt g.mh t c ∧
    0 < overlapVolume (fineWidth g) g.origin (facetBox big f).1 (facetBox big f).2 t

theorem cellFacetMap_spec {big : ℚ} {g : MeshGeom} (hg : Grid2D g) (facets : List Facet) :
    ∃ m, cellFacetMap big g facets = some m ∧
      ∀ c ix, ix ∈ (omGet m c).getD [] ↔
        ∃ (k : Nat) (f : Facet), facets[k]? = some f ∧ ix = (k : Int) ∧ FacetIn big g f c := by
  have step : ∀ (l : List (Facet × Nat)) (m : OMap (List Int)), ∃ m',
      l.foldlM (fun m f => (boundingBoxMap g (facetBox big f.1).1 (facetBox big f.1).2).map
        fun cells => cells.foldl (fun m c => omPut m c.1
          (intSetInsert (f.2 : Int) ((omGet m c.1).getD []))) m) m = some m' ∧
      ∀ c ix, ix ∈ (omGet m' c).getD [] ↔ ix ∈ (omGet m c).getD [] ∨
        ∃ f ∈ l, ix = (f.2 : Int) ∧ FacetIn big g f.1 c := by
    intro l
    induction l with
    | nil => intro m; exact ⟨m, rfl, fun c ix => by simp⟩
    | cons f l ih =>
      intro m
      obtain ⟨cells, h1, -, h3⟩ := C43_map g hg.valid (facetBox big f.1).1 (facetBox big f.1).2 (by
        rw [facetBox_eq]
        unfold BoxFor
        rw [hg.two]
        simp)
      have hin : ∀ (cs : List (Int × ℚ)) (m : OMap (List Int)) (c ix : Int),
          ix ∈ (omGet (cs.foldl (fun m c => omPut m c.1
            (intSetInsert (f.2 : Int) ((omGet m c.1).getD []))) m) c).getD [] ↔
          ix ∈ (omGet m c).getD [] ∨ (ix = (f.2 : Int) ∧ ∃ x ∈ cs, x.1 = c) := by
        intro cs
        induction cs with
        | nil => intro m c ix; simp
        | cons x cs ihc =>
          intro m c ix
          rw [List.foldl_cons, ihc, omGet_put]
          by_cases hx : x.1 = c
          · subst hx
            rw [if_pos rfl, Option.getD_some, mem_intSetInsert]
            simp
            tauto
          · rw [if_neg hx]
            simp [hx]
      obtain ⟨m', h4, h5⟩ := ih (cells.foldl (fun m c => omPut m c.1
          (intSetInsert (f.2 : Int) ((omGet m c.1).getD []))) m)
      refine ⟨m', ?_, fun c ix => ?_⟩
      · rw [List.foldlM_cons, h1]
        exact h4
      · rw [h5, hin]
        have hfi : (∃ x ∈ cells, x.1 = c) ↔ FacetIn big g f.1 c := by
          constructor
          · rintro ⟨⟨c', v⟩, hx, rfl⟩
            obtain ⟨hv, t, ht, rfl⟩ := (h3 c' v).mp hx
            exact ⟨t, ht, hv⟩
          · rintro ⟨t, ht, hv⟩
            exact ⟨(c, _), (h3 c _).mpr ⟨hv, t, ht, rfl⟩, rfl⟩
        rw [hfi]
        simp only [List.mem_cons, exists_eq_or_imp]
        tauto
  obtain ⟨m, h1, h2⟩ := step facets.zipIdx []
  refine ⟨m, h1, fun c ix => ?_⟩
  rw [h2]
  simp only [omGet_nil, Option.getD_none, List.not_mem_nil, false_or]
  constructor
  · rintro ⟨⟨f, k⟩, hf, rfl, hin⟩
    exact ⟨k, f, List.mem_zipIdx_iff_getElem?.mp hf, rfl, hin⟩
  · rintro ⟨k, f, hf, rfl, hin⟩
    exact ⟨(f, k), List.mem_zipIdx_iff_getElem?.mpr hf, rfl, hin⟩

/-- The box of cells that the search of a step from `a` to `b` visits. -/
def InTrajBox (g : MeshGeom) (a b : Pt) (x y : Int) : Prop :=
  ∃ n0 n1 o0 o1, g.mh.dims = [n0, n1] ∧ g.origin = [o0, o1] ∧
    ((trajEnds (n0 * g.mh.ncellsDimFine) (cartIndexNoTrunc g.mh.ncellsDimFine g.width o0 a.1)
      (cartIndexNoTrunc g.mh.ncellsDimFine g.width o0 b.1)).1 ≤ x ∧
     x < (trajEnds (n0 * g.mh.ncellsDimFine) (cartIndexNoTrunc g.mh.ncellsDimFine g.width o0 a.1)
      (cartIndexNoTrunc g.mh.ncellsDimFine g.width o0 b.1)).2) ∧
    ((trajEnds (n1 * g.mh.ncellsDimFine) (cartIndexNoTrunc g.mh.ncellsDimFine g.width o1 a.2)
      (cartIndexNoTrunc g.mh.ncellsDimFine g.width o1 b.2)).1 ≤ y ∧
     y < (trajEnds (n1 * g.mh.ncellsDimFine) (cartIndexNoTrunc g.mh.ncellsDimFine g.width o1 a.2)
      (cartIndexNoTrunc g.mh.ncellsDimFine g.width o1 b.2)).2)

theorem between_of_onSegment {a b p : Pt} (h : OnSegment a b p) :
    (min a.1 b.1 ≤ p.1 ∧ p.1 ≤ max a.1 b.1) ∧ (min a.2 b.2 ≤ p.2 ∧ p.2 ≤ max a.2 b.2) := by
  obtain ⟨t, h0, h1, rfl⟩ := h
  have hx := within_of_param (x := a.1) (y := b.1) (le_refl (0 : ℚ)) h0 h1
  have hy := within_of_param (x := a.2) (y := b.2) (le_refl (0 : ℚ)) h0 h1
  unfold Within at hx hy
  simp only [sub_zero, add_zero] at hx hy
  exact ⟨hx, hy⟩

theorem min_between {x y p : ℚ} (h : min x y ≤ p ∧ p ≤ max x y) {lo hi : ℚ} (hx : lo ≤ x) (hx' : x ≤ hi)
    (hy : lo ≤ y) (hy' : y ≤ hi) : lo ≤ p ∧ p ≤ hi :=
  ⟨(le_min hx hy).trans h.1, h.2.trans (max_le hx' hy')⟩

/-- A step that crosses an edge visits a cell for which the edge is listed. -/
theorem crossing_cell {big : ℚ} {g : MeshGeom} (hg : Grid2D g) {f : Facet} {a b p : Pt}
    (hv : InDomain g [f.x0, f.y0]) (hw : InDomain g [f.x1, f.y1])
    (hc : Crosses a b (f.x0, f.y0) (f.x1, f.y1) p) (htop : BelowTop g a b) :
    ∃ x y c, InTrajBox g a b x y ∧ IsCellAt g.mh [x, y] c ∧ FacetIn big g f c := by
  obtain ⟨n0, n1, o0, o1, hd, ho, hn0, hn1, hwid, hnf, hfw, -, -⟩ := hg.cases
  have hab := between_of_onSegment hc.2.1
  have hvw := between_of_onSegment hc.2.2
  have hv0 := hv.2 0 n0 o0 f.x0 (by rw [hd]; rfl) (by rw [ho]; rfl) rfl
  have hv1 := hv.2 1 n1 o1 f.y0 (by rw [hd]; rfl) (by rw [ho]; rfl) rfl
  have hw0 := hw.2 0 n0 o0 f.x1 (by rw [hd]; rfl) (by rw [ho]; rfl) rfl
  have hw1 := hw.2 1 n1 o1 f.y1 (by rw [hd]; rfl) (by rw [ho]; rfl) rfl
  have ht0 := htop 0 n0 o0 a.1 b.1 (by rw [hd]; rfl) (by rw [ho]; rfl) rfl rfl
  have ht1 := htop 1 n1 o1 a.2 b.2 (by rw [hd]; rfl) (by rw [ho]; rfl) rfl rfl
  have hp0 := min_between hvw.1 hv0.1 hv0.2 hw0.1 hw0.2
  have hp1 := min_between hvw.2 hv1.1 hv1.2 hw1.1 hw1.2
  have k0 := trajEnds_clamp hn0 hnf hwid hp0.1 hp0.2 hab.1.1 hab.1.2 ht0
  have k1 := trajEnds_clamp hn1 hnf hwid hp1.1 hp1.2 hab.2.1 hab.2.2 ht1
  obtain ⟨c00, c01, c02, c03, -⟩ := clampCell_spec hn0 hnf hwid hp0.1 hp0.2
  obtain ⟨c10, c11, c12, c13, -⟩ := clampCell_spec hn1 hnf hwid hp1.1 hp1.2
  generalize clampCell n0 g.mh.ncellsDimFine g.width o0 p.1 = x at *
  generalize clampCell n1 g.mh.ncellsDimFine g.width o1 p.2 = y at *
  obtain ⟨c, -, hcell⟩ := boxCellIndex_spec hg.valid.1 (t := [x, y]) (by
    rw [hd]
    exact List.Forall₂.cons ⟨c00, c01⟩ (List.Forall₂.cons ⟨c10, c11⟩ List.Forall₂.nil))
  refine ⟨x, y, c, ⟨n0, n1, o0, o1, hd, ho, k0, k1⟩, hcell, [x, y], hcell, ?_⟩
  have hnfq : (0 : ℚ) < (g.mh.ncellsDimFine : ℚ) := by exact_mod_cast hnf
  have hwf : 0 < g.width / (g.mh.ncellsDimFine : ℚ) := by positivity
  have hpad : 0 < edgePadding := by unfold edgePadding; norm_num
  rw [facetBox_eq, ho, hfw]
  simp only [overlapVolume, mul_one]
  refine mul_pos (overlap_pos (p := p.1) ?_ ?_ c02 c03 (by nlinarith))
    (overlap_pos (p := p.2) ?_ ?_ c12 c13 (by nlinarith))
  · have : min f.x0 f.x1 - edgePadding < p.1 := by linarith [hvw.1.1]
    refine lt_of_le_of_lt ?_ this
    rw [min_assoc]
    refine (min_le_right _ _).trans (le_of_eq ?_)
    exact min_sub_sub_right _ _ _
  · have : p.1 < max f.x0 f.x1 + edgePadding := by linarith [hvw.1.2]
    refine lt_of_lt_of_le this ?_
    rw [max_assoc, max_add_add_right]
    exact le_max_right _ _
  · have : min f.y0 f.y1 - edgePadding < p.2 := by linarith [hvw.2.1]
    refine lt_of_le_of_lt ?_ this
    rw [min_assoc]
    refine (min_le_right _ _).trans (le_of_eq ?_)
    exact min_sub_sub_right _ _ _
  · have : p.2 < max f.y0 f.y1 + edgePadding := by linarith [hvw.2.2]
    refine lt_of_lt_of_le this ?_
    rw [max_assoc, max_add_add_right]
    exact le_max_right _ _

end NP
