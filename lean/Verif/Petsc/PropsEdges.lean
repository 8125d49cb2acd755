import Verif.Petsc.LemmasEdges5

/-!
# C88: steps that cross the boundary of a two dimensional unstructured mesh
-/

set_option autoImplicit false

namespace NP

open Spec

/-- **C88** The intersection of a step from `a` to `b` with an edge from `v` to `w`: nothing is
divided by zero, whatever the points; the test succeeds exactly if the lines are not parallel and
the step meets the edge up to the tolerance, and gives the common point; without tolerance exactly if
step and edge have a common point. -/
theorem C88_intersect (v w a b : Pt) (tol : ℚ) :
    ∃ r, segIntersect v.1 v.2 w.1 w.2 a.1 a.2 b.1 b.2 tol = some r ∧
      (∀ p, r = some p ↔ CrossesTol tol a b v w p) ∧
      (tol = 0 → ∀ p, r = some p ↔ Crosses a b v w p) ∧
      (0 ≤ tol → ∀ p, Crosses a b v w p → r = some p) := by
  obtain ⟨r, h1, h2⟩ := segIntersect_spec v w a b tol
  refine ⟨r, h1, h2, fun h0 p => ?_, fun h0 p hp => (h2 p).mpr (crosses_tol hp h0)⟩
  rw [h2, h0]
  exact crossesTol_zero

/-- **C88** The normals that are stored have length one and are orthogonal to the edge, if the inverse
square root is. -/
theorem C88_normal (invSqrt : ℚ → ℚ) (v w : Pt)
    (h : invSqrt (dist2 v w) * invSqrt (dist2 v w) * dist2 v w = 1) :
    dist2 (0, 0) (edgeNormal invSqrt v w) = 1 ∧
      (edgeNormal invSqrt v w).1 * (w.1 - v.1) + (edgeNormal invSqrt v w).2 * (w.2 - v.2) = 0 := by
  have e : dist2 v w = (w.2 - v.2) * (w.2 - v.2) + (w.1 - v.1) * (w.1 - v.1) := by
    unfold dist2; ring
  rw [e] at h
  unfold edgeNormal
  simp only
  generalize invSqrt ((w.2 - v.2) * (w.2 - v.2) + (w.1 - v.1) * (w.1 - v.1)) = l at *
  constructor
  · unfold dist2
    simp only
    linear_combination h
  · ring

theorem mem_resultOf {groups : OMap (List Int)} {sel : List (Nat × Nat)} {H : Nat × Nat → HitState}
    {g : Int} {it : Nat × Nat} {d : HitData} : Hit (resultOf groups sel H) g it d ↔
      (∃ ls, (g, ls) ∈ groups) ∧ it ∈ sel ∧ (H it).flag ≠ 0 ∧ (H it).group = g ∧
        d = hitDataOf g (H it) := by
  unfold Hit resultOf
  constructor
  · rintro ⟨l, hl, hd⟩
    rw [List.mem_map] at hl
    obtain ⟨x, hx, he⟩ := hl
    simp only [Prod.mk.injEq] at he
    obtain ⟨rfl, rfl⟩ := he
    rw [List.mem_map] at hd
    obtain ⟨y, hy, he⟩ := hd
    simp only [Prod.mk.injEq] at he
    obtain ⟨rfl, rfl⟩ := he
    rw [List.mem_filter, Bool.and_eq_true, decide_eq_true_eq, decide_eq_true_eq] at hy
    exact ⟨⟨x.2, hx⟩, hy.1, hy.2.1, hy.2.2, rfl⟩
  · rintro ⟨⟨ls, hls⟩, h1, h2, h3, rfl⟩
    refine ⟨_, List.mem_map.mpr ⟨_, hls, rfl⟩, List.mem_map.mpr ⟨it, ?_, rfl⟩⟩
    rw [List.mem_filter, Bool.and_eq_true, decide_eq_true_eq, decide_eq_true_eq]
    exact ⟨h1, h2, h3⟩

/-- What a call on an object with any history gives. -/
theorem edge_core {invSqrt : ℚ → ℚ} {big : ℚ} {geom : MeshGeom} {cellCount : Nat}
    {groups : OMap (List Int)} {tol : ℚ} {nodes : FaceSets} (hg : Grid2D geom)
    (hgr : GroupsOk2D groups) (hf : FacesOk geom groups nodes) {calls : List EdgeCall}
    (hcalls : ∀ c ∈ calls, CallOk2D cellCount c) {c : EdgeCall} (hc : CallOk2D cellCount c) :
    ∃ e0 e e' fd' fn' H, edges2DNew invSqrt big geom cellCount groups tol nodes = some e0 ∧
      edgeRun big e0 calls = some e ∧
      e.post c.env big 2 c.cells c.sel = some (e', resultOf groups c.sel H) ∧
      EdgeStatic invSqrt big geom cellCount groups tol nodes e' ∧ EdgeDyn e' fd' fn' ∧
      ∀ it ∈ c.sel, ∀ a b, Stepped c it a b → PartHit e' fn' big a b (H it) := by
  obtain ⟨e0, h1, h2, h3⟩ := edges2DNew_spec (invSqrt := invSqrt) (big := big) hg hgr hf cellCount tol
  obtain ⟨e, fd, fn, h4, h5, h6⟩ := edgeRun_spec hg calls h2 h3 hcalls
  obtain ⟨e', fd', fn', H, h7, h8, h9, h10⟩ := post_spec hg h5 h6 hc
  exact ⟨e0, e, e', fd', fn', H, h1, h4, h7, h8, h9, h10⟩

theorem partHit_sound {invSqrt : ℚ → ℚ} {big : ℚ} {geom : MeshGeom} {cellCount : Nat}
    {groups : OMap (List Int)} {tol : ℚ} {nodes : FaceSets} {e : Edges2D}
    (hs : EdgeStatic invSqrt big geom cellCount groups tol nodes e)
    {fd : Int → Option (List DevEdge)} {fn : Int → Option (ℚ × ℚ)} (hdyn : EdgeDyn e fd fn)
    {a b : Pt} {h : HitState} (hp : PartHit e fn big a b h) (hflag : h.flag ≠ 0) :
    dist2 a (h.px, h.py) < big ∧
    (∃ v w, EdgeOf nodes groups h.group h.edge v w ∧ CrossesTol tol a b v w (h.px, h.py)) ∧
    (∃ g v w, EdgeOf nodes groups g h.edge v w ∧ (h.nx, h.ny) = edgeNormal invSqrt v w) ∧
    fn h.edge = some (h.nx, h.ny) := by
  obtain ⟨S, hinv, hn, hS, -⟩ := hp
  rcases hinv with ⟨rfl, -⟩ | ⟨h1, h2, h3, ⟨d, hd, h4, h5, h6⟩, -⟩
  · exact absurd rfl hflag
  obtain ⟨c, hdc⟩ := hS d hd
  obtain ⟨f, hfm, -, g, hg, -, rfl⟩ := (mem_cellEdges hs).mp hdc
  simp only at h5 h6
  have hok := (hs.facets f).mp hfm
  refine ⟨by rw [← h2]; exact h3, ⟨(f.x0, f.y0), (f.x1, f.y1), ⟨f.label, ?_, ?_⟩, ?_⟩, ?_, hn h1⟩
  · rw [h5]; exact hg
  · rw [h6]; exact hok.2.1
  · have := h4
    unfold DevEdge.HitAt at this
    rw [hs.tolEq] at this
    exact this
  · obtain ⟨f', hf', he', hv'⟩ := hdyn.from_facet _ _ (hn h1)
    obtain ⟨⟨g', hg'⟩, hin', hnn'⟩ := (hs.facets f').mp hf'
    exact ⟨g', (f'.x0, f'.y0), (f'.x1, f'.y1), ⟨f'.label, hg', by rw [← he']; exact hin'⟩,
      by rw [hv']; exact hnn'⟩

/-- **C88** What `post_integration` reports, after any earlier calls, on every rank and for every
order in which particles are processed: the result has one sub group for each boundary group; it
contains selected particles only, each at most once and in at most one group; the group is the one of
an edge that the step of the particle crosses (up to the tolerance) at the reported point, and the
edge index is the index of this edge. The normal is that of an edge with this index, hence of this
edge if no two edges share an index. -/
theorem C88_reported (invSqrt : ℚ → ℚ) (big : ℚ) {geom : MeshGeom} (cellCount : Nat)
    {groups : OMap (List Int)} (tol : ℚ) {nodes : FaceSets} (hg : Grid2D geom)
    (hgr : GroupsOk2D groups) (hf : FacesOk geom groups nodes) (calls : List EdgeCall)
    (hcalls : ∀ c ∈ calls, CallOk2D cellCount c) {c : EdgeCall} (hc : CallOk2D cellCount c) :
    ∃ e0 e e' m, edges2DNew invSqrt big geom cellCount groups tol nodes = some e0 ∧
      edgeRun big e0 calls = some e ∧ e.post c.env big 2 c.cells c.sel = some (e', m) ∧
      m.map (·.1) = groups.map (·.1) ∧ (∀ x ∈ m, (x.2.map (·.1)).Nodup) ∧
      (∀ g it d, Hit m g it d → it ∈ c.sel) ∧
      (∀ it g g' d d', Hit m g it d → Hit m g' it d' → g = g' ∧ d = d') ∧
      ∀ it a b, Stepped c it a b → ∀ g d, Hit m g it d →
        d.group = g ∧ dist2 a d.point < big ∧
        (∃ v w, EdgeOf nodes groups g d.edge v w ∧ CrossesTol tol a b v w d.point) ∧
        (∃ g' v w, EdgeOf nodes groups g' d.edge v w ∧ d.normal = edgeNormal invSqrt v w) ∧
        ((∀ g g' v v' w w', EdgeOf nodes groups g d.edge v w → EdgeOf nodes groups g' d.edge v' w' →
            v = v' ∧ w = w') →
          ∃ v w, EdgeOf nodes groups g d.edge v w ∧ CrossesTol tol a b v w d.point ∧
            d.normal = edgeNormal invSqrt v w) := by
  obtain ⟨e0, e, e', fd', fn', H, h1, h2, h3, h4, h5, h6⟩ :=
    edge_core (invSqrt := invSqrt) (big := big) (tol := tol) hg hgr hf hcalls hc
  refine ⟨e0, e, e', _, h1, h2, h3, ?_, ?_, ?_, ?_, ?_⟩
  · unfold resultOf
    rw [List.map_map]
    rfl
  · intro x hx
    unfold resultOf at hx
    rw [List.mem_map] at hx
    obtain ⟨g, -, rfl⟩ := hx
    simp only [List.map_map]
    have : ((fun x : (Nat × Nat) × HitData => x.1) ∘ fun it => (it, hitDataOf g.1 (H it))) = id := rfl
    rw [this, List.map_id]
    exact hc.nodup.filter _
  · intro g it d hd
    exact (mem_resultOf.mp hd).2.1
  · intro it g g' d d' hd hd'
    obtain ⟨-, -, -, rfl, rfl⟩ := mem_resultOf.mp hd
    obtain ⟨-, -, -, rfl, rfl⟩ := mem_resultOf.mp hd'
    exact ⟨rfl, rfl⟩
  · intro it a b hab g d hd
    obtain ⟨-, hit, hflag, rfl, rfl⟩ := mem_resultOf.mp hd
    obtain ⟨k1, k2, k3, -⟩ := partHit_sound h4 h5 (h6 it hit a b hab) hflag
    refine ⟨rfl, k1, k2, k3, fun hu => ?_⟩
    obtain ⟨v, w, hvw, hx⟩ := k2
    obtain ⟨g', v', w', hvw', hx'⟩ := k3
    obtain ⟨rfl, rfl⟩ := hu _ _ _ _ _ _ hvw hvw'
    exact ⟨v, w, hvw, hx, hx'⟩

theorem partHit_complete {invSqrt : ℚ → ℚ} {big : ℚ} {geom : MeshGeom} {cellCount : Nat}
    {groups : OMap (List Int)} {tol : ℚ} {nodes : FaceSets} {e : Edges2D} (hg : Grid2D geom)
    (hf : FacesOk geom groups nodes) (htol : 0 ≤ tol)
    (hs : EdgeStatic invSqrt big geom cellCount groups tol nodes e) {fn : Int → Option (ℚ × ℚ)}
    {a b : Pt} {h : HitState} (hp : PartHit e fn big a b h) (htop : BelowTop geom a b)
    {g gid : Int} {v w p : Pt} (he : EdgeOf nodes groups g gid v w) (hcr : Crosses a b v w p)
    (hbig : dist2 a p < big) :
    h.flag ≠ 0 ∧ dist2 a (h.px, h.py) ≤ dist2 a p := by
  obtain ⟨label, hlab, hin⟩ := he
  obtain ⟨v', w', hco, hdv, hdw⟩ := hf g label _ hlab hin
  simp only [List.cons.injEq, and_true] at hco
  have e1 : v = v' := Prod.ext hco.1.1 hco.1.2
  have e2 : w = w' := Prod.ext hco.2.1 hco.2.2
  subst e1
  subst e2
  let f : Facet := ⟨v.1, v.2, w.1, w.2, (edgeNormal invSqrt v w).1, (edgeNormal invSqrt v w).2, label, gid⟩
  have hfm : f ∈ e.facets := (hs.facets f).mpr ⟨⟨g, hlab⟩, hin, rfl⟩
  obtain ⟨x, y, c, hbox, hcell, hfi⟩ := crossing_cell (big := big) hg (f := f) hdv hdw hcr htop
  obtain ⟨S, hinv, -, -, hS⟩ := hp
  have hd : (⟨f.x0, f.y0, f.x1, f.y1, g, f.edge⟩ : DevEdge) ∈ (e.cellEdges c).getD [] :=
    (mem_cellEdges hs).mpr ⟨f, hfm, hfi, g, hlab, (hs.label _ _).mpr hlab, rfl⟩
  have hdS := hS x y c (by rw [hs.geomEq]; exact hbox) (by rw [hs.geomEq]; exact hcell) _ hd
  have hhit : (⟨f.x0, f.y0, f.x1, f.y1, g, f.edge⟩ : DevEdge).HitAt e.tol a b p := by
    unfold DevEdge.HitAt
    rw [hs.tolEq]
    exact crosses_tol hcr htol
  rcases hinv with ⟨-, h2⟩ | ⟨h1, h2, -, -, h5⟩
  · exact absurd (h2 _ hdS p hhit) (not_le.mpr hbig)
  · refine ⟨by rw [h1]; decide, ?_⟩
    rw [← h2]
    exact h5 _ hdS p hhit

theorem partHit_group {invSqrt : ℚ → ℚ} {big : ℚ} {geom : MeshGeom} {cellCount : Nat}
    {groups : OMap (List Int)} {tol : ℚ} {nodes : FaceSets} {e : Edges2D}
    (hs : EdgeStatic invSqrt big geom cellCount groups tol nodes e)
    {fd : Int → Option (List DevEdge)} {fn : Int → Option (ℚ × ℚ)} (hdyn : EdgeDyn e fd fn)
    {a b : Pt} {h : HitState} (hp : PartHit e fn big a b h) (hflag : h.flag ≠ 0) :
    ∃ ls, (h.group, ls) ∈ groups := by
  obtain ⟨-, ⟨v, w, ⟨label, ⟨ls, hls, -⟩, -⟩, -⟩, -⟩ := partHit_sound hs hdyn hp hflag
  exact ⟨ls, hls⟩

/-- **C88** A selected particle whose step crosses an edge of a boundary group is reported, with a
point that is no further from the start of the step than the crossing; so the first crossing is never
passed over. Missing for the full claim: steps that lie on or beyond an upper end of the domain of the
grid in some dimension (`C88_top_missed`). -/
theorem C88_found_partial (invSqrt : ℚ → ℚ) (big : ℚ) {geom : MeshGeom} (cellCount : Nat)
    {groups : OMap (List Int)} {tol : ℚ} {nodes : FaceSets} (hg : Grid2D geom)
    (hgr : GroupsOk2D groups) (hf : FacesOk geom groups nodes) (htol : 0 ≤ tol) (calls : List EdgeCall)
    (hcalls : ∀ c ∈ calls, CallOk2D cellCount c) {c : EdgeCall} (hc : CallOk2D cellCount c) :
    ∃ e0 e e' m, edges2DNew invSqrt big geom cellCount groups tol nodes = some e0 ∧
      edgeRun big e0 calls = some e ∧ e.post c.env big 2 c.cells c.sel = some (e', m) ∧
      ∀ it ∈ c.sel, ∀ a b, Stepped c it a b → BelowTop geom a b →
        ∀ g gid v w p, EdgeOf nodes groups g gid v w → Crosses a b v w p → dist2 a p < big →
        ∃ g' d, Hit m g' it d ∧ dist2 a d.point ≤ dist2 a p := by
  obtain ⟨e0, e, e', fd', fn', H, h1, h2, h3, h4, h5, h6⟩ :=
    edge_core (invSqrt := invSqrt) (big := big) (tol := tol) hg hgr hf hcalls hc
  refine ⟨e0, e, e', _, h1, h2, h3, fun it hit a b hab htop g gid v w p he hcr hbig => ?_⟩
  have hp := h6 it hit a b hab
  obtain ⟨k1, k2⟩ := partHit_complete hg hf htol h4 hp htop he hcr hbig
  exact ⟨(H it).group, hitDataOf (H it).group (H it),
    mem_resultOf.mpr ⟨partHit_group h4 h5 hp k1, hit, k1, rfl, rfl⟩, k2⟩

/-- **C88** Without tolerance the report is exact: a particle is reported if and only if its step
crosses an edge of a boundary group, and the point is the crossing closest to where the step starts,
with the group and index of an edge that is crossed there. Missing for the full claim: as in
`C88_found_partial`. -/
theorem C88_first_crossing_partial (invSqrt : ℚ → ℚ) {big : ℚ} {geom : MeshGeom} (cellCount : Nat)
    {groups : OMap (List Int)} {nodes : FaceSets} (hg : Grid2D geom)
    (hgr : GroupsOk2D groups) (hf : FacesOk geom groups nodes) (calls : List EdgeCall)
    (hcalls : ∀ c ∈ calls, CallOk2D cellCount c) {c : EdgeCall} (hc : CallOk2D cellCount c) :
    ∃ e0 e e' m, edges2DNew invSqrt big geom cellCount groups 0 nodes = some e0 ∧
      edgeRun big e0 calls = some e ∧ e.post c.env big 2 c.cells c.sel = some (e', m) ∧
      ∀ it ∈ c.sel, ∀ a b, Stepped c it a b → BelowTop geom a b → dist2 a b < big →
        ((∃ g d, Hit m g it d) ↔ ∃ g gid v w p, EdgeOf nodes groups g gid v w ∧ Crosses a b v w p) ∧
        ∀ g d, Hit m g it d →
          (∃ v w, EdgeOf nodes groups g d.edge v w ∧ Crosses a b v w d.point) ∧
          ∀ g' gid v w p, EdgeOf nodes groups g' gid v w → Crosses a b v w p →
            dist2 a d.point ≤ dist2 a p := by
  obtain ⟨e0, e, e', fd', fn', H, h1, h2, h3, h4, h5, h6⟩ :=
    edge_core (invSqrt := invSqrt) (big := big) (tol := 0) hg hgr hf hcalls hc
  refine ⟨e0, e, e', _, h1, h2, h3, fun it hit a b hab htop hlen => ?_⟩
  have hp := h6 it hit a b hab
  have hshort : ∀ {v w p}, Crosses a b v w p → dist2 a p < big := by
    rintro v w p ⟨-, ⟨t, ht0, ht1, rfl⟩, -⟩
    refine lt_of_le_of_lt ?_ hlen
    have e1 : dist2 a (ptAlong a b t) = t * t * dist2 a b := by
      unfold dist2 ptAlong; ring
    have e2 : 0 ≤ dist2 a b := by
      unfold dist2
      exact add_nonneg (mul_self_nonneg _) (mul_self_nonneg _)
    rw [e1]
    nlinarith [mul_le_one₀ ht1 ht0 ht1]
  have hsound : ∀ g d, Hit (resultOf groups c.sel H) g it d →
      ∃ v w, EdgeOf nodes groups g d.edge v w ∧ Crosses a b v w d.point := by
    intro g d hd
    obtain ⟨-, -, hflag, rfl, rfl⟩ := mem_resultOf.mp hd
    obtain ⟨-, ⟨v, w, k1, k2⟩, -⟩ := partHit_sound h4 h5 hp hflag
    exact ⟨v, w, k1, crossesTol_zero.mp k2⟩
  refine ⟨⟨?_, ?_⟩, fun g d hd => ⟨hsound g d hd, ?_⟩⟩
  · rintro ⟨g, d, hd⟩
    obtain ⟨v, w, k1, k2⟩ := hsound g d hd
    exact ⟨g, d.edge, v, w, _, k1, k2⟩
  · rintro ⟨g, gid, v, w, p, he, hcr⟩
    obtain ⟨k1, -⟩ := partHit_complete hg hf le_rfl h4 hp htop he hcr (hshort hcr)
    exact ⟨_, _, mem_resultOf.mpr ⟨partHit_group h4 h5 hp k1, hit, k1, rfl, rfl⟩⟩
  · intro g' gid v w p he hcr
    obtain ⟨-, -, -, rfl, rfl⟩ := mem_resultOf.mp hd
    exact (partHit_complete hg hf le_rfl h4 hp htop he hcr (hshort hcr)).2

/-- **C88** The normal mapper finds the normal of every reported edge. -/
theorem C88_normal_get (invSqrt : ℚ → ℚ) (big : ℚ) {geom : MeshGeom} (cellCount : Nat)
    {groups : OMap (List Int)} (tol : ℚ) {nodes : FaceSets} (hg : Grid2D geom)
    (hgr : GroupsOk2D groups) (hf : FacesOk geom groups nodes) (calls : List EdgeCall)
    (hcalls : ∀ c ∈ calls, CallOk2D cellCount c) {c : EdgeCall} (hc : CallOk2D cellCount c) :
    ∃ e0 e e' m, edges2DNew invSqrt big geom cellCount groups tol nodes = some e0 ∧
      edgeRun big e0 calls = some e ∧ e.post c.env big 2 c.cells c.sel = some (e', m) ∧
      ∀ g it d, Hit m g it d → e'.normalGet d.edge = some (true, d.normal) := by
  obtain ⟨e0, e, e', fd', fn', H, h1, h2, h3, h4, h5, h6⟩ :=
    edge_core (invSqrt := invSqrt) (big := big) (tol := tol) hg hgr hf hcalls hc
  refine ⟨e0, e, e', _, h1, h2, h3, fun g it d hd => ?_⟩
  obtain ⟨-, hit, hflag, rfl, rfl⟩ := mem_resultOf.mp hd
  obtain ⟨p, hp, hp1, hp2⟩ := hc.exist it hit
  obtain ⟨b0, b1, hb⟩ := pair_cases hp1
  obtain ⟨a0, a1, ha⟩ := pair_cases hp2
  have hst : Stepped c it (a0, a1) (b0, b1) := by
    unfold Stepped
    rw [hp]
    congr 1
    cases p
    simp only at hb ha
    rw [hb, ha]
  obtain ⟨-, -, -, hn⟩ := partHit_sound h4 h5 (h6 it hit _ _ hst) hflag
  unfold Edges2D.normalGet
  cases hr : e'.normals.root with
  | none =>
    have := h5.norm.root_none hr (H it).edge
    rw [hn] at this; cases this
  | some rn =>
    have hread := h5.norm.nodeRead_some hr hn
    simp only [hitDataOf]
    rw [Option.bind_some, hread, Option.bind_some]
    rfl

/-- **C88, finding** The normal mapper is documented to return false for an edge it does not have.
Before any normal was stored it follows a null pointer instead. -/
theorem C88_normal_get_null (invSqrt : ℚ → ℚ) (big : ℚ) {geom : MeshGeom} (cellCount : Nat)
    {groups : OMap (List Int)} (tol : ℚ) {nodes : FaceSets} (hg : Grid2D geom)
    (hgr : GroupsOk2D groups) (hf : FacesOk geom groups nodes) (edge : Int) :
    ∃ e0, edges2DNew invSqrt big geom cellCount groups tol nodes = some e0 ∧
      e0.normalGet edge = none := by
  obtain ⟨e0, h1, h2, h3⟩ := edges2DNew_spec (invSqrt := invSqrt) (big := big) hg hgr hf cellCount tol
  refine ⟨e0, h1, ?_⟩
  have : e0.normals = BlockedTree.create _ := by
    unfold edges2DNew at h1
    simp only [Option.bind_eq_some_iff, Option.map_eq_some_iff] at h1
    obtain ⟨_, _, _, _, _, _, _, _, rfl⟩ := h1
    rfl
  unfold Edges2D.normalGet
  rw [this]
  rfl

theorem findParticle_three {e : Edges2D} (hg : Grid2D e.geom) (big : ℚ) (root : Nat)
    (p : EdgeParticle) (h : HitState) (hh : e.findParticle big root 3 p = some h) : h.flag = 0 := by
  obtain ⟨n0, n1, o0, o1, hd, ho, -⟩ := hg.cases
  unfold Edges2D.findParticle at hh
  simp only [Option.bind_eq_some_iff] at hh
  obtain ⟨prev, -, curr, -, ci, hci, cj, hcj, a0, -, a1, -, b0, -, b1, -, hh⟩ := hh
  have hlen : ∀ {p : List ℚ} {ci : List Int}, e.geom.mapToCartNoTrunc p = some ci → ci.length = 2 := by
    intro p ci hci
    unfold MeshGeom.mapToCartNoTrunc MeshHierarchy.ndim at hci
    rw [hd] at hci
    have hr : List.range [n0, n1].length = [0, 1] := rfl
    rw [hr] at hci
    simp only [forAllM, Option.bind_eq_some_iff] at hci
    obtain ⟨x, -, xs, ⟨y, -, ys, hys, hxs⟩, hci⟩ := hci
    cases hys; cases hxs; cases hci; rfl
  have hz : loopEnds e.geom 3 ci cj 2 = (0, 0) := by
    unfold loopEnds cellBounds
    rw [if_pos (by omega), hd, List.getElem?_eq_none (by simp),
      List.getElem?_eq_none (by rw [hlen hci]), List.getElem?_eq_none (by rw [hlen hcj])]
    rfl
  rw [hz] at hh
  have hb : ∀ x y : Int × Int, boxTuples x y (0, 0) = [] := fun _ _ => rfl
  rw [hb] at hh
  cases hh
  rfl

theorem foldlM_keeps {α σ : Type} {f : σ → α → Option σ} (I : σ → Prop)
    (h : ∀ s a s', f s a = some s' → I s → I s') (l : List α) : ∀ {s s' : σ},
    l.foldlM f s = some s' → I s → I s' := by
  induction l with
  | nil => intro s s' hs hi; cases hs; exact hi
  | cons a l ih =>
    intro s s' hs hi
    rw [List.foldlM_cons] at hs
    cases hf : f s a with
    | none => rw [hf] at hs; cases hs
    | some s1 => rw [hf] at hs; exact ih hs (h _ _ _ hf hi)

theorem runItems_stays {ι σ : Type} {step : ι → σ → Option σ} (I : σ → Prop)
    (h : ∀ i s s', step i s = some s' → I s → I s') (l : List ι) : ∀ {s s' : σ},
    runItems step l s = some s' → I s → I s' := by
  induction l with
  | nil => intro s s' hs hi; cases hs; exact hi
  | cons a l ih =>
    intro s s' hs hi
    rw [runItems_cons] at hs
    cases hf : step a s with
    | none => rw [hf] at hs; cases hs
    | some s1 => rw [hf] at hs; exact ih hs (h _ _ _ hf hi)

theorem mem_of_mapM {α β : Type} {f : α → Option β} {l : List α} {l' : List β}
    (h : l.mapM f = some l') {y : β} (hy : y ∈ l') : ∃ x ∈ l, f x = some y := by
  induction l generalizing l' with
  | nil => simp at h; subst h; simp at hy
  | cons a l ih =>
    simp only [List.mapM_cons, Option.bind_eq_bind, Option.bind_eq_some_iff, Option.pure_def,
      Option.some.injEq] at h
    obtain ⟨b, hb, bs, hbs, rfl⟩ := h
    rcases List.mem_cons.mp hy with rfl | hy
    · exact ⟨a, List.mem_cons_self, hb⟩
    · obtain ⟨x, hx, hfx⟩ := ih hbs hy
      exact ⟨x, List.mem_cons_of_mem _ hx, hfx⟩

theorem mem_of_collected {α β : Type} {f : α → Option (List β)} {l : List α} {l' : List β}
    (h : collectM f l = some l') {y : β} (hy : y ∈ l') : ∃ x ∈ l, ∃ ys, f x = some ys ∧ y ∈ ys := by
  induction l generalizing l' with
  | nil => cases h; simp at hy
  | cons a l ih =>
    obtain ⟨b, h1, h⟩ := Option.bind_eq_some_iff.1 h
    obtain ⟨bs, h2, h⟩ := Option.bind_eq_some_iff.1 h
    cases h
    rcases List.mem_append.mp hy with hy | hy
    · exact ⟨a, List.mem_cons_self, b, h1, hy⟩
    · obtain ⟨x, hx, hfx⟩ := ih h2 hy
      exact ⟨x, List.mem_cons_of_mem _ hx, hfx⟩

theorem collectCells_geom {env : EdgeEnv} {e e' : Edges2D} {l : List Int}
    (h : e.collectCells env l = some e') : e'.geom = e.geom := by
  refine foldlM_keeps (fun s : Edges2D => s.geom = e.geom) (fun s c s' hs hi => ?_) l h rfl
  unfold collectCell at hs
  rw [Option.map_eq_some_iff] at hs
  obtain ⟨s1, hs1, rfl⟩ := hs
  show s1.geom = e.geom
  cases hm : omGet s.cellFacets c with
  | none => rw [hm] at hs1; cases hs1; exact hi
  | some ixs =>
    rw [hm] at hs1
    simp only [Option.bind_eq_some_iff, Option.map_eq_some_iff] at hs1
    obtain ⟨q, hq, t, -, rfl⟩ := hs1
    show q.1.geom = e.geom
    refine foldlM_keeps (fun q : Edges2D × List DevEdge => q.1.geom = e.geom)
      (fun q ix q' hq hi => ?_) ixs hq hi
    unfold collectEdge at hq
    simp only [Option.bind_eq_some_iff] at hq
    obtain ⟨k, -, f, -, g, -, hq⟩ := hq
    split at hq
    · cases hq; exact hi
    · rw [Option.map_eq_some_iff] at hq
      obtain ⟨t, -, rfl⟩ := hq
      exact hi

theorem findIntersections_three {e : Edges2D} (hg : Grid2D e.geom) {env : EdgeEnv} {big : ℚ}
    {cells : List (List EdgeParticle)} {sel : List (Nat × Nat)} {buf buf' : HitBuf}
    (h : e.findIntersections env big 3 cells sel buf = some buf') : buf' = buf := by
  unfold Edges2D.findIntersections at h
  cases hr : e.discovery.root with
  | none => rw [hr] at h; cases h; rfl
  | some root =>
    rw [hr] at h
    refine runItems_stays (fun b => b = buf) (fun it s s' hs hi => ?_) _ h rfl
    simp only [Option.bind_eq_some_iff] at hs
    obtain ⟨p, -, x, hx, hs⟩ := hs
    rw [if_neg (by rw [findParticle_three hg big root p x hx]; decide)] at hs
    cases hs
    exact hi

/-- **C88, finding** If positions have three components on a two dimensional mesh, which the checks
allow, then no particle is ever reported, whatever its step crosses. -/
theorem C88_three_components {e e' : Edges2D} (hg : Grid2D e.geom) (env : EdgeEnv) (big : ℚ)
    (cells : List (List EdgeParticle)) (sel : List (Nat × Nat))
    (m : List (Int × List ((Nat × Nat) × HitData)))
    (h : e.post env big 3 cells sel = some (e', m)) (g : Int) (it : Nat × Nat) (d : HitData) :
    ¬ Hit m g it d := by
  rintro ⟨l, hl, hd⟩
  unfold Edges2D.post at h
  simp only [Option.bind_eq_some_iff, Option.map_eq_some_iff, Prod.mk.injEq] at h
  obtain ⟨req, -, e1, he1, buf, hbuf, sel', -, m', hm', -, rfl⟩ := h
  have hb := findIntersections_three (by rw [collectCells_geom he1]; exact hg) hbuf
  obtain ⟨x, -, hx⟩ := mem_of_mapM hm' hl
  rw [Option.map_eq_some_iff] at hx
  obtain ⟨l', hl', he⟩ := hx
  cases he
  unfold hitGroup at hl'
  rw [Option.bind_eq_some_iff] at hl'
  obtain ⟨items, hi, hl'⟩ := hl'
  obtain ⟨y, hy, -⟩ := mem_of_mapM hl' hd
  obtain ⟨z, -, ys, hys, hyz⟩ := mem_of_collected hi hy
  simp only [Option.bind_eq_some_iff, Option.map_eq_some_iff] at hys
  obtain ⟨ix, -, v, hv, hys⟩ := hys
  rw [hb] at hv
  have hv0 : v = (0, 0, 0) := List.eq_of_mem_replicate (List.mem_of_getElem? hv)
  rw [hv0] at hys
  rw [← hys] at hyz
  simp at hyz

/-! ## Before the step -/

/-- **C88** `pre_integration` copies the position of each particle to its earlier position, whatever
the order of the particles, and changes nothing else. -/
theorem C88_pre (s : Sched) (ndim : Nat) {sel : List (Nat × Nat)} (hnd : sel.Nodup)
    {cells : List (List EdgeParticle)} (h : ∀ it ∈ sel, ∃ p, rd2 cells it = some p ∧
      ndim ≤ p.pos.length ∧ ndim ≤ p.prev.length) :
    ∃ cells', edgePre s ndim sel cells = some cells' ∧ cells'.length = cells.length ∧
      (∀ it ∈ sel, ∀ p, rd2 cells it = some p →
        rd2 cells' it = some ⟨p.pos, p.pos.take ndim ++ p.prev.drop ndim⟩) ∧
      ∀ it, it ∉ sel → rd2 cells' it = rd2 cells it := by
  have hperm := s.perm sel
  obtain ⟨cells', h1, h2, h3, h4⟩ := runItems_invariant
    (step := fun it (cells : List (List EdgeParticle)) => (rd2 cells it).bind fun p =>
      (forLoop 0 ndim (fun d pp => (rd p.pos d).bind fun v => st pp d v) p.prev).bind fun pp =>
      st2 cells it { p with prev := pp }) (items := s.order sel) (s := cells)
    (P := fun done cs => cs.length = cells.length ∧ (∀ it ∈ done, ∀ p, rd2 cells it = some p →
        rd2 cs it = some ⟨p.pos, p.pos.take ndim ++ p.prev.drop ndim⟩) ∧
      ∀ it, it ∉ done → rd2 cs it = rd2 cells it) (by
    rintro pre it post cs hs ⟨k1, k2, k3⟩
    have hmem : it ∈ sel := hperm.mem_iff.mp (by rw [hs]; simp)
    have hni : it ∉ pre := by
      have := hperm.nodup_iff.mpr hnd
      rw [hs, List.nodup_append] at this
      exact fun hc => this.2.2 _ hc it (by simp) rfl
    obtain ⟨p, hp, hl1, hl2⟩ := h it hmem
    have hp' : rd2 cs it = some p := by rw [k3 it hni, hp]
    obtain ⟨pp, hpp, he⟩ := forLoop_invariant (a := 0) (b := ndim) (s := p.prev)
      (step := fun d pp => (rd p.pos d).bind fun v => st pp d v)
      (P := fun i pp => pp = p.pos.take i ++ p.prev.drop i) (Nat.zero_le _) (by
        rintro i q - hi rfl
        obtain ⟨v, hv⟩ : ∃ v, p.pos[i]? = some v := ⟨_, List.getElem?_eq_getElem (by omega)⟩
        refine ⟨p.pos.take (i + 1) ++ p.prev.drop (i + 1), ?_, rfl⟩
        have hd : p.prev.drop i = p.prev[i]'(by omega) :: p.prev.drop (i + 1) :=
          List.drop_eq_getElem_cons (by omega)
        simp only [rd, hv, Option.bind_some]
        unfold st
        rw [if_pos (by simp; omega), hd, List.set_append_right _ _ (by simp)]
        have hz : i - (p.pos.take i).length = 0 := by rw [List.length_take]; omega
        rw [hz, List.set_cons_zero, List.take_add_one, hv]
        simp) (by simp)
    obtain ⟨cs', hc1, hc2, hc3, hc4⟩ := st2_spec (v := { p with prev := pp }) hp'
    refine ⟨cs', ?_, by rw [hc4, k1], ?_, ?_⟩
    · simp only [hp', Option.bind_some, hpp, hc1]
    · intro it' hit' p' hp2
      by_cases hii : it' = it
      · rw [hii] at hp2 ⊢
        rw [hp] at hp2
        cases hp2
        rw [hc2, he]
      · rcases List.mem_append.mp hit' with hm | hm
        · rw [hc3 it' hii]; exact k2 it' hm p' hp2
        · exact absurd (List.mem_singleton.mp hm) hii
    · intro it' hit'
      rw [List.mem_append, not_or, List.mem_singleton] at hit'
      rw [hc3 it' hit'.2, k3 it' hit'.1]) ⟨rfl, by simp, by simp⟩
  exact ⟨cells', h1, h2, fun it hit => h3 it (hperm.mem_iff.mpr hit),
    fun it hit => h4 it fun hc => hit (hperm.mem_iff.mp hc)⟩

/-! ## Construction -/

theorem labelGroups_neg {gs : OMap (List Int)} : ∀ {m m' : OMap Int},
    gs.foldlM (fun m g =>
        if 0 ≤ g.1 then some (g.2.foldl (fun m l => omPut m l g.1) m) else none) m = some m' →
    ∀ g ∈ gs, 0 ≤ g.1 := by
  induction gs with
  | nil => intro m m' _ g hg; simp at hg
  | cons x gs ih =>
    intro m m' h g hg
    rw [List.foldlM_cons] at h
    by_cases hx : 0 ≤ x.1
    · rw [if_pos hx] at h
      rcases List.mem_cons.mp hg with rfl | hg
      · exact hx
      · exact ih h g hg
    · rw [if_neg hx] at h
      cases h

theorem addLabels_some {ls : List Int} : ∀ {labels labels' : List Int},
    ls.foldlM (fun labels l =>
        if labels.contains l then none else some (intSetInsert l labels)) labels = some labels' →
    (∀ l ∈ ls, l ∉ labels) ∧ ∀ x, x ∈ ls ∨ x ∈ labels → x ∈ labels' := by
  induction ls with
  | nil => intro labels labels' h; cases h; exact ⟨by simp, by simp⟩
  | cons l ls ih =>
    intro labels labels' h
    rw [List.foldlM_cons] at h
    by_cases hc : labels.contains l = true
    · rw [if_pos hc] at h; cases h
    · rw [if_neg hc] at h
      obtain ⟨h1, h2⟩ := ih h
      refine ⟨fun x hx => ?_, fun x hx => ?_⟩
      · rcases List.mem_cons.mp hx with rfl | hx
        · rwa [List.contains_iff_mem] at hc
        · exact fun hm => h1 x hx (mem_intSetInsert.mpr (Or.inr hm))
      · apply h2
        rw [mem_intSetInsert]
        rcases hx with hx | hx
        · rcases List.mem_cons.mp hx with rfl | hx
          · exact Or.inr (Or.inl rfl)
          · exact Or.inl hx
        · exact Or.inr (Or.inr hx)

theorem getLabels_some {gs : OMap (List Int)} : ∀ {labels labels' : List Int},
    gs.foldlM (fun labels g =>
      (g.2.foldl (fun s l => intSetInsert l s) []).foldlM (fun labels l =>
        if labels.contains l then none else some (intSetInsert l labels)) labels) labels = some labels' →
    (∀ g ∈ gs, ∀ l ∈ g.2, l ∉ labels) ∧ gs.Pairwise (fun x y => ∀ l ∈ x.2, l ∉ y.2) := by
  induction gs with
  | nil => intro labels labels' _; exact ⟨by simp, List.Pairwise.nil⟩
  | cons g gs ih =>
    intro labels labels' h
    rw [List.foldlM_cons] at h
    cases h1 : (g.2.foldl (fun s l => intSetInsert l s) []).foldlM (fun labels l =>
        if labels.contains l then none else some (intSetInsert l labels)) labels with
    | none => rw [h1] at h; cases h
    | some l1 =>
      rw [h1] at h
      obtain ⟨k1, k2⟩ := ih h
      obtain ⟨m1, m2⟩ := addLabels_some h1
      have hset : ∀ x, x ∈ g.2.foldl (fun s l => intSetInsert l s) [] ↔ x ∈ g.2 := fun x => by
        rw [(setOf_spec g.2 [] List.Pairwise.nil).2]; simp
      refine ⟨fun g' hg' l hl => ?_, List.Pairwise.cons (fun y hy l hl hl' => ?_) k2⟩
      · rcases List.mem_cons.mp hg' with rfl | hg'
        · exact m1 l ((hset l).mpr hl)
        · exact fun hm => k1 g' hg' l hl (m2 l (Or.inr hm))
      · exact k1 y hy l hl' (m2 l (Or.inl ((hset l).mpr hl)))

/-- **C88** A negative group or a label in two groups is rejected when the object is created. -/
theorem C88_rejected (invSqrt : ℚ → ℚ) (big : ℚ) (geom : MeshGeom) (cellCount : Nat)
    (groups : OMap (List Int)) (tol : ℚ) (nodes : FaceSets) (hk : OMapOk groups)
    (hbad : ¬ GroupsOk2D groups) :
    edges2DNew invSqrt big geom cellCount groups tol nodes = none := by
  cases h : edges2DNew invSqrt big geom cellCount groups tol nodes with
  | none => rfl
  | some e =>
    exfalso
    apply hbad
    unfold edges2DNew at h
    simp only [Option.bind_eq_some_iff, Option.map_eq_some_iff] at h
    obtain ⟨lg, h1, labels, h2, -⟩ := h
    refine ⟨hk, labelGroups_neg h1, ?_⟩
    obtain ⟨-, hp⟩ := getLabels_some h2
    rintro g g' l ⟨ls, hm, hl⟩ ⟨ls', hm', hl'⟩
    by_contra hne
    exact (by
      obtain ⟨i, hi⟩ := List.getElem?_of_mem hm
      obtain ⟨j, hj⟩ := List.getElem?_of_mem hm'
      obtain ⟨hi1, hi2⟩ := List.getElem?_eq_some_iff.mp hi
      obtain ⟨hj1, hj2⟩ := List.getElem?_eq_some_iff.mp hj
      rcases Nat.lt_trichotomy i j with hlt | rfl | hlt
      · have := List.pairwise_iff_getElem.mp hp i j hi1 hj1 hlt
        rw [hi2, hj2] at this
        exact this l hl hl'
      · rw [hi2] at hj2
        exact hne (congrArg Prod.fst hj2)
      · have := List.pairwise_iff_getElem.mp hp j i hj1 hi1 hlt
        rw [hi2, hj2] at this
        exact this l hl' hl)

end NP

namespace NP.Ex

open Spec

/-- A domain of two by two cells from the origin, and the left and right side of it as boundary. The
right side is on another node. -/
def edGeom : MeshGeom := ⟨⟨[2, 2], 0⟩, [0, 0], 1⟩

def edGroups : OMap (List Int) := [(1, [10]), (2, [20, 21])]

def edNodes : FaceSets :=
  [[[(10, [⟨[[0, 0], [0, 2]], 100⟩])], []], [[(15, [⟨[[0, 0]], 7⟩]), (21, [⟨[[2, 0], [2, 2]], 103⟩])]]]

def edInv : ℚ → ℚ := fun _ => 1 / 2

def edEnv (s : Sched) : EdgeEnv where
  s0 := s
  s1 := s
  nodeD := fun _ => ⟨0, none, none, List.replicate 8 true, List.replicate 8 []⟩
  nodeN := fun _ => ⟨0, none, none, List.replicate 8 true, List.replicate 8 (0, 0)⟩
  reals := fun n => ⟨List.replicate n (7, 7, 7, 7), by simp⟩

/-- The first particle leaves to the right, the second stays, the third leaves to the left, the fourth
starts on the right side and moves out, the fifth starts on the left side and moves out. -/
def edCall (s : Sched) : EdgeCall where
  env := edEnv s
  cells := [[⟨[3, 1], [1, 1]⟩], [⟨[1, 3 / 2], [1, 1]⟩, ⟨[-1, 1 / 2], [1, 1 / 2]⟩, ⟨[3, 1], [2, 1]⟩,
    ⟨[-1, 1], [0, 1]⟩]]
  sel := [(0, 0), (1, 0), (1, 1), (1, 2), (1, 3)]

theorem edGrid : Grid2D edGeom :=
  ⟨⟨⟨by decide, by decide⟩, rfl, by decide +kernel⟩, rfl, by decide⟩

theorem edLabel {g label : Int} (h : LabelIn edGroups g label) :
    (g = 1 ∧ label = 10) ∨ (g = 2 ∧ (label = 20 ∨ label = 21)) := by
  obtain ⟨ls, h, hl⟩ := h
  simp only [edGroups, List.mem_cons, Prod.mk.injEq, List.not_mem_nil, or_false] at h
  rcases h with ⟨rfl, rfl⟩ | ⟨rfl, rfl⟩ <;> simpa using hl

theorem edGroupsOk : GroupsOk2D edGroups := by
  refine ⟨by unfold OMapOk; decide, by decide, fun g g' label h h' => ?_⟩
  rcases edLabel h with ⟨rfl, rfl⟩ | ⟨rfl, rfl | rfl⟩ <;>
    rcases edLabel h' with ⟨rfl, h⟩ | ⟨rfl, h | h⟩ <;> first | rfl | cases h

theorem edPoint {label : Int} {pt : FacePoint} (h : InFaceSet edNodes label pt) :
    (label = 10 ∧ pt = ⟨[[0, 0], [0, 2]], 100⟩) ∨ (label = 15 ∧ pt = ⟨[[0, 0]], 7⟩) ∨
      (label = 21 ∧ pt = ⟨[[2, 0], [2, 2]], 103⟩) := by
  obtain ⟨node, hn, sets, hs, pts, hp, hpt⟩ := h
  simp only [edNodes, List.mem_cons, List.not_mem_nil, or_false] at hn
  rcases hn with rfl | rfl
  · simp only [List.mem_cons, List.not_mem_nil, or_false] at hs
    rcases hs with rfl | rfl
    · simp only [List.mem_cons, Prod.mk.injEq, List.not_mem_nil, or_false] at hp
      obtain ⟨rfl, rfl⟩ := hp
      exact Or.inl ⟨rfl, by simpa using hpt⟩
    · simp at hp
  · simp only [List.mem_cons, List.not_mem_nil, or_false] at hs
    subst hs
    simp only [List.mem_cons, Prod.mk.injEq, List.not_mem_nil, or_false] at hp
    rcases hp with ⟨rfl, rfl⟩ | ⟨rfl, rfl⟩
    · exact Or.inr (Or.inl ⟨rfl, by simpa using hpt⟩)
    · exact Or.inr (Or.inr ⟨rfl, by simpa using hpt⟩)

theorem edDomain {x y : ℚ} (h : 0 ≤ x ∧ x ≤ 2 ∧ 0 ≤ y ∧ y ≤ 2) : InDomain edGeom [x, y] := by
  refine ⟨rfl, fun d n o z hn ho hz => ?_⟩
  have e : ((2 : Int) : ℚ) = 2 := by norm_num
  match d with
  | 0 => cases hn; cases ho; cases hz; simp only [edGeom, e, zero_add, mul_one]; exact ⟨h.1, h.2.1⟩
  | 1 => cases hn; cases ho; cases hz; simp only [edGeom, e, zero_add, mul_one]; exact ⟨h.2.2.1, h.2.2.2⟩
  | d + 2 => cases hn

theorem edFaces : FacesOk edGeom edGroups edNodes := by
  intro g label pt hl hp
  rcases edPoint hp with ⟨rfl, rfl⟩ | ⟨rfl, rfl⟩ | ⟨rfl, rfl⟩
  · exact ⟨(0, 0), (0, 2), rfl, edDomain (by norm_num), edDomain (by norm_num)⟩
  · rcases edLabel hl with ⟨-, h⟩ | ⟨-, h | h⟩ <;> cases h
  · exact ⟨(2, 0), (2, 2), rfl, edDomain (by norm_num), edDomain (by norm_num)⟩

theorem edCallOk (s : Sched) : CallOk2D 2 (edCall s) := by
  refine ⟨rfl, fun it hit => ?_, by simp [edCall], fun _ => ⟨rfl, rfl⟩, fun _ => ⟨rfl, rfl⟩⟩
  simp only [edCall, List.mem_cons, List.not_mem_nil, or_false] at hit
  rcases hit with rfl | rfl | rfl | rfl | rfl <;> exact ⟨_, rfl, rfl, rfl⟩

/-- The right side is an edge of group 2, the left side one of group 1. -/
theorem edRight : EdgeOf edNodes edGroups 2 103 (2, 0) (2, 2) :=
  ⟨21, ⟨[20, 21], by decide, by decide⟩, _, List.mem_cons_of_mem _ List.mem_cons_self, _,
    List.mem_cons_self, _, List.mem_cons_of_mem _ List.mem_cons_self, List.mem_cons_self⟩

theorem edLeft : EdgeOf edNodes edGroups 1 100 (0, 0) (0, 2) :=
  ⟨10, ⟨[10], by decide, by decide⟩, _, List.mem_cons_self, _, List.mem_cons_self, _,
    List.mem_cons_self, List.mem_cons_self⟩

/-- What is reported. -/
theorem edResult : ((edges2DNew edInv 1000 edGeom 2 edGroups 0 edNodes).bind fun e =>
    (e.post (edEnv Sched.inOrder) 1000 2 (edCall Sched.inOrder).cells (edCall Sched.inOrder).sel).map
      (·.2)) =
    some [(1, [((1, 1), ⟨(0, 1 / 2), (-1, 0), 1, 100⟩), ((1, 3), ⟨(0, 1), (-1, 0), 1, 100⟩)]),
      (2, [((0, 0), ⟨(2, 1), (-1, 0), 2, 103⟩)])] := by decide +kernel

example : ((edges2DNew edInv 1000 edGeom 2 edGroups 0 edNodes).bind fun e =>
    (e.post (edEnv Sched.reversed) 1000 2 (edCall Sched.inOrder).cells (edCall Sched.inOrder).sel).map
      (·.2)) =
    some [(1, [((1, 1), ⟨(0, 1 / 2), (-1, 0), 1, 100⟩), ((1, 3), ⟨(0, 1), (-1, 0), 1, 100⟩)]),
      (2, [((0, 0), ⟨(2, 1), (-1, 0), 2, 103⟩)])] := by decide +kernel

theorem edBelow {a b : Pt} (h : min a.1 b.1 < 2) (h' : min a.2 b.2 < 2) : BelowTop edGeom a b := by
  intro d n o x y hn ho hx hy
  have e : ((2 : Int) : ℚ) = 2 := by norm_num
  match d with
  | 0 => cases hn; cases ho; cases hx; cases hy; simp only [edGeom, e, zero_add, mul_one]; exact h
  | 1 => cases hn; cases ho; cases hx; cases hy; simp only [edGeom, e, zero_add, mul_one]; exact h'
  | d + 2 => cases hn

/-- The hypotheses of C88_reported, C88_found_partial, C88_first_crossing_partial and C88_normal_get
are met, for a second call on the object; the first particle crosses the right side. -/
example (s t : Sched) : ∃ e0 e e' m, edges2DNew edInv 1000 edGeom 2 edGroups 0 edNodes = some e0 ∧
    edgeRun 1000 e0 [edCall s] = some e ∧
    e.post (edEnv t) 1000 2 (edCall t).cells (edCall t).sel = some (e', m) ∧
    ∃ g d, Hit m g (0, 0) d ∧ dist2 (1, 1) d.point ≤ 1 := by
  obtain ⟨e0, e, e', m, h1, h2, h3, h4⟩ := C88_found_partial edInv 1000 2 edGrid edGroupsOk edFaces
    (tol := 0) le_rfl [edCall s] (by simp only [List.mem_singleton]; rintro c rfl; exact edCallOk s)
    (edCallOk t)
  refine ⟨e0, e, e', m, h1, h2, h3, ?_⟩
  obtain ⟨g, d, hd, hle⟩ := h4 (0, 0) (by simp [edCall]) (1, 1) (3, 1) rfl
    (edBelow (by norm_num) (by norm_num)) 2 103 _ _ (2, 1) edRight
    ⟨by unfold NotParallel; norm_num, ⟨1 / 2, by norm_num, by norm_num, by unfold ptAlong; norm_num⟩,
      ⟨1 / 2, by norm_num, by norm_num, by unfold ptAlong; norm_num⟩⟩ (by unfold dist2; norm_num)
  exact ⟨g, d, hd, le_trans hle (by unfold dist2; norm_num)⟩

/-- The hypothesis of C88_normal. -/
example : edInv (dist2 (2, 0) (2, 2)) * edInv (dist2 (2, 0) (2, 2)) * dist2 (2, 0) (2, 2) = 1 := by
  decide +kernel

/-- C88_three_components: the first particle, with positions of three components, is not reported. -/
example : ((edges2DNew edInv 1000 edGeom 2 edGroups 0 edNodes).bind fun e =>
    (e.post (edEnv Sched.inOrder) 1000 3 [[⟨[3, 1, 0], [1, 1, 0]⟩], []] [(0, 0)]).map (·.2)) =
    some [(1, []), (2, [])] := by decide +kernel

/-- C88_pre: the second particle is not selected. -/
example : edgePre Sched.reversed 2 [(0, 0), (1, 1)]
    [[⟨[1, 2], [0, 0, 9]⟩], [⟨[3, 4], [0, 0]⟩, ⟨[5, 6, 7], [1, 1]⟩]] =
    some [[⟨[1, 2], [1, 2, 9]⟩], [⟨[3, 4], [0, 0]⟩, ⟨[5, 6, 7], [5, 6]⟩]] := by decide +kernel

/-- C88_rejected: label 10 is in two groups. -/
example : ¬ GroupsOk2D [(1, [10]), (2, [20, 10])] := fun h =>
  absurd (h.disjoint 1 2 10 ⟨_, List.mem_cons_self, by decide⟩
    ⟨_, List.mem_cons_of_mem _ List.mem_cons_self, by decide⟩) (by decide)

end NP.Ex

namespace NP

open Spec Ex

/-- **C88, finding** A step that starts on the upper end of the domain of the grid and moves out
crosses the edge there and is not reported; the mirrored step at the lower end is. -/
theorem C88_top_missed : ∃ geom groups nodes c e0 e' m, Grid2D geom ∧ GroupsOk2D groups ∧
    FacesOk geom groups nodes ∧ CallOk2D 2 c ∧
    edges2DNew edInv 1000 geom 2 groups 0 nodes = some e0 ∧
    e0.post c.env 1000 2 c.cells c.sel = some (e', m) ∧
    (∃ it ∈ c.sel, Stepped c it (2, 1) (3, 1) ∧ EdgeOf nodes groups 2 103 (2, 0) (2, 2) ∧
      Crosses (2, 1) (3, 1) (2, 0) (2, 2) (2, 1) ∧ ¬ ∃ g d, Hit m g it d) ∧
    ∃ it ∈ c.sel, Stepped c it (0, 1) (-1, 1) ∧ EdgeOf nodes groups 1 100 (0, 0) (0, 2) ∧
      Crosses (0, 1) (-1, 1) (0, 0) (0, 2) (0, 1) ∧ ∃ d, Hit m 1 it d ∧ d.point = (0, 1) := by
  have h := edResult
  rw [Option.bind_eq_some_iff] at h
  obtain ⟨e0, h0, h⟩ := h
  rw [Option.map_eq_some_iff] at h
  obtain ⟨⟨e', m⟩, h1, h2⟩ := h
  simp only at h2
  subst h2
  refine ⟨_, _, _, edCall Sched.inOrder, e0, e', _, edGrid, edGroupsOk, edFaces, edCallOk _, h0, h1,
    ⟨(1, 2), by decide, rfl, edRight, ⟨by unfold NotParallel; norm_num,
      ⟨0, by norm_num, by norm_num, by unfold ptAlong; norm_num⟩,
      ⟨1 / 2, by norm_num, by norm_num, by unfold ptAlong; norm_num⟩⟩, ?_⟩,
    ⟨(1, 3), by decide, rfl, edLeft, ⟨by unfold NotParallel; norm_num,
      ⟨0, by norm_num, by norm_num, by unfold ptAlong; norm_num⟩,
      ⟨1 / 2, by norm_num, by norm_num, by unfold ptAlong; norm_num⟩⟩,
      ⟨⟨(0, 1), (-1, 0), 1, 100⟩, ⟨_, List.mem_cons_self, by simp⟩, rfl⟩⟩⟩
  rintro ⟨g, d, l, hl, hd⟩
  simp only [List.mem_cons, Prod.mk.injEq, List.not_mem_nil, or_false] at hl
  rcases hl with ⟨rfl, rfl⟩ | ⟨rfl, rfl⟩ <;> simp at hd

end NP
