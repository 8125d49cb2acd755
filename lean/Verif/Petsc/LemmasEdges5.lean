import Verif.Petsc.LemmasEdges4

/-!
# Lemmas: results of a call
-/

set_option autoImplicit false

namespace NP

open Spec

theorem isParticle_of_rd2 {cells : List (List EdgeParticle)} {it : Nat × Nat} {p : EdgeParticle}
    (h : rd2 cells it = some p) : IsParticle (edgeNpart cells) it.1 it.2 := by
  unfold rd2 at h
  simp only [rd] at h
  cases hc : cells[it.1]? with
  | none => rw [hc] at h; cases h
  | some row =>
    rw [hc, Option.bind_some] at h
    refine ⟨row.length, ?_, (List.getElem?_eq_some_iff.mp h).1⟩
    unfold edgeNpart
    rw [List.getElem?_map, hc]
    rfl

/-- The index of a particle of a call. -/
theorem linIndex {cellCount : Nat} {c : EdgeCall} (hc : CallOk2D cellCount c) {it : Nat × Nat}
    (hit : it ∈ c.sel) : ∃ ix, localLinearIndex (edgeNpart c.cells) it.1 it.2 = some ix ∧
      ix < (edgeNpart c.cells).sum := by
  obtain ⟨p, hp, -⟩ := hc.exist it hit
  exact (C09_local_linear_index _).1 _ _ (isParticle_of_rd2 hp)

theorem linIndex_inj {cellCount : Nat} {c : EdgeCall} (hc : CallOk2D cellCount c) {it it' : Nat × Nat}
    (hit : it ∈ c.sel) (hit' : it' ∈ c.sel) {ix : Nat}
    (h : localLinearIndex (edgeNpart c.cells) it.1 it.2 = some ix)
    (h' : localLinearIndex (edgeNpart c.cells) it'.1 it'.2 = some ix) : it = it' := by
  obtain ⟨p, hp, -⟩ := hc.exist it hit
  obtain ⟨p', hp', -⟩ := hc.exist it' hit'
  have k := (C09_local_linear_index (edgeNpart c.cells)).2.2
  have h1 := k it it' ix ix (isParticle_of_rd2 hp) (isParticle_of_rd2 hp') h h'
  have h2 := k it' it ix ix (isParticle_of_rd2 hp') (isParticle_of_rd2 hp) h' h
  have n1 := mt h1.mp (lt_irrefl _)
  have n2 := mt h2.mp (lt_irrefl _)
  unfold Before at n1 n2
  apply Prod.ext <;> omega

/-- The entries of the buffers for a particle whose search gave `h`. -/
def BufAt (npart : List Nat) (buf : HitBuf) (it : Nat × Nat) (h : HitState) : Prop :=
  ∃ ix, localLinearIndex npart it.1 it.2 = some ix ∧
    buf.ints[ix]? = some (if h.flag ≠ 0 then (1, h.group, h.edge) else (0, 0, 0)) ∧
    (h.flag ≠ 0 → buf.reals[ix]? = some (h.px, h.py, h.nx, h.ny)) ∧ ix < buf.reals.length

theorem findIntersections_spec {e : Edges2D} (hg : Grid2D e.geom) {c : EdgeCall}
    (hc : CallOk2D e.cellCount c) {fd : Int → Option (List DevEdge)}
    {fn : Int → Option (ℚ × ℚ)} (hdyn : EdgeDyn e fd fn) (big : ℚ)
    (hcol : ∀ it ∈ c.sel, ∀ a b, Stepped c it a b → ∀ x y cell, InTrajBox e.geom a b x y →
      IsCellAt e.geom.mh [x, y] cell → cell ∈ e.collected) :
    ∃ buf, e.findIntersections c.env big 2 c.cells c.sel
        ⟨List.replicate (edgeNpart c.cells).sum (0, 0, 0), c.env.reals (edgeNpart c.cells).sum⟩ =
        some buf ∧
      ∃ H : Nat × Nat → HitState, (∀ it ∈ c.sel, BufAt (edgeNpart c.cells) buf it (H it)) ∧
        ∀ it ∈ c.sel, ∀ a b, Stepped c it a b → PartHit e fn big a b (H it) := by
  have hlen : (c.env.reals (edgeNpart c.cells).sum).1.length = (edgeNpart c.cells).sum :=
    (c.env.reals (edgeNpart c.cells).sum).2
  unfold Edges2D.findIntersections
  cases hroot : e.discovery.root with
  | none =>
    refine ⟨_, rfl, fun _ => ⟨big, 0, 0, 0, 0, 0, 0, 0⟩, fun it hit => ?_, fun it hit a b hab =>
      partHit_none hdyn hroot big (hcol it hit a b hab)⟩
    obtain ⟨ix, h1, h2⟩ := linIndex hc hit
    refine ⟨ix, h1, ?_, fun h => absurd rfl h, by rw [hlen]; exact h2⟩
    rw [List.getElem?_replicate, if_pos h2]
    rfl
  | some root =>
    simp only
    have hpart : ∀ it ∈ c.sel, ∃ h, ((rd2 c.cells it).bind fun p => e.findParticle big root 2 p) = some h ∧
        ∀ a b, Stepped c it a b → PartHit e fn big a b h := by
      intro it hit
      obtain ⟨p, hp, hp1, hp2⟩ := hc.exist it hit
      obtain ⟨b0, b1, hb⟩ := pair_cases hp1
      obtain ⟨a0, a1, ha⟩ := pair_cases hp2
      have hst : Stepped c it (a0, a1) (b0, b1) := by
        unfold Stepped
        rw [hp]
        congr 1
        cases p
        simp only at hb ha
        rw [hb, ha]
      obtain ⟨h, h1, h2⟩ := findParticle_spec hg hdyn hroot big (hcol it hit _ _ hst)
      refine ⟨h, ?_, fun a b hab => ?_⟩
      · unfold Stepped at hst
        rw [hst, Option.bind_some]
        exact h1
      · unfold Stepped at hab hst
        rw [hab] at hst
        simp only [Option.some.injEq, EdgeParticle.mk.injEq, List.cons.injEq, and_true] at hst
        have e1 : a = (a0, a1) := Prod.ext hst.2.1 hst.2.2
        have e2 : b = (b0, b1) := Prod.ext hst.1.1 hst.1.2
        rw [e1, e2]
        exact h2
    let H := fun it => ((rd2 c.cells it).bind fun p => e.findParticle big root 2 p).getD
      ⟨big, 0, 0, 0, 0, 0, 0, 0⟩
    have hH : ∀ it ∈ c.sel, ((rd2 c.cells it).bind fun p => e.findParticle big root 2 p) = some (H it) ∧
        ∀ a b, Stepped c it a b → PartHit e fn big a b (H it) := by
      intro it hit
      obtain ⟨h, h1, h2⟩ := hpart it hit
      have : H it = h := by simp only [H]; rw [h1]; rfl
      rw [this]
      exact ⟨h1, h2⟩
    let n := (edgeNpart c.cells).sum
    obtain ⟨buf, h1, h2, h3, h4⟩ := runItems_invariant (items := c.env.s1.order c.sel)
      (step := fun it buf =>
        (rd2 c.cells it).bind fun p => (e.findParticle big root 2 p).bind fun h =>
        if h.flag ≠ 0 then
          (localLinearIndex (edgeNpart c.cells) it.1 it.2).bind fun ix =>
          (st buf.ints ix (1, h.group, h.edge)).bind fun ints =>
          (st buf.reals ix (h.px, h.py, h.nx, h.ny)).map fun reals => (⟨ints, reals⟩ : HitBuf)
        else some buf)
      (P := fun done buf => buf.ints.length = n ∧ buf.reals.length = n ∧
        ∀ it ∈ c.sel, ∀ ix, localLinearIndex (edgeNpart c.cells) it.1 it.2 = some ix →
          (it ∉ done → buf.ints[ix]? = some (0, 0, 0)) ∧
          (it ∈ done → buf.ints[ix]? = some (if (H it).flag ≠ 0 then (1, (H it).group, (H it).edge)
              else (0, 0, 0)) ∧
            ((H it).flag ≠ 0 → buf.reals[ix]? = some ((H it).px, (H it).py, (H it).nx, (H it).ny))))
      (s := ⟨List.replicate n (0, 0, 0), c.env.reals n⟩)
      (by
        rintro pre it post buf hitems ⟨hl1, hl2, hdone⟩
        have hperm := c.env.s1.perm c.sel
        have hit : it ∈ c.sel := hperm.subset (by rw [hitems]; simp)
        have hnd : (c.env.s1.order c.sel).Nodup := hperm.nodup_iff.mpr hc.nodup
        have hpre : it ∉ pre := by
          rw [hitems] at hnd
          intro hm
          exact (List.nodup_append.mp hnd).2.2 it hm it (by simp) rfl
        obtain ⟨k1, -⟩ := hH it hit
        obtain ⟨ix, hix, hlt⟩ := linIndex hc hit
        have hstep : ((rd2 c.cells it).bind fun p => (e.findParticle big root 2 p).bind fun h =>
          if h.flag ≠ 0 then
            (localLinearIndex (edgeNpart c.cells) it.1 it.2).bind fun ix =>
            (st buf.ints ix (1, h.group, h.edge)).bind fun ints =>
            (st buf.reals ix (h.px, h.py, h.nx, h.ny)).map fun reals => (⟨ints, reals⟩ : HitBuf)
          else some buf) = if (H it).flag ≠ 0 then
            some ⟨buf.ints.set ix (1, (H it).group, (H it).edge),
              buf.reals.set ix ((H it).px, (H it).py, (H it).nx, (H it).ny)⟩ else some buf := by
          rw [← Option.bind_assoc, k1, Option.bind_some]
          split
          · rw [hix, Option.bind_some]
            unfold st
            rw [if_pos (by rw [hl1]; exact hlt), Option.bind_some, if_pos (by rw [hl2]; exact hlt),
              Option.map_some]
          · rfl
        beta_reduce
        rw [hstep]
        split
        · rename_i hflag
          refine ⟨_, rfl, by simpa using hl1, by simpa using hl2, fun it' hit' ix' hix' => ?_⟩
          by_cases hsame : it' = it
          · subst hsame
            rw [hix] at hix'
            cases hix'
            refine ⟨fun h => absurd (by simp) h, fun _ => ?_⟩
            simp only
            rw [List.getElem?_set_self (by rw [hl1]; exact hlt),
              List.getElem?_set_self (by rw [hl2]; exact hlt), if_pos hflag]
            exact ⟨rfl, fun _ => rfl⟩
          · have hne : ix ≠ ix' := by
              rintro rfl
              exact hsame (linIndex_inj hc hit' hit hix' hix)
            simp only
            rw [List.getElem?_set_ne hne, List.getElem?_set_ne hne]
            have := hdone it' hit' ix' hix'
            simp only [List.mem_append, List.mem_singleton, hsame, or_false]
            exact this
        · rename_i hflag
          refine ⟨_, rfl, hl1, hl2, fun it' hit' ix' hix' => ?_⟩
          by_cases hsame : it' = it
          · subst hsame
            refine ⟨fun h => absurd (by simp) h, fun _ => ?_⟩
            rw [if_neg hflag]
            exact ⟨(hdone it' hit' ix' hix').1 hpre, fun h => absurd h hflag⟩
          · have := hdone it' hit' ix' hix'
            simp only [List.mem_append, List.mem_singleton, hsame, or_false]
            exact this)
      ⟨by simp, hlen, fun it hit ix hix => ⟨fun _ => by
        obtain ⟨ix', h1, h2⟩ := linIndex hc hit
        rw [hix] at h1
        cases h1
        simp only
        rw [List.getElem?_replicate, if_pos h2], fun h => by simp at h⟩⟩
    refine ⟨buf, h1, H, fun it hit => ?_, fun it hit => (hH it hit).2⟩
    obtain ⟨ix, hix, hlt⟩ := linIndex hc hit
    obtain ⟨g1, g2⟩ := (h4 it hit ix hix).2 ((c.env.s1.perm c.sel).symm.subset hit)
    exact ⟨ix, hix, g1, g2, by rw [h3]; exact hlt⟩

theorem selectHits_eq {npart : List Nat} {buf : HitBuf} {H : Nat × Nat → HitState}
    {cond : Int × Int × Int → Bool} {sel : List (Nat × Nat)}
    (h : ∀ it ∈ sel, BufAt npart buf it (H it)) :
    selectHits npart buf.ints cond sel = some (sel.filter fun it =>
      cond (if (H it).flag ≠ 0 then (1, (H it).group, (H it).edge) else (0, 0, 0))) := by
  unfold selectHits
  have : sel.filter (fun it =>
      cond (if (H it).flag ≠ 0 then (1, (H it).group, (H it).edge) else (0, 0, 0))) =
      sel.flatMap fun it => if cond (if (H it).flag ≠ 0 then (1, (H it).group, (H it).edge)
        else (0, 0, 0)) then [it] else [] := by
    clear h
    induction sel with
    | nil => rfl
    | cons x xs ih =>
      rw [List.filter_cons, List.flatMap_cons, ih]
      by_cases hx : cond (if (H x).flag ≠ 0 then (1, (H x).group, (H x).edge) else (0, 0, 0)) = true
      · rw [if_pos hx, if_pos hx]; rfl
      · rw [if_neg hx, if_neg hx]; rfl
  rw [this]
  refine collectM_eq_flatMap fun it hit => ?_
  obtain ⟨ix, h1, h2, -, -⟩ := h it hit
  rw [h1, Option.bind_some]
  simp only [rd]
  rw [h2, Option.map_some]

/-- The data of a particle. -/
def hitDataOf (g : Int) (h : HitState) : HitData := ⟨(h.px, h.py), (h.nx, h.ny), g, h.edge⟩

theorem hitGroup_eq {npart : List Nat} {buf : HitBuf} {H : Nat × Nat → HitState} {g : Int}
    {sel : List (Nat × Nat)} (h : ∀ it ∈ sel, BufAt npart buf it (H it)) :
    hitGroup npart buf g sel = some ((sel.filter fun it =>
      decide ((H it).flag ≠ 0) && decide ((H it).group = g)).map fun it => (it, hitDataOf g (H it))) := by
  have hf : (sel.filter fun it =>
      (fun x : Int × Int × Int => decide (x.1 ≠ 0) && decide (x.2.1 = g))
        (if (H it).flag ≠ 0 then (1, (H it).group, (H it).edge) else (0, 0, 0))) =
      sel.filter fun it => decide ((H it).flag ≠ 0) && decide ((H it).group = g) := by
    refine List.filter_congr fun it _ => ?_
    by_cases hfl : (H it).flag ≠ 0
    · rw [if_pos hfl]; simp [hfl]
    · rw [if_neg hfl]; simp [hfl]
  unfold hitGroup
  rw [selectHits_eq h, Option.bind_some, hf]
  refine mapM_of_forall fun it hit => ?_
  rw [List.mem_filter, Bool.and_eq_true, decide_eq_true_eq, decide_eq_true_eq] at hit
  obtain ⟨ix, h1, h2, h3, -⟩ := h it hit.1
  rw [h1, Option.bind_some]
  simp only [rd]
  rw [h3 hit.2.1, Option.bind_some, h2, Option.map_some, if_pos hit.2.1]
  rfl

/-- The result of a call from what the searches give. -/
def resultOf (groups : OMap (List Int)) (sel : List (Nat × Nat)) (H : Nat × Nat → HitState) :
    List (Int × List ((Nat × Nat) × HitData)) :=
  groups.map fun g => (g.1, (sel.filter fun it =>
    decide ((H it).flag ≠ 0) && decide ((H it).group = g.1)).map fun it => (it, hitDataOf g.1 (H it)))

/-- One call. -/
theorem post_spec {invSqrt : ℚ → ℚ} {big : ℚ} {geom : MeshGeom} {cellCount : Nat}
    {groups : OMap (List Int)} {tol : ℚ} {nodes : FaceSets} {e : Edges2D} (hg : Grid2D geom)
    (hs : EdgeStatic invSqrt big geom cellCount groups tol nodes e)
    {fd : Int → Option (List DevEdge)} {fn : Int → Option (ℚ × ℚ)} (hdyn : EdgeDyn e fd fn)
    {c : EdgeCall} (hc : CallOk2D cellCount c) :
    ∃ e' fd' fn' H, e.post c.env big 2 c.cells c.sel = some (e', resultOf groups c.sel H) ∧
      EdgeStatic invSqrt big geom cellCount groups tol nodes e' ∧ EdgeDyn e' fd' fn' ∧
      ∀ it ∈ c.sel, ∀ a b, Stepped c it a b → PartHit e' fn' big a b (H it) := by
  have hge : Grid2D e.geom := by rw [hs.geomEq]; exact hg
  obtain ⟨req, h1, h2⟩ := findCells_spec hge (c := c) (by rw [hs.countEq]; exact hc)
  obtain ⟨e', fd', fn', h3, h4, h5, h6⟩ := collectCells_spec (env := c.env) hc.nodeN hc.nodeD req hs hdyn
  have hs' := hs.same h4
  have hge' : Grid2D e'.geom := by rw [hs'.geomEq]; exact hg
  have hgeo : e'.geom = e.geom := h4.1
  obtain ⟨buf, h7, H, h8, h9⟩ := findIntersections_spec hge' (c := c) (by rw [hs'.countEq]; exact hc)
    h5 big (fun it hit a b hab x y cell hbox hcell => by
      rw [hgeo] at hbox hcell
      exact (h6 cell).mpr (h2 it hit a b hab x y cell hbox hcell))
  refine ⟨e', fd', fn', H, ?_, hs', h5, h9⟩
  unfold Edges2D.post
  rw [h1, Option.bind_some, h3, Option.bind_some]
  simp only
  rw [h7, Option.bind_some, hs'.groupsEq]
  split
  · rw [Option.bind_some]
    have : (groups.mapM fun g => (hitGroup (edgeNpart c.cells) buf g.1 c.sel).map fun l => (g.1, l)) =
        some (resultOf groups c.sel H) := by
      refine mapM_of_forall fun g _ => ?_
      rw [hitGroup_eq h8]
      rfl
    rw [this]
    rfl
  · rw [selectHits_eq h8, Option.bind_some]
    have : (groups.mapM fun g => (hitGroup (edgeNpart c.cells) buf g.1 (c.sel.filter fun it =>
        decide ((if (H it).flag ≠ 0 then ((1 : Int), (H it).group, (H it).edge) else (0, 0, 0)).1 ≠ 0))).map
        fun l => (g.1, l)) = some (resultOf groups c.sel H) := by
      refine mapM_of_forall fun g _ => ?_
      rw [hitGroup_eq fun it hit => h8 it (List.mem_filter.mp hit).1, List.filter_filter, Option.map_some]
      congr 3
      refine List.filter_congr fun it _ => ?_
      by_cases hfl : (H it).flag ≠ 0
      · rw [if_pos hfl]; simp
      · rw [if_neg hfl]; simp [hfl]
    rw [this]
    rfl

/-- Any number of calls. -/
theorem edgeRun_spec {invSqrt : ℚ → ℚ} {big : ℚ} {geom : MeshGeom} {cellCount : Nat}
    {groups : OMap (List Int)} {tol : ℚ} {nodes : FaceSets} (hg : Grid2D geom) (calls : List EdgeCall) :
    ∀ {e : Edges2D}, EdgeStatic invSqrt big geom cellCount groups tol nodes e →
    ∀ {fd : Int → Option (List DevEdge)} {fn : Int → Option (ℚ × ℚ)}, EdgeDyn e fd fn →
    (∀ c ∈ calls, CallOk2D cellCount c) →
    ∃ e' fd' fn', edgeRun big e calls = some e' ∧
      EdgeStatic invSqrt big geom cellCount groups tol nodes e' ∧ EdgeDyn e' fd' fn' := by
  induction calls with
  | nil => intro e hs fd fn hd _; exact ⟨e, fd, fn, rfl, hs, hd⟩
  | cons c calls ih =>
    intro e hs fd fn hd hc
    obtain ⟨e1, fd1, fn1, H, h1, h2, h3, -⟩ := post_spec hg hs hd (hc c List.mem_cons_self)
    obtain ⟨e2, fd2, fn2, g1, g2, g3⟩ := ih h2 h3 fun c' hc' => hc c' (List.mem_cons_of_mem _ hc')
    refine ⟨e2, fd2, fn2, ?_, g2, g3⟩
    unfold edgeRun at *
    rw [List.foldlM_cons, h1]
    exact g1

theorem mem_cellEdges {invSqrt : ℚ → ℚ} {big : ℚ} {geom : MeshGeom} {cellCount : Nat}
    {groups : OMap (List Int)} {tol : ℚ} {nodes : FaceSets} {e : Edges2D}
    (hs : EdgeStatic invSqrt big geom cellCount groups tol nodes e) {c : Int} {d : DevEdge} :
    d ∈ (e.cellEdges c).getD [] ↔ ∃ f ∈ e.facets, FacetIn big geom f c ∧
      ∃ g, LabelIn groups g f.label ∧ omGet e.labelGroup f.label = some g ∧
        d = ⟨f.x0, f.y0, f.x1, f.y1, g, f.edge⟩ := by
  have hget : (e.cellEdges c).getD [] = ((omGet e.cellFacets c).getD []).filterMap e.devOf := by
    unfold Edges2D.cellEdges
    cases omGet e.cellFacets c <;> rfl
  rw [hget, List.mem_filterMap]
  constructor
  · rintro ⟨ix, hix, hd⟩
    obtain ⟨k, f, hk, rfl, hin⟩ := (hs.cells c ix).mp hix
    obtain ⟨g, hg, hlg, hdev⟩ := devOf_some hs hk
    rw [hdev] at hd
    exact ⟨f, List.mem_of_getElem? hk, hin, g, hg, hlg, (Option.some.inj hd).symm⟩
  · rintro ⟨f, hf, hin, g, hg, hlg, rfl⟩
    obtain ⟨k, hk⟩ := List.getElem?_of_mem hf
    obtain ⟨g', -, hlg', hdev⟩ := devOf_some hs hk
    rw [hlg] at hlg'
    cases hlg'
    exact ⟨(k : Int), (hs.cells c k).mpr ⟨k, f, hk, rfl, hin⟩, hdev⟩

end NP
