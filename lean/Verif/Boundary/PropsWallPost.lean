import Verif.Boundary.LemmasWallPost

/-!
# C69: what `post_integration` returns for each group of sides
-/

set_option autoImplicit false

namespace NP

open Spec

theorem wall_ext_length (m : CartMesh) (extent : ℚ) :
    (m.globalExtents extent).length = m.mh.dims.length := by
  simp [CartMesh.globalExtents]

theorem wall_ext_tol {m : CartMesh} {extent tol : ℚ} (hv : ValidCartMesh m) (he : 0 < extent)
    (ht : tol < extent / 2 ^ m.mh.order) : ∀ e ∈ m.globalExtents extent, tol < e := by
  intro e hm
  unfold CartMesh.globalExtents at hm
  obtain ⟨d, hd, rfl⟩ := List.mem_map.1 hm
  have h1 : 0 < d := hv.mesh.2 d hd
  have h2 : (1 : ℚ) ≤ d := by exact_mod_cast h1
  have h3 : extent / 2 ^ m.mh.order ≤ extent := div_le_self he.le (one_le_pow₀ (by norm_num))
  nlinarith

/-- **C69 (groups).** For every call, memory contents and schedules, `post_integration` succeeds and
returns one result for each group. There is a side and a point for each particle which is not
strictly inside of the domain any more, where its path leaves the domain. The sub group of a group
has exactly the particles which left through one of its sides, each once, and for each of them the
point, the normal, the group and the face are those of the place where it left. -/
theorem C69_groups {m : CartMesh} {extent tol : ℚ} {groups : List (Int × List Int)}
    {e : WallEnv m.mh.dims.length} {npart : List Nat} {par : Parent} {rows : List (List WallPart)}
    (h : WallCall m extent tol groups e npart par rows) :
    ∃ out side point, wallPost m extent tol groups e npart par rows = some out ∧
      (∀ c l p, InParent npart par c l → rowAt rows c l = some p →
        ¬ InsideDomain (m.globalExtents extent) p.pos →
        LeavesAt (m.globalExtents extent) tol p.prev p.pos (side c l) (point c l)) ∧
      List.Forall₂ (GroupOut m extent npart par rows side point) groups out := by
  have hext : (m.globalExtents extent).length = 2 ∨ (m.globalExtents extent).length = 3 := by
    rw [wall_ext_length]; exact h.ndim
  have htol := wall_ext_tol h.mesh h.extent_pos h.tol_small
  set ext := m.globalExtents extent with hextdef
  have hel : ext.length = m.mh.dims.length := wall_ext_length m extent
  -- where each particle leaves
  have hexit : ∀ c l, ∃ f : Nat, ∃ q : List ℚ, ∀ p, InParent npart par c l → rowAt rows c l = some p →
      ¬ InsideDomain ext p.pos →
      wallHit ext tol p.pos p.prev = some (true, q, (f : Int)) ∧ LeavesAt ext tol p.prev p.pos f q := by
    intro c l
    by_cases hc : ∃ p, InParent npart par c l ∧ rowAt rows c l = some p ∧ ¬ InsideDomain ext p.pos
    · obtain ⟨p, h1, h2, h3⟩ := hc
      obtain ⟨p', h4, h5, h6⟩ := h.particles c l h1
      rw [h2] at h4
      obtain rfl := Option.some.inj h4
      obtain ⟨q, f, h7, h8⟩ := C68_exit ext tol p.pos p.prev hext h.tol_nonneg htol h6 h5 h3
      refine ⟨f, q, fun p' _ h9 _ => ?_⟩
      rw [h2] at h9
      obtain rfl := Option.some.inj h9
      exact ⟨h7, h8⟩
    · exact ⟨0, [], fun p h1 h2 h3 => absurd ⟨p, h1, h2, h3⟩ hc⟩
  choose side point hsp using hexit
  -- the particles which left
  have hdk : ∀ c l, InParent npart par c l → ∃ b,
      ((wallPart rows c l).bind fun p => wallDeparts ext p.pos) = some b ∧
        (b = true ↔ Departed ext rows c l) := by
    intro c l hl
    obtain ⟨p, h1, h2, h3⟩ := h.particles c l hl
    obtain ⟨b, h4, h5⟩ := C68_departs ext p.pos hext h2
    have h1' : wallPart rows c l = some p := h1
    refine ⟨b, by rw [h1', Option.bind_some, h4], ?_⟩
    rw [h5]
    constructor
    · intro h6; exact ⟨p, h1, h6⟩
    · rintro ⟨p', h6, h7⟩
      rw [h1] at h6
      obtain rfl := Option.some.inj h6
      exact h7
  obtain ⟨dep, d1, d2, d3, d4⟩ := selectKernel_spec h.dep h.loop.built
    (kernel := fun c l => (wallPart rows c l).bind fun p => wallDeparts ext p.pos)
    (fun c l => (((wallPart rows c l).bind fun p => wallDeparts ext p.pos)).getD false) (by
      intro c l hl
      obtain ⟨b, hb, -⟩ := hdk c l hl
      rw [hb]; rfl)
  have hdep : ∀ c l, InParent npart (.sub dep) c l ↔ InParent npart par c l ∧ Departed ext rows c l := by
    intro c l
    rw [d4]
    constructor
    · rintro ⟨h1, h2⟩
      obtain ⟨b, hb, hb'⟩ := hdk c l h1
      rw [hb] at h2
      exact ⟨h1, hb'.1 h2⟩
    · rintro ⟨h1, h2⟩
      obtain ⟨b, hb, hb'⟩ := hdk c l h1
      refine ⟨h1, ?_⟩
      rw [hb]
      exact hb'.2 h2
  have hleave : ∀ c l, InParent npart (.sub dep) c l → ∃ p, rowAt rows c l = some p ∧
      wallHit ext tol p.pos p.prev = some (true, point c l, (side c l : Int)) ∧
      LeavesAt ext tol p.prev p.pos (side c l) (point c l) ∧ HasComps ext p.pos ∧
      InsideDomain ext p.prev := by
    intro c l hl
    obtain ⟨h1, p, h2, h3⟩ := (hdep c l).1 hl
    obtain ⟨h4, h5⟩ := hsp c l p h1 h2 h3
    obtain ⟨p', h6, h7, h8⟩ := h.particles c l h1
    rw [h2] at h6
    obtain rfl := Option.some.inj h6
    exact ⟨p, h2, h4, h5, h7, h8⟩
  have hloop : RowLoopOk e.P npart (.sub dep) :=
    ⟨d2, h.loop.localSize, h.loop.localSizeInt, h.loop.nbin, h.loop.counts⟩
  obtain ⟨vis, b, b1, b2, b3⟩ := wallStore_spec (rows := rows) (tol := tol) (ext := ext) hloop e.hit
    (side := side) (point := point) (by
      intro c l hl
      obtain ⟨p, h1, h2, ⟨s, d, up, w, -, -, -, -, h3, -⟩, -⟩ := hleave c l hl
      exact ⟨p, h1, h2, h3⟩)
    (b0 := ⟨(e.pts (m.mh.dims.length * dep.npartLocal)).val, (e.sides dep.npartLocal).val,
        (e.lut npart.sum).val⟩)
    (by rw [hel]; exact (e.pts _).property) (e.sides _).property (e.lut _).property
  have hcheck := wallCheck_spec hloop (b := b) (by
    intro c l hl
    obtain ⟨i, hi⟩ := b3 c l hl
    exact ⟨i, hi.lut⟩)
  obtain ⟨gmap, g1, g2⟩ := wallGroupMap_iff h.ndim h.sides h.labels h.label_ok h.disjoint
  have hside6 : ∀ c l, InParent npart (.sub dep) c l → side c l < 6 := by
    intro c l hl
    obtain ⟨p, -, -, ⟨s, d, up, w, -, -, h1, -⟩, -⟩ := hleave c l hl
    match hf : side c l, h1 with
    | 0, _ | 1, _ | 2, _ | 3, _ | 4, _ | 5, _ => omega
  -- the sub groups
  obtain ⟨sels, s1, s2⟩ := mapM_forall₂ (l := groups)
    (f := fun g => (selectKernel (e.grp g.1) npart (.sub dep)
      (wallInGroup npart b gmap g.1)).bind fun sel => some (g.1, sel))
    (R := fun g (s : Int × Selection) => s.1 = g.1 ∧ g ∈ groups ∧ Built npart (.sub s.2) ∧ NoRepeats s.2 ∧
      ∀ c l, InParent npart (.sub s.2) c l ↔ InParent npart (.sub dep) c l ∧ (side c l : Int) ∈ g.2)
    (by
      intro g hg
      obtain ⟨sel, c1, c2, c3, c4⟩ := selectKernel_spec (h.grp g hg) d2
        (kernel := wallInGroup npart b gmap g.1) (fun c l => decide ((side c l : Int) ∈ g.2)) (by
          intro c l hl
          obtain ⟨i, hi⟩ := b3 c l hl
          obtain ⟨v, v1, v2⟩ := g2 (side c l) (hside6 c l hl)
          unfold wallInGroup
          simp only [wallFacet_eq hi, Option.bind_some]
          rw [show rd gmap (side c l) = some v from v1, Option.bind_some]
          congr 1
          rw [Bool.eq_iff_iff, beq_iff_eq, decide_eq_true_eq]
          exact v2 g hg)
      exact ⟨(g.1, sel), by rw [c1]; rfl, rfl, hg, c2, c3, fun c l => by rw [c4]; simp⟩)
  obtain ⟨out, o1, o2⟩ := mapM_second (R' := GroupOut m extent npart par rows side point)
    (f := fun (s : Int × Selection) => (parentVisits e.P npart (.sub s.2)).bind fun visits =>
      (runItems (rowStep .whole (wallCollectKernel m (2 ^ m.mh.order / extent) npart dep.npartLocal b
        gmap s.2)) ((e.collect s.1).order visits) (e.rows s.1 s.2.hNpart).val).bind fun rs =>
      some (s.1, s.2, rs)) (by
      rintro g ⟨lab, sel⟩ ⟨r1, r2, r3, r4, r5⟩
      dsimp only at r1 r3 r4 r5
      subst r1
      obtain ⟨rs, q1, q2, q3⟩ := wallCollect_loop (P := e.P) ⟨r3, h.loop.localSize, h.loop.localSizeInt,
        h.loop.nbin, h.loop.counts⟩ (e.collect g.1) (e.rows g.1)
        (kernel := wallCollectKernel m (2 ^ m.mh.order / extent) npart dep.npartLocal b gmap sel)
        (R := fun c l r => HitRow m extent g.1 (side c l) (point c l) r) (by
          intro c l k r hl hin k1 k2 k3
          obtain ⟨t1, t2⟩ := (r5 c l).1 hin
          obtain ⟨i, hi⟩ := b3 c l t1
          obtain ⟨v, v1, v2⟩ := g2 (side c l) (hside6 c l t1)
          obtain ⟨p, -, -, ⟨s, d, up, w, -, -, u1, u2, u3, u4, u5, -⟩, hc1, hc2⟩ := hleave c l t1
          rw [(v2 g r2).2 t2] at v1
          rw [hel] at hi u3
          refine wallCollect_spec h.mesh h.ndim h.extent_pos h.tol_small hl hi v1 u1 u2 u3 u4 ?_ k1 k2 k3
          intro j z hz
          have hj : j < ext.length := by
            rw [hel, ← u3]; exact (List.getElem?_eq_some_iff.1 hz).1
          obtain ⟨x, hx, -⟩ := hc2 j _ (List.getElem?_eq_getElem hj)
          obtain ⟨y, hy⟩ := comps_get hc1 hj
          exact (u5 j _ x y z (List.getElem?_eq_getElem hj) hx hy hz).2.1)
      refine ⟨(g.1, sel, rs), ?_, rfl, r3, r4, ?_, q2, q3⟩
      · obtain ⟨visits, w1, w2⟩ := Option.bind_eq_some_iff.1 q1
        dsimp only
        rw [w1, Option.bind_some, w2]; rfl
      · intro c l
        rw [r5, hdep, and_assoc]) s2
  refine ⟨out, side, point, ?_, fun c l p h1 h2 h3 => (hsp c l p h1 h2 h3).2, o2⟩
  unfold wallPost
  dsimp only
  rw [if_pos h.ndim, d1, Option.bind_some, b1, Option.bind_some, b2, Option.bind_some, hcheck,
    Option.bind_some, g1, Option.bind_some, s1, Option.bind_some]
  exact o1

theorem wall_side_lt {ext : List ℚ} (hn : ext.length = 2 ∨ ext.length = 3) {f d : Nat} {up : Bool}
    {w : ℚ} (hs : sideOf f = some (d, up)) (hw : ext[d]? = some w) : f < 2 * ext.length := by
  have hd := (List.getElem?_eq_some_iff.1 hw).1
  match f, hs with
  | 0, hs | 1, hs | 2, hs | 3, hs | 4, hs | 5, hs => cases hs; omega

/-- **C69 (each particle once).** If every side is in a group then each particle which is not
strictly inside of the domain any more is in the sub group of exactly one group; particles inside of
the domain are in none. -/
theorem C69_once {m : CartMesh} {extent tol : ℚ} {groups : List (Int × List Int)}
    {e : WallEnv m.mh.dims.length} {npart : List Nat} {par : Parent} {rows : List (List WallPart)}
    (h : WallCall m extent tol groups e npart par rows)
    (hcover : ∀ f : Int, 0 ≤ f → f < 2 * m.mh.dims.length → ∃ g ∈ groups, f ∈ g.2) :
    ∃ out, wallPost m extent tol groups e npart par rows = some out ∧ ∀ c l,
      (InParent npart par c l ∧ Departed (m.globalExtents extent) rows c l →
        ∃ i, ∀ j : Nat, (∃ o, out[j]? = some o ∧ InParent npart (.sub o.2.1) c l) ↔ j = i) ∧
      (¬ (InParent npart par c l ∧ Departed (m.globalExtents extent) rows c l) →
        ∀ o ∈ out, ¬ InParent npart (.sub o.2.1) c l) := by
  obtain ⟨out, side, point, h1, h2, h3⟩ := C69_groups h
  obtain ⟨hlen, h3⟩ := List.forall₂_iff_get.1 h3
  refine ⟨out, h1, fun c l => ⟨?_, ?_⟩⟩
  · rintro ⟨hin, hdep⟩
    obtain ⟨p, hp, hout⟩ := hdep
    obtain ⟨s, d, up, w, -, -, hs, hw, -⟩ := h2 c l p hin hp hout
    have hlt := wall_side_lt (by rw [wall_ext_length]; exact h.ndim) hs hw
    rw [wall_ext_length] at hlt
    obtain ⟨g, hg, hgf⟩ := hcover (side c l) (by positivity) (by exact_mod_cast hlt)
    obtain ⟨i, hi, rfl⟩ := List.getElem_of_mem hg
    refine ⟨i, fun j => ⟨?_, ?_⟩⟩
    · rintro ⟨o, ho, hm⟩
      obtain ⟨hj, rfl⟩ := List.getElem?_eq_some_iff.1 ho
      have := ((h3 j (by omega) hj).members c l).1 hm
      have hpw := List.pairwise_iff_getElem.1 h.disjoint
      simp only [List.get_eq_getElem] at this
      rcases Nat.lt_trichotomy j i with hji | hji | hji
      · exact absurd hgf (hpw j i (by omega) hi hji _ this.2.2)
      · exact hji
      · exact absurd this.2.2 (hpw i j hi (by omega) hji _ hgf)
    · rintro rfl
      refine ⟨out[j]'(by omega), List.getElem?_eq_getElem _, ?_⟩
      exact ((h3 j hi (by omega)).members c l).2 ⟨hin, ⟨p, hp, hout⟩, hgf⟩
  · intro hno o ho hm
    obtain ⟨j, hj, rfl⟩ := List.getElem_of_mem ho
    have := ((h3 j (by omega) hj).members c l).1 hm
    exact hno ⟨this.1, this.2.1⟩

/-- **C69 (`pre_integration`).** For every particle of the iteration set the position becomes the
previous position; nothing else changes. -/
theorem C69_pre {P : LoopParams} {npart : List Nat} {par : Parent} (order : Sched) {ndim : Nat}
    {rows : List (List WallPart)} (h : RowLoopOk P npart par) (hs : Shape npart rows)
    (hp : ∀ c l p, InParent npart par c l → rowAt rows c l = some p →
      ndim ≤ p.pos.length ∧ ndim ≤ p.prev.length) :
    ∃ rows', wallPre P order ndim npart par rows = some rows' ∧ Shape npart rows' ∧
      (∀ c l p, InParent npart par c l → rowAt rows c l = some p →
        ∃ p', rowAt rows' c l = some p' ∧ p'.pos = p.pos ∧ p'.prev.length = p.prev.length ∧
          ∀ i, p'.prev[i]? = if i < ndim then p.pos[i]? else p.prev[i]?) ∧
      ∀ c l, ¬ InParent npart par c l → rowAt rows' c l = rowAt rows c l := by
  have key : ∀ r : WallPart, ndim ≤ r.pos.length → ndim ≤ r.prev.length → ∃ pp,
      forLoop 0 ndim (fun dx pp => (rd r.pos dx).bind fun x => st pp dx x) r.prev = some pp ∧
      pp.length = r.prev.length ∧ ∀ i, pp[i]? = if i < ndim then r.pos[i]? else r.prev[i]? := by
    intro r h1 h2
    refine forLoop_invariant (fun n (pp : List ℚ) => pp.length = r.prev.length ∧
      ∀ i, pp[i]? = if i < n then r.pos[i]? else r.prev[i]?) (Nat.zero_le _) ?_ ⟨rfl, by simp⟩
    rintro n pp - hn ⟨a1, a2⟩
    refine ⟨pp.set n (r.pos[n]'(by omega)), ?_, by simp [a1], fun i => ?_⟩
    · simp only [rd]
      rw [List.getElem?_eq_getElem (by omega), Option.bind_some, st_eq_some (by omega)]
    · by_cases hi : i = n
      · subst hi
        rw [List.getElem?_set_self (by omega), if_pos (by omega), List.getElem?_eq_getElem]
      · rw [List.getElem?_set_ne (Ne.symm hi), a2]
        by_cases h : i < n
        · rw [if_pos h, if_pos (by omega)]
        · rw [if_neg h, if_neg (by omega)]
  obtain ⟨rows', r1, r2, r3, r4⟩ := rowLoop_spec h order hs
    (kernel := fun _ _ r => (forLoop 0 ndim (fun dx pp => (rd r.pos dx).bind fun x => st pp dx x)
      r.prev).bind fun pp => some { r with prev := pp }) (by
      intro c k l r hl hr
      obtain ⟨a, b⟩ := hp c l r ((exists_loopLayer h c l).2 ⟨k, hl⟩) hr
      obtain ⟨pp, hpp, -⟩ := key r a b
      exact ⟨_, by rw [hpp]; rfl⟩)
  refine ⟨rows', r1, r2, ?_, r4⟩
  intro c l p hl hr
  obtain ⟨k, hk⟩ := (exists_loopLayer h c l).1 hl
  obtain ⟨p', h1, h2⟩ := r3 c l k p hk hr
  obtain ⟨a, b⟩ := hp c l p hl hr
  obtain ⟨pp, hpp, hlen, hget⟩ := key p a b
  rw [hpp] at h2
  obtain rfl := Option.some.inj h2
  exact ⟨_, h1, rfl, hlen, hget⟩

theorem leavesAt_congr {ext : List ℚ} {tol : ℚ} {a a' b : List ℚ} {f : Nat} {q : List ℚ}
    (h : ∀ i < ext.length, a'[i]? = a[i]?) (hl : LeavesAt ext tol a b f q) :
    LeavesAt ext tol a' b f q := by
  obtain ⟨s, d, up, w, h0, h1, h2, h3, h4, h5, h6, h7⟩ := hl
  refine ⟨s, d, up, w, h0, h1, h2, h3, h4, h5, ?_, ?_⟩
  · intro i e x y z he hx
    rw [h i (List.getElem?_eq_some_iff.1 he).1] at hx
    exact h6 i e x y z he hx
  · intro x y hx
    rw [h d (List.getElem?_eq_some_iff.1 h3).1] at hx
    exact h7 x y hx

/-- **C69 (a time step).** If the particles are strictly inside of the domain when `pre_integration`
is called and the user's integration then moves them anywhere without changing the previous
positions, the call of `post_integration` finds for each particle outside of the domain where
its path from the old to the new position leaves the domain. -/
theorem C69_step {m : CartMesh} {extent tol : ℚ} {groups : List (Int × List Int)}
    {e : WallEnv m.mh.dims.length} {npart : List Nat} {par : Parent} {P : LoopParams} (order : Sched)
    {rows0 rows1 rows2 : List (List WallPart)} (hP : RowLoopOk P npart par) (hs : Shape npart rows0)
    (hin : ∀ c l, InParent npart par c l → ∃ p, rowAt rows0 c l = some p ∧
      InsideDomain (m.globalExtents extent) p.pos ∧ m.mh.dims.length ≤ p.pos.length ∧
      m.mh.dims.length ≤ p.prev.length)
    (hpre : wallPre P order m.mh.dims.length npart par rows0 = some rows1)
    (hmove : ∀ c l p1, InParent npart par c l → rowAt rows1 c l = some p1 →
      ∃ p2, rowAt rows2 c l = some p2 ∧ p2.prev = p1.prev ∧ HasComps (m.globalExtents extent) p2.pos)
    (h : WallSetup m extent tol groups e npart par rows2) :
    ∃ out side point, wallPost m extent tol groups e npart par rows2 = some out ∧
      (∀ c l p0 p2, InParent npart par c l → rowAt rows0 c l = some p0 → rowAt rows2 c l = some p2 →
        ¬ InsideDomain (m.globalExtents extent) p2.pos →
        LeavesAt (m.globalExtents extent) tol p0.pos p2.pos (side c l) (point c l)) ∧
      List.Forall₂ (GroupOut m extent npart par rows2 side point) groups out := by
  have hcomps : ∀ c l p, InParent npart par c l → rowAt rows0 c l = some p →
      m.mh.dims.length ≤ p.pos.length ∧ m.mh.dims.length ≤ p.prev.length := by
    intro c l p hl hr
    obtain ⟨p', h1, -, h2⟩ := hin c l hl
    rw [hr] at h1
    obtain rfl := Option.some.inj h1
    exact h2
  obtain ⟨rows1', a1, -, a3, -⟩ := C69_pre order hP hs hcomps
  rw [hpre] at a1
  obtain rfl := Option.some.inj a1
  have hprev : ∀ c l p0 p2, InParent npart par c l → rowAt rows0 c l = some p0 →
      rowAt rows2 c l = some p2 → ∀ i < m.mh.dims.length, p2.prev[i]? = p0.pos[i]? := by
    intro c l p0 p2 hl h0 h2 i hi
    obtain ⟨p1, b1, -, -, b2⟩ := a3 c l p0 hl h0
    obtain ⟨p2', b3, b4, -⟩ := hmove c l p1 hl b1
    rw [h2] at b3
    obtain rfl := Option.some.inj b3
    rw [b4, b2, if_pos hi]
  obtain ⟨out, side, point, o1, o2, o3⟩ := C69_groups ⟨h, (by
    intro c l hl
    obtain ⟨p0, c1, c2, -⟩ := hin c l hl
    obtain ⟨p1, b1, -⟩ := a3 c l p0 hl c1
    obtain ⟨p2, b3, -, b5⟩ := hmove c l p1 hl b1
    refine ⟨p2, b3, b5, ?_⟩
    intro i x hi
    rw [hprev c l p0 p2 hl c1 b3 i (by
      rw [← wall_ext_length m extent]; exact (List.getElem?_eq_some_iff.1 hi).1)]
    exact c2 i x hi)⟩
  refine ⟨out, side, point, o1, ?_, o3⟩
  intro c l p0 p2 hl h0 h2 hout
  refine leavesAt_congr (fun i hi => ?_) (o2 c l p2 hl h2 hout)
  rw [wall_ext_length] at hi
  exact (hprev c l p0 p2 hl h0 h2 i hi).symm

theorem runItems_eq_none {ι σ : Type} {step : ι → σ → Option σ} {items : List ι} {i : ι}
    (hi : i ∈ items) (h : ∀ s, step i s = none) (s : σ) : runItems step items s = none := by
  induction items generalizing s with
  | nil => simp at hi
  | cons a l ih =>
    rcases List.mem_cons.1 hi with rfl | hi
    · simp [runItems, h]
    · unfold runItems
      cases step a s with
      | none => rfl
      | some s' => exact ih hi s'

/-- **C69 (bad sides).** A group with a number that is not a side of the domain makes the call throw,
whatever the particles. -/
theorem C69_rejects {m : CartMesh} {extent tol : ℚ} {groups : List (Int × List Int)}
    (e : WallEnv m.mh.dims.length) (npart : List Nat) (par : Parent) (rows : List (List WallPart))
    {g : Int × List Int} {f : Int} (hg : g ∈ groups) (hf : f ∈ g.2)
    (hbad : f < 0 ∨ 2 * m.mh.dims.length ≤ f) : wallPost m extent tol groups e npart par rows = none := by
  unfold wallPost
  dsimp only
  split
  case isFalse => rfl
  case isTrue hn =>
    have hmap : wallGroupMap m.mh.dims.length groups = none := by
      unfold wallGroupMap
      refine runItems_eq_none hg (fun s => runItems_eq_none hf (fun s => if_neg ?_) s) _
      rintro ⟨h1, h2⟩
      rcases hn with hn | hn <;> rw [hn] at hbad h2 <;> norm_num at h2 hbad <;> omega
    simp only [hmap, Option.bind_none, Option.bind_fun_none]

end NP
