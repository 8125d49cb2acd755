import Verif.Petsc.LemmasIndex

/-!
# Lemmas: the mesh of a halo
-/

set_option autoImplicit false

namespace NP

open Spec

theorem fits_le {k a b : Nat} (hab : a ≤ b) (h : FitsIn k (b : Int)) : FitsIn k (a : Int) := by
  obtain ⟨h1, h2⟩ := h
  exact ⟨by omega, by omega⟩

theorem plexCells_lt {dm : Plex} {cell p : Nat} (h : (plexCells dm)[cell]? = some p) :
    p < dm.points.length := by
  have := List.mem_of_getElem? h
  unfold plexCells at this
  exact List.mem_range.1 (List.mem_filter.1 this).1

theorem closure_depth {dm : Plex} {g : GMesh} {glob : Nat → Int} (h : PlexOf dm g glob) {ix : Nat}
    (hix : ix < dm.points.length) {P : Int} (hP : InClosure g (glob ix) P) :
    g.depth P ≤ dm.depth := by
  obtain ⟨q, hq, rfl⟩ := plexOf_mem h hix hP
  have := h.heights q _ (List.getElem?_eq_getElem hq)
  omega

/-- A cell of a mesh can be stored. -/
theorem cellIs_stored {dm : Plex} {g : GMesh} {ndim ki ks : Nat} (hg : GMeshOk g ndim ks)
    {glob : Nat → Int} (h : PlexOf dm g glob) {ix : Nat} (hix : ix < dm.points.length)
    (hfit : ∀ (p : Nat) (x : PlexPoint), dm.points[p]? = some x → FitsIn ki (glob p) ∧
      FitsIn ki x.cone.length ∧ (∀ o ∈ x.ornt, FitsIn ki o) ∧ FitsIn ki x.coords.length)
    (hn : FitsIn ki dm.points.length) {r : StdCell} (hr : CellIs r g (glob ix))
    (o1 : OMapOk r.cones) (o2 : OMapOk r.ornts) (o3 : OMapOk r.vertices)
    (l1 : r.cones.length ≤ dm.points.length) (l2 : r.vertices.length ≤ dm.points.length) :
    CellStored r ki ks := by
  have loc : ∀ P, InClosure g (glob ix) P → ∃ p x, dm.points[p]? = some x ∧ glob p = P := by
    intro P hP
    obtain ⟨p, hp, e⟩ := plexOf_mem h hix hP
    exact ⟨p, _, List.getElem?_eq_getElem hp, e⟩
  refine ⟨o1, o2, o3, ?_, ?_, ?_, ?_, fits_le l1 hn, fits_le l2 hn⟩
  · intro p
    by_cases hp : InClosure g (glob ix) p
    · rw [(hr.cones p _).2 ⟨hp, rfl⟩, (hr.ornts p _).2 ⟨hp, rfl⟩]
      simp only [Option.map_some]
      rw [hg.ornts p]
    · have a : omGet r.cones p = none := by
        cases e : omGet r.cones p with
        | none => rfl
        | some v => exact absurd ((hr.cones p v).1 e).1 hp
      have b : omGet r.ornts p = none := by
        cases e : omGet r.ornts p with
        | none => rfl
        | some v => exact absurd ((hr.ornts p v).1 e).1 hp
      rw [a, b]
  · intro e he
    obtain ⟨hc, hv⟩ := (hr.cones e.1 e.2).1 (omGet_of_mem o1 he)
    obtain ⟨p, x, hx, hp⟩ := loc _ hc
    obtain ⟨f1, f2, -, -⟩ := hfit p x hx
    have hcone : e.2 = x.cone.map glob := by rw [hv, ← hp]; exact h.cones p x hx
    refine ⟨by rw [← hp]; exact f1, by rw [hcone, List.length_map]; exact f2, ?_⟩
    intro q hq
    rw [hcone] at hq
    obtain ⟨q', hq', rfl⟩ := List.mem_map.1 hq
    exact (hfit q' _ (List.getElem?_eq_getElem (h.closed p x hx q' hq'))).1
  · intro e he q hq
    obtain ⟨hc, hv⟩ := (hr.ornts e.1 e.2).1 (omGet_of_mem o2 he)
    obtain ⟨p, x, hx, hp⟩ := loc _ hc
    obtain ⟨-, -, f3, -⟩ := hfit p x hx
    rw [hv, ← hp, h.ornts p x hx] at hq
    exact f3 q hq
  · intro e he
    obtain ⟨hc, hd, hv⟩ := (hr.vertices e.1 e.2).1 (omGet_of_mem o3 he)
    obtain ⟨p, x, hx, hp⟩ := loc _ hc
    obtain ⟨f1, -, -, f4⟩ := hfit p x hx
    have hh := h.heights p x hx
    rw [hp] at hh
    have hco := h.coords p x hx (by omega)
    refine ⟨by rw [← hp]; exact f1, by rw [hv, ← hp, hco]; exact f4, ?_⟩
    intro s hs
    rw [hv] at hs
    exact hg.scalars _ s hs

/-- A packed cell is unpacked to the closure of the cell. -/
theorem packed_is {g : GMesh} {ndim ki ks fuel : Nat} (hg : GMeshOk g ndim ks) (hki : 0 < ki)
    (hks : 0 < ks) {c : PackedCell} (hc : PackedOf ki ks fuel g c) :
    ∃ r, repDeserialise ki ks StdCell.new c.rep = some r ∧ CellIs r g c.globalId ∧
      OMapOk r.cones ∧ OMapOk r.ornts ∧ OMapOk r.vertices ∧ r.depthOf = [] ∧
      ∀ p, InClosure g c.globalId p → g.depth p < fuel := by
  obtain ⟨⟨dm, glob, cell, hof, hf, -, hfit, hn, hget⟩, hmem⟩ := hc
  unfold getCopyableCell at hget
  obtain ⟨point, hpt, hget⟩ := Option.bind_eq_some_iff.1 hget
  obtain ⟨r, hr, hget⟩ := Option.bind_eq_some_iff.1 hget
  obtain ⟨bytes, hb, hget⟩ := Option.bind_eq_some_iff.1 hget
  obtain ⟨gid, hgid, hget⟩ := Option.bind_eq_some_iff.1 hget
  have hlt := plexCells_lt hpt
  obtain ⟨r', e1, his, o1, o2, o3, hcache, l1, l2⟩ := repOfPlex_spec hg hof (fuel := fuel) hlt hf
  rw [hr] at e1
  cases e1
  rw [plexOf_global hof hlt] at hgid
  cases hgid
  have e2 : c.globalId = glob point := by rw [← Option.some.inj hget]
  have e3 : c.rep = bytes := by rw [← Option.some.inj hget]
  have hstored := cellIs_stored hg hof hlt hfit hn his o1 o2 o3 l1 l2
  obtain ⟨b, hb', hround⟩ := rep_round_trip hki hks hstored (by
    intro b hb'
    rw [hb] at hb'
    cases hb'
    rw [← e3]
    exact hmem)
  rw [hb] at hb'
  cases hb'
  refine ⟨r, ?_, by rw [e2]; exact his, o1, o2, o3, hcache, ?_⟩
  · rw [e3, hround StdCell.new rfl rfl rfl]
    obtain ⟨a1, a2, a3, a4⟩ := r
    simp only at hcache
    subst hcache
    rfl
  · intro p hp
    rw [e2] at hp
    have := closure_depth hof hlt hp
    omega

/-- Where the points of a depth are in the sorted list. -/
theorem depth_range {pts : List (Nat × Int)} (h : pts.Pairwise (fun a b => pairLt a b = true))
    {l : Nat} {y : Nat × Int} (hy : pts[l]? = some y) :
    below pts y.1 ≤ l ∧ l < below pts (y.1 + 1) := by
  obtain ⟨hlt, he⟩ := List.getElem?_eq_some_iff.1 hy
  have hs : pts = pts.take l ++ y :: pts.drop (l + 1) := by
    rw [← he, List.getElem_cons_drop, List.take_append_drop]
  have hpos := sorted_position (pre := pts.take l) (x := y) (post := pts.drop (l + 1))
    (by rw [← hs]; exact h)
  rw [← hs, List.length_take, Nat.min_eq_left (Nat.le_of_lt hlt)] at hpos
  refine ⟨by omega, ?_⟩
  rw [below_succ]
  have : pts.countP (fun x => x.1 == y.1) = (pts.take l).countP (fun x => x.1 == y.1) +
      ((y :: pts.drop (l + 1)).countP (fun x => x.1 == y.1)) := by
    rw [← List.countP_append, ← hs]
  rw [this, List.countP_cons_of_pos (by simp)]
  omega

/-- The writes of the coordinates of a vertex. -/
theorem haloCoord_spec {ix : HaloIndex} {ndim l : Nat} {coords : List Scal} {v : Int × List Scal}
    (hl : omGet ix.toLocal v.1 = some l) (hv : v.2.length = ndim)
    (hb : l * ndim + ndim ≤ coords.length) :
    ∃ coords', haloCoord ix ndim 0 coords v = some coords' ∧ coords'.length = coords.length ∧
      (∀ d, d < ndim → coords'[l * ndim + d]? = v.2[d]?) ∧
      ∀ i, (i < l * ndim ∨ l * ndim + ndim ≤ i) → coords'[i]? = coords[i]? := by
  obtain ⟨c', e, h1, h2, h3⟩ := forLoop_invariant (a := 0) (b := ndim)
    (step := fun d coords => (v.2[d]?).bind fun x => st coords ((l - 0) * ndim + d) x) (s := coords)
    (fun k c => c.length = coords.length ∧ (∀ d, d < k → c[l * ndim + d]? = v.2[d]?) ∧
      ∀ i, (i < l * ndim ∨ l * ndim + k ≤ i) → c[i]? = coords[i]?) (Nat.zero_le _) (by
      intro k c _ hk ⟨i1, i2, i3⟩
      have hkv : k < v.2.length := by omega
      refine ⟨c.set (l * ndim + k) v.2[k], ?_, by simpa using i1, ?_, ?_⟩
      · rw [List.getElem?_eq_getElem hkv]
        simp only [Option.bind_some, Nat.sub_zero]
        exact st_eq_some (by omega)
      · intro d hd
        rw [List.getElem?_set]
        by_cases e : l * ndim + k = l * ndim + d
        · have : k = d := by omega
          subst this
          rw [if_pos rfl, if_pos (by omega), List.getElem?_eq_getElem hkv]
        · rw [if_neg e]
          exact i2 d (by omega)
      · intro i hi
        rw [List.getElem?_set, if_neg (by omega)]
        exact i3 i (by omega)) ⟨rfl, fun d hd => by omega, fun i _ => rfl⟩
  refine ⟨c', ?_, h1, h2, h3⟩
  unfold haloCoord
  rw [hl]
  simp only [Option.bind_some]
  rw [if_pos (Nat.zero_le _)]
  exact e

theorem slot_bound {a b n : Nat} (h : a < b) : a * n + n ≤ b * n := by
  have := Nat.mul_le_mul_right n (Nat.succ_le_of_lt h)
  rw [Nat.succ_mul] at this
  exact this

theorem mapM_local {m : OMap Nat} {loc : Int → Nat} (l : List Int)
    (h : ∀ q ∈ l, omGet m q = some (loc q)) : l.mapM (omGet m) = some (l.map loc) := by
  induction l with
  | nil => rfl
  | cons q l ih =>
    rw [List.mapM_cons, h q List.mem_cons_self, ih (fun q' h' => h q' (List.mem_cons_of_mem _ h'))]
    rfl

theorem copyCone_spec {α : Type} {sizes : List Nat} {table : List (List α)} {p : Nat} {src : List α}
    (h1 : sizes[p]? = some src.length) (h2 : p < table.length) :
    copyCone sizes table p src = some (table.set p src) := by
  unfold copyCone
  rw [h1]
  simp only [Option.bind_some]
  rw [if_pos (Nat.le_refl _), List.take_length, st_eq_some h2]

/-- The mesh of the halo. -/
theorem halo_spec {g : GMesh} {ndim ki ks fuel : Nat} (hg : GMeshOk g ndim ks) (hki : 0 < ki)
    (hks : 0 < ks) (fresh : Fresh Scal) (cells : List PackedCell)
    (hc : ∀ c ∈ cells, PackedOf ki ks fuel g c)
    (hown : ∀ c ∈ cells, ∀ d ∈ cells, c.globalId = d.globalId → c.rank = d.rank ∧ c.localId = d.localId)
    (hne : cells ≠ []) :
    ∃ ix h lids loc, dmFromCells ki ks fuel ndim fresh cells [] = some (some (ix, h), lids) ∧
      HaloPlexIs h ix g ndim (cells.map (·.globalId)) loc ∧
      (∀ c ∈ cells, omGet lids (loc c.globalId) = some (c.rank, c.localId, c.globalId)) ∧
      (∀ c ∈ cells, ∀ p, InClosure g c.globalId p → (∀ d ∈ cells, d.globalId ≠ p) →
        omGet lids (loc p) = some (-1, -1, p)) ∧
      (∀ l v, omGet lids l = some v → 0 ≤ l ∧ l < ix.chartEnd) := by
  -- unpacked cells
  have hdes : ∃ reps, (cells.mapM fun c => repDeserialise ki ks StdCell.new c.rep) = some reps ∧
      List.Forall₂ (fun r (c : PackedCell) => CellIs r g c.globalId ∧ OMapOk r.cones ∧ OMapOk r.ornts ∧
        OMapOk r.vertices ∧ r.depthOf = []) reps cells := by
    clear hown hne
    induction cells with
    | nil => exact ⟨[], rfl, .nil⟩
    | cons c cells ih =>
      obtain ⟨reps, e1, e2⟩ := ih (fun d hd => hc d (List.mem_cons_of_mem _ hd))
      obtain ⟨r, r1, r2, r3, r4, r5, r6, -⟩ := packed_is hg hki hks (hc c List.mem_cons_self)
      refine ⟨r :: reps, ?_, .cons ⟨r2, r3, r4, r5, r6⟩ e2⟩
      rw [List.mapM_cons, r1, e1]
      rfl
  obtain ⟨reps, hd1, hd2⟩ := hdes
  have hids : List.Forall₂ (fun r c => CellIs r g c ∧ OMapOk r.cones ∧ r.depthOf = []) reps
      (cells.map (·.globalId)) := by
    rw [List.forall₂_map_right_iff]
    exact hd2.imp fun r c hh => ⟨hh.1, hh.2.1, hh.2.2.2.2⟩
  have hfuel : ∀ c ∈ cells.map (·.globalId), ∀ p, InClosure g c p → g.depth p < fuel := by
    intro c hcm
    obtain ⟨c', hc', rfl⟩ := List.mem_map.1 hcm
    obtain ⟨r, -, -, -, -, -, -, hh⟩ := packed_is hg hki hks (hc c' hc')
    exact hh
  obtain ⟨ix, pts, x1, x2, x3, x4, x5, x6, x7, x8⟩ := haloIndex_spec hg _ reps hids hfuel (by
    intro hh
    exact hne (List.map_eq_nil_iff.1 hh))
  -- the points and their numbers
  have hrc : ∀ r ∈ reps, ∃ c ∈ cells, CellIs r g c.globalId ∧ OMapOk r.cones ∧ OMapOk r.ornts ∧
      OMapOk r.vertices := by
    intro r hr
    obtain ⟨i, hi, rfl⟩ := List.getElem_of_mem hr
    have hi' : i < cells.length := by rw [← hd2.length_eq]; exact hi
    have := (List.forall₂_iff_get.1 hd2).2 i hi hi'
    exact ⟨cells[i], List.getElem_mem hi', this.1, this.2.1, this.2.2.1, this.2.2.2.1⟩
  have hcr : ∀ c ∈ cells, ∃ r ∈ reps, CellIs r g c.globalId := by
    intro c hcm
    obtain ⟨i, hi, rfl⟩ := List.getElem_of_mem hcm
    have hi' : i < reps.length := by rw [hd2.length_eq]; exact hi
    have := (List.forall₂_iff_get.1 hd2).2 i hi' hi
    exact ⟨reps[i], List.getElem_mem hi', this.1⟩
  let loc : Int → Nat := fun p => (omGet ix.toLocal p).getD 0
  let Pt : Int → Prop := fun p => ∃ c ∈ cells, InClosure g c.globalId p
  have hmemPt : ∀ p, Pt p ↔ (g.depth p, p) ∈ pts := by
    intro p
    rw [x3]
    constructor
    · rintro ⟨c, hcm, hp⟩
      exact ⟨rfl, _, List.mem_map.2 ⟨c, hcm, rfl⟩, hp⟩
    · rintro ⟨-, c, hcm, hp⟩
      obtain ⟨c', hc', rfl⟩ := List.mem_map.1 hcm
      exact ⟨c', hc', hp⟩
  have hloc : ∀ p, Pt p → omGet ix.toLocal p = some (loc p) ∧ pts[loc p]? = some (g.depth p, p) ∧
      loc p < ix.chartEnd := by
    intro p hp
    obtain ⟨i, hi⟩ := List.getElem?_of_mem ((hmemPt p).1 hp)
    have e := (x5 p i).2 hi
    have el : loc p = i := by show (omGet ix.toLocal p).getD 0 = i; rw [e]; rfl
    rw [el]
    exact ⟨e, hi, by rw [x4]; exact (List.getElem?_eq_some_iff.1 hi).1⟩
  have hinj : ∀ p q, Pt p → Pt q → loc p = loc q → p = q := by
    intro p q hp hq e
    have h1 := (hloc p hp).2.1
    rw [e, (hloc q hq).2.1] at h1
    exact (congrArg Prod.snd (Option.some.inj h1)).symm
  have hcone : ∀ p q, Pt p → q ∈ g.cone p → Pt q := by
    rintro p q ⟨c, hcm, hp⟩ hq
    exact ⟨c, hcm, .cone hp hq⟩
  -- the map of local ids
  obtain ⟨lids, d1, d2, d3⟩ := foldlM_inv (fun (m : LidMap) (c : PackedCell) =>
      (omGet ix.toLocal c.globalId).bind fun l => some (omPut m l (c.rank, c.localId, c.globalId)))
    (fun pre m => (∀ c ∈ pre, omGet m (loc c.globalId) = some (c.rank, c.localId, c.globalId)) ∧
      ∀ k v, omGet m k = some v → ∃ c ∈ pre, (loc c.globalId : Int) = k) cells []
    ⟨fun c hh => (nomatch hh), fun k v hh => (nomatch hh)⟩ (by
      intro pre c post m hl ⟨i1, i2⟩
      have hcm : c ∈ cells := by rw [hl]; simp
      have hp : Pt c.globalId := ⟨c, hcm, .self⟩
      refine ⟨omPut m (loc c.globalId) (c.rank, c.localId, c.globalId), ?_, ?_, ?_⟩
      · rw [(hloc _ hp).1]
        rfl
      · intro d hd
        rw [omGet_put]
        by_cases e : (loc c.globalId : Int) = loc d.globalId
        · rw [if_pos e]
          have hdm : d ∈ cells := by
            rw [hl]
            rcases List.mem_append.1 hd with hd | hd
            · exact List.mem_append_left _ hd
            · rw [List.mem_singleton] at hd
              subst hd
              simp
          have e' := hinj _ _ hp ⟨d, hdm, .self⟩ (by omega)
          obtain ⟨o1, o2⟩ := hown c hcm d hdm e'
          rw [o1, o2, e']
        · rw [if_neg e]
          rcases List.mem_append.1 hd with hd | hd
          · exact i1 d hd
          · rw [List.mem_singleton] at hd
            subst hd
            exact absurd rfl e
      · intro k v hk
        rw [omGet_put] at hk
        by_cases e : (loc c.globalId : Int) = k
        · exact ⟨c, by simp, e⟩
        · rw [if_neg e] at hk
          obtain ⟨d, hd, he⟩ := i2 k v hk
          exact ⟨d, List.mem_append_left _ hd, he⟩)
  -- items of the loops over points
  have hitem : ∀ it ∈ (reps.flatMap fun r => r.cones.map (Prod.mk r)),
      Pt it.2.1 ∧ it.2.2 = g.cone it.2.1 ∧ omGet it.1.ornts it.2.1 = some (g.ornt it.2.1) := by
    intro it hit
    obtain ⟨r, hr, hit⟩ := List.mem_flatMap.1 hit
    obtain ⟨x, hx, rfl⟩ := List.mem_map.1 hit
    obtain ⟨c, hcm, his, o1, o2, -⟩ := hrc r hr
    obtain ⟨hin, hv⟩ := (his.cones x.1 x.2).1 (omGet_of_mem o1 hx)
    exact ⟨⟨c, hcm, hin⟩, hv, (his.ornts x.1 _).2 ⟨hin, rfl⟩⟩
  have hall : ∀ p, Pt p → ∃ it ∈ (reps.flatMap fun r => r.cones.map (Prod.mk r)), it.2.1 = p := by
    rintro p ⟨c, hcm, hp⟩
    obtain ⟨r, hr, his⟩ := hcr c hcm
    exact ⟨(r, (p, g.cone p)), List.mem_flatMap.2 ⟨r, hr, List.mem_map.2
      ⟨_, omGet_some_mem ((his.cones p _).2 ⟨hp, rfl⟩), rfl⟩⟩, rfl⟩
  -- sizes of the cones
  obtain ⟨ss, s1, s2, s3, s4⟩ := foldlM_inv (fun (s : List Int × List Nat)
      (rx : StdCell × (Int × List Int)) => haloSize ix s rx.2)
    (fun pre s => s.2.length = ix.chartEnd ∧ (∀ p, p ∈ s.1 ↔ ∃ it ∈ pre, it.2.1 = p) ∧
      ∀ p ∈ s.1, s.2[loc p]? = some (g.cone p).length)
    (reps.flatMap fun r => r.cones.map (Prod.mk r)) ([], List.replicate ix.chartEnd 0)
    ⟨by simp, fun p => by simp, fun p hp => (nomatch hp)⟩ (by
      intro pre it post s hl ⟨i1, i2, i3⟩
      obtain ⟨hp, hv, -⟩ := hitem it (by rw [hl]; simp)
      unfold haloSize
      by_cases hseen : it.2.1 ∈ s.1
      · rw [if_pos hseen]
        refine ⟨s, rfl, i1, ?_, i3⟩
        intro p
        rw [i2]
        constructor
        · rintro ⟨it', h', e⟩
          exact ⟨it', List.mem_append_left _ h', e⟩
        · rintro ⟨it', h', e⟩
          rcases List.mem_append.1 h' with h' | h'
          · exact ⟨it', h', e⟩
          · rw [List.mem_singleton] at h'
            subst h'
            rw [← e]
            exact (i2 _).1 hseen
      · rw [if_neg hseen, (hloc _ hp).1]
        simp only [Option.bind_some]
        rw [st_eq_some (by rw [i1]; exact (hloc _ hp).2.2)]
        refine ⟨_, rfl, by simpa using i1, ?_, ?_⟩
        · intro p
          show p ∈ it.2.1 :: s.1 ↔ _
          rw [List.mem_cons, i2]
          constructor
          · rintro (e | ⟨it', h', e⟩)
            · exact ⟨it, by simp, e.symm⟩
            · exact ⟨it', List.mem_append_left _ h', e⟩
          · rintro ⟨it', h', e⟩
            rcases List.mem_append.1 h' with h' | h'
            · exact .inr ⟨it', h', e⟩
            · rw [List.mem_singleton] at h'
              subst h'
              exact .inl e.symm
        · intro p hpm
          show (s.2.set (loc it.2.1) it.2.2.length)[loc p]? = _
          rw [List.getElem?_set]
          by_cases e : it.2.1 = p
          · subst e
            rw [if_pos rfl, if_pos (by rw [i1]; exact (hloc _ hp).2.2), hv]
          · have hps : p ∈ s.1 := by
              rcases List.mem_cons.1 hpm with h' | h'
              · exact absurd h'.symm e
              · exact h'
            obtain ⟨it', h', he'⟩ := (i2 p).1 hps
            have hPp : Pt p := he' ▸ (hitem it' (by rw [hl]; exact List.mem_append_left _ h')).1
            rw [if_neg (fun hh => e (hinj _ _ hp hPp hh))]
            exact i3 p hps)
  have hsizes : ∀ p, Pt p → ss.2[loc p]? = some (g.cone p).length := fun p hp =>
    s4 p ((s3 p).2 (hall p hp))
  -- cones and orientations
  obtain ⟨cs, c1, c2, c3, c4, c5, c6, c7, c8⟩ := foldlM_inv (fun (s : HaloConeState)
      (rx : StdCell × (Int × List Int)) => haloCone ix ss.2 rx.1.ornts s rx.2)
    (fun pre s => s.cones.length = ix.chartEnd ∧ s.ornts.length = ix.chartEnd ∧
      (∀ p, p ∈ s.seen ↔ ∃ it ∈ pre, it.2.1 = p) ∧
      (∀ p ∈ s.seen, s.cones[loc p]? = some ((g.cone p).map loc) ∧
        s.ornts[loc p]? = some (g.ornt p)) ∧
      (∀ p ∈ s.seen, omGet s.lids (loc p) = some ((omGet lids (loc p)).getD (-1, -1, p))) ∧
      (∀ p, Pt p → p ∉ s.seen → omGet s.lids (loc p) = omGet lids (loc p)) ∧
      (∀ k v, omGet s.lids k = some v → ∃ p, Pt p ∧ (loc p : Int) = k))
    (reps.flatMap fun r => r.cones.map (Prod.mk r))
    ⟨[], ss.2.map (fun n => List.replicate n 0), ss.2.map (fun n => List.replicate n 0), lids⟩
    ⟨by simpa using s2, by simpa using s2, fun p => by simp, fun p hp => (nomatch hp),
      fun p hp => (nomatch hp), fun p _ _ => rfl, fun k v hk => by
        obtain ⟨c, hcm, e⟩ := d3 k v hk
        exact ⟨_, ⟨c, hcm, .self⟩, e⟩⟩ (by
      intro pre it post s hl ⟨i1, i2, i3, i4, i5, i6, i7⟩
      obtain ⟨hp, hv, ho⟩ := hitem it (by rw [hl]; simp)
      obtain ⟨l1, l2, l3⟩ := hloc _ hp
      unfold haloCone
      by_cases hseen : it.2.1 ∈ s.seen
      · rw [if_pos hseen]
        refine ⟨s, rfl, i1, i2, ?_, i4, i5, i6, i7⟩
        intro p
        rw [i3]
        constructor
        · rintro ⟨it', h', e⟩
          exact ⟨it', List.mem_append_left _ h', e⟩
        · rintro ⟨it', h', e⟩
          rcases List.mem_append.1 h' with h' | h'
          · exact ⟨it', h', e⟩
          · rw [List.mem_singleton] at h'
            subst h'
            rw [← e]
            exact (i3 _).1 hseen
      · have hmap : it.2.2.mapM (omGet ix.toLocal) = some ((g.cone it.2.1).map loc) := by
          rw [hv]
          exact mapM_local _ fun q hq => (hloc q (hcone _ q hp hq)).1
        have hbound : ((g.cone it.2.1).map loc).all (fun q => decide (q < ix.chartEnd)) = true := by
          rw [List.all_eq_true]
          intro q hq
          obtain ⟨q', hq', rfl⟩ := List.mem_map.1 hq
          simpa using (hloc q' (hcone _ q' hp hq')).2.2
        have hsz := hsizes _ hp
        rw [if_neg hseen, l1, hmap]
        simp only [Option.bind_some]
        rw [if_pos hbound, copyCone_spec (by rw [List.length_map]; exact hsz) (by omega), ho]
        simp only [Option.bind_some]
        rw [copyCone_spec (by rw [hg.ornts]; exact hsz) (by omega)]
        simp only [Option.bind_some]
        have hother : ∀ p ∈ s.seen, loc it.2.1 ≠ loc p := by
          intro p hps hh
          obtain ⟨it', h', he'⟩ := (i3 p).1 hps
          have hPp : Pt p := he' ▸ (hitem it' (by rw [hl]; exact List.mem_append_left _ h')).1
          have := hinj _ _ hp hPp hh
          subst this
          exact hseen hps
        -- the map after this step
        have hlid : ∀ k : Int, omGet (if (omGet s.lids (loc it.2.1)).isSome then s.lids
            else omPut s.lids (loc it.2.1) (-1, -1, it.2.1)) k =
            if (loc it.2.1 : Int) = k then some ((omGet s.lids k).getD (-1, -1, it.2.1))
            else omGet s.lids k := by
          intro k
          by_cases e : (loc it.2.1 : Int) = k
          · rw [if_pos e, ← e]
            cases hs : omGet s.lids (loc it.2.1) with
            | none => rw [if_neg (by simp), omGet_put, if_pos rfl]; rfl
            | some v => rw [if_pos (by rfl), hs]; rfl
          · rw [if_neg e]
            split
            · rfl
            · rw [omGet_put, if_neg e]
        refine ⟨_, rfl, by simpa using i1, by simpa using i2, ?_, ?_, ?_, ?_, ?_⟩
        · intro p
          show p ∈ it.2.1 :: s.seen ↔ _
          rw [List.mem_cons, i3]
          constructor
          · rintro (e | ⟨it', h', e⟩)
            · exact ⟨it, by simp, e.symm⟩
            · exact ⟨it', List.mem_append_left _ h', e⟩
          · rintro ⟨it', h', e⟩
            rcases List.mem_append.1 h' with h' | h'
            · exact .inr ⟨it', h', e⟩
            · rw [List.mem_singleton] at h'
              subst h'
              exact .inl e.symm
        · intro p hpm
          simp only
          rw [List.getElem?_set, List.getElem?_set]
          rcases List.mem_cons.1 hpm with e | hps
          · subst e
            rw [if_pos rfl, if_pos (by omega), if_pos rfl, if_pos (by omega)]
            exact ⟨rfl, rfl⟩
          · rw [if_neg (hother p hps), if_neg (hother p hps)]
            exact i4 p hps
        · intro p hpm
          simp only
          rw [hlid]
          rcases List.mem_cons.1 hpm with e | hps
          · subst e
            rw [if_pos rfl, i6 _ hp hseen]
          · rw [if_neg (by have := hother p hps; omega)]
            exact i5 p hps
        · intro p hPp hpn
          simp only at hpn ⊢
          have hne' : it.2.1 ≠ p := fun e => hpn (by rw [e]; exact List.mem_cons_self)
          rw [hlid, if_neg (by
            intro hh
            exact hne' (hinj _ _ hp hPp (by omega)))]
          exact i6 p hPp (fun hh => hpn (List.mem_cons_of_mem _ hh))
        · intro k v hk
          simp only at hk
          rw [hlid] at hk
          by_cases e : (loc it.2.1 : Int) = k
          · exact ⟨_, hp, e⟩
          · rw [if_neg e] at hk
            exact i7 k v hk)
  have hseenAll : ∀ p, Pt p → p ∈ cs.seen := fun p hp => (c4 p).2 (hall p hp)
  -- coordinates
  have hvitem : ∀ it ∈ (reps.flatMap fun r => r.vertices.map (Prod.mk r)),
      Pt it.2.1 ∧ g.depth it.2.1 = 0 ∧ it.2.2 = g.coords it.2.1 := by
    intro it hit
    obtain ⟨r, hr, hit⟩ := List.mem_flatMap.1 hit
    obtain ⟨x, hx, rfl⟩ := List.mem_map.1 hit
    obtain ⟨c, hcm, his, -, -, o3⟩ := hrc r hr
    obtain ⟨hin, hz, hv⟩ := (his.vertices x.1 x.2).1 (omGet_of_mem o3 hx)
    exact ⟨⟨c, hcm, hin⟩, hz, hv⟩
  have hvall : ∀ p, Pt p → g.depth p = 0 →
      ∃ it ∈ (reps.flatMap fun r => r.vertices.map (Prod.mk r)), it.2.1 = p := by
    rintro p ⟨c, hcm, hp⟩ hz
    obtain ⟨r, hr, his⟩ := hcr c hcm
    exact ⟨(r, (p, g.coords p)), List.mem_flatMap.2 ⟨r, hr, List.mem_map.2
      ⟨_, omGet_some_mem ((his.vertices p _).2 ⟨hp, hz, rfl⟩), rfl⟩⟩, rfl⟩
  obtain ⟨co, v1, v2, v3⟩ := foldlM_inv (fun (s : List Scal) (rx : StdCell × (Int × List Scal)) =>
      haloCoord ix ndim 0 s rx.2)
    (fun pre s => s.length = below pts 1 * ndim ∧
      ∀ it ∈ pre, ∀ d, d < ndim → s[loc it.2.1 * ndim + d]? = (g.coords it.2.1)[d]?)
    (reps.flatMap fun r => r.vertices.map (Prod.mk r)) (fresh ((below pts 1 - 0) * ndim)).1
    ⟨by rw [(fresh _).2, Nat.sub_zero], fun it hit => (nomatch hit)⟩ (by
      intro pre it post s hl ⟨i1, i2⟩
      obtain ⟨hp, hz, hv⟩ := hvitem it (by rw [hl]; simp)
      obtain ⟨l1, l2, -⟩ := hloc _ hp
      have hr := (depth_range x2 l2).2
      simp only [hz, Nat.zero_add] at hr
      obtain ⟨s', e1, e2, e3, e4⟩ := haloCoord_spec (ndim := ndim) (coords := s) l1 (by rw [hv]; exact hg.dims _)
        (by rw [i1]; exact slot_bound hr)
      refine ⟨s', e1, by rw [e2, i1], ?_⟩
      intro jt hjt d hd
      by_cases e : loc it.2.1 = loc jt.2.1
      · have hj : Pt jt.2.1 := by
          refine (hvitem jt ?_).1
          rw [hl]
          rcases List.mem_append.1 hjt with h' | h'
          · exact List.mem_append_left _ h'
          · rw [List.mem_singleton] at h'
            subst h'
            simp
        have e' := hinj _ _ hp hj e
        rw [← e', e3 d hd, hv]
      · have hjp : jt ∈ pre := by
          rcases List.mem_append.1 hjt with h' | h'
          · exact h'
          · rw [List.mem_singleton] at h'
            subst h'
            exact absurd rfl e
        rw [e4 _ ?_]
        · exact i2 jt hjp d hd
        · rcases Nat.lt_or_gt_of_ne e with hlt | hgt
          · right
            have := slot_bound (n := ndim) hlt
            omega
          · left
            have := slot_bound (n := ndim) hgt
            omega)
  have hstart : ix.starts[0]? = some 0 := x7
  refine ⟨ix, ⟨ss.2, cs.cones, cs.ornts, co⟩, cs.lids, loc, ?_, ?_, ?_, ?_, ?_⟩
  · unfold dmFromCells
    rw [hd1]
    simp only [Option.bind_some]
    rw [x1]
    simp only [Option.bind_some]
    unfold haloLids
    rw [d1]
    simp only [Option.bind_some]
    rw [if_neg (fun hh => hne (List.length_eq_zero_iff.1 hh))]
    rw [foldlM_nested (fun r : StdCell => r.cones) (fun _ => haloSize ix), s1]
    simp only [Option.bind_some]
    rw [foldlM_nested (fun r : StdCell => r.cones) (fun r => haloCone ix ss.2 r.ornts), c1]
    simp only [Option.bind_some]
    rw [x7, x8]
    simp only [Option.bind_some]
    rw [foldlM_nested (fun r : StdCell => r.vertices) (fun _ => haloCoord ix ndim 0), v1]
    rfl
  · have ex : ∀ c ∈ cells.map (·.globalId), ∀ p, InClosure g c p → Pt p := by
      intro c hcm p hp
      obtain ⟨c', hc', rfl⟩ := List.mem_map.1 hcm
      exact ⟨c', hc', hp⟩
    refine ⟨?_, ?_, ?_, ?_, ⟨c2, c3, s2⟩, ?_, ?_, ?_, ?_⟩
    · intro l
      constructor
      · intro hl
        rw [x4] at hl
        have hget := List.getElem?_eq_getElem hl
        obtain ⟨hd, c, hcm, hp⟩ := (x3 pts[l]).1 (List.getElem_mem hl)
        refine ⟨c, hcm, pts[l].2, hp, ?_⟩
        have := (x5 pts[l].2 l).2 (by rw [hget, ← hd])
        show (omGet ix.toLocal pts[l].2).getD 0 = l
        rw [this]
        rfl
      · rintro ⟨c, hcm, p, hp, rfl⟩
        exact (hloc p (ex c hcm p hp)).2.2
    · intro c hcm d hdm p q hp hq e
      exact hinj p q (ex c hcm p hp) (ex d hdm q hq) e
    · intro c hcm d hdm p q hp hq hlt
      have r1 := (depth_range x2 (hloc p (ex c hcm p hp)).2.1).2
      have r2 := (depth_range x2 (hloc q (ex d hdm q hq)).2.1).1
      simp only at r1 r2
      have : below pts (g.depth p + 1) ≤ below pts (g.depth q) := by
        unfold below
        refine List.countP_mono_left ?_
        intro x _ hx
        simp only [decide_eq_true_eq] at hx ⊢
        omega
      omega
    · intro c hcm p hp
      have hP := ex c hcm p hp
      have hr := depth_range x2 (hloc p hP).2.1
      obtain ⟨a, b⟩ := x6 _ ((hmemPt p).1 hP)
      exact ⟨_, _, a, b, hr.1, hr.2⟩
    · intro c hcm p hp
      exact (c5 p (hseenAll p (ex c hcm p hp))).1
    · intro c hcm p hp
      exact hsizes p (ex c hcm p hp)
    · intro c hcm p hp
      exact (c5 p (hseenAll p (ex c hcm p hp))).2
    · intro c hcm p hp hz d hd
      obtain ⟨it, hit, e⟩ := hvall p (ex c hcm p hp) hz
      have := v3 it hit d hd
      rw [e] at this
      exact this
  · intro c hcm
    rw [c6 _ (hseenAll _ ⟨c, hcm, .self⟩), d2 c hcm]
    rfl
  · intro c hcm p hp hno
    have hP : Pt p := ⟨c, hcm, hp⟩
    rw [c6 p (hseenAll p hP)]
    cases hh : omGet lids (loc p) with
    | none => rfl
    | some v =>
      obtain ⟨d, hdm, e⟩ := d3 _ v hh
      exact absurd (hinj _ _ ⟨d, hdm, .self⟩ hP (by omega)) (hno d hdm)
  · intro l v hl
    obtain ⟨p, hP, e⟩ := c8 l v hl
    have := (hloc p hP).2.2
    omega

end NP
