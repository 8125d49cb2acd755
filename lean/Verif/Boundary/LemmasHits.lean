import Verif.Boundary.SpecHits
import Verif.Boundary.PropsWallPost
import Verif.Boundary.PropsSurface
import Verif.Algo.PropsUnseen
import Verif.Mesh.PropsFace

/-!
# Lemmas on the registration of faces, on one rank
-/

set_option autoImplicit false

namespace NP

open Spec

/-- The face is on one of the sides. -/
def OnSides (m : CartMesh) (sides : List Int) (id : Int) : Prop :=
  ∃ (f : Nat) (t : List Int), (f : Int) ∈ sides ∧ IsFace m id f t ∧ OnSide m f t

/-- The rank owns the face, which is on one of the sides. -/
def OwnedOn (m : CartMesh) (sides : List Int) (q : Nat) (id : Int) : Prop :=
  ∃ (f : Nat) (t : List Int), (f : Int) ∈ sides ∧ IsFace m id f t ∧ OnSide m f t ∧ m.owningRank t = some q

theorem hitOwners_spec {m : CartMesh} (hv : ValidCartMesh m)
    (hn : m.mh.dims.length = 2 ∨ m.mh.dims.length = 3) {sides : List Int} (ids : List Int)
    (cache : FaceCache) (hc : GoodFaceCache m cache) (h : ∀ id ∈ ids, OnSides m sides id) :
    ∃ ps cache', hitOwners m ids cache = some (ps, cache') ∧ GoodFaceCache m cache' ∧
      ps.map Prod.snd = ids ∧ ∀ p ∈ ps, OwnedOn m sides p.1 p.2 := by
  induction ids generalizing cache with
  | nil => exact ⟨[], cache, rfl, hc, rfl, by simp⟩
  | cons id ids ih =>
    obtain ⟨f, t, h0, h1, h2⟩ := h id (by simp)
    obtain ⟨q, c1, o1, o2, o3, -⟩ := C40_owner m hv hn cache hc id f t h1 h2
    obtain ⟨ps, c2, p1, p2, p3, p4⟩ := ih c1 o3 fun i hi => h i (List.mem_cons_of_mem _ hi)
    refine ⟨(q, id) :: ps, c2, ?_, p2, by simp [p3], ?_⟩
    · unfold hitOwners
      rw [o2, Option.bind_some]
      dsimp only
      rw [p1, Option.bind_some]
    · intro p hp
      rcases List.mem_cons.1 hp with rfl | hp
      · exact ⟨f, t, h0, h1, h2, o1⟩
      · exact p4 p hp

theorem hitValues_spec {rows : List (List WallRow)}
    (h : ∀ c k row, rowAt rows c k = some row → ∃ id, row.info[1]? = some id) :
    ∃ vals, hitValues rows = some vals ∧
      ∀ c k row id, rowAt rows c k = some row → row.info[1]? = some id →
        ((rd vals c).bind fun v => rd v k) = some id := by
  obtain ⟨vals, v1, v2⟩ := mapM_forall₂ (l := rows) (f := fun cell => cell.mapM fun r : WallRow => rd r.info 1)
    (R := fun cell v => List.Forall₂ (fun (r : WallRow) x => rd r.info 1 = some x) cell v) (by
      intro cell hcell
      obtain ⟨c, hc, hce⟩ := List.getElem_of_mem hcell
      obtain ⟨v, a1, a2⟩ := mapM_forall₂ (l := cell) (f := fun r : WallRow => rd r.info 1)
        (R := fun r x => rd r.info 1 = some x) (by
          intro r hr
          obtain ⟨k, hk, hke⟩ := List.getElem_of_mem hr
          obtain ⟨id, hid⟩ := h c k r (by
            unfold rowAt
            rw [List.getElem?_eq_getElem hc, hce, Option.bind_some, List.getElem?_eq_getElem hk, hke])
          exact ⟨id, hid, hid⟩)
      exact ⟨v, a1, a2⟩)
  refine ⟨vals, v1, ?_⟩
  intro c k row id hr hid
  obtain ⟨cell, h1, h2⟩ := rowAt_some hr
  obtain ⟨hlen, hget⟩ := List.forall₂_iff_get.1 v2
  obtain ⟨hc, rfl⟩ := List.getElem?_eq_some_iff.1 h1
  obtain ⟨hlen', hget'⟩ := List.forall₂_iff_get.1 (hget c hc (by omega))
  obtain ⟨hk, rfl⟩ := List.getElem?_eq_some_iff.1 h2
  simp only [List.get_eq_getElem] at hget' hlen'
  have := hget' k hk (by omega)
  simp only [rd] at this ⊢
  rw [List.getElem?_eq_getElem (by omega), Option.bind_some, List.getElem?_eq_getElem (by omega), ← hid,
    this]

theorem built_counts {npart : List Nat} {par : Parent} (h : Built npart par)
    (hc : ∀ n ∈ npart, n < 2 ^ 31) : ∀ n ∈ par.counts npart, n < 2 ^ 31 := by
  obtain ⟨L, pl, sl⟩ := built_spec h
  have pf := parent_facts pl
  intro n hn
  rw [pf.counts] at hn
  obtain ⟨row, hrow, rfl⟩ := List.mem_map.1 hn
  obtain ⟨c, hcl, hce⟩ := List.getElem_of_mem hrow
  have hc' : c < npart.length := by rw [← sl.1]; exact hcl
  obtain ⟨h1, h2⟩ := sl.2 c row npart[c] (by rw [List.getElem?_eq_getElem hcl, hce])
    (List.getElem?_eq_getElem hc')
  exact Nat.lt_of_le_of_lt (row_length_le h1 h2) (hc _ (List.getElem_mem _))

/-- A face id in the metadata of the rows. -/
def HasId (rows : List (List WallRow)) (v : Int) : Prop :=
  ∃ c k row, rowAt rows c k = some row ∧ row.info[1]? = some v

theorem hitExtract_spec {tw : Nat} (hw : 0 < tw) {x : SeeEnv} (hx : SeeOk tw x)
    {o : Int × Selection × List (List WallRow)} (hs : Shape o.2.1.hNpart o.2.2)
    (hcounts : ∀ n ∈ o.2.1.hNpart, n < 2 ^ 31)
    (h : ∀ c k row, rowAt o.2.2 c k = some row → ∃ id, row.info[1]? = some id)
    {t : BlockedTree Int} {f : Int → Option Int} (ht : TreeOk tw t f) :
    ∃ ids t' f', hitExtract tw x o t = some (ids, t') ∧ TreeOk tw t' f' ∧
      (∀ v, v ∈ ids ↔ HasId o.2.2 v ∧ f v = none) ∧
      ∀ v, (f' v).isSome ↔ (f v).isSome ∨ HasId o.2.2 v := by
  obtain ⟨vals, v1, v2⟩ := hitValues_spec h
  obtain ⟨out, t', f', u1, u2, -, u3, u4⟩ := unseenExtract_spec hw
    (x := ⟨x.P, x.order, x.fresh, x.over, x.garbage, o.2.1.hNpart, .whole,
      fun c k => ((rd vals c).bind fun v => rd v k).getD 0⟩)
    ⟨.whole, hx.localSize, hx.localSizeInt, hx.nbin, hcounts, hx.nodes⟩ ht
  have key : ∀ v, HasValue ⟨x.P, x.order, x.fresh, x.over, x.garbage, o.2.1.hNpart, .whole,
      fun c k => ((rd vals c).bind fun v => rd v k).getD 0⟩ v ↔ HasId o.2.2 v := by
    intro v
    constructor
    · rintro ⟨c, k, ⟨n, hn, hk⟩, rfl⟩
      obtain ⟨cell, h1, h2⟩ := shape_row hs hn
      have hr : rowAt o.2.2 c k = some (cell[k]'(by omega)) := by
        unfold rowAt
        rw [h1, Option.bind_some, List.getElem?_eq_getElem]
      obtain ⟨id, hid⟩ := h c k _ hr
      refine ⟨c, k, _, hr, ?_⟩
      dsimp only
      rw [v2 c k _ id hr hid, hid]; rfl
    · rintro ⟨c, k, row, hr, hid⟩
      obtain ⟨cell, h1, h2⟩ := rowAt_some hr
      refine ⟨c, k, ⟨cell.length, ?_, (List.getElem?_eq_some_iff.1 h2).1⟩, ?_⟩
      · dsimp only
        rw [← hs, List.getElem?_map, h1]; rfl
      · dsimp only
        rw [v2 c k row v hr hid]; rfl
  refine ⟨out, t', f', ?_, u2, fun v => by rw [u3, key], fun v => by rw [u4, key]⟩
  unfold hitExtract
  rw [v1, Option.bind_some, u1]

/-- What is known about the result of a group. -/
structure OutOk (m : CartMesh) (g : Int × List Int) (o : Int × Selection × List (List WallRow)) : Prop where
  label : o.1 = g.1
  shape : Shape o.2.1.hNpart o.2.2
  counts : ∀ n ∈ o.2.1.hNpart, n < 2 ^ 31
  ids : ∀ c k row, rowAt o.2.2 c k = some row → ∃ id, row.info[1]? = some id ∧ OnSides m g.2 id

theorem outOk_of {m : CartMesh} {extent : ℚ} {npart : List Nat} {par : Parent}
    {rows : List (List WallPart)} {side : Nat → Nat → Nat} {point : Nat → Nat → List ℚ}
    {g : Int × List Int} {o : Int × Selection × List (List WallRow)}
    (hc : ∀ n ∈ npart, n < 2 ^ 31) (h : GroupOut m extent npart par rows side point g o) : OutOk m g o := by
  refine ⟨h.label, h.shape, built_counts h.built hc, ?_⟩
  intro c k row hr
  obtain ⟨cell, h1, h2⟩ := rowAt_some hr
  have hn : o.2.1.hNpart[c]? = some cell.length := by
    have := h.shape
    unfold Shape at this
    rw [← this, List.getElem?_map, h1]; rfl
  have hk := (List.getElem?_eq_some_iff.1 h2).1
  have hlayer : ∃ l, o.2.1.layerAt c k = some l := by
    obtain ⟨L, pl, sl⟩ := built_spec h.built
    have pf := parent_facts pl
    have hcl : (lens L)[c]? = some cell.length := by rw [← pf.counts]; exact hn
    unfold lens at hcl
    rw [List.getElem?_map, Option.map_eq_some_iff] at hcl
    obtain ⟨row', q1, q2⟩ := hcl
    have := pf.layer c row' k q1 (by omega)
    rw [List.getElem?_eq_getElem (by omega)] at this
    exact ⟨_, this⟩
  obtain ⟨l, hl⟩ := hlayer
  obtain ⟨row', r1, r2⟩ := h.rows c l k ⟨hl, cell.length, hn, hk⟩
  rw [hr] at r1
  obtain rfl := Option.some.inj r1
  obtain ⟨id, t, i1, i2, i3, -⟩ := r2.info
  refine ⟨id, by rw [i1]; rfl, side c l, t, ?_, i2, i3⟩
  exact ((h.members c l).1 ⟨cell.length, k, hn, hk, hl⟩).2.2

/-- What the loop over the groups does for a group: `f` and `f'` are the values in its tree before
and after, `ps` the new pairs. -/
structure PairFacts (m : CartMesh) (g : Int × List Int) (o : Int × Selection × List (List WallRow))
    (f f' : Int → Option Int) (ps : List (Nat × Int)) : Prop where
  new : ∀ v, (∃ q, (q, v) ∈ ps) ↔ HasId o.2.2 v ∧ f v = none
  owner : ∀ p ∈ ps, OwnedOn m g.2 p.1 p.2
  seen : ∀ v, (f' v).isSome ↔ (f v).isSome ∨ HasId o.2.2 v

theorem hitGroups_spec {m : CartMesh} (hv : ValidCartMesh m)
    (hn : m.mh.dims.length = 2 ∨ m.mh.dims.length = 3) {tw : Nat} (hw : 0 < tw) {see : Int → SeeEnv}
    {groups : List (Int × List Int)} {out : HitOut} (h : List.Forall₂ (OutOk m) groups out)
    (hsee : ∀ g ∈ groups, SeeOk tw (see g.1)) (ts : List (BlockedTree Int)) (F : Nat → Int → Option Int)
    (hlen : ts.length = groups.length) (ht : ∀ (j : Nat) t, ts[j]? = some t → TreeOk tw t (F j))
    (cache : FaceCache) (hc : GoodFaceCache m cache) :
    ∃ (ps : List (List (Nat × Int))) (ts' : List (BlockedTree Int)) (F' : Nat → Int → Option Int)
      (cache' : FaceCache), hitGroups m tw see out ts cache = some (ps, ts', cache') ∧
      GoodFaceCache m cache' ∧ ps.length = groups.length ∧ ts'.length = groups.length ∧
      (∀ (j : Nat) t, ts'[j]? = some t → TreeOk tw t (F' j)) ∧
      ∀ (j : Nat) g o p, groups[j]? = some g → out[j]? = some o → ps[j]? = some p →
        PairFacts m g o (F j) (F' j) p := by
  induction h generalizing ts F cache with
  | nil =>
    obtain rfl := List.eq_nil_of_length_eq_zero hlen
    exact ⟨[], [], F, cache, rfl, hc, rfl, rfl, by simp, by simp⟩
  | @cons g o gs os hgo _ ih =>
    match ts, hlen with
    | t :: ts, hlen =>
      obtain ⟨ids, t', f', e1, e2, e3, e4⟩ := hitExtract_spec hw (x := see o.1) (by
        rw [hgo.label]; exact hsee g (by simp)) hgo.shape hgo.counts
        (fun c k row hr => by obtain ⟨id, a, -⟩ := hgo.ids c k row hr; exact ⟨id, a⟩)
        (ht 0 t rfl)
      obtain ⟨ps, c1, p1, p2, p3, p4⟩ := hitOwners_spec hv hn (sides := g.2) ids cache hc (by
        intro id hid
        obtain ⟨c, k, row, hr, hi⟩ := ((e3 id).1 hid).1
        obtain ⟨id', a, b⟩ := hgo.ids c k row hr
        rw [hi] at a
        obtain rfl := Option.some.inj a
        exact b)
      obtain ⟨pss, ts', F', c2, q1, q2, q3, q4, q5, q6⟩ := ih
        (fun g hg => hsee g (List.mem_cons_of_mem _ hg)) ts (fun j => F (j + 1)) (by simpa using hlen)
        (fun j t hj => ht (j + 1) t hj) c1 p2
      refine ⟨ps :: pss, t' :: ts', fun j => match j with | 0 => f' | j + 1 => F' j, c2, ?_, q2,
        by simp [q3], by simp [q4], ?_, ?_⟩
      · unfold hitGroups
        rw [e1, Option.bind_some]
        dsimp only
        rw [p1, Option.bind_some]
        dsimp only
        rw [q1, Option.bind_some]
      · rintro (_ | j) t'' hj
        · obtain rfl := Option.some.inj hj
          exact e2
        · exact q5 j t'' hj
      · rintro (_ | j) g' o' p hg ho hp
        · obtain rfl := Option.some.inj hg
          obtain rfl := Option.some.inj ho
          obtain rfl := Option.some.inj hp
          refine ⟨fun v => ?_, p4, e4⟩
          rw [← e3, ← p3]
          simp
        · exact q6 j g' o' p hg ho hp

end NP
