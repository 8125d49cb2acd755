import Verif.Boundary.LemmasWallElement
import Verif.Boundary.SpecWallPost
import Verif.Boundary.PropsWall
import Verif.Boundary.LemmasRows
import Verif.Sub.Props
import Verif.Comm.LemmasExchange
import Verif.Group.LemmasMem

/-! Helper lemmas for C69: the selectors, the buffers and the map of the groups. -/

set_option autoImplicit false

namespace NP

open Spec

theorem selOk_rowLoop {e : SelEnv} {npart : List Nat} (he : SelOk e npart) {par : Parent}
    (hp : Built npart par) : RowLoopOk e.P npart par :=
  ⟨hp, he.loopLocal, he.loopLocalInt, he.nbin, he.counts⟩

theorem selectKernel_spec {e : SelEnv} {npart : List Nat} (he : SelOk e npart) {par : Parent}
    (hp : Built npart par) {kernel : Nat → Nat → Option Bool} (p : Nat → Nat → Bool)
    (hk : ∀ c l, InParent npart par c l → kernel c l = some (p c l)) :
    ∃ sel, selectKernel e npart par kernel = some sel ∧ Built npart (.sub sel) ∧ NoRepeats sel ∧
      ∀ c l, InParent npart (.sub sel) c l ↔ InParent npart par c l ∧ p c l = true := by
  obtain ⟨vis, v1, -, -, v4, -⟩ := rowVisits_spec (selOk_rowLoop he hp)
  obtain ⟨sel, s1, s2, s3⟩ := C21_members he hp fun c l => kernel c l == some true
  obtain ⟨bs, hbs, -⟩ := mapM_forall₂ (l := vis) (R := fun _ _ => True)
    (f := fun it => (par.layerAt it.1 it.2).bind fun l => kernel it.1 l) (by
      rintro ⟨c, k⟩ hck
      obtain ⟨l, hl, hin⟩ := v4 c k hck
      exact ⟨p c l, by simp only [hl, Option.bind_some]; exact hk c l hin, trivial⟩)
  refine ⟨sel, ?_, .select hp he s1, s2, ?_⟩
  · unfold selectKernel
    rw [v1, Option.bind_some, hbs, Option.bind_some, s1]
  · intro c l
    rw [s3]
    constructor
    · rintro ⟨a, b⟩
      rw [hk c l a] at b
      exact ⟨a, by simpa using b⟩
    · rintro ⟨a, b⟩
      refine ⟨a, ?_⟩
      rw [hk c l a, b]
      rfl

/-! ## The buffers -/

theorem wall_slot_inj {n a b i j : Nat} (hi : i < n) (hj : j < n) (h : n * a + i = n * b + j) :
    a = b ∧ i = j := by
  rw [Nat.mul_comm n a, Nat.mul_comm n b] at h
  exact slot2_inj hi hj h

theorem wall_slot_lt {n a m i : Nat} (hi : i < n) (ha : a < m) : n * a + i < m * n := by
  have : n * (a + 1) ≤ n * m := Nat.mul_le_mul_left _ (by omega)
  rw [Nat.mul_comm m n]
  rw [Nat.mul_add] at this
  omega

/-- The stores of the components of a point. -/
theorem wallPts_spec {n li ndim : Nat} {q pts : List ℚ} (hli : li < n) (hlen : pts.length = ndim * n)
    (hq : q.length = ndim) :
    ∃ pts', forLoop 0 ndim (fun dx pts => (rd q dx).bind fun x => st pts (n * dx + li) x) pts =
        some pts' ∧ pts'.length = pts.length ∧ (∀ dx < ndim, pts'[n * dx + li]? = q[dx]?) ∧
      ∀ j, (∀ dx < ndim, j ≠ n * dx + li) → pts'[j]? = pts[j]? := by
  refine forLoop_invariant (fun d (s : List ℚ) => s.length = pts.length ∧
    (∀ dx < d, s[n * dx + li]? = q[dx]?) ∧ ∀ j, (∀ dx < d, j ≠ n * dx + li) → s[j]? = pts[j]?)
    (Nat.zero_le _) ?_ ⟨rfl, by simp, by simp⟩
  rintro d s - hd ⟨a1, a2, a3⟩
  have hlt : n * d + li < s.length := by rw [a1, hlen]; exact wall_slot_lt hli hd
  have hdq : d < q.length := by omega
  refine ⟨s.set (n * d + li) q[d], ?_, by simp [a1], ?_, ?_⟩
  · simp only [rd]
    rw [List.getElem?_eq_getElem hdq, Option.bind_some, st_eq_some hlt]
  · intro dx hdx
    by_cases h : dx = d
    · subst h
      rw [List.getElem?_set_self hlt, List.getElem?_eq_getElem hdq]
    · rw [List.getElem?_set_ne, a2 dx (by omega)]
      intro e
      exact h (wall_slot_inj hli hli e).1.symm
  · intro j hj
    rw [List.getElem?_set_ne (Ne.symm (hj d (by omega))), a3 j fun dx hdx => hj dx (by omega)]

/-- What the buffers hold for a particle. -/
structure WallBufAt (npart : List Nat) (n ndim : Nat) (b : WallBufs) (c l : Nat) (q : List ℚ)
    (f : Nat) (i : Nat) : Prop where
  bound : i < n
  lut : wallLut npart b c l = some (i : Int)
  side : b.sides[i]? = some (f : Int)
  pts : ∀ dx < ndim, b.pts[n * dx + i]? = q[dx]?

theorem wallStore_spec {ext : List ℚ} {tol : ℚ} {npart : List Nat} {rows : List (List WallPart)}
    {dep : Selection} {P : LoopParams} (hloop : RowLoopOk P npart (.sub dep)) (order : Sched)
    {side : Nat → Nat → Nat} {point : Nat → Nat → List ℚ}
    (hhit : ∀ c l, InParent npart (.sub dep) c l → ∃ p, rowAt rows c l = some p ∧
      wallHit ext tol p.pos p.prev = some (true, point c l, (side c l : Int)) ∧
      (point c l).length = ext.length)
    {b0 : WallBufs} (h1 : b0.pts.length = ext.length * dep.npartLocal)
    (h2 : b0.sides.length = dep.npartLocal) (h3 : b0.lut.length = npart.sum) :
    ∃ vis b, parentVisits P npart (.sub dep) = some vis ∧
      runItems (wallStore ext tol npart rows dep) (order.order vis) b0 = some b ∧
      ∀ c l, InParent npart (.sub dep) c l →
        ∃ i, WallBufAt npart dep.npartLocal ext.length b c l (point c l) (side c l) i := by
  obtain ⟨L, pl, sl⟩ := built_spec hloop.built
  have pf := parent_facts pl
  have hes : dep.dEs = npartCellEs (lens L) := lists_es pl
  have htot : dep.npartLocal = (lens L).sum := pf.total
  obtain ⟨vis, v1, v2, v3, v4, v5, v6, v7⟩ := rowVisits_spec hloop
  have hperm := order.perm vis
  have hcount : ∀ c k, (c, k) ∈ vis → ∃ n, (lens L)[c]? = some n ∧ k < n := by
    intro c k h
    obtain ⟨n, a, b⟩ := (v3 c k).1 h
    exact ⟨n, by rw [← pf.counts]; exact a, b⟩
  -- the index into the buffers of loop layer `k` of cell `c`
  have hidx : ∀ c k, (c, k) ∈ vis → loopIdx dep.dEs c k = some (before (lens L) c + k) ∧
      before (lens L) c + k < dep.npartLocal := by
    intro c k h
    obtain ⟨n, a, b⟩ := hcount c k h
    refine ⟨?_, by rw [htot]; exact lin_lt a b⟩
    rw [hes]
    refine loopIdx_eq ?_ k
    have := (List.getElem?_eq_some_iff.1 a).1
    simpa [lens] using this
  have hidxInj : ∀ c k c' k', (c, k) ∈ vis → (c', k') ∈ vis →
      before (lens L) c + k = before (lens L) c' + k' → c = c' ∧ k = k' := by
    intro c k c' k' h h' e
    obtain ⟨n, a, b⟩ := hcount c k h
    obtain ⟨n', a', b'⟩ := hcount c' k' h'
    exact lin_inj a a' b b' e
  have hlin : ∀ c l, InParent npart (.sub dep) c l →
      localLinearIndex npart c l = some (before npart c + l) ∧ before npart c + l < npart.sum := by
    intro c l h
    obtain ⟨n, a, b⟩ := v6 c l h
    exact ⟨lin_eq (List.getElem?_eq_some_iff.1 a).1, lin_lt a b⟩
  have hlinInj : ∀ c l c' l', InParent npart (.sub dep) c l → InParent npart (.sub dep) c' l' →
      before npart c + l = before npart c' + l' → c = c' ∧ l = l' := by
    intro c l c' l' h h' e
    obtain ⟨n, a, b⟩ := v6 c l h
    obtain ⟨n', a', b'⟩ := v6 c' l' h'
    exact lin_inj a a' b b' e
  obtain ⟨b, b1, b2, b3, b4, b5⟩ := runItems_invariant
    (step := wallStore ext tol npart rows dep) (items := order.order vis) (s := b0)
    (P := fun pre (s : WallBufs) => s.pts.length = b0.pts.length ∧ s.sides.length = b0.sides.length ∧
      s.lut.length = b0.lut.length ∧
      ∀ c k l, (c, k) ∈ pre → dep.layerAt c k = some l →
        WallBufAt npart dep.npartLocal ext.length s c l (point c l) (side c l)
          (before (lens L) c + k))
    (by
      rintro pre ⟨c, k⟩ post s he ⟨a1, a2, a3, a4⟩
      have hin : ∀ x ∈ pre ++ (c, k) :: post, x ∈ vis := fun x hx => hperm.mem_iff.1 (by rw [he]; exact hx)
      have hck : (c, k) ∈ vis := hin _ (by simp)
      have hnot : (c, k) ∉ pre := by
        have : (pre ++ (c, k) :: post).Nodup := by rw [← he]; exact hperm.nodup_iff.2 v2
        rw [List.nodup_append] at this
        intro hp
        exact this.2.2 _ hp _ (by simp) rfl
      obtain ⟨l, hl, hlp⟩ := v4 c k hck
      replace hl : dep.layerAt c k = some l := hl
      obtain ⟨i1, i2⟩ := hidx c k hck
      obtain ⟨j1, j2⟩ := hlin c l hlp
      obtain ⟨p, g1, g2, g3⟩ := hhit c l hlp
      obtain ⟨pts, p1, p2, p3, p4⟩ := wallPts_spec (q := point c l) (pts := s.pts) (ndim := ext.length) i2
        (by rw [a1, h1]) g3
      have hs : before (lens L) c + k < s.sides.length := by rw [a2, h2]; exact i2
      have hlut : before npart c + l < s.lut.length := by rw [a3, h3]; exact j2
      refine ⟨⟨pts, s.sides.set (before (lens L) c + k) (side c l),
        s.lut.set (before npart c + l) ((before (lens L) c + k : Nat) : Int)⟩, ?_,
        by rw [p2, a1], by simp [a2], by simp [a3], ?_⟩
      · unfold wallStore
        have g1' : wallPart rows c l = some p := g1
        simp only [hl, g1', g2, i1, p1, j1, Option.bind_some, st_eq_some hs, if_true, st_eq_some hlut]
      · intro c1 k1 l1 h hl1
        rcases List.mem_append.1 h with h' | h
        · have hv1 : (c1, k1) ∈ vis := hin _ (by simp [h'])
          have old := a4 c1 k1 l1 h' hl1
          have hne : ¬ (c1 = c ∧ k1 = k) := by rintro ⟨rfl, rfl⟩; exact hnot h'
          obtain ⟨l1', hl1', hp1⟩ := v4 c1 k1 hv1
          have hl1'' : dep.layerAt c1 k1 = some l1' := hl1'
          rw [hl1] at hl1''
          obtain rfl := Option.some.inj hl1''
          have hneI : before (lens L) c + k ≠ before (lens L) c1 + k1 := by
            intro e
            obtain ⟨e1, e2⟩ := hidxInj c k c1 k1 hck hv1 e
            exact hne ⟨e1.symm, e2.symm⟩
          have hneL : before npart c + l ≠ before npart c1 + l1 := by
            intro e
            obtain ⟨rfl, rfl⟩ := hlinInj c l c1 l1 hlp hp1 e
            exact hne ⟨rfl, v7 c k1 k l hv1 hck hl1 hl⟩
          refine ⟨old.bound, ?_, ?_, ?_⟩
          · have := old.lut
            unfold wallLut at this ⊢
            rw [(hlin c1 l1 hp1).1, Option.bind_some] at this ⊢
            simp only [rd] at this ⊢
            rw [List.getElem?_set_ne hneL, this]
          · dsimp only
            rw [List.getElem?_set_ne hneI, old.side]
          · intro dx hdx
            rw [p4, old.pts dx hdx]
            intro dx' _ e
            exact hneI (wall_slot_inj old.bound i2 e).2.symm
        · rw [List.mem_singleton, Prod.mk.injEq] at h
          obtain ⟨rfl, rfl⟩ := h
          rw [hl] at hl1
          obtain rfl := Option.some.inj hl1
          refine ⟨i2, ?_, ?_, p3⟩
          · unfold wallLut
            rw [j1, Option.bind_some]
            simp only [rd]
            rw [List.getElem?_set_self hlut]
          · dsimp only
            rw [List.getElem?_set_self hs])
    ⟨rfl, rfl, rfl, by simp⟩
  refine ⟨vis, b, v1, b1, ?_⟩
  intro c l hl
  obtain ⟨k, hk, hkl⟩ := v5 c l hl
  exact ⟨_, b5 c k l (hperm.mem_iff.2 hk) hkl⟩

theorem wallCheck_spec {npart : List Nat} {dep : Selection} {P : LoopParams}
    (hloop : RowLoopOk P npart (.sub dep)) {b : WallBufs}
    (h : ∀ c l, InParent npart (.sub dep) c l → ∃ i : Nat, wallLut npart b c l = some (i : Int)) :
    wallCheck P npart dep b = some () := by
  obtain ⟨vis, v1, -, -, v4, -⟩ := rowVisits_spec hloop
  obtain ⟨vs, hvs, hall⟩ := mapM_forall₂ (l := vis) (R := fun _ (v : Int) => 0 ≤ v)
    (f := fun it => (dep.layerAt it.1 it.2).bind fun l => wallLut npart b it.1 l) (by
      rintro ⟨c, k⟩ hck
      obtain ⟨l, hl, hin⟩ := v4 c k hck
      replace hl : dep.layerAt c k = some l := hl
      obtain ⟨i, hi⟩ := h c l hin
      exact ⟨i, by simp only [hl, Option.bind_some, hi], by positivity⟩)
  unfold wallCheck
  rw [v1, Option.bind_some, hvs, Option.bind_some, if_pos]
  rw [List.all_eq_true]
  intro v hv
  obtain ⟨i, hi, rfl⟩ := List.getElem_of_mem hv
  obtain ⟨hl, hall⟩ := List.forall₂_iff_get.1 hall
  have := hall i (by omega) hi
  simp only [List.get_eq_getElem] at this
  simp; omega

/-! ## The groups -/

theorem wallGroupMap_spec {ndim : Nat} (hn : ndim = 2 ∨ ndim = 3) {groups : List (Int × List Int)}
    (hs : ∀ g ∈ groups, ∀ f ∈ g.2, 0 ≤ f ∧ f < 2 * ndim) :
    ∃ gmap, wallGroupMap ndim groups = some gmap ∧ gmap.length = 6 ∧
      ∀ f : Nat, f < 6 → ∃ v, gmap[f]? = some v ∧
        ((v = wallMask ∧ ∀ g ∈ groups, (f : Int) ∉ g.2) ∨ ∃ g ∈ groups, v = g.1 ∧ (f : Int) ∈ g.2) := by
  have hmax : ((if ndim = 2 then 4 else 6 : Int)) = 2 * ndim := by
    rcases hn with rfl | rfl <;> norm_num
  have hle : 2 * ndim ≤ 6 := by omega
  unfold wallGroupMap
  dsimp only
  rw [hmax]
  obtain ⟨gmap, g1, g2, g3⟩ := runItems_invariant
    (step := fun (g : Int × List Int) (m : List Int) => runItems (fun ex m =>
      if -1 < ex ∧ ex < 2 * (ndim : Int) then st m ex.toNat g.1 else none) g.2 m)
    (items := groups) (s := List.replicate 6 wallMask)
    (P := fun pre (m : List Int) => m.length = 6 ∧ ∀ f : Nat, f < 6 → ∃ v, m[f]? = some v ∧
      ((v = wallMask ∧ ∀ g ∈ pre, (f : Int) ∉ g.2) ∨ ∃ g ∈ pre, v = g.1 ∧ (f : Int) ∈ g.2))
    (by
      rintro pre g post m he ⟨a1, a2⟩
      have hg : g ∈ groups := by rw [he]; simp
      obtain ⟨m', b1, b2, b3⟩ := runItems_invariant
        (step := fun (ex : Int) (m : List Int) =>
          if -1 < ex ∧ ex < 2 * (ndim : Int) then st m ex.toNat g.1 else none)
        (items := g.2) (s := m)
        (P := fun pre' (m' : List Int) => m'.length = 6 ∧
          ∀ f : Nat, f < 6 → m'[f]? = if (f : Int) ∈ pre' then some g.1 else m[f]?)
        (by
          rintro pre' ex post' m' he' ⟨c1, c2⟩
          obtain ⟨d1, d2⟩ := hs g hg ex (by rw [he']; simp)
          have hlt : ex.toNat < m'.length := by omega
          refine ⟨m'.set ex.toNat g.1, ?_, by simp [c1], ?_⟩
          · rw [if_pos ⟨by omega, d2⟩, st_eq_some hlt]
          · intro f hf
            by_cases h : f = ex.toNat
            · subst h
              rw [List.getElem?_set_self hlt, if_pos]
              rw [Int.toNat_of_nonneg d1]; simp
            · rw [List.getElem?_set_ne (Ne.symm h), c2 f hf]
              have : (f : Int) ≠ ex := by omega
              simp [this])
        ⟨a1, by simp⟩
      refine ⟨m', b1, b2, ?_⟩
      intro f hf
      rw [b3 f hf]
      by_cases h : (f : Int) ∈ g.2
      · exact ⟨g.1, by rw [if_pos h], Or.inr ⟨g, by simp, rfl, h⟩⟩
      · rw [if_neg h]
        obtain ⟨v, e1, e2⟩ := a2 f hf
        refine ⟨v, e1, ?_⟩
        rcases e2 with ⟨e2, e3⟩ | ⟨g', e2, e3⟩
        · refine Or.inl ⟨e2, fun g' hg' => ?_⟩
          rcases List.mem_append.1 hg' with hg' | hg'
          · exact e3 g' hg'
          · rw [List.mem_singleton] at hg'; rw [hg']; exact h
        · exact Or.inr ⟨g', by simp [e2], e3⟩)
    ⟨by simp, fun f hf => ⟨wallMask, by rw [List.getElem?_replicate, if_pos hf], Or.inl ⟨rfl, by simp⟩⟩⟩
  exact ⟨gmap, g1, g2, g3⟩

theorem wall_pairwise {α : Type} {R : α → α → Prop} {l : List α} (h : l.Pairwise R) {a b : α}
    (ha : a ∈ l) (hb : b ∈ l) : a = b ∨ R a b ∨ R b a := by
  obtain ⟨i, hi, rfl⟩ := List.getElem_of_mem ha
  obtain ⟨j, hj, rfl⟩ := List.getElem_of_mem hb
  rw [List.pairwise_iff_getElem] at h
  rcases Nat.lt_trichotomy i j with e | e | e
  · exact Or.inr (Or.inl (h i j hi hj e))
  · subst e; exact Or.inl rfl
  · exact Or.inr (Or.inr (h j i hj hi e))

/-- With groups of different sides, the value of a side is the label of the group it is in. -/
theorem wallGroupMap_iff {ndim : Nat} (hn : ndim = 2 ∨ ndim = 3) {groups : List (Int × List Int)}
    (hs : ∀ g ∈ groups, ∀ f ∈ g.2, 0 ≤ f ∧ f < 2 * ndim)
    (hl : groups.Pairwise fun a b => a.1 < b.1) (hok : ∀ g ∈ groups, g.1 ≠ -2 ^ 31)
    (hd : groups.Pairwise fun a b => ∀ f ∈ a.2, f ∉ b.2) :
    ∃ gmap, wallGroupMap ndim groups = some gmap ∧
      ∀ f : Nat, f < 6 → ∃ v, gmap[f]? = some v ∧ ∀ g ∈ groups, v = g.1 ↔ (f : Int) ∈ g.2 := by
  obtain ⟨gmap, g1, -, g3⟩ := wallGroupMap_spec hn hs
  refine ⟨gmap, g1, fun f hf => ?_⟩
  obtain ⟨v, e1, e2⟩ := g3 f hf
  refine ⟨v, e1, fun g hg => ?_⟩
  rcases e2 with ⟨e2, e3⟩ | ⟨g', e2, e3, e4⟩
  · exact ⟨fun e => absurd (e.symm.trans e2) (hok g hg), fun e => absurd e (e3 g hg)⟩
  · constructor
    · intro e
      rw [e3] at e
      rcases wall_pairwise hl e2 hg with h | h | h
      · rw [← h]; exact e4
      · omega
      · omega
    · intro e
      rcases wall_pairwise hd e2 hg with h | h | h
      · rw [e3, h]
      · exact absurd e (h _ e4)
      · exact absurd e4 (h _ e)

/-! ## The information of each particle -/

theorem wallFacet_eq {npart : List Nat} {n ndim : Nat} {b : WallBufs} {c l i f : Nat} {q : List ℚ}
    (h : WallBufAt npart n ndim b c l q f i) : wallFacet npart b c l = some (i, f) := by
  unfold wallFacet
  simp only [rd, h.lut, Option.bind_some, index]
  simp [h.side]

theorem wallNormals_spec {f d : Nat} {up : Bool}
    (hs : sideOf f = some (d, up)) :
    ∃ ns, wallNormals[f]? = some ns ∧ ns.length = 3 ∧ ∀ (i : Nat) x, ns[i]? = some x →
      x = if i = d then (if up then -1 else 1) else 0 := by
  match f, hs with
  | 0, hs | 1, hs | 2, hs | 3, hs | 4, hs | 5, hs =>
    cases hs
    refine ⟨_, rfl, rfl, fun i x hi => ?_⟩
    match i, hi with
    | 0, hi | 1, hi | 2, hi => cases hi; simp

theorem wallCollect_spec {m : CartMesh} {extent tol : ℚ} (hv : ValidCartMesh m)
    (hn : m.mh.dims.length = 2 ∨ m.mh.dims.length = 3) (he : 0 < extent)
    (ht : tol < extent / 2 ^ m.mh.order) {npart : List Nat} {n : Nat} {b : WallBufs} {gmap : List Int}
    {sel : Selection} {c k l i f d : Nat} {up : Bool} {q : List ℚ} {w : ℚ} {g : Int}
    (hl : sel.layerAt c k = some l) (hb : WallBufAt npart n m.mh.dims.length b c l q f i)
    (hg : gmap[f]? = some g)
    (hs : sideOf f = some (d, up)) (hw : (m.globalExtents extent)[d]? = some w)
    (hlen : q.length = m.mh.dims.length) (hq : q[d]? = some (if up then w else 0))
    (hz : ∀ (i : Nat) z, q[i]? = some z → -tol ≤ z) {r : WallRow}
    (r1 : r.point.length = m.mh.dims.length) (r2 : r.normal.length = m.mh.dims.length)
    (r3 : r.info.length = 2) :
    ∃ r', wallCollectKernel m (2 ^ m.mh.order / extent) npart n b gmap sel c k r = some r' ∧
      HitRow m extent g f q r' := by
  obtain ⟨id, t, e1, e2, e3, e4⟩ := wallElement_spec hv hn he ht hs hw hlen hq hz
  obtain ⟨ns, n1, n2, n3⟩ := wallNormals_spec hs
  obtain ⟨s, s1, s2, s3, s4, s5⟩ := forLoop_invariant (a := 0) (b := m.mh.dims.length)
    (step := fun dx (s : List ℚ × List ℚ) =>
      (rd b.pts (n * dx + i)).bind fun v => (st s.1 dx v).bind fun point =>
      (rd wallNormals f).bind fun ns => (rd ns dx).bind fun v => (st s.2 dx v).bind fun normal =>
      some (point, normal)) (s := (r.point, r.normal))
    (fun j (s : List ℚ × List ℚ) => s.1.length = m.mh.dims.length ∧ s.2.length = m.mh.dims.length ∧
      (∀ dx < j, s.1[dx]? = q[dx]?) ∧ ∀ dx < j, s.2[dx]? = ns[dx]?)
    (Nat.zero_le _) (by
      rintro j s - hj ⟨a1, a2, a3, a4⟩
      have hjq : j < q.length := by omega
      have hjn : j < ns.length := by omega
      refine ⟨(s.1.set j q[j], s.2.set j ns[j]), ?_, by simp [a1], by simp [a2], ?_, ?_⟩
      · simp only [rd]
        rw [hb.pts j hj, List.getElem?_eq_getElem hjq, Option.bind_some, st_eq_some (by omega),
          Option.bind_some, n1, Option.bind_some, List.getElem?_eq_getElem hjn, Option.bind_some,
          st_eq_some (by omega), Option.bind_some]
      · intro dx hdx
        by_cases h : dx = j
        · subst h
          dsimp only
          rw [List.getElem?_set_self (by omega), List.getElem?_eq_getElem hjq]
        · dsimp only
          rw [List.getElem?_set_ne (Ne.symm h), a3 dx (by omega)]
      · intro dx hdx
        by_cases h : dx = j
        · subst h
          dsimp only
          rw [List.getElem?_set_self (by omega), List.getElem?_eq_getElem hjn]
        · dsimp only
          rw [List.getElem?_set_ne (Ne.symm h), a4 dx (by omega)])
    ⟨r1, r2, by simp, by simp⟩
  have hpoint : s.1 = q := by
    apply List.ext_getElem?
    intro j
    by_cases hj : j < m.mh.dims.length
    · exact s4 j hj
    · rw [List.getElem?_eq_none (by omega), List.getElem?_eq_none (by omega)]
  obtain ⟨a, a', hr⟩ : ∃ a a', r.info = [a, a'] := by
    match r.info, r3 with
    | [a, a'], _ => exact ⟨a, a', rfl⟩
  refine ⟨⟨s.1, s.2, [g, id]⟩, ?_, hpoint, s3, ⟨d, up, hs, ?_⟩, ⟨id, t, rfl, e2, e3, e4⟩⟩
  · unfold wallCollectKernel
    simp only [hl, wallFacet_eq hb, Option.bind_some]
    rw [show rd gmap f = some g from hg, Option.bind_some, hr]
    rw [st_eq_some (by simp), Option.bind_some, s1, Option.bind_some, hpoint, e1, Option.bind_some]
    rfl
  · intro j x hx
    dsimp only at hx
    have hj : j < m.mh.dims.length := by
      rw [← s3]; exact (List.getElem?_eq_some_iff.1 hx).1
    rw [s5 j hj] at hx
    exact n3 j x hx

/-- The loop that collects the information, whose rows are numbered by the loop layers. -/
theorem wallCollect_loop {P : LoopParams} {npart : List Nat} {sel : Selection} {ndim : Nat}
    (hloop : RowLoopOk P npart (.sub sel)) (order : Sched) (fresh : FreshRows ndim)
    {kernel : Nat → Nat → WallRow → Option WallRow} {R : Nat → Nat → WallRow → Prop}
    (hk : ∀ c l k r, sel.layerAt c k = some l → InParent npart (.sub sel) c l →
      r.point.length = ndim → r.normal.length = ndim → r.info.length = 2 →
      ∃ r', kernel c k r = some r' ∧ R c l r') :
    ∃ rs, ((parentVisits P npart (.sub sel)).bind fun visits =>
        runItems (rowStep .whole kernel) (order.order visits) (fresh sel.hNpart).val) = some rs ∧
      Shape sel.hNpart rs ∧
      ∀ c l k, LoopLayer npart (.sub sel) c l k → ∃ r, rowAt rs c k = some r ∧ R c l r := by
  obtain ⟨L, pl, sl⟩ := built_spec hloop.built
  have pf := parent_facts pl
  have hcounts : sel.hNpart = lens L := pf.counts
  have htot : sel.npartLocal = (lens L).sum := pf.total
  obtain ⟨f1, f2⟩ := (fresh sel.hNpart).property
  have hwhole : RowLoopOk P sel.hNpart .whole := by
    refine ⟨.whole, hloop.localSize, hloop.localSizeInt, hloop.nbin, ?_⟩
    intro n hn
    rw [hcounts] at hn
    obtain ⟨row, hrow, rfl⟩ := List.mem_map.1 hn
    obtain ⟨c, hc, hce⟩ := List.getElem_of_mem hrow
    have hc' : c < npart.length := by rw [← sl.1]; exact hc
    obtain ⟨h1, h2⟩ := sl.2 c row npart[c] (by rw [List.getElem?_eq_getElem hc, hce])
      (List.getElem?_eq_getElem hc')
    exact Nat.lt_of_le_of_lt (row_length_le h1 h2) (hloop.counts _ (List.getElem_mem _))
  have hlayer : ∀ c k n, sel.hNpart[c]? = some n → k < n →
      ∃ l, sel.layerAt c k = some l ∧ InParent npart (.sub sel) c l := by
    intro c k n hn hkn
    have hn' := hn
    rw [hcounts, lens, List.getElem?_map, Option.map_eq_some_iff] at hn'
    obtain ⟨row, hrow, rfl⟩ := hn'
    refine ⟨row[k], ?_, row.length, k, hn, hkn, ?_⟩ <;>
      exact (pf.layer c row k hrow hkn).trans (List.getElem?_eq_getElem hkn)
  obtain ⟨rs, r1, r2, r3, -⟩ := rowLoop_spec hwhole order (rows := (fresh sel.hNpart).val) f1
    (kernel := kernel) (by
      rintro c k l r ⟨h1, n, h2, h3⟩ h4
      obtain ⟨l', h5, h6⟩ := hlayer c k n h2 h3
      obtain ⟨cell, h7, h8⟩ := rowAt_some h4
      obtain ⟨g1, g2, g3⟩ := f2 cell (List.mem_of_getElem? h7) r (List.mem_of_getElem? h8)
      obtain ⟨r', h9, -⟩ := hk c l' k r h5 h6 g1 g2 g3
      exact ⟨r', h9⟩)
  refine ⟨rs, ?_, r2, ?_⟩
  · have : parentVisits P npart (.sub sel) = parentVisits P sel.hNpart .whole := by
      show submitVisits P sel.hNpart true sel.npartLocal none none =
        submitVisits P sel.hNpart true sel.hNpart.sum none none
      rw [htot, hcounts]
    rw [this]
    exact r1
  · rintro c l k ⟨h1, n, h2, h3⟩
    replace h1 : sel.layerAt c k = some l := h1
    replace h2 : sel.hNpart[c]? = some n := h2
    obtain ⟨cell, h4, h5⟩ := shape_row f1 h2
    have hr : rowAt (fresh sel.hNpart).val c k = some (cell[k]'(by omega)) := by
      unfold rowAt
      rw [h4]
      exact List.getElem?_eq_getElem (by omega)
    obtain ⟨g1, g2, g3⟩ := f2 cell (List.mem_of_getElem? h4) (cell[k]'(by omega)) (List.getElem_mem _)
    obtain ⟨r', h6, h7⟩ := r3 c k k _ ⟨rfl, n, h2, h3⟩ hr
    obtain ⟨l', h8, h9⟩ := hlayer c k n h2 h3
    rw [h1] at h8
    obtain rfl := Option.some.inj h8
    obtain ⟨r'', h10, h11⟩ := hk c l k _ h1 h9 g1 g2 g3
    rw [h7] at h10
    obtain rfl := Option.some.inj h10
    exact ⟨r', h6, h11⟩

theorem mapM_second {α β γ : Type} {f : β → Option γ} {R : α → β → Prop} {R' : α → γ → Prop}
    (h : ∀ a b, R a b → ∃ c, f b = some c ∧ R' a c) {l : List α} {l' : List β}
    (hl : List.Forall₂ R l l') : ∃ l'', l'.mapM f = some l'' ∧ List.Forall₂ R' l l'' := by
  induction hl with
  | nil => exact ⟨[], by simp, .nil⟩
  | cons h1 _ ih =>
    obtain ⟨c, a1, a2⟩ := h _ _ h1
    obtain ⟨cs, b1, b2⟩ := ih
    exact ⟨c :: cs, by rw [List.mapM_cons, a1, b1]; rfl, .cons a2 b2⟩

end NP
