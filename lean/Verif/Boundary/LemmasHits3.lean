import Verif.Boundary.LemmasHits2

/-!
# Lemmas on the registration of faces: histories
-/

set_option autoImplicit false

namespace NP

open Spec

variable {m : CartMesh} {extent tol : ℚ} {groups : List (Int × List Int)} {tw : Nat}
  {owned : List (List (List Int))}

/-- The state after the calls which returned `outs`. -/
structure HitInv (m : CartMesh) (groups : List (Int × List Int)) (tw : Nat)
    (owned : List (List (List Int))) (w : HitWorld) (outs : List (List HitOut)) : Prop where
  treesLen : w.trees.length = m.comm.dims.prod
  cachesLen : w.caches.length = m.comm.dims.prod
  ifacesLen : w.ifaces.length = groups.length
  cache : ∀ c ∈ w.caches, GoodFaceCache m c
  tree : ∀ (r : Nat) ts, w.trees[r]? = some ts → ts.length = groups.length ∧
    ∃ F : Nat → Int → Option Int, ∀ (j : Nat) t, ts[j]? = some t → TreeOk tw t (F j) ∧
      ∀ v, (F j v).isSome ↔ EverHit outs r j v
  iface : ∀ (j : Nat) ow, owned[j]? = some ow → ∃ calls iface, w.ifaces[j]? = some iface ∧
    surfRun ow calls = some iface ∧ (∀ c ∈ calls, PairsOk ow c.pairs) ∧
    ∀ r < m.comm.dims.prod, ∀ v, Announced calls r v ↔ EverHit outs r j v

theorem hitFace_iff {out : HitOut} {j : Nat} {o : Int × Selection × List (List WallRow)}
    (h : out[j]? = some o) (v : Int) : HitFace out j v ↔ HasId o.2.2 v := by
  constructor
  · rintro ⟨o', c, k, row, h1, h2⟩
    rw [h] at h1
    obtain rfl := Option.some.inj h1
    exact ⟨c, k, row, h2⟩
  · rintro ⟨c, k, row, h2⟩
    exact ⟨o, c, k, row, h, h2⟩

theorem everHit_append {outs : List (List HitOut)} {o : List HitOut} {r j : Nat} {v : Int} :
    EverHit (outs ++ [o]) r j v ↔ EverHit outs r j v ∨ ∃ out, o[r]? = some out ∧ HitFace out j v := by
  constructor
  · rintro ⟨o', h, x⟩
    rcases List.mem_append.1 h with h | h
    · exact Or.inl ⟨o', h, x⟩
    · rw [List.mem_singleton] at h
      subst h
      exact Or.inr x
  · rintro (⟨o', h, x⟩ | x)
    · exact ⟨o', List.mem_append_left _ h, x⟩
    · exact ⟨o, by simp, x⟩

theorem surfRun_append {ow : List (List Int)} {calls : List SurfCall} {w : List SurfRank}
    (h : surfRun ow calls = some w) (c : SurfCall) :
    surfRun ow (calls ++ [c]) = surfExtend c.mpi c.mem c.pairs w := by
  unfold surfRun at h ⊢
  rw [runItems_append, h, Option.bind_some, runItems_one]

theorem announced_append {calls : List SurfCall} {c : SurfCall} {r : Nat} {v : Int} :
    Announced (calls ++ [c]) r v ↔ Announced calls r v ∨ ∃ ps, c.pairs[r]? = some ps ∧ ∃ q, (q, v) ∈ ps := by
  constructor
  · rintro ⟨c', h, x⟩
    rcases List.mem_append.1 h with h | h
    · exact Or.inl ⟨c', h, x⟩
    · rw [List.mem_singleton] at h
      subst h
      exact Or.inr x
  · rintro (⟨c', h, x⟩ | x)
    · exact ⟨c', List.mem_append_left _ h, x⟩
    · exact ⟨c, by simp, x⟩

/-- What a rank has computed before the communication. -/
structure LocalOk (m : CartMesh) (groups : List (Int × List Int)) (tw : Nat)
    (outs : List (List HitOut)) (r : Nat) (x : HitLocal) : Prop where
  outLen : x.out.length = groups.length
  pairsLen : x.pairs.length = groups.length
  treesLen : x.trees.length = groups.length
  cache : GoodFaceCache m x.cache
  tree : ∃ F : Nat → Int → Option Int, ∀ (j : Nat) t, x.trees[j]? = some t → TreeOk tw t (F j) ∧
    ∀ v, (F j v).isSome ↔ EverHit outs r j v ∨ HitFace x.out j v
  pairs : ∀ (j : Nat) g p, groups[j]? = some g → x.pairs[j]? = some p →
    (∀ v, (∃ q, (q, v) ∈ p) ↔ HitFace x.out j v ∧ ¬ EverHit outs r j v) ∧
    ∀ y ∈ p, OwnedOn m g.2 y.1 y.2

theorem hitLocal_spec (hw : 0 < tw) {x : HitRank m.mh.dims.length}
    (h : WallCall m extent tol groups x.env x.npart x.par x.rows)
    (hsee : ∀ g ∈ groups, SeeOk tw (x.see g.1)) {outs : List (List HitOut)} {r : Nat}
    {ts : List (BlockedTree Int)} {cache : FaceCache} (hc : GoodFaceCache m cache)
    (hlen : ts.length = groups.length) {F : Nat → Int → Option Int}
    (ht : ∀ (j : Nat) t, ts[j]? = some t → TreeOk tw t (F j) ∧ ∀ v, (F j v).isSome ↔ EverHit outs r j v) :
    ∃ y, hitLocal m extent tol groups tw x ts cache = some y ∧
      wallPost m extent tol groups x.env x.npart x.par x.rows = some y.out ∧
      LocalOk m groups tw outs r y := by
  obtain ⟨out, side, point, o1, -, o3⟩ := C69_groups h
  obtain ⟨ps, ts', F', c', p1, p2, p3, p4, p5, p6⟩ := hitGroups_spec h.mesh h.ndim hw
    (o3.imp fun g o hgo => outOk_of h.loop.counts hgo) hsee ts F hlen (fun j t hj => (ht j t hj).1) cache hc
  refine ⟨⟨out, ps, ts', c'⟩, ?_, o1, ?_⟩
  · unfold hitLocal
    rw [o1, Option.bind_some, p1, Option.bind_some]
  have hol : out.length = groups.length := o3.length_eq.symm
  have hF : ∀ j, j < groups.length → ∀ v, (F j v).isSome ↔ EverHit outs r j v := fun j hj =>
    (ht j (ts[j]'(by omega)) (List.getElem?_eq_getElem _)).2
  refine ⟨hol, p3, p4, p2, ⟨F', fun j t hj => ⟨p5 j t hj, ?_⟩⟩, ?_⟩
  · have hlt : j < groups.length := by
      have := (List.getElem?_eq_some_iff.1 hj).1
      dsimp only at this
      omega
    have ho := List.getElem?_eq_getElem (show j < out.length by omega)
    have f := p6 j _ _ _ (List.getElem?_eq_getElem hlt) ho
      (List.getElem?_eq_getElem (show j < ps.length by omega))
    intro v
    dsimp only
    rw [f.seen, hF j hlt, hitFace_iff ho]
  · intro j g p hg hp
    have hlt := (List.getElem?_eq_some_iff.1 hg).1
    have ho := List.getElem?_eq_getElem (show j < out.length by omega)
    have f := p6 j g _ p hg ho hp
    refine ⟨fun v => ?_, f.owner⟩
    dsimp only
    rw [f.new, hitFace_iff ho, ← hF j hlt]
    simp

theorem hitPost_spec (hv : ValidCartMesh m) (hw : 0 < tw) (ho : OwnedOk m groups owned)
    {w : HitWorld} {outs : List (List HitOut)} (hinv : HitInv m groups tw owned w outs)
    {s : HitStep m.mh.dims.length} (hs : HitStepOk m extent tol groups tw s) :
    ∃ w' o, hitPost m extent tol groups tw s w = some (w', o) ∧ o.length = m.comm.dims.prod ∧
      (∀ (r : Nat) x, s.ranks[r]? = some x → ∃ out, o[r]? = some out ∧
        wallPost m extent tol groups x.env x.npart x.par x.rows = some out) ∧
      HitInv m groups tw owned w' (outs ++ [o]) := by
  set n := m.comm.dims.prod with hnd
  have hex : ∀ r, ∃ y : HitLocal, r < n → ∃ x, s.ranks[r]? = some x ∧
      ((rd w.trees r).bind fun ts => (rd w.caches r).bind fun c =>
        hitLocal m extent tol groups tw x ts c) = some y ∧
      wallPost m extent tol groups x.env x.npart x.par x.rows = some y.out ∧
      LocalOk m groups tw outs r y := by
    intro r
    by_cases hr : r < n
    · have hx := List.getElem?_eq_getElem (l := s.ranks) (i := r) (by rw [hs.ranks]; exact hr)
      have hts := List.getElem?_eq_getElem (l := w.trees) (i := r) (by rw [hinv.treesLen]; exact hr)
      have hcs := List.getElem?_eq_getElem (l := w.caches) (i := r) (by rw [hinv.cachesLen]; exact hr)
      obtain ⟨t1, F, t2⟩ := hinv.tree r _ hts
      have hxm := List.mem_of_getElem? hx
      obtain ⟨y, y1, y2, y3⟩ := hitLocal_spec hw (hs.calls _ hxm) (hs.see _ hxm)
        (hinv.cache _ (List.mem_of_getElem? hcs)) t1 t2
      refine ⟨y, fun _ => ⟨_, hx, ?_, y2, y3⟩⟩
      simp only [rd]
      rw [hts, Option.bind_some, hcs, Option.bind_some, y1]
    · exact ⟨⟨[], [], [], fun _ => none⟩, fun h => absurd h hr⟩
  choose Y hY using hex
  have hlocal : (List.range s.ranks.length).mapM (fun r => (rd s.ranks r).bind fun x =>
      (rd w.trees r).bind fun ts => (rd w.caches r).bind fun c =>
        hitLocal m extent tol groups tw x ts c) = some ((List.range n).map Y) := by
    rw [hs.ranks]
    refine mapM_of_forall fun r hr => ?_
    obtain ⟨x, x1, x2, -⟩ := hY r (List.mem_range.1 hr)
    have x1' : rd s.ranks r = some x := x1
    rw [x1', Option.bind_some, x2]
  have hYL : ∀ r < n, LocalOk m groups tw outs r (Y r) := fun r hr => (hY r hr).choose_spec.2.2.2
  have hout : ∀ r < n, ((List.range n).map fun r => (Y r).out)[r]? = some (Y r).out := fun r hr =>
    get_table _ hr
  have hever : ∀ r < n, ∀ j v, EverHit (outs ++ [(List.range n).map fun r => (Y r).out]) r j v ↔
      EverHit outs r j v ∨ HitFace (Y r).out j v := by
    intro r hr j v
    rw [everHit_append, hout r hr]
    simp
  -- what the exchanges become
  have hif : ∃ ifaces, (if ((List.range n).map Y).any fun r => r.pairs.any fun ps => !ps.isEmpty then
        (List.range groups.length).mapM fun j => (rd w.ifaces j).bind fun iface =>
          (((List.range n).map Y).mapM fun r => rd r.pairs j).bind fun pairs =>
            surfExtend (s.mpi j) (s.mem j) pairs iface
      else some w.ifaces) = some ifaces ∧ ifaces.length = groups.length ∧
      ∀ (j : Nat) ow, owned[j]? = some ow → ∃ calls iface, ifaces[j]? = some iface ∧
        surfRun ow calls = some iface ∧ (∀ c ∈ calls, PairsOk ow c.pairs) ∧
        ∀ r < n, ∀ v, Announced calls r v ↔ EverHit outs r j v ∨ HitFace (Y r).out j v := by
    split
    case isTrue hany =>
      have hj : ∀ j, ∃ iface : List SurfRank, j < groups.length →
          ((rd w.ifaces j).bind fun iface =>
            (((List.range n).map Y).mapM fun r => rd r.pairs j).bind fun pairs =>
              surfExtend (s.mpi j) (s.mem j) pairs iface) = some iface ∧
          ∀ ow, owned[j]? = some ow → ∃ calls,
            surfRun ow calls = some iface ∧ (∀ c ∈ calls, PairsOk ow c.pairs) ∧
            ∀ r < n, ∀ v, Announced calls r v ↔ EverHit outs r j v ∨ HitFace (Y r).out j v := by
        intro j
        by_cases hj : j < groups.length
        · obtain ⟨ow0, how⟩ : ∃ ow0, owned[j]? = some ow0 :=
            ⟨_, List.getElem?_eq_getElem (l := owned) (i := j) (by rw [ho.1]; exact hj)⟩
          have hg := List.getElem?_eq_getElem hj
          obtain ⟨hol, hfo, hfm⟩ := ho.2 j _ _ hg how
          obtain ⟨calls, iface, i1, i2, i3, i4⟩ := hinv.iface j _ how
          have hp : ∀ r < n, (Y r).pairs[j]? = some ((Y r).pairs.getD j []) := by
            intro r hr
            have hl := (hYL r hr).pairsLen
            rw [List.getD_eq_getElem?_getD, List.getElem?_eq_getElem (by omega)]; rfl
          have hpairs : (((List.range n).map Y).mapM fun r => rd r.pairs j) =
              some ((List.range n).map fun r => (Y r).pairs.getD j []) := by
            rw [List.mapM_map]
            exact mapM_of_forall fun r hr => hp r (List.mem_range.1 hr)
          have hpok : PairsOk ow0 ((List.range n).map fun r => (Y r).pairs.getD j []) := by
            refine ⟨by simp [hol, hnd], ?_⟩
            intro ps hps p hpm
            obtain ⟨r, hr, rfl⟩ := List.mem_map.1 hps
            have hr := List.mem_range.1 hr
            exact ownedOn_face hv ho hg how (((hYL r hr).pairs j _ _ hg (hp r hr)).2 p hpm)
          have hok : ∀ c ∈ calls ++ [⟨s.mpi j, s.mem j, (List.range n).map fun r => (Y r).pairs.getD j []⟩],
              PairsOk ow0 c.pairs := by
            intro c hc
            rcases List.mem_append.1 hc with hc | hc
            · exact i3 c hc
            · rw [List.mem_singleton] at hc
              subst hc
              exact hpok
          obtain ⟨W, R, r1, -⟩ := surfRun_inv hfo _ hok
          refine ⟨(List.range ow0.length).map W, fun _ => ⟨?_, ?_⟩⟩
          · simp only [rd]
            rw [i1, Option.bind_some]
            rw [surfRun_append i2] at r1
            have hpairs' := hpairs
            simp only [rd] at hpairs'
            rw [hpairs', Option.bind_some]
            exact r1
          · intro ow how'
            rw [how] at how'
            obtain rfl := Option.some.inj how'
            refine ⟨_, r1, hok, ?_⟩
            intro r hr v
            rw [announced_append, i4 r hr]
            dsimp only
            rw [get_table _ hr]
            have := ((hYL r hr).pairs j _ _ hg (hp r hr)).1 v
            constructor
            · rintro (h | ⟨ps, h, q, hq⟩)
              · exact Or.inl h
              · obtain rfl := Option.some.inj h
                exact Or.inr (this.1 ⟨q, hq⟩).1
            · rintro (h | h)
              · exact Or.inl h
              · by_cases he : EverHit outs r j v
                · exact Or.inl he
                · obtain ⟨q, hq⟩ := this.2 ⟨h, he⟩
                  exact Or.inr ⟨_, rfl, q, hq⟩
        · exact ⟨[], fun h => absurd h hj⟩
      choose I hI using hj
      refine ⟨(List.range groups.length).map I,
        mapM_of_forall fun j hj => (hI j (List.mem_range.1 hj)).1, by simp, ?_⟩
      intro j ow how
      have hj : j < groups.length := by rw [← ho.1]; exact (List.getElem?_eq_some_iff.1 how).1
      obtain ⟨calls, c1, c2, c3⟩ := (hI j hj).2 ow how
      exact ⟨calls, I j, get_table _ hj, c1, c2, c3⟩
    case isFalse hany =>
      refine ⟨w.ifaces, rfl, hinv.ifacesLen, ?_⟩
      intro j ow how
      obtain ⟨calls, iface, i1, i2, i3, i4⟩ := hinv.iface j ow how
      refine ⟨calls, iface, i1, i2, i3, ?_⟩
      intro r hr v
      rw [i4 r hr]
      refine ⟨Or.inl, ?_⟩
      rintro (h | h)
      · exact h
      · by_contra he
        have hj : j < groups.length := by rw [← ho.1]; exact (List.getElem?_eq_some_iff.1 how).1
        have hl := (hYL r hr).pairsLen
        have hp := List.getElem?_eq_getElem (l := (Y r).pairs) (i := j) (by omega)
        obtain ⟨q, hq⟩ := (((hYL r hr).pairs j _ _ (List.getElem?_eq_getElem hj) hp).1 v).2 ⟨h, he⟩
        apply hany
        rw [List.any_eq_true]
        refine ⟨Y r, List.mem_map.2 ⟨r, List.mem_range.2 hr, rfl⟩, ?_⟩
        rw [List.any_eq_true]
        refine ⟨_, List.mem_of_getElem? hp, ?_⟩
        rw [Bool.not_eq_true', List.isEmpty_eq_false_iff]
        intro h0
        rw [h0] at hq
        cases hq
  obtain ⟨ifaces, f1, f2, f3⟩ := hif
  refine ⟨⟨(List.range n).map fun r => (Y r).trees, (List.range n).map fun r => (Y r).cache, ifaces⟩,
    (List.range n).map fun r => (Y r).out, ?_, by simp, ?_, ?_⟩
  · unfold hitPost
    rw [hlocal, Option.bind_some, f1, Option.bind_some]
    simp only [List.map_map]
    rfl
  · intro r x hx
    have hr : r < n := by rw [hnd, ← hs.ranks]; exact (List.getElem?_eq_some_iff.1 hx).1
    obtain ⟨x', x1, -, x3, -⟩ := hY r hr
    rw [hx] at x1
    obtain rfl := Option.some.inj x1
    exact ⟨_, hout r hr, x3⟩
  · refine ⟨by simp [hnd], by simp [hnd], f2, ?_, ?_, ?_⟩
    · intro c hc
      obtain ⟨r, hr, rfl⟩ := List.mem_map.1 hc
      exact (hYL r (List.mem_range.1 hr)).cache
    · intro r ts hts
      have hr : r < n := by
        have := (List.getElem?_eq_some_iff.1 hts).1
        simpa using this
      dsimp only at hts
      rw [get_table _ hr] at hts
      obtain rfl := Option.some.inj hts
      obtain ⟨F, hF⟩ := (hYL r hr).tree
      refine ⟨(hYL r hr).treesLen, F, fun j t hj => ⟨(hF j t hj).1, fun v => ?_⟩⟩
      rw [(hF j t hj).2, hever r hr]
    · intro j ow how
      obtain ⟨calls, iface, c1, c2, c3, c4⟩ := f3 j ow how
      refine ⟨calls, iface, c1, c2, c3, fun r hr v => ?_⟩
      rw [c4 r hr, hever r hr]

theorem hitRun_spec (hv : ValidCartMesh m) (hw : 0 < tw) (ho : OwnedOk m groups owned)
    {w : HitWorld} {outs : List (List HitOut)} (hinv : HitInv m groups tw owned w outs)
    (steps : List (HitStep m.mh.dims.length)) (hs : ∀ s ∈ steps, HitStepOk m extent tol groups tw s) :
    ∃ w' os, hitRun m extent tol groups tw steps w = some (w', os) ∧
      List.Forall₂ (fun (s : HitStep m.mh.dims.length) (o : List HitOut) => o.length = m.comm.dims.prod ∧
        ∀ (r : Nat) x, s.ranks[r]? = some x → ∃ out, o[r]? = some out ∧
          wallPost m extent tol groups x.env x.npart x.par x.rows = some out) steps os ∧
      HitInv m groups tw owned w' (outs ++ os) := by
  induction steps generalizing w outs with
  | nil => exact ⟨w, [], rfl, .nil, by rw [List.append_nil]; exact hinv⟩
  | cons s ss ih =>
    obtain ⟨w1, o, a1, a2, a3, a4⟩ := hitPost_spec hv hw ho hinv (hs s (by simp))
    obtain ⟨w2, os, b1, b2, b3⟩ := ih a4 fun s' h => hs s' (List.mem_cons_of_mem _ h)
    refine ⟨w2, o :: os, ?_, .cons ⟨a2, a3⟩ b2, by simpa using b3⟩
    unfold hitRun
    rw [a1, Option.bind_some]
    dsimp only
    rw [b1, Option.bind_some]

theorem hitNew_inv (hv : ValidCartMesh m) (hn : m.mh.dims.length = 2 ∨ m.mh.dims.length = 3)
    (hg : GroupsOk m groups) :
    ∃ w owned, hitNew m groups = some (w, owned) ∧ OwnedOk m groups owned ∧
      HitInv m groups tw owned w [] := by
  obtain ⟨C, owned, h1, h2, h3⟩ := hitNew_spec hv hn hg
  have hno : ∀ r j v, ¬ EverHit [] r j v := by rintro r j v ⟨o, ho, -⟩; cases ho
  refine ⟨_, owned, h1, h3, ⟨by simp, by simp, by simp [h3.1], ?_, ?_, ?_⟩⟩
  · intro c hc
    obtain ⟨r, hr, rfl⟩ := List.mem_map.1 hc
    exact h2 r (List.mem_range.1 hr)
  · intro r ts hts
    obtain rfl := List.eq_of_mem_replicate (List.mem_of_getElem? hts)
    refine ⟨by simp, fun _ _ => none, ?_⟩
    intro j t hj
    rw [List.getElem?_map, Option.map_eq_some_iff] at hj
    obtain ⟨-, -, rfl⟩ := hj
    exact ⟨TreeOk.create tw, fun v => by simp [hno]⟩
  · intro j ow how
    refine ⟨[], ow.map (surfNew ow.length), ?_, rfl, by simp, ?_⟩
    · dsimp only
      rw [List.getElem?_map, how]; rfl
    · intro r _ v
      constructor
      · rintro ⟨c, hc, -⟩; cases hc
      · intro h; exact absurd h (hno r j v)

end NP
