import Verif.Group.LemmasTemp

/-!
# C80: temporary particle groups are empty and have the properties of their source

Model: Group/ModelTemp.lean, Containers/Model.lean (`StackState`). Specification:
Group/SpecTemp.lean.
-/

set_option autoImplicit false

namespace NP

open Spec

/-- The state of a program that uses temporary groups; `held` are those that were handed out and not
given back. -/
structure TempOk (P N : PropKind → Nat) (ncell : Nat) (w : TempWorld) (held : List Nat) : Prop where
  source : TOk P N ncell w.source
  stack : StackOk (w.stack.getD StackState.init) held
  temps : ∀ r, r < (w.stack.getD StackState.init).next → ∃ t, w.temps r = some t ∧ TOk P N ncell t
  empty : ∀ r ∈ (w.stack.getD StackState.init).stack, ∀ t, w.temps r = some t →
    t.npart = List.replicate ncell 0

/-- The state after a call of `get`. -/
theorem TempOk.get {P N : PropKind → Nat} {ncell : Nat} {w : TempWorld} {held : List Nat}
    (hP : P .int ≠ tempRankSym) (h : TempOk P N ncell w held) :
    ∃ r w' t, w.get = some (r, w') ∧ TempOk P N ncell w' (r :: held) ∧ r ∉ held ∧
      w'.temps r = some t ∧ TOk P N ncell t ∧ t.npart = List.replicate ncell 0 ∧
      (∀ k s, compsOf t k s = compsOf w.source k s) ∧ w'.source = w.source ∧
      ∀ r', r' ≠ r → w'.temps r' = w.temps r' := by
  obtain ⟨k1, k2, -, -⟩ := h.stack.get
  have hlen := h.source.base.len
  have ht : ∃ t, (if (w.stack.getD StackState.init).stack = [] then
      TGroup.construct w.source.npart.length w.source.spec
      else w.temps (w.stack.getD StackState.init).get.1) = some t ∧ TOk P N ncell t ∧
      t.npart = List.replicate ncell 0 := by
    by_cases hs : (w.stack.getD StackState.init).stack = []
    · rw [if_pos hs, hlen]
      exact construct_of_source hP h.source
    · rw [if_neg hs]
      have hin : (w.stack.getD StackState.init).get.1 ∈ (w.stack.getD StackState.init).stack := by
        unfold StackState.get
        cases hst : (w.stack.getD StackState.init).stack with
        | nil => exact absurd hst hs
        | cons a l => simp
      obtain ⟨t, t1, t2⟩ := h.temps _ (h.stack.ls _ hin)
      exact ⟨t, t1, t2, h.empty _ hin t t1⟩
  obtain ⟨t, t1, t2, t3⟩ := ht
  obtain ⟨t', c1, c2, c3, c4⟩ := checks_spec h.source t2
  have hget : w.get = some ((w.stack.getD StackState.init).get.1,
      ({ w with stack := some (w.stack.getD StackState.init).get.2 } : TempWorld).set
        (w.stack.getD StackState.init).get.1 t') := by
    unfold TempWorld.get
    dsimp only
    rw [t1, Option.bind_some]
    obtain ⟨a1, x1, c1⟩ := Option.bind_eq_some_iff.1 c1
    obtain ⟨a2, x2, c1⟩ := Option.bind_eq_some_iff.1 c1
    obtain ⟨a3, x3, c1⟩ := Option.bind_eq_some_iff.1 c1
    rw [x1, Option.bind_some, x2, Option.bind_some, x3, Option.bind_some, c1, Option.bind_some]
  have hnext : (w.stack.getD StackState.init).get.2.next ≤ (w.stack.getD StackState.init).next + 1 ∧
      ((w.stack.getD StackState.init).next < (w.stack.getD StackState.init).get.2.next →
        (w.stack.getD StackState.init).get.1 = (w.stack.getD StackState.init).next) ∧
      ∀ r ∈ (w.stack.getD StackState.init).get.2.stack, r ∈ (w.stack.getD StackState.init).stack := by
    unfold StackState.get
    cases (w.stack.getD StackState.init).stack with
    | nil => simp
    | cons a l => simp; exact fun r hr => Or.inr hr
  refine ⟨_, _, t', hget, ⟨h.source, k1, ?_, ?_⟩, k2, if_pos rfl, c2, c3.trans t3, c4, rfl,
    fun r' hr => if_neg hr⟩
  · intro r hr
    by_cases he : r = (w.stack.getD StackState.init).get.1
    · exact ⟨t', if_pos he, c2⟩
    · change r < (w.stack.getD StackState.init).get.2.next at hr
      obtain ⟨x, x1, x2⟩ := h.temps r (by
        obtain ⟨n1, n2, -⟩ := hnext
        by_contra hh
        exact he (by rw [n2 (by omega)]; omega))
      exact ⟨x, (if_neg he).trans x1, x2⟩
  · intro r hr x hx
    change r ∈ (w.stack.getD StackState.init).get.2.stack at hr
    have hne : r ≠ (w.stack.getD StackState.init).get.1 := by
      intro he
      exact k1.dj r hr (he ▸ List.mem_cons_self)
    refine h.empty r (hnext.2.2 r hr) x ?_
    change (if r = _ then some t' else w.temps r) = some x at hx
    rwa [if_neg hne] at hx

/-- A change of a temporary group that is held. -/
theorem TempOk.modify {P N : PropKind → Nat} {ncell : Nat} {w w' : TempWorld} {held : List Nat}
    (h : TempOk P N ncell w held) {r : Nat} {f : TGroup → Option TGroup}
    (hf : ∀ t t', TOk P N ncell t → f t = some t' → TOk P N ncell t')
    (e : w.modify r f = some w') : TempOk P N ncell w' held := by
  unfold TempWorld.modify at e
  obtain ⟨s, e1, e⟩ := Option.bind_eq_some_iff.1 e
  by_cases hr : r ∈ s.refs
  · rw [if_pos hr] at e
    obtain ⟨t, e2, e⟩ := Option.bind_eq_some_iff.1 e
    obtain ⟨t', e3, e⟩ := Option.bind_eq_some_iff.1 e
    obtain rfl := Option.some.inj e
    have hs := h.stack
    have ht := h.temps
    have he := h.empty
    rw [e1, Option.getD_some] at hs ht he
    refine ⟨h.source, by rw [TempWorld.set, e1]; exact hs, ?_, ?_⟩
    · intro r' hr'
      rw [TempWorld.set, e1] at hr'
      by_cases heq : r' = r
      · obtain ⟨x, x1, x2⟩ := ht r (hs.lh r (hs.rf r hr))
        rw [e2] at x1
        obtain rfl := Option.some.inj x1
        exact ⟨t', if_pos heq, hf _ _ x2 e3⟩
      · obtain ⟨x, x1, x2⟩ := ht r' hr'
        exact ⟨x, (if_neg heq).trans x1, x2⟩
    · intro r' hr' x hx
      rw [TempWorld.set, e1] at hr'
      have hne : r' ≠ r := fun hh => hs.dj r' hr' (hh ▸ hs.rf r hr)
      refine he r' hr' x ?_
      change (if r' = r then some t' else w.temps r') = some x at hx
      rwa [if_neg hne] at hx
  · rw [if_neg hr] at e; simp at e

theorem TOk.of_fill {P N : PropKind → Nat} {ncell : Nat} {g g' : TGroup} (h : TOk P N ncell g)
    {npart : List Nat} (e : g.fill npart = some g') : TOk P N ncell g' := by
  unfold TGroup.fill at e
  by_cases hl : npart.length = g.npart.length
  · rw [if_pos hl] at e
    obtain rfl := Option.some.inj e
    exact h.rows (hl.trans h.base.len)
  · rw [if_neg hl] at e; simp at e

/-- The state after any call. -/
theorem TempOk.call {P N : PropKind → Nat} {ncell : Nat} {w w' : TempWorld} {held : List Nat}
    (hP : P .int ≠ tempRankSym) (h : TempOk P N ncell w held) {c : TempCall} {ev : StackEvent}
    (e : tempCall w c = some (ev, w')) : TempOk P N ncell w' (heldStep held ev) := by
  cases c with
  | srcAdd k sym ncomp =>
    obtain ⟨g, e1, e⟩ := Option.map_eq_some_iff.1 e
    cases e
    exact ⟨(h.source.of_add e1).1, h.stack, h.temps, h.empty⟩
  | srcRemove k sym =>
    obtain ⟨g, e1, e⟩ := Option.map_eq_some_iff.1 e
    cases e
    exact ⟨(h.source.of_remove e1).1, h.stack, h.temps, h.empty⟩
  | srcFill npart =>
    obtain ⟨g, e1, e⟩ := Option.map_eq_some_iff.1 e
    cases e
    exact ⟨h.source.of_fill e1, h.stack, h.temps, h.empty⟩
  | get =>
    obtain ⟨⟨r0, w0⟩, e1, e⟩ := Option.map_eq_some_iff.1 e
    cases e
    obtain ⟨r, w1, t, a1, a2, -⟩ := h.get hP
    rw [e1] at a1
    cases a1
    exact a2
  | restore r =>
    obtain ⟨w0, e1, e⟩ := Option.map_eq_some_iff.1 e
    cases e
    unfold TempWorld.restore at e1
    obtain ⟨s, f1, e1⟩ := Option.bind_eq_some_iff.1 e1
    obtain ⟨s', f2, e1⟩ := Option.bind_eq_some_iff.1 e1
    obtain ⟨t, f3, e1⟩ := Option.bind_eq_some_iff.1 e1
    obtain rfl := Option.some.inj e1
    have hs := h.stack
    have ht := h.temps
    have he := h.empty
    rw [f1, Option.getD_some] at hs ht he
    obtain ⟨g1, g2⟩ := hs.restore r f2
    have hst : s'.next = s.next ∧ s'.stack = r :: s.stack ∧ r ∈ s.refs := by
      unfold StackState.restore at f2
      by_cases hr : r ∈ s.refs
      · rw [if_pos hr] at f2
        dsimp only at f2
        split at f2
        · cases f2; exact ⟨rfl, rfl, hr⟩
        · simp at f2
      · rw [if_neg hr] at f2; simp at f2
    obtain ⟨x, x1, x2⟩ := ht r (hs.lh r (hs.rf r hst.2.2))
    rw [f3] at x1
    obtain rfl := Option.some.inj x1
    have hclear : TOk P N ncell t.clear := x2.rows (by rw [List.length_map, x2.base.len])
    have hzero : t.clear.npart = List.replicate ncell 0 := by
      change t.npart.map (fun _ => 0) = _
      rw [List.map_const', x2.base.len]
    refine ⟨h.source, g1, ?_, ?_⟩
    · intro r' hr'
      change r' < s'.next at hr'
      rw [hst.1] at hr'
      by_cases heq : r' = r
      · exact ⟨_, if_pos heq, hclear⟩
      · obtain ⟨y, y1, y2⟩ := ht r' hr'
        exact ⟨y, (if_neg heq).trans y1, y2⟩
    · intro r' hr' y hy
      change r' ∈ s'.stack at hr'
      change (if r' = r then some t.clear else w.temps r') = some y at hy
      rw [hst.2.1] at hr'
      by_cases heq : r' = r
      · rw [if_pos heq] at hy
        rw [← Option.some.inj hy, hzero]
      · rw [if_neg heq] at hy
        exact he r' ((List.mem_cons.1 hr').resolve_left heq) y hy
  | tmpAdd r k sym ncomp =>
    obtain ⟨w0, e1, e⟩ := Option.map_eq_some_iff.1 e
    cases e
    exact h.modify (fun t t' ht e => (ht.of_add e).1) e1
  | tmpRemove r k sym =>
    obtain ⟨w0, e1, e⟩ := Option.map_eq_some_iff.1 e
    cases e
    exact h.modify (fun t t' ht e => (ht.of_remove e).1) e1
  | tmpFill r npart =>
    obtain ⟨w0, e1, e⟩ := Option.map_eq_some_iff.1 e
    cases e
    exact h.modify (fun t t' ht e => ht.of_fill e) e1
  | copy r =>
    obtain ⟨s, f1, e⟩ := Option.bind_eq_some_iff.1 e
    obtain ⟨s', f2, e⟩ := Option.map_eq_some_iff.1 e
    cases e
    have hs := h.stack
    have ht := h.temps
    have he := h.empty
    rw [f1, Option.getD_some] at hs ht he
    have hs' := hs.step (c := .copy r) (ev := .other) (s' := s') (by rw [stackCall, f2]; rfl)
    unfold StackState.copyRef at f2
    split at f2
    · cases f2; exact ⟨h.source, hs', ht, he⟩
    · simp at f2
  | drop r =>
    obtain ⟨s, f1, e⟩ := Option.bind_eq_some_iff.1 e
    obtain ⟨s', f2, e⟩ := Option.map_eq_some_iff.1 e
    cases e
    have hs := h.stack
    have ht := h.temps
    have he := h.empty
    rw [f1, Option.getD_some] at hs ht he
    have hs' := hs.step (c := .drop r) (ev := .other) (s' := s') (by rw [stackCall, f2]; rfl)
    unfold StackState.dropRef at f2
    split at f2
    · cases f2; exact ⟨h.source, hs', ht, he⟩
    · simp at f2

theorem TempOk.calls {P N : PropKind → Nat} {ncell : Nat} (hP : P .int ≠ tempRankSym)
    (calls : List TempCall) {w w' : TempWorld} {held : List Nat} (h : TempOk P N ncell w held)
    {evs : List StackEvent} (e : tempCalls w calls = some (evs, w')) :
    TempOk P N ncell w' (heldAfter held evs) := by
  induction calls generalizing w held evs with
  | nil => cases e; exact h
  | cons c calls ih =>
    obtain ⟨⟨ev, w1⟩, e1, e⟩ := Option.bind_eq_some_iff.1 e
    obtain ⟨⟨evs1, w2⟩, e2, e⟩ := Option.bind_eq_some_iff.1 e
    cases e
    rw [heldAfter_cons]
    exact ih (h.call hP e1) e2

theorem tempOk_start {P : PropKind → Nat} {ncell : Nat} {spec : PropKind → List TProp} {g : TGroup}
    (hs : SpecialOnce spec P) (hg : TGroup.construct ncell spec = some g) :
    ∃ N, TempOk P N ncell (TempWorld.start g) [] := by
  obtain ⟨N, h1, -⟩ := construct_ok hs hg
  refine ⟨N, h1, StackOk.init, ?_, ?_⟩
  · intro r hr; exact absurd hr (by simp [TempWorld.start, StackState.init])
  · intro r hr; exact absurd hr (by simp [TempWorld.start, StackState.init])

/-- **C80** After every history of changes to the properties and the particles of the source and of
temporary groups, of calls of `get` and `restore` and of copies of pointers: `get` succeeds. The
group that it returns is not one that was handed out and not given back. It has exactly the
properties of the source, with the same numbers of components, and the same specification, in some
order, and the same properties for positions and cells. It has no particles, in any dat. The source
and the other temporary groups do not change. -/
theorem C80_get {P : PropKind → Nat} {ncell : Nat} {spec : PropKind → List TProp} {g : TGroup}
    (hs : SpecialOnce spec P) (hg : TGroup.construct ncell spec = some g) {calls : List TempCall}
    {evs : List StackEvent} {w : TempWorld}
    (h : tempCalls (TempWorld.start g) calls = some (evs, w)) :
    ∃ r w' t, w.get = some (r, w') ∧ r ∉ heldAfter [] evs ∧ w'.temps r = some t ∧
      (∀ k s, compsOf t k s = compsOf w.source k s) ∧
      (∀ k, (t.spec k).Perm (w.source.spec k) ∧ t.special k = w.source.special k) ∧
      NoParticles ncell t ∧ w'.source = w.source ∧ ∀ r', r' ≠ r → w'.temps r' = w.temps r' := by
  obtain ⟨N, h0⟩ := tempOk_start hs hg
  have hw := h0.calls hs.1 calls h
  obtain ⟨r, w', t, a1, -, a3, a4, a5, a6, a7, a8, a9⟩ := hw.get hs.1
  have hsrc := hw.source
  refine ⟨r, w', t, a1, a3, a4, a7, fun k => ⟨?_, ?_⟩, ⟨a6, ?_⟩, a8, a9⟩
  · have hsy : ∀ s, s ∈ t.syms k ↔ s ∈ w.source.syms k := by
      intro s
      have := a7 k s
      constructor
      · intro hh
        by_contra hn
        rw [comps_none.2 hn] at this
        exact comps_none.1 this hh
      · intro hh
        by_contra hn
        rw [comps_none.2 hn] at this
        exact comps_none.1 this.symm hh
    have key : ∀ {g g' : TGroup}, TOk P N ncell g → TOk P N ncell g' →
        (∀ s, compsOf g k s = compsOf g' k s) →
        ∀ p ∈ (g.dats k).map (fun d => d.prop), p ∈ (g'.dats k).map (fun d => d.prop) := by
      intro g g' hg hg' hc p hp
      obtain ⟨d, hd, rfl⟩ := List.mem_map.1 hp
      have h1 := (comps_some (hg.base.nodup k)).2 ⟨d, hd, rfl, rfl⟩
      rw [hc] at h1
      obtain ⟨d', hd', e1, e2⟩ := (comps_some (hg'.base.nodup k)).1 h1
      refine List.mem_map.2 ⟨d', hd', ?_⟩
      have p1 := hg.base.pos k d hd
      have p2 := hg'.base.pos k d' hd'
      rw [e1] at p2
      have p3 : d'.prop.positions = d.prop.positions := by
        rw [Bool.eq_iff_iff, p1, p2]
      cases hq : d'.prop
      cases hq' : d.prop
      simp_all
    have hnd : ∀ {g : TGroup}, TOk P N ncell g → ((g.dats k).map fun d => d.prop).Nodup := by
      intro g hg
      have := hg.base.nodup k
      unfold TGroup.syms at this
      have h2 : (g.dats k).map (fun d => d.prop.sym) = ((g.dats k).map fun d => d.prop).map
          fun p => p.sym := by rw [List.map_map]; rfl
      rw [h2] at this
      exact List.Pairwise.of_map (fun p : TProp => p.sym) (fun a b h hh => h (by rw [hh])) this
    refine (a5.base.spec k).trans (List.Perm.trans ?_ (hsrc.base.spec k).symm)
    refine (List.perm_ext_iff_of_nodup (hnd a5) (hnd hsrc)).2 fun p => ⟨?_, ?_⟩
    · exact key a5 hsrc (a7 k) p
    · exact key hsrc a5 (fun s => (a7 k s).symm) p
  · rw [a5.base.special, hsrc.base.special, if_pos (a5.mem (Or.inl rfl)),
      if_pos (hsrc.mem (Or.inl rfl))]
  · intro k d hd
    rw [a5.base.rows k d hd, a6]

/-- **C80** After every history a temporary group can be given back exactly if the pointer to it is
the only one. -/
theorem C80_restore {P : PropKind → Nat} {ncell : Nat} {spec : PropKind → List TProp} {g : TGroup}
    (hs : SpecialOnce spec P) (hg : TGroup.construct ncell spec = some g) {calls : List TempCall}
    {evs : List StackEvent} {w : TempWorld}
    (h : tempCalls (TempWorld.start g) calls = some (evs, w)) (r : Nat) :
    (w.restore r).isSome ↔ ∃ s, w.stack = some s ∧ s.refs.count r = 1 := by
  obtain ⟨N, h0⟩ := tempOk_start hs hg
  have hw := h0.calls hs.1 calls h
  unfold TempWorld.restore
  cases hst : w.stack with
  | none => simp
  | some s =>
    have hs' := hw.stack
    have ht := hw.temps
    rw [hst, Option.getD_some] at hs' ht
    simp only [Option.bind_some, Option.some.injEq, exists_eq_left']
    unfold StackState.restore
    by_cases hr : r ∈ s.refs
    · rw [if_pos hr]
      have hz : s.stack.count r = 0 := List.count_eq_zero.mpr fun hm => hs'.dj r hm (hs'.rf r hr)
      have h1 : (s.refs.erase r).count r = s.refs.count r - 1 := List.count_erase_self
      have h2 : 0 < s.refs.count r := List.count_pos_iff.mpr hr
      obtain ⟨t, t1, -⟩ := ht r (hs'.lh r (hs'.rf r hr))
      dsimp only
      by_cases hc : 1 + (s.refs.erase r).count r + s.stack.count r = 1
      · rw [if_pos hc]
        simp [t1]
        omega
      · rw [if_neg hc]
        simp
        omega
    · rw [if_neg hr]
      have : s.refs.count r = 0 := List.count_eq_zero.mpr hr
      simp [this]

namespace Ex

/-- Positions with two components, a velocity, and cells. -/
def tempSpec : PropKind → List TProp
  | .real => [⟨1, 2, true⟩, ⟨2, 3, false⟩]
  | .int => [⟨1, 1, true⟩]

def tempSpecial : PropKind → Nat := fun _ => 1

theorem tempSpec_ok : SpecialOnce tempSpec tempSpecial := by
  refine ⟨by decide, fun k => ?_⟩
  cases k
  · exact ⟨⟨_, List.mem_cons_self, rfl⟩, by decide⟩
  · exact ⟨⟨_, List.mem_cons_self, rfl⟩, by decide⟩

end Ex

/-- Two temporary groups are used and one is given back. The velocity of the source gets another
number of components and a property is removed from it and another one added, while the temporary
groups have other properties and particles. -/
example : ((TGroup.construct 2 Ex.tempSpec).bind fun g =>
    (tempCalls (TempWorld.start g) [.get, .get, .srcRemove .real 2, .srcAdd .real 2 2,
      .srcAdd .int 5 1, .tmpAdd 0 .real 7 1, .tmpFill 0 [3, 4], .tmpRemove 0 .real 2, .restore 0]).bind
    fun x => x.2.get.bind fun y => (y.2.temps y.1).map fun t =>
      (heldAfter [] x.1, y.1, (t.dats .real, t.dats .int))) =
    some ([1], 0, [⟨⟨1, 2, true⟩, [0, 0]⟩, ⟨⟨2, 2, false⟩, [0, 0]⟩],
      [⟨⟨0, 2, false⟩, [0, 0]⟩, ⟨⟨1, 1, true⟩, [0, 0]⟩, ⟨⟨5, 1, false⟩, [0, 0]⟩]) := by
  decide +kernel

/-- **C80, limits of the property** The properties for positions and cells must stay the same. If
the source gets another property for positions with `add_particle_dat(dat)`, then a temporary group
that already existed keeps the old one for its positions, and `get` fails if the source then removes
the old property. -/
theorem C80_second_positions :
    (((TGroup.construct 1 Ex.tempSpec).bind fun g =>
      (tempCalls (TempWorld.start g) [.get, .restore 0]).bind fun x =>
      (x.2.source.add .real ⟨3, 2, true⟩).bind fun g =>
      ({ x.2 with source := g } : TempWorld).get.bind fun y => (y.2.temps y.1).map fun t =>
        (g.special .real, t.special .real)) = some (some 3, some 1)) ∧
    (((TGroup.construct 1 Ex.tempSpec).bind fun g =>
      (tempCalls (TempWorld.start g) [.get, .restore 0]).bind fun x =>
      (x.2.source.add .real ⟨3, 2, true⟩).bind fun g => (g.remove .real 1).map fun g =>
        (({ x.2 with source := g } : TempWorld).get.isNone,
          (TempWorld.start g).get.isNone)) = some (true, false)) := by
  constructor <;> decide +kernel

end NP
