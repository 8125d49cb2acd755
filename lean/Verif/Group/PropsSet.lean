import Verif.Group.PropsGet
import Verif.Sub.Props

/-!
# Property C74, continued: particle sets, copying particles between groups, removing sub groups
-/

set_option autoImplicit false

namespace NP

open Spec

/-! ## `ParticleSet` -/

/-- **C74** A new set has the properties of its specification, with the value zero for every
particle and component. -/
theorem C74_new_set {npart : Nat} {spec : List (Nat × Nat)} (h : (spec.map (·.1)).Nodup) :
    SetShape (newPartSet npart spec) ∧ (newPartSet npart spec).npart = npart ∧
      setProps (newPartSet npart spec) = spec ∧
      ∀ (s n : Nat), (s, n) ∈ spec → ∀ (i j : Nat), i < npart → j < n →
        (newPartSet npart spec).at s i j = some 0 := by
  have hs : SetShape (newPartSet npart spec) := newPartSet_shape h
  refine ⟨hs, rfl, newPartSet_setProps _ _, ?_⟩
  intro s n hsn i j hi hj
  obtain ⟨p, h1, h2, rfl⟩ := prop?_of_setProps hs.nodup (s := s) (n := n)
    (by rw [newPartSet_setProps]; exact hsn)
  rw [at_eq h1]
  obtain ⟨x, -, rfl⟩ := List.mem_map.1 h2
  exact List.getElem?_replicate_of_lt (colMajor_lt hi hj)

theorem setAt_spec {ps : PartSet} (hs : SetShape ps) {s n : Nat} (hsn : (s, n) ∈ setProps ps)
    {p : PProp} (hp : ps.prop? s = some p) {v : List Int} (hv : v.length = p.vals.length)
    (w : Nat → Nat → Option Int)
    (hw : ∀ i j, i < ps.npart → j < n → v[j * ps.npart + i]? = w i j) :
    SetShape (ps.put s v) ∧ (ps.put s v).npart = ps.npart ∧
      setProps (ps.put s v) = setProps ps ∧
      ∀ (s' n' : Nat), (s', n') ∈ setProps ps → ∀ (i j : Nat), i < ps.npart → j < n' →
        (ps.put s v).at s' i j = if s' = s then w i j else ps.at s' i j := by
  refine ⟨put_shape hs hp hv, rfl, put_setProps _ _ _, ?_⟩
  intro s' n' hsn' i j hi hj
  have hq := put_prop? ps s v s'
  by_cases e : s' = s
  · subst e
    rw [if_pos rfl, hp, Option.map_some] at hq
    rw [if_pos rfl, at_eq hq]
    obtain ⟨q, h1, -, h2⟩ := prop?_of_setProps hs.nodup hsn
    obtain ⟨q', h3, -, h4⟩ := prop?_of_setProps hs.nodup hsn'
    have : n' = n := by
      rw [h1, Option.some.injEq] at h3
      rw [← h4, ← h2, h3]
    exact hw i j hi (by omega)
  · rw [if_neg e] at hq ⊢
    obtain ⟨q, h1, -⟩ := prop?_of_setProps hs.nodup hsn'
    rw [at_eq (hq.trans h1), at_eq h1]
    rfl

/-- **C74** `set(sym, component, values)` is accepted exactly for a component of a property of the
set and one value for each particle, and then replaces the values of this component and nothing
else. -/
theorem C74_set_component {ps : PartSet} (hs : SetShape ps) (s : Nat) (comp : Int)
    (values : List Int) :
    ((ps.setComp s comp values).isSome = true ↔
      (∃ n, (s, n) ∈ setProps ps ∧ 0 ≤ comp ∧ comp < n) ∧ values.length = ps.npart) ∧
    ∀ ps', ps.setComp s comp values = some ps' →
      SetShape ps' ∧ ps'.npart = ps.npart ∧ setProps ps' = setProps ps ∧
      ∀ (s' n' : Nat), (s', n') ∈ setProps ps → ∀ (i j : Nat), i < ps.npart → j < n' →
        ps'.at s' i j = if s' = s ∧ (j : Int) = comp then values[i]? else ps.at s' i j := by
  by_cases hacc : (∃ n, (s, n) ∈ setProps ps ∧ 0 ≤ comp ∧ comp < n) ∧ values.length = ps.npart
  · obtain ⟨⟨n, hsn, h0, hn⟩, hl⟩ := hacc
    obtain ⟨p, h1, h2, h3⟩ := prop?_of_setProps hs.nodup hsn
    obtain ⟨c, rfl⟩ := Int.eq_ofNat_of_zero_le h0
    have hc : c < n := by exact_mod_cast hn
    have hlen : p.vals.length = ps.npart * n := by rw [hs.len p h2, h3]
    have hfit : c * ps.npart + values.length ≤ p.vals.length := by
      rw [hlen, hl, Nat.mul_comm ps.npart]
      calc c * ps.npart + ps.npart = (c + 1) * ps.npart := by ring
        _ ≤ n * ps.npart := Nat.mul_le_mul_right _ hc
    have hst : ∃ v, stRange p.vals (c * ps.npart) values = some v := by
      cases h : stRange p.vals (c * ps.npart) values with
      | none =>
        unfold stRange at h
        split at h
        · simp at h
        · omega
      | some v => exact ⟨v, rfl⟩
    obtain ⟨v, hst⟩ := hst
    have hval : ps.setComp s c values = some (ps.put s v) := by
      unfold PartSet.setComp
      rw [h1, Option.bind_some, if_pos ⟨hl, h0, by rw [h3]; exact hn⟩, Int.toNat_natCast, hst]
      rfl
    rw [hval]
    refine ⟨⟨fun _ => ⟨⟨n, hsn, h0, hn⟩, hl⟩, fun _ => rfl⟩, ?_⟩
    rintro ps' e
    obtain rfl := Option.some.inj e
    obtain ⟨a1, a2, a3, a4⟩ := setAt_spec hs hsn h1 (length_of_stRange hst).1
      (fun i j => if j = c then values[i]? else ps.at s i j) (by
        intro i j hi hj
        rw [getElem?_of_stRange hst]
        by_cases e : j = c
        · subst e
          rw [if_pos ⟨by omega, by omega⟩, if_pos rfl]
          congr 1; omega
        · rw [if_neg e, if_neg, at_eq h1]
          rintro ⟨h4, h5⟩
          apply e
          have := colMajor_inj (j := j) (j' := c) (i' := j * ps.npart + i - c * ps.npart) hi (by omega)
            (by omega)
          exact this.1)
    refine ⟨a1, a2, a3, ?_⟩
    intro s' n' hsn' i j hi hj
    rw [a4 s' n' hsn' i j hi hj]
    by_cases e1 : s' = s
    · subst e1
      by_cases e2 : j = c
      · subst e2; simp
      · rw [if_pos rfl, if_neg e2, if_neg (by intro h; exact e2 (by exact_mod_cast h.2))]
    · rw [if_neg e1, if_neg (by intro h; exact e1 h.1)]
  · have hn : ps.setComp s comp values = none := by
      unfold PartSet.setComp
      cases hp : ps.prop? s with
      | none => rfl
      | some p =>
        rw [Option.bind_some, if_neg]
        rintro ⟨h1, h2, h3⟩
        obtain ⟨h4, h5⟩ := prop?_sym hp
        exact hacc ⟨⟨p.ncomp, List.mem_map.2 ⟨p, h4, by rw [h5]⟩, h2, h3⟩, h1⟩
    rw [hn]
    exact ⟨⟨fun h => by simp at h, fun h => absurd h hacc⟩, fun ps' h => by simp at h⟩

/-- **C74** Assignment through `at` changes the value of one component of one particle and nothing
else. -/
theorem C74_set_element {ps : PartSet} (hs : SetShape ps) {s n : Nat} (hsn : (s, n) ∈ setProps ps)
    {i j : Nat} (hi : i < ps.npart) (hj : j < n) (x : Int) :
    ∃ ps', ps.setAt s i j x = some ps' ∧ SetShape ps' ∧ ps'.npart = ps.npart ∧
      setProps ps' = setProps ps ∧
      ∀ (s' n' : Nat), (s', n') ∈ setProps ps → ∀ (i' j' : Nat), i' < ps.npart → j' < n' →
        ps'.at s' i' j' = if s' = s ∧ i' = i ∧ j' = j then some x else ps.at s' i' j' := by
  obtain ⟨p, h1, h2, h3⟩ := prop?_of_setProps hs.nodup hsn
  have hlen : p.vals.length = ps.npart * n := by rw [hs.len p h2, h3]
  have hlt : j * ps.npart + i < p.vals.length := by rw [hlen]; exact colMajor_lt hi hj
  refine ⟨ps.put s (p.vals.set (j * ps.npart + i) x), ?_, ?_⟩
  · unfold PartSet.setAt
    rw [h1, Option.bind_some, show ((j : Int) * ps.npart + i) = ((j * ps.npart + i : Nat) : Int) by
      push_cast; rfl, index_nat, Option.bind_some]
    simp only [st, if_pos hlt, Option.bind_some]
  · obtain ⟨a1, a2, a3, a4⟩ := setAt_spec hs hsn h1 (v := p.vals.set (j * ps.npart + i) x)
      (by simp) (fun i' j' => if i' = i ∧ j' = j then some x else ps.at s i' j') (by
        intro i' j' hi' hj'
        rw [List.getElem?_set]
        by_cases e : i' = i ∧ j' = j
        · obtain ⟨rfl, rfl⟩ := e
          rw [if_pos rfl, if_pos hlt, if_pos ⟨rfl, rfl⟩]
        · rw [if_neg e, if_neg, at_eq h1]
          intro h
          obtain ⟨e1, e2⟩ := colMajor_inj hi hi' h
          exact e ⟨e2.symm, e1.symm⟩)
    refine ⟨a1, a2, a3, ?_⟩
    intro s' n' hsn' i' j' hi' hj'
    rw [a4 s' n' hsn' i' j' hi' hj']
    by_cases e : s' = s
    · subst e; simp
    · rw [if_neg e, if_neg (by intro h; exact e h.1)]

/-- `at` checks the position in the vector of values only: particle `i + npart` of a component is
particle `i` of the next component. -/
theorem C74_at_unchecked (ps : PartSet) (s : Nat) (i j : Int) :
    ps.at s (i + ps.npart) j = ps.at s i (j + 1) := by
  unfold PartSet.at
  congr 1
  funext p
  congr 2
  ring

/-- The values that `set` copies. -/
def mergedProp (other : PartSet) (p : PProp) : PProp :=
  match other.prop? p.sym with
  | none => p
  | some q => { p with vals := q.vals }

theorem mergedProp_sym (other : PartSet) (p : PProp) :
    (mergedProp other p).sym = p.sym ∧ (mergedProp other p).ncomp = p.ncomp := by
  unfold mergedProp
  split <;> exact ⟨rfl, rfl⟩

theorem mergeProp_spec {n : Nat} {other : PartSet} (ho : SetShape other) (hn : other.npart = n)
    {p : PProp} (hp : p.vals.length = n * p.ncomp)
    (hc : ∀ q, other.prop? p.sym = some q → q.ncomp = p.ncomp) :
    mergeProp n other p = some (mergedProp other p) := by
  unfold mergeProp mergedProp
  cases h : other.prop? p.sym with
  | none => rfl
  | some q =>
    have hq := ho.len q (prop?_sym h).1
    have hl : q.vals.length = n * q.ncomp := by rw [hq, hn]
    dsimp only
    rw [if_pos (hc q h), slice_eq_some (Nat.zero_le _) (by omega), Option.bind_some]
    have ht : (q.vals.drop 0).take (n * q.ncomp - 0) = q.vals := by
      rw [List.drop_zero, Nat.sub_zero, List.take_of_length_le (by omega)]
    have hpq : p.vals.length = q.vals.length := by rw [hp, hl, hc q h]
    rw [ht, stRange_eq_some (by omega), Option.bind_some, List.take_zero, List.nil_append,
      List.drop_eq_nil_of_le (by omega), List.append_nil]

/-- **C74** `set(other)` is accepted exactly if the other set has the same number of particles and
the properties that both sets contain have the same number of components; it copies the values of
these properties and changes nothing else. -/
theorem C74_set_from {ps other : PartSet} (hs : SetShape ps) (ho : SetShape other) :
    ((ps.setFrom other).isSome = true ↔ other.npart = ps.npart ∧
      ∀ (s n m : Nat), (s, n) ∈ setProps ps → (s, m) ∈ setProps other → n = m) ∧
    ∀ ps', ps.setFrom other = some ps' →
      SetShape ps' ∧ ps'.npart = ps.npart ∧ setProps ps' = setProps ps ∧
      ∀ (s n : Nat), (s, n) ∈ setProps ps → ∀ (i j : Nat), i < ps.npart → j < n →
        ps'.at s i j = if (other.prop? s).isSome then other.at s i j else ps.at s i j := by
  by_cases hacc : other.npart = ps.npart ∧
      ∀ (s n m : Nat), (s, n) ∈ setProps ps → (s, m) ∈ setProps other → n = m
  · obtain ⟨hn, hc⟩ := hacc
    have hm : ps.props.mapM (mergeProp ps.npart other) =
        some (ps.props.map (mergedProp other)) := by
      have : ∀ l : List PProp, (∀ p ∈ l, p ∈ ps.props) →
          l.mapM (mergeProp ps.npart other) = some (l.map (mergedProp other)) := by
        intro l hl
        induction l with
        | nil => rfl
        | cons p l ih =>
          have hp := hl p List.mem_cons_self
          rw [List.mapM_cons, mergeProp_spec ho hn (hs.len p hp), ih
            (fun q hq => hl q (List.mem_cons_of_mem p hq))]
          · rfl
          · intro q hq
            obtain ⟨h1, h2⟩ := prop?_sym hq
            exact (hc p.sym p.ncomp q.ncomp (List.mem_map.2 ⟨p, hp, rfl⟩)
              (List.mem_map.2 ⟨q, h1, by rw [h2]⟩)).symm
      exact this _ (fun _ h => h)
    have hval : ps.setFrom other =
        some { ps with props := ps.props.map (mergedProp other) } := by
      unfold PartSet.setFrom
      rw [if_pos hn, hm]; rfl
    rw [hval]
    refine ⟨⟨fun _ => ⟨hn, hc⟩, fun _ => rfl⟩, ?_⟩
    intro ps' e
    obtain rfl := Option.some.inj e
    have hprops : setProps { ps with props := ps.props.map (mergedProp other) } =
        setProps ps := by
      unfold setProps
      dsimp only
      rw [List.map_map]
      apply List.map_congr_left
      intro p _
      simp only [Function.comp_apply, (mergedProp_sym other p).1, (mergedProp_sym other p).2]
    have hshape : SetShape { ps with props := ps.props.map (mergedProp other) } := by
      refine ⟨by rw [syms_eq, hprops, ← syms_eq]; exact hs.nodup, ?_⟩
      intro p hp
      obtain ⟨q, h1, rfl⟩ := List.mem_map.1 hp
      rw [(mergedProp_sym other q).2]
      unfold mergedProp
      cases h : other.prop? q.sym with
      | none => exact hs.len q h1
      | some r =>
        obtain ⟨h2, h3⟩ := prop?_sym h
        have := hc q.sym q.ncomp r.ncomp (List.mem_map.2 ⟨q, h1, rfl⟩)
          (List.mem_map.2 ⟨r, h2, by rw [h3]⟩)
        dsimp only
        rw [ho.len r h2, hn, this]
    refine ⟨hshape, rfl, hprops, ?_⟩
    intro s n hsn i j hi hj
    obtain ⟨p, h1, h2, h3⟩ := prop?_of_setProps hs.nodup hsn
    obtain ⟨h4, h5⟩ := prop?_sym h1
    have hq : PartSet.prop? { ps with props := ps.props.map (mergedProp other) } s =
        some (mergedProp other p) := by
      have := prop?_of_mem hshape.nodup (p := mergedProp other p) (List.mem_map.2 ⟨p, h2, rfl⟩)
      rwa [(mergedProp_sym other p).1, h5] at this
    rw [at_eq hq, at_eq h1]
    unfold mergedProp
    rw [h5]
    cases h : other.prop? s with
    | none => rfl
    | some r => rw [at_eq h, hn]; rfl
  · have hval : ps.setFrom other = none := by
      unfold PartSet.setFrom
      by_cases hn : other.npart = ps.npart
      · rw [if_pos hn, Option.bind_eq_none_iff]
        intro props hm
        exfalso
        apply hacc
        refine ⟨hn, ?_⟩
        intro s n m h1 h2
        obtain ⟨p, a1, a2, a3⟩ := prop?_of_setProps hs.nodup h1
        obtain ⟨q, b1, b2, b3⟩ := prop?_of_setProps ho.nodup h2
        obtain ⟨r, -, hr⟩ := forall₂_mem_left (mapM_some hm) a2
        unfold mergeProp at hr
        rw [(prop?_sym a1).2, b1] at hr
        dsimp only at hr
        split at hr
        · omega
        · simp at hr
      · rw [if_neg hn]
    rw [hval]
    exact ⟨⟨fun h => by simp at h, fun h => absurd h hacc⟩, fun ps' h => by simp at h⟩

/-! ## Copying particles to another group -/

theorem toPSet_get? (ps : PartSet) (s : Nat) : ps.toPSet.get? s = (ps.prop? s).map (·.vals) := by
  unfold PartSet.toPSet PSet.get? PartSet.prop?
  dsimp only
  induction ps.props with
  | nil => rfl
  | cons p l ih =>
    rw [List.map_cons, List.find?_cons, List.find?_cons]
    by_cases h : p.sym = s
    · simp [h]
    · rw [show (p.sym == s) = false from beq_eq_false_iff_ne.2 h]
      exact ih

/-- **C74** Particles that are read with `get_particles` and added to a group with
`add_particles_local` are copies: each cell of the group then has, after its particles, the
particles that were read from this cell in the order in which they were requested, with zeros for
properties that the first group does not have. -/
theorem C74_round_trip (e e' : Env) (isReal : Nat → Bool) {spec : List (Nat × Nat)} {g g2 : Group}
    (hg : Consistent g) (hspec : spec.Perm (groupProps g)) (hg2 : Consistent g2)
    (hcell : g2.cellSym = g.cellSym) (hcomps : CommonComps g2.dats g.dats)
    {sel : List (Nat × Nat)} (hsel : InGroup g sel) (hsel2 : ∀ p ∈ sel, p.1 < g2.ncell)
    (hids : ∀ p ∈ sel, cellId g p.1 p.2 = some (p.1 : Int)) :
    ∃ ps g2', getParticles e isReal spec g (cellsOf sel) (layersOf sel) = some ps ∧
      addParticleSet e' g2 ps.toPSet = some g2' ∧ Consistent g2' ∧ SameShape g2 g2' ∧
      ∀ c, c < g2.ncell → contents g2' c = contents g2 c ++
        (sel.filter fun p => p.1 == c).map fun p => projected g2 g.mem g.dats p.1 p.2 := by
  obtain ⟨ps, h1, h2⟩ := C74_get_particles e isReal hg hspec hsel
  have hprop : ∀ (s n : Nat), (s, n) ∈ groupProps g → ∃ q, ps.prop? s = some q ∧ q.ncomp = n := by
    intro s n h
    obtain ⟨q, a1, -, a2⟩ := prop?_of_setProps h2.shape.nodup (h2.props.mem_iff.2 h)
    exact ⟨q, a1, a2⟩
  have hmem : ∀ d ∈ g.dats, (d.sym, d.ncomp) ∈ groupProps g := fun d hd =>
    List.mem_map.2 ⟨d, hd, rfl⟩
  -- the cell ids of the set
  obtain ⟨dc, c1, c2, c3⟩ := hg.cell
  obtain ⟨q, q1, q2⟩ := hprop dc.sym dc.ncomp (hmem dc c1)
  have hid : ∀ (i : Nat) (hi : i < sel.length), q.vals[i]? = some (((sel[i]).1 : Nat) : Int) := by
    intro i hi
    obtain ⟨v, v1, v2⟩ := h2.values dc.sym dc.ncomp (hmem dc c1) 0 c3 i sel[i].1 sel[i].2
      (by rw [List.getElem?_eq_getElem hi])
    rw [at_eq q1, Nat.zero_mul, Nat.zero_add] at v1
    have := hids sel[i] (List.getElem_mem hi)
    unfold cellId at this
    rw [← c2] at this
    rw [this, Option.some.injEq] at v2
    rw [v1, v2]
  have hids2 : ps.toPSet.get? g2.cellSym = some q.vals := by
    rw [toPSet_get?, hcell, ← c2, q1]; rfl
  have hnp : ps.toPSet.npart = sel.length := h2.npart
  have hok : SetOk g2 ps.toPSet := by
    refine ⟨?_, q.vals, hids2, ?_⟩
    · intro d hd v hv
      rw [toPSet_get?, Option.map_eq_some_iff] at hv
      obtain ⟨p, p1, rfl⟩ := hv
      obtain ⟨p2, p3⟩ := prop?_sym p1
      have : (p.sym, p.ncomp) ∈ groupProps g :=
        h2.props.mem_iff.1 (List.mem_map.2 ⟨p, p2, rfl⟩)
      obtain ⟨d', d1, d2⟩ := List.mem_map.1 this
      simp only [Prod.mk.injEq] at d2
      rw [h2.shape.len p p2, hcomps d hd d' d1 (by rw [d2.1, p3]), d2.2, Nat.mul_comm]
      rfl
    · intro i hi
      rw [hnp] at hi
      exact ⟨sel[i].1, hsel2 _ (List.getElem_mem hi), hid i hi⟩
  obtain ⟨g2', a1, a2, a3, a4⟩ := C13_add_particle_set e' hg2 (fun _ => hok)
  refine ⟨ps, g2', h1, a1, a2, a3, ?_⟩
  intro c hc
  rw [a4 c hc]
  congr 1
  have hnew : ∀ (i : Nat) (hi : i < sel.length), newParticle g2 ps.toPSet i =
      projected g2 g.mem g.dats sel[i].1 sel[i].2 := by
    intro i hi
    unfold newParticle projected
    apply List.map_congr_left
    intro sj hsj
    obtain ⟨d, d1, d2, d3⟩ := mem_flatComps.1 hsj
    rw [toPSet_get?]
    by_cases hin : sj.1 ∈ g.dats.map (·.sym)
    · rw [if_pos hin]
      obtain ⟨d', e1, e2⟩ := List.mem_map.1 hin
      obtain ⟨p, p1, p2⟩ := hprop d'.sym d'.ncomp (hmem d' e1)
      obtain ⟨v, v1, v2⟩ := h2.values d'.sym d'.ncomp (hmem d' e1) sj.2
        (by rw [← hcomps d d1 d' e1 (by rw [d2, e2])]; exact d3) i sel[i].1 sel[i].2
        (by rw [List.getElem?_eq_getElem hi])
      rw [at_eq p1] at v1
      rw [← e2, p1, Option.map_some, v2, ← v1]
      rfl
    · rw [if_neg hin]
      have : ps.prop? sj.1 = none := by
        cases h : ps.prop? sj.1 with
        | none => rfl
        | some p =>
          exfalso
          obtain ⟨p2, p3⟩ := prop?_sym h
          have := h2.props.mem_iff.1 (List.mem_map.2 ⟨p, p2, rfl⟩)
          obtain ⟨d', e1, e2⟩ := List.mem_map.1 this
          simp only [Prod.mk.injEq] at e2
          exact hin (List.mem_map.2 ⟨d', e1, e2.1.trans p3⟩)
      rw [this]
      rfl
  have hgo : ∀ (i : Nat) (hi : i < sel.length), goesTo g2 ps.toPSet c i = (sel[i].1 == c) := by
    intro i hi
    unfold goesTo
    rw [hids2, Option.bind_some, hid i hi, Bool.eq_iff_iff]
    simp
  rw [hnp]
  have hl : sel = (List.range sel.length).map fun i => sel.getD i (0, 0) := by
    apply List.ext_getElem
    · simp
    · intro i hi hi'
      simp [hi]
  have hgd : ∀ i, i < sel.length → ∃ h : i < sel.length, sel.getD i (0, 0) = sel[i] := by
    intro i hi
    exact ⟨hi, by simp [hi]⟩
  rw [hl, List.filter_map, List.map_map, ← hl]
  rw [List.filter_congr (q := (fun p => p.1 == c) ∘ fun i => sel.getD i (0, 0))]
  · apply List.map_congr_left
    intro i hi
    have hi := List.mem_range.1 (List.mem_filter.1 hi).1
    obtain ⟨hi, e⟩ := hgd i hi
    rw [hnew i hi, Function.comp_apply, e]
  · intro i hi
    have hi := List.mem_range.1 hi
    obtain ⟨hi, e⟩ := hgd i hi
    rw [hgo i hi, Function.comp_apply, e]

/-! ## `ParticleGroup::remove_particles` of a sub group -/

/-- **C74** Removing a sub group (made by any nesting of selectors) removes exactly its particles:
if `rows` lists the rows of cell `c` that are not in the sub group, each once, the particles of
the cell afterwards are those in `rows`, in some order. -/
theorem C74_remove_sub_group {e : Env} (hE : EnvOk e) {g : Group} (hg : Consistent g)
    (hsmall : SmallCounts g) {par : Parent} (hb : Built g.hNpart par)
    (hids : ∀ c k, c < g.ncell → k < count g c → ¬ InParent g.hNpart par c k →
      ∃ v, cellId g c k = some v ∧ 0 ≤ v) :
    ∃ g', removeSubGroup e g par = some g' ∧ Consistent g' ∧ SameShape g g' ∧
      ∀ (c : Nat) (rows : List Nat), c < g.ncell → rows.Nodup →
        (∀ k, k ∈ rows ↔ k < count g c ∧ ¬ InParent g.hNpart par c k) →
        (contents g' c).Perm (rows.map (particle g c)) := by
  cases par with
  | whole =>
    obtain ⟨g', h1, h2, h3, h4⟩ := C18_clear e hg
    refine ⟨g', h1, h2, h3, ?_⟩
    intro c rows hc _ hrows
    have : rows = [] := by
      rw [List.eq_nil_iff_forall_not_mem]
      intro k hk
      obtain ⟨a, b⟩ := (hrows k).1 hk
      refine b ⟨count g c, ?_, a⟩
      unfold count
      rw [List.getD_eq_getElem?_getD, List.getElem?_eq_getElem (by rw [hg.len]; exact hc)]
      rfl
    rw [this, h4 c hc]
    exact List.Perm.refl _
  | sub s =>
    obtain ⟨l, l1, l2, l3, l4⟩ := C21_cells_layers hb
    obtain ⟨L, L1, L2⟩ := built_spec hb
    have hin : InGroup g l := by
      rintro ⟨c, k⟩ hp
      obtain ⟨row, r1, r2⟩ := (inParent_iff L1 c k).1 ((l4 c k).1 hp)
      have hc : c < g.hNpart.length := by rw [← L2.1]; exact lt_of_row r1
      have := (L2.2 c row _ r1 (List.getElem?_eq_getElem hc)).2 k r2
      refine ⟨by rw [← hg.len]; exact hc, ?_⟩
      unfold count
      rw [List.getD_eq_getElem?_getD, List.getElem?_eq_getElem hc]
      exact this
    obtain ⟨g', h1, h2, h3, h4⟩ := C11_remove_keeps_others hE hg hsmall hin
      (fun c k hc hk hn => hids c k hc hk (fun h => hn ((l4 c k).2 h)))
    refine ⟨g', ?_, h2, h3, ?_⟩
    · unfold removeSubGroup
      dsimp only
      rw [l1, Option.bind_some, if_pos l3, ← l3]
      exact h1
    · intro c rows hc hnd hrows
      refine (h4 c hc).trans (List.Perm.map _ ?_)
      refine (List.perm_ext_iff_of_nodup (List.nodup_range.filter _) hnd).2 ?_
      intro k
      rw [List.mem_filter, List.mem_range, hrows k, decide_eq_true_eq, l4 c k]

end NP
