import Verif.Group.SpecGet
import Verif.Group.LemmasAddSet
import Verif.Group.LemmasAddGroup
import Verif.Group.LemmasPlan
import Verif.Sub.LemmasSelect

/-! # Lemmas about particle sets and extracting particles -/

set_option autoImplicit false

namespace NP

open Spec

/-! ## Particle sets -/

theorem prop?_sym {ps : PartSet} {s : Nat} {p : PProp} (h : ps.prop? s = some p) :
    p ∈ ps.props ∧ p.sym = s := by
  refine ⟨List.mem_of_find?_eq_some h, ?_⟩
  have := List.find?_some h
  simpa using this

theorem prop?_of_mem {ps : PartSet} (h : (ps.props.map (·.sym)).Nodup) {p : PProp}
    (hp : p ∈ ps.props) : ps.prop? p.sym = some p := by
  cases hf : ps.prop? p.sym with
  | none =>
    unfold PartSet.prop? at hf
    rw [List.find?_eq_none] at hf
    exact absurd (beq_self_eq_true p.sym) (hf p hp)
  | some q =>
    obtain ⟨h1, h2⟩ := prop?_sym hf
    rw [List.inj_on_of_nodup_map h h1 hp h2]

theorem prop?_of_setProps {ps : PartSet} (h : (ps.props.map (·.sym)).Nodup) {s n : Nat}
    (hp : (s, n) ∈ setProps ps) : ∃ p, ps.prop? s = some p ∧ p ∈ ps.props ∧ p.ncomp = n := by
  unfold setProps at hp
  obtain ⟨p, h1, h2⟩ := List.mem_map.1 hp
  simp only [Prod.mk.injEq] at h2
  obtain ⟨rfl, rfl⟩ := h2
  exact ⟨p, prop?_of_mem h h1, h1, rfl⟩

theorem put_prop? (ps : PartSet) (s : Nat) (v : List Int) (s' : Nat) :
    (ps.put s v).prop? s' =
      if s' = s then (ps.prop? s).map (fun p => { p with vals := v }) else ps.prop? s' := by
  unfold PartSet.put PartSet.prop?
  dsimp only
  induction ps.props with
  | nil => simp
  | cons p props ih =>
    rw [List.map_cons, List.find?_cons, List.find?_cons, List.find?_cons]
    by_cases h : p.sym = s
    · simp only [h, if_true]
      by_cases h2 : s' = s
      · subst h2; simp [h]
      · have h3 : (s == s') = false := by simpa using fun h => h2 h.symm
        rw [h3, ih, if_neg h2, if_neg h2]
    · simp only [h, if_false]
      by_cases h2 : p.sym = s'
      · subst h2; simp [h]
      · have h3 : (p.sym == s') = false := by simpa using h2
        have h4 : (p.sym == s) = false := by simpa using h
        rw [h3, h4, ih]

theorem put_setProps (ps : PartSet) (s : Nat) (v : List Int) :
    setProps (ps.put s v) = setProps ps := by
  unfold setProps PartSet.put
  rw [List.map_map]
  apply List.map_congr_left
  intro p _
  dsimp only [Function.comp_apply]
  split <;> rfl

theorem syms_eq (ps : PartSet) : ps.props.map (·.sym) = (setProps ps).map (·.1) := by
  unfold setProps
  rw [List.map_map]; rfl

theorem put_shape {ps : PartSet} (h : SetShape ps) {s : Nat} {p : PProp} (hp : ps.prop? s = some p)
    {v : List Int} (hv : v.length = p.vals.length) : SetShape (ps.put s v) := by
  refine ⟨?_, ?_⟩
  · rw [syms_eq, put_setProps, ← syms_eq]; exact h.nodup
  · intro q hq
    unfold PartSet.put at hq ⊢
    obtain ⟨r, h1, h2⟩ := List.mem_map.1 hq
    obtain ⟨h3, h4⟩ := prop?_sym hp
    split at h2
    · rename_i hs
      subst h2
      have := List.inj_on_of_nodup_map h.nodup h1 h3 (hs.trans h4.symm)
      subst this
      exact hv.trans (h.len r h1)
    · subst h2; exact h.len _ h1

theorem index_nat (n : Nat) : index (n : Int) = some n := by
  unfold index; rw [if_pos (by omega)]; simp

theorem at_eq {ps : PartSet} {s : Nat} {p : PProp} (hp : ps.prop? s = some p) (i j : Nat) :
    ps.at s i j = p.vals[j * ps.npart + i]? := by
  unfold PartSet.at
  rw [hp, Option.bind_some, show ((j : Int) * ps.npart + i) = ((j * ps.npart + i : Nat) : Int) by
    push_cast; rfl, index_nat]
  rfl

theorem newPartSet_setProps (n : Nat) (spec : List (Nat × Nat)) :
    setProps (newPartSet n spec) = spec := by
  unfold setProps newPartSet
  rw [List.map_map]
  exact List.map_id spec

theorem newPartSet_shape {n : Nat} {spec : List (Nat × Nat)} (h : (spec.map (·.1)).Nodup) :
    SetShape (newPartSet n spec) := by
  refine ⟨?_, ?_⟩
  · rw [syms_eq, newPartSet_setProps]; exact h
  · intro p hp
    unfold newPartSet at hp ⊢
    obtain ⟨x, -, rfl⟩ := List.mem_map.1 hp
    simp

/-- Entry of particle `i` and component `j` of a column major array. -/
theorem colMajor_lt {n m i j : Nat} (hi : i < n) (hj : j < m) : j * n + i < n * m := by
  have : (j + 1) * n ≤ m * n := Nat.mul_le_mul_right n hj
  rw [Nat.succ_mul, Nat.mul_comm m n] at this
  omega

theorem colMajor_inj {n i i' j j' : Nat} (hi : i < n) (hi' : i' < n)
    (h : j * n + i = j' * n + i') : j = j' ∧ i = i' := by
  have h1 : (j * n + i) / n = j := by
    rw [Nat.mul_comm, Nat.mul_add_div (by omega), Nat.div_eq_of_lt hi, Nat.add_zero]
  have h2 : (j' * n + i') / n = j' := by
    rw [Nat.mul_comm, Nat.mul_add_div (by omega), Nat.div_eq_of_lt hi', Nat.add_zero]
  have : j = j' := by rw [← h1, ← h2, h]
  subst this
  exact ⟨rfl, by omega⟩

/-! ## Exclusive sum of the numbers of components -/

theorem pmapExscan_spec (dats : List Dat) :
    (pmapExscan dats).2 = (dats.map (·.ncomp)).sum ∧
    (pmapExscan dats).1.length = dats.length ∧
    ∀ i, i < dats.length → (pmapExscan dats).1[i]? = some (before (dats.map (·.ncomp)) i) := by
  unfold pmapExscan
  induction dats using List.reverseRecOn with
  | nil => simp
  | append_singleton ds d ih =>
    obtain ⟨h1, h2, h3⟩ := ih
    rw [List.foldl_append]
    simp only [List.foldl_cons, List.foldl_nil, List.map_append, List.map_cons, List.map_nil,
      List.sum_append, List.sum_cons, List.sum_nil, List.length_append, List.length_cons,
      List.length_nil]
    refine ⟨by rw [h1]; omega, by omega, ?_⟩
    intro i hi
    by_cases hlt : i < ds.length
    · rw [List.getElem?_append_left (by omega), h3 i hlt]
      unfold before
      rw [List.take_append_of_le_length (by simp; omega)]
    · have : i = ds.length := by omega
      subst this
      rw [List.getElem?_append_right (by omega), h2]
      simp only [Nat.sub_self, List.getElem?_cons_zero, h1]
      unfold before
      rw [List.take_append_of_le_length (by simp), List.take_of_length_le (by simp)]

/-! ## Gathering -/

theorem mem_datItems {ndat n : Nat} {it : Nat × Nat} :
    it ∈ datItems ndat n ↔ it.1 < ndat ∧ it.2 < n := by
  unfold datItems
  simp only [List.mem_flatMap, List.mem_range, List.mem_map]
  constructor
  · rintro ⟨d, hd, i, hi, rfl⟩; exact ⟨hd, hi⟩
  · rintro ⟨h1, h2⟩; exact ⟨it.1, h1, it.2, h2, rfl⟩

/-- The staging buffer holds the value of component `j` of dat `d` of particle `i` at
`(before d + j) * n + i`. -/
theorem gatherDats_spec (s : Sched) (fresh : Fresh Int) {dats : List Dat} {n : Nat}
    {cells layers : List Int} {m : Mem} {sel : List (Nat × Nat)} (hn : sel.length = n)
    (hc : ∀ (i c k : Nat), sel[i]? = some (c, k) →
      cells[i]? = some (c : Int) ∧ layers[i]? = some (k : Int))
    (hm : ∀ d ∈ dats, ∀ (j : Nat), j < d.ncomp → ∀ (i c k : Nat), sel[i]? = some (c, k) →
      (m ⟨d.sym, c, j, k⟩).isSome = true) :
    ∃ buf, gatherDats s fresh dats n cells layers m = some buf ∧
      buf.length = n * (dats.map (·.ncomp)).sum ∧
      ∀ (dx : Nat) (d : Dat) (j i c k : Nat), dats[dx]? = some d → j < d.ncomp →
        sel[i]? = some (c, k) →
        buf[(before (dats.map (·.ncomp)) dx + j) * n + i]? = m ⟨d.sym, c, j, k⟩ := by
  obtain ⟨e1, e2, e3⟩ := pmapExscan_spec dats
  set B := before (dats.map (·.ncomp)) with hB
  -- work items by dat, particle and component
  set comps : Nat × Nat → List ((Nat × Nat) × Nat) := fun it =>
    (List.range ((dats[it.1]?).elim 0 Dat.ncomp)).map fun j => (it, j) with hcomps
  set val : (Nat × Nat) × Nat → Int := fun x =>
    ((dats[x.1.1]?).bind fun d => (sel[x.1.2]?).bind fun p =>
      m ⟨d.sym, p.1, x.2, p.2⟩).getD 0 with hval
  set dst : (Nat × Nat) × Nat → Option Nat := fun x => some ((B x.1.1 + x.2) * n + x.1.2) with hdst
  have hitem : ∀ x ∈ (s.order (datItems dats.length n)).flatMap comps,
      ∃ d, dats[x.1.1]? = some d ∧ x.2 < d.ncomp ∧ x.1.2 < n := by
    intro x hx
    obtain ⟨it, h1, h2⟩ := List.mem_flatMap.1 hx
    rw [(s.perm _).mem_iff, mem_datItems] at h1
    simp only [hcomps, List.mem_map, List.mem_range] at h2
    obtain ⟨j, h3, rfl⟩ := h2
    rw [List.getElem?_eq_getElem h1.1] at h3
    exact ⟨_, List.getElem?_eq_getElem h1.1, h3, h1.2⟩
  have hpart : ∀ (dx : Nat) (d : Dat) (j : Nat), dats[dx]? = some d → j < d.ncomp →
      IsParticle (dats.map (·.ncomp)) dx j := by
    intro dx d j h1 h2
    exact ⟨d.ncomp, by rw [List.getElem?_map, h1]; rfl, h2⟩
  have hlt : ∀ (dx : Nat) (d : Dat) (j i : Nat), dats[dx]? = some d → j < d.ncomp → i < n →
      (B dx + j) * n + i < n * (dats.map (·.ncomp)).sum := by
    intro dx d j i h1 h2 h3
    apply colMajor_lt h3
    have h4 := before_le (hpart dx d j h1 h2) (d := dats.length) (List.getElem?_eq_some_iff.1 h1).1
    have h5 := before_all (npart := dats.map (·.ncomp))
    rw [List.length_map] at h5
    simp only [hB]
    omega
  have hstep : ∀ it ∈ s.order (datItems dats.length n), ∀ buf : List Int,
      gatherStep dats (pmapExscan dats).1 n cells layers m it buf =
        runItems (putStep dst val) (comps it) buf := by
    intro it hit buf
    rw [(s.perm _).mem_iff, mem_datItems] at hit
    obtain ⟨⟨c, k⟩, hp⟩ : ∃ p, sel[it.2]? = some p :=
      ⟨_, List.getElem?_eq_getElem (by rw [hn]; exact hit.2)⟩
    obtain ⟨h1, h2⟩ := hc it.2 c k hp
    have hd : dats[it.1]? = some dats[it.1] := List.getElem?_eq_getElem hit.1
    unfold gatherStep
    simp only [rd, h1, h2, Option.bind_some, index_nat, hd, e3 it.1 hit.1]
    unfold forLoop
    rw [Nat.sub_zero, ← List.range_eq_range']
    have : comps it = (List.range dats[it.1].ncomp).map fun j => (it, j) := by
      simp only [hcomps, hd, Option.elim_some]
    rw [this]
    generalize hr : List.range dats[it.1].ncomp = r
    have hr' : ∀ j ∈ r, j < dats[it.1].ncomp := by
      intro j hj; rw [← hr] at hj; exact List.mem_range.1 hj
    clear hr
    induction r generalizing buf with
    | nil => rfl
    | cons j r ih =>
      rw [List.map_cons, runItems_cons, runItems_cons]
      have hj := hr' j List.mem_cons_self
      obtain ⟨v, hv⟩ := Option.isSome_iff_exists.1
        (hm _ (List.mem_of_getElem? hd) j hj it.2 c k hp)
      have h4 : val (it, j) = v := by simp only [hval, hd, hp, Option.bind_some, hv]; rfl
      rw [hv, Option.bind_some]
      have h5 : B it.1 * n + j * n + it.2 = (B it.1 + j) * n + it.2 := by
        rw [Nat.add_mul]
      rw [h5]
      unfold putStep
      simp only [hdst, h4]
      congr 1
      funext b
      exact ih b (fun j' hj' => hr' j' (List.mem_cons_of_mem _ hj'))
  have hf0 : (fresh (n * (pmapExscan dats).2)).1.length = n * (dats.map (·.ncomp)).sum := by
    rw [(fresh _).2, e1]
  obtain ⟨buf, r1, r2, r3, -⟩ := runItems_putStep
    (items := (s.order (datItems dats.length n)).flatMap comps)
    (m := (fresh (n * (pmapExscan dats).2)).1) dst val
    (by
      intro x hx y hy d h1 h2
      obtain ⟨dx, a1, a2, a3⟩ := hitem x hx
      obtain ⟨dy, b1, b2, b3⟩ := hitem y hy
      simp only [hdst, Option.some.injEq] at h1 h2
      obtain ⟨h3, h4⟩ := colMajor_inj a3 b3 (h1.trans h2.symm)
      obtain ⟨h5, h6⟩ := before_inj (hpart _ _ _ a1 a2) (hpart _ _ _ b1 b2) h3
      have : x = y := by
        obtain ⟨⟨x1, x2⟩, x3⟩ := x
        obtain ⟨⟨y1, y2⟩, y3⟩ := y
        simp only at h4 h5 h6
        rw [h4, h5, h6]
      rw [this])
    (by
      intro x hx d h1
      obtain ⟨dx, a1, a2, a3⟩ := hitem x hx
      simp only [hdst, Option.some.injEq] at h1
      rw [hf0, ← h1]
      exact hlt _ _ _ _ a1 a2 a3)
  refine ⟨buf, ?_, by rw [r2, hf0], ?_⟩
  · unfold gatherDats
    rw [runItems_congr (fun it hit b => hstep it hit b), runItems_flatMap, r1]
  · intro dx d j i c k h1 h2 h3
    have hi : i < n := by rw [← hn]; exact (List.getElem?_eq_some_iff.1 h3).1
    have hx : ((dx, i), j) ∈ (s.order (datItems dats.length n)).flatMap comps := by
      refine List.mem_flatMap.2 ⟨(dx, i), ?_, ?_⟩
      · rw [(s.perm _).mem_iff, mem_datItems]
        exact ⟨(List.getElem?_eq_some_iff.1 h1).1, hi⟩
      · simp only [hcomps, List.mem_map, List.mem_range, h1, Option.elim_some]
        exact ⟨j, h2, rfl⟩
    rw [r3 _ hx _ rfl]
    obtain ⟨v, hv⟩ := Option.isSome_iff_exists.1 (hm d (List.mem_of_getElem? h1) j h2 i c k h3)
    simp only [hval, h1, h3, Option.bind_some, hv]
    rfl

/-! ## Copying into the set -/

theorem copyOut_spec {dats : List Dat} (hnd : (dats.map (·.sym)).Nodup) {n : Nat} {buf : List Int}
    (hbuf : buf.length = n * (dats.map (·.ncomp)).sum) {ps : PartSet} (hs : SetShape ps)
    (hn : ps.npart = n) (hp : ∀ d ∈ dats, (d.sym, d.ncomp) ∈ setProps ps) :
    ∃ ps', copyOut dats n buf ps = some ps' ∧ SetShape ps' ∧ ps'.npart = n ∧
      setProps ps' = setProps ps ∧
      (∀ (dx : Nat) (d : Dat), dats[dx]? = some d → ∃ p, ps'.prop? d.sym = some p ∧
        ∀ x, x < n * d.ncomp → p.vals[x]? = buf[before (dats.map (·.ncomp)) dx * n + x]?) ∧
      (∀ s, s ∉ dats.map (·.sym) → ps'.prop? s = ps.prop? s) := by
  obtain ⟨-, -, e3⟩ := pmapExscan_spec dats
  unfold copyOut
  obtain ⟨ps', h1, h2, h3, h4, h5, h6⟩ := forLoop_invariant (a := 0) (b := dats.length) (s := ps)
    (step := fun dx ps =>
      (rd dats dx).bind fun d => (rd (pmapExscan dats).1 dx).bind fun o =>
      (slice buf (o * n) (o * n + n * d.ncomp)).bind fun src =>
      (ps.prop? d.sym).bind fun p =>
      (stRange p.vals 0 src).bind fun v => some (ps.put d.sym v))
    (P := fun i ps' => SetShape ps' ∧ ps'.npart = n ∧ setProps ps' = setProps ps ∧
      (∀ (dx : Nat) (d : Dat), dx < i → dats[dx]? = some d → ∃ p, ps'.prop? d.sym = some p ∧
        ∀ x, x < n * d.ncomp → p.vals[x]? = buf[before (dats.map (·.ncomp)) dx * n + x]?) ∧
      (∀ s, s ∉ dats.map (·.sym) → ps'.prop? s = ps.prop? s)) (by omega)
    (by
      rintro i q - hi ⟨k1, k2, k3, k4, k5⟩
      have hd : dats[i]? = some dats[i] := List.getElem?_eq_getElem hi
      set d := dats[i] with hdd
      obtain ⟨p, p1, p2, p3⟩ := prop?_of_setProps k1.nodup
        (by rw [k3]; exact hp d (List.mem_of_getElem? hd))
      set B := before (dats.map (·.ncomp)) i with hB
      have hlen : B * n + n * d.ncomp ≤ buf.length := by
        have h1 : B + d.ncomp ≤ (dats.map (·.ncomp)).sum := by
          have h2 := before_succ (npart := dats.map (·.ncomp)) (c := i) (n := d.ncomp)
            (by rw [List.getElem?_map, hd]; rfl)
          have h3 := before_mono (npart := dats.map (·.ncomp)) (c := i + 1) (d := dats.length) (by omega)
          have h4 := before_all (npart := dats.map (·.ncomp))
          rw [List.length_map] at h4
          omega
        rw [hbuf, Nat.mul_comm B n, ← Nat.mul_add]
        exact Nat.mul_le_mul_left n h1
      have hsl := slice_eq_some (m := buf) (a := B * n) (b := B * n + n * d.ncomp) (by omega) hlen
      set src := (buf.drop (B * n)).take (B * n + n * d.ncomp - B * n) with hsrc
      have hsrcl : src.length = n * d.ncomp := by
        have := (length_of_slice hsl).1; omega
      have hvl : p.vals.length = n * d.ncomp := by rw [k1.len p p2, k2, p3]
      have hst := stRange_eq_some (m := p.vals) (vs := src) (a := 0) (by omega)
      set v := p.vals.take 0 ++ src ++ p.vals.drop (0 + src.length) with hv
      have hvv : v = src := by
        simp only [hv, List.take_zero, List.nil_append, Nat.zero_add]
        rw [List.drop_of_length_le (by omega), List.append_nil]
      refine ⟨q.put d.sym v, ?_, put_shape k1 p1 (by rw [hvv]; omega), k2, ?_, ?_, ?_⟩
      · simp only [rd, hd, Option.bind_some, e3 i hi, ← hB, hsl, p1, hst]
      · rw [put_setProps, k3]
      · intro dx d' hdx hd'
        rw [put_prop?]
        by_cases hx : dx = i
        · subst hx
          rw [hd] at hd'
          simp only [Option.some.injEq] at hd'
          rw [← hd', if_pos rfl, p1]
          refine ⟨_, rfl, ?_⟩
          intro x hx
          dsimp only
          rw [hvv]
          exact getElem?_of_slice hsl x (by omega)
        · have hne : d'.sym ≠ d.sym := by
            intro he
            apply hx
            have h5 : (dats.map (·.sym))[dx]? = some d.sym := by
              rw [List.getElem?_map, hd', Option.map_some, he]
            have h6 : (dats.map (·.sym))[i]? = some d.sym := by
              rw [List.getElem?_map, hd, Option.map_some]
            have hlt : dx < (dats.map (·.sym)).length := (List.getElem?_eq_some_iff.1 h5).1
            exact (List.getElem?_inj hlt hnd).1 (h5.trans h6.symm)
          rw [if_neg hne]
          exact k4 dx d' (by omega) hd'
      · intro s hs'
        rw [put_prop?, if_neg, k5 s hs']
        rintro rfl
        exact hs' (List.mem_map.2 ⟨d, List.mem_of_getElem? hd, rfl⟩))
    ⟨hs, hn, rfl, fun _ _ h => by omega, fun _ _ => rfl⟩
  exact ⟨ps', h1, h2, h3, h4, fun dx d hd => h5 dx d (List.getElem?_eq_some_iff.1 hd).1 hd, h6⟩

end NP
