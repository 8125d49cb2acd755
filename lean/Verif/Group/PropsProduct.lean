import Verif.Group.LemmasProduct

/-!
# C19: product matrix entries do not alias
-/

set_option autoImplicit false

namespace NP

open Spec

variable {V : Type}

theorem HalfShape.read {props : List (Nat × Nat)} {h : ProdHalf V} (hs : HalfShape props h)
    {num : Nat} {t : ProdEntry} (ht : t.In props num) :
    h.read num t.product t.property t.component = h.data[prodPos props num t]? := by
  unfold ProdHalf.read
  rw [hs.index ht, Option.bind_some]

/-- **C19.** Whatever happened to a matrix before, resetting it to `num` products and then
writing and adding to existing entries in any sequence does not touch memory outside the
buffer, and every entry then has the value that the accesses to that entry alone give it,
starting from its default value.  An atomic addition returns the value of its entry. -/
theorem C19_entries_independent [Zero V] [Add V] {mem0 : Fresh V} {props : List (Nat × Nat)}
    {calls : List (ProdCall V)} {n : Nat} {h : ProdHalf V}
    (hrun : prodRun mem0 props calls = some (n, h)) (s : Sched) (mem : Fresh V) (num : Nat)
    (as : List (ProdAccess V)) (has : ∀ a ∈ as, a.entry.In props num) :
    ∃ h', (h.reset s mem num).bind (runItems (ProdHalf.access num) as) = some h' ∧
      (∀ t : ProdEntry, t.In props num →
        h'.read num t.product t.property t.component =
          some (entryAfter as t (resetValue h.spec t))) ∧
      ∀ t : ProdEntry, t.In props num → ∀ v,
        (h'.fetchAdd num t.product t.property t.component v).map Prod.fst =
          some (entryAfter as t (resetValue h.spec t)) := by
  have hs := prodRun_shape hrun
  obtain ⟨h1, a1, a2, a3, -, a5⟩ := reset_spec hs s mem num
  rw [a1, Option.bind_some]
  obtain ⟨h', b1, b2, b3, b4, b5⟩ := accesses_spec as h1 _ a2 has a5
  refine ⟨h', b1, fun t ht => by rw [b2.read ht]; exact b5 t ht, fun t ht v => ?_⟩
  unfold ProdHalf.fetchAdd
  rw [b2.index ht, Option.bind_some]
  simp only [rd]
  rw [b5 t ht, Option.bind_some, st_eq_some (List.getElem?_eq_some_iff.1 (b5 t ht)).1]
  rfl

/-- **C19.** The default value of a component is the last one given for it, and zero if none
was given. -/
theorem C19_default_value [Zero V] (p : ProdSpec V) (s c : Nat) (v : V) (s' c' : Nat) :
    (p.setDefault s c v).default s' c' = (if s' = s ∧ c' = c then v else p.default s' c') ∧
      (⟨p.props, []⟩ : ProdSpec V).default s' c' = 0 := by
  refine ⟨?_, rfl⟩
  unfold ProdSpec.setDefault ProdSpec.default
  dsimp only
  by_cases h : s' = s ∧ c' = c
  · rw [if_pos h, List.lookup_cons, h.1, h.2]
    simp
  · rw [if_neg h, List.lookup_cons]
    have : ((s', c') == (s, c)) = false := by
      rw [beq_eq_false_iff_ne]
      intro hc
      exact h ⟨congrArg Prod.fst hc, congrArg Prod.snd hc⟩
    rw [this]

/-- **C19.** `get` returns, for every property in the order of the specification, component
after component the values that the entries have. -/
theorem C19_get [Zero V] [Add V] {mem0 : Fresh V} {props : List (Nat × Nat)}
    {calls : List (ProdCall V)} {n : Nat} {h : ProdHalf V}
    (hrun : prodRun mem0 props calls = some (n, h)) (s : Sched) (mem : Fresh V) (num : Nat)
    (as : List (ProdAccess V)) (has : ∀ a ∈ as, a.entry.In props num) {h' : ProdHalf V}
    (hacc : (h.reset s mem num).bind (runItems (ProdHalf.access num) as) = some h') :
    ∃ r, h'.get num = some r ∧ r.map Prod.fst = props.map Prod.fst ∧
      ∀ t : ProdEntry, ∀ q x, props[t.property]? = some q → r[t.property]? = some x →
        x.2.length = num * q.2 ∧ (t.product < num → t.component < q.2 →
          x.2[t.component * num + t.product]? =
            some (entryAfter as t (resetValue h.spec t))) := by
  have hs := prodRun_shape hrun
  obtain ⟨h1, a1, a2, a3, a4, a5⟩ := reset_spec hs s mem num
  rw [a1, Option.bind_some] at hacc
  obtain ⟨h2, b1, b2, b3, b4, b5⟩ := accesses_spec as h1 _ a2 has a5
  rw [b1] at hacc
  cases hacc
  -- every property
  have key : ∀ sx, sx < props.length → ∃ q l, props[sx]? = some q ∧
      ((rd h'.spec.props sx).bind fun p =>
        if num > 0 then (rd h'.offsets sx).bind fun off =>
          (slice h'.data (off * num) (off * num + num * p.2)).map fun l => (p.1, l)
        else some (p.1, [])) = some (q.1, l) ∧ l.length = num * q.2 ∧
      ∀ i c, i < num → c < q.2 → l[c * num + i]? =
        some (entryAfter as ⟨i, sx, c⟩ (resetValue h.spec ⟨i, sx, c⟩)) := by
    intro sx hsx
    refine ⟨props[sx], ?_⟩
    have hq : props[sx]? = some props[sx] := List.getElem?_eq_getElem hsx
    generalize props[sx] = q at hq
    simp only [rd]
    rw [b2.props, hq, Option.bind_some, b2.offset hq]
    by_cases h0 : num > 0
    · rw [if_pos h0, Option.bind_some]
      have hlen : prodCol props sx 0 * num + num * q.2 ≤ h'.data.length := by
        have hle := sum_take_add_le (ns := props.map Prod.snd) (i := sx)
          (j := (props.map Prod.snd).length) (n := q.2) (by simpa using hsx)
          (by rw [List.getElem?_map, hq]; rfl)
        rw [List.take_length] at hle
        have h4 := a4 h0
        rw [b4]
        refine le_trans ?_ h4
        calc _ = num * (((props.map Prod.snd).take sx).sum + q.2) := by unfold prodCol; ring
          _ ≤ _ := Nat.mul_le_mul_left _ hle
      have hsl := slice_eq_some (m := h'.data) (show prodCol props sx 0 * num ≤
        prodCol props sx 0 * num + num * q.2 by omega) hlen
      rw [hsl]
      refine ⟨_, rfl, rfl, ?_, fun i c hi hc => ?_⟩
      · have := length_of_slice hsl
        omega
      · have hci : c * num + i < num * q.2 := by
          have : (c + 1) * num ≤ q.2 * num := Nat.mul_le_mul_right _ hc
          rw [Nat.add_mul, Nat.mul_comm q.2] at this
          omega
        rw [getElem?_of_slice hsl (c * num + i) (by omega)]
        have := b5 ⟨i, sx, c⟩ ⟨hi, q, hq, hc⟩
        rw [← this]
        congr 1
        unfold prodPos prodCol
        dsimp only
        ring
    · rw [if_neg h0]
      refine ⟨[], rfl, rfl, ?_, fun i c hi => by omega⟩
      rw [show num = 0 by omega, Nat.zero_mul]; rfl
  haveI : Nonempty (Nat × Nat) := ⟨(0, 0)⟩
  haveI : Nonempty (List V) := ⟨[]⟩
  choose! q l k1 k2 k3 k4 using key
  have hget : h'.get num = some ((List.range props.length).map fun sx => ((q sx).1, l sx)) := by
    unfold ProdHalf.get
    rw [b2.props]
    refine mapM_of_forall fun sx hsx => ?_
    have := k2 sx (List.mem_range.1 hsx)
    rw [b2.props] at this
    exact this
  refine ⟨_, hget, ?_, fun t q' x hq' hx => ?_⟩
  · rw [List.map_map]
    apply List.ext_getElem?
    intro sx
    by_cases hsx : sx < props.length
    · rw [List.getElem?_map, List.getElem?_map, List.getElem?_range hsx, k1 sx hsx]; rfl
    · rw [List.getElem?_eq_none (by simpa using hsx), List.getElem?_eq_none (by simpa using hsx)]
  · have hsx := (List.getElem?_eq_some_iff.1 hq').1
    rw [List.getElem?_map, List.getElem?_range hsx, Option.map_some, Option.some.injEq] at hx
    rw [k1 _ hsx] at hq'
    cases hq'
    subst hx
    exact ⟨k3 _ hsx, fun h1 h2 => k4 _ hsx _ _ h1 h2⟩

/-- **C19.** `set` gives the entries of the properties in the set the values in the set, and
leaves the entries of the other properties as they are. -/
theorem C19_set [Zero V] [Add V] {mem0 : Fresh V} {props : List (Nat × Nat)}
    {calls : List (ProdCall V)} {n : Nat} {h : ProdHalf V}
    (hrun : prodRun mem0 props calls = some (n, h)) (s s2 : Sched) (mem : Fresh V) (num : Nat)
    (as : List (ProdAccess V)) (has : ∀ a ∈ as, a.entry.In props num) {h' : ProdHalf V}
    (hacc : (h.reset s mem num).bind (runItems (ProdHalf.access num) as) = some h')
    (values : Nat → Option (Nat × List V))
    (hv : ∀ q ∈ props, ∀ x, values q.1 = some x → x.1 = q.2 ∧ x.2.length = num * q.2) :
    ∃ h'', h'.set s2 num values = some h'' ∧ ∀ t : ProdEntry, t.In props num → ∀ q,
      props[t.property]? = some q → h''.read num t.product t.property t.component =
        match values q.1 with
        | some x => x.2[t.component * num + t.product]?
        | none => h'.read num t.product t.property t.component := by
  have hs := prodRun_shape hrun
  obtain ⟨h1, a1, a2, a3, a4, a5⟩ := reset_spec hs s mem num
  rw [a1, Option.bind_some] at hacc
  obtain ⟨h2, b1, b2, b3, b4, b5⟩ := accesses_spec as h1 _ a2 has a5
  rw [b1] at hacc
  cases hacc
  unfold ProdHalf.set
  by_cases h0 : num > 0
  · rw [if_pos h0, b2.props]
    have hmem : ∀ sx, sx ∈ s2.order (List.range props.length) ↔ sx < props.length := fun sx => by
      rw [(s2.perm _).mem_iff, List.mem_range]
    have hroom : ∀ sx q, props[sx]? = some q →
        prodCol props sx 0 * num + num * q.2 ≤ h'.data.length := by
      intro sx q hq
      have hle := sum_take_add_le (ns := props.map Prod.snd) (i := sx)
        (j := (props.map Prod.snd).length) (n := q.2) (by
          have := (List.getElem?_eq_some_iff.1 hq).1; simpa using this)
        (by rw [List.getElem?_map, hq]; rfl)
      rw [List.take_length] at hle
      rw [b4]
      refine le_trans ?_ (a4 h0)
      calc _ = num * (((props.map Prod.snd).take sx).sum + q.2) := by unfold prodCol; ring
        _ ≤ _ := Nat.mul_le_mul_left _ hle
    have hpos : ∀ sx c i, prodPos props num ⟨i, sx, c⟩ = prodCol props sx 0 * num + (c * num + i) := by
      intro sx c i
      unfold prodPos prodCol
      dsimp only
      ring
    -- the region of a property: the positions of its entries
    obtain ⟨d, c1, c2, c3, c4⟩ := runItems_region (step := h'.setProp num values)
      (items := s2.order (List.range props.length)) (m := h'.data)
      (fun sx k => ∃ q x, props[sx]? = some q ∧ values q.1 = some x ∧
        prodCol props sx 0 * num ≤ k ∧ k < prodCol props sx 0 * num + num * q.2)
      (fun sx k => ((props[sx]?).bind fun q => (values q.1).bind fun x =>
        x.2[k - prodCol props sx 0 * num]?).getD 0)
      (by
        intro sx hsx d hd
        rw [hmem] at hsx
        have hq : props[sx]? = some props[sx] := List.getElem?_eq_getElem hsx
        have hqm : props[sx] ∈ props := List.getElem_mem hsx
        generalize props[sx] = q at hq hqm
        have hr := hroom sx q hq
        unfold ProdHalf.setProp
        simp only [rd]
        rw [b2.props, hq, Option.bind_some, b2.offset hq]
        cases hx : values q.1 with
        | none =>
          refine ⟨d, rfl, rfl, ?_, fun k _ => rfl⟩
          rintro k ⟨q', x, e1, e2, -⟩
          cases e1
          rw [hx] at e2
          cases e2
        | some x =>
          obtain ⟨f1, f2⟩ := hv q hqm x hx
          dsimp only
          rw [if_pos f1.symm, Option.bind_some]
          have hsl := slice_eq_some (m := x.2) (Nat.zero_le (num * q.2)) (by omega)
          have hfull : List.take (num * q.2 - 0) (List.drop 0 x.2) = x.2 := by
            rw [List.drop_zero, Nat.sub_zero, ← f2, List.take_length]
          rw [hfull] at hsl
          rw [hsl, Option.bind_some]
          obtain ⟨d', g1, g2, g3, g4⟩ := stRange_get (m := d) (a := prodCol props sx 0 * num)
            (vs := x.2) (by rw [f2, hd]; exact hr)
          refine ⟨d', g1, g2, ?_, fun k hk => g4 k ?_⟩
          · rintro k ⟨q', x', e1, e2, e3, e4⟩
            cases e1
            rw [hx] at e2
            cases e2
            have := g3 (k - prodCol props sx 0 * num) (by omega)
            rw [show prodCol props sx 0 * num + (k - prodCol props sx 0 * num) = k by omega] at this
            rw [this, Option.bind_some, hx, Option.bind_some,
              List.getElem?_eq_getElem (by omega), Option.getD_some]
          · by_contra hc
            exact hk ⟨q, x, rfl, hx, by omega, by omega⟩)
      (by
        rintro sx - sy - k ⟨q, x, e1, -, e3, e4⟩ ⟨q', x', e1', -, e3', e4'⟩
        have hd1 : ∀ {sx q}, props[sx]? = some q → prodCol props sx 0 * num ≤ k →
            k < prodCol props sx 0 * num + num * q.2 → ∃ c, c < q.2 ∧
              prodCol props sx c * num ≤ k ∧ k < prodCol props sx c * num + num := by
          intro sx q _ l1 l2
          refine ⟨(k - prodCol props sx 0 * num) / num, ?_, ?_⟩
          · rw [Nat.div_lt_iff_lt_mul h0]
            have := Nat.mul_comm num q.2
            omega
          · have hdm := Nat.div_add_mod (k - prodCol props sx 0 * num) num
            have hml := Nat.mod_lt (k - prodCol props sx 0 * num) h0
            have : prodCol props sx ((k - prodCol props sx 0 * num) / num) * num =
                prodCol props sx 0 * num + num * ((k - prodCol props sx 0 * num) / num) := by
              unfold prodCol; ring
            rw [this]
            omega
        obtain ⟨c, i1, i2⟩ := hd1 e1 e3 e4
        obtain ⟨c', i1', i2'⟩ := hd1 e1' e3' e4'
        obtain ⟨j1, -⟩ := prodCol_inj e1 i1 e1' i1' (col_disjoint i2 i2')
        rw [j1])
    rw [c1]
    refine ⟨_, rfl, fun t ht q hq => ?_⟩
    rw [HalfShape.read (h := { h' with data := d }) ⟨b2.props, b2.offsets⟩ ht, b2.read ht]
    obtain ⟨t1, q', t2, t3⟩ := ht
    rw [hq] at t2
    cases t2
    have hci : t.component * num + t.product < num * q.2 := by
      have : (t.component + 1) * num ≤ q.2 * num := Nat.mul_le_mul_right _ t3
      rw [Nat.add_mul, Nat.mul_comm q.2] at this
      omega
    have hp := hpos t.property t.component t.product
    cases hx : values q.1 with
    | none =>
      dsimp only
      refine c4 _ ?_
      rintro sx - ⟨q', x, e1, e2, e3, e4⟩
      have hlt := (List.getElem?_eq_some_iff.1 e1).1
      have : sx = t.property := by
        have hdm := Nat.div_add_mod (prodPos props num t - prodCol props sx 0 * num) num
        have hml := Nat.mod_lt (prodPos props num t - prodCol props sx 0 * num) h0
        have hcc : (prodPos props num t - prodCol props sx 0 * num) / num < q'.2 := by
          rw [Nat.div_lt_iff_lt_mul h0]
          have := Nat.mul_comm num q'.2
          omega
        have hcol : prodCol props sx ((prodPos props num t - prodCol props sx 0 * num) / num) * num =
            prodCol props sx 0 * num +
              num * ((prodPos props num t - prodCol props sx 0 * num) / num) := by
          unfold prodCol; ring
        exact (prodCol_inj e1 hcc hq t3 (col_disjoint (k := prodPos props num t) (num := num)
          (by rw [hcol]; omega) (by unfold prodPos; omega))).1
      subst this
      rw [hq] at e1
      cases e1
      rw [hx] at e2
      cases e2
    | some x =>
      obtain ⟨f1, f2⟩ := hv q (List.mem_of_getElem? hq) x hx
      dsimp only
      have := c3 t.property ((hmem _).2 (List.getElem?_eq_some_iff.1 hq).1) (prodPos props num t)
        ⟨q, x, hq, hx, by rw [hp]; omega, by rw [hp]; omega⟩
      rw [this, hq, Option.bind_some, hx, Option.bind_some, hp, Nat.add_sub_cancel_left,
        List.getElem?_eq_getElem (by omega), Option.getD_some]
  · rw [if_neg h0]
    exact ⟨h', rfl, fun t ht => by have := ht.1; omega⟩

/-- **C19.** The products of different parents, and different products of one parent, have
different rows, and they are rows of the matrix. -/
theorem C19_descendant_rows {parents perParent sub product sub' product' : Nat}
    (hs : sub < parents) (hp : product < perParent) (hs' : sub' < parents) :
    descRow parents sub product < parents * perParent ∧
      (descRow parents sub product = descRow parents sub' product' →
        sub = sub' ∧ product = product') := by
  unfold descRow
  constructor
  · calc sub + product * parents < parents + product * parents := by omega
      _ = parents * (product + 1) := by ring
      _ ≤ _ := Nat.mul_le_mul_left _ hp
  · intro h
    have := col_disjoint (num := parents) (c := product) (c' := product')
      (k := sub + product * parents) ⟨by omega, by omega⟩ ⟨by omega, by omega⟩
    subst this
    exact ⟨by omega, rfl⟩

theorem parentOf_append (calls : List ParentCall) (x : ParentCall) (sub product : Nat) :
    parentOf (calls ++ [x]) sub product =
      if x.sub = sub ∧ x.product = product then some (x.cell, x.layer)
      else parentOf calls sub product := by
  unfold parentOf
  rw [List.filter_append]
  by_cases h : x.sub = sub ∧ x.product = product
  · rw [if_pos h, List.filter_cons_of_pos (by simpa using h), List.filter_nil,
      List.getLast?_append]
    rfl
  · rw [if_neg h, List.filter_cons_of_neg (by simpa using h), List.filter_nil, List.append_nil]

/-- **C19.** Whatever happened before, after `reset` and calls of `set_parent` every product
has the parent given by the last call for it, and the parent `-1` if there was none. -/
theorem C19_parents (d : DescParents) (memC memL : Fresh Int) (parents : Nat)
    (calls : List ParentCall)
    (hc : ∀ x ∈ calls, x.sub < parents ∧ x.product < d.perParent) :
    ∃ d', (d.reset memC memL parents).bind (runItems DescParents.call calls) = some d' ∧
      d'.parents = parents ∧ d'.perParent = d.perParent ∧
      ∀ sub product, sub < parents → product < d.perParent →
        d'.cells[descRow parents sub product]? =
          some ((parentOf calls sub product).elim (-1) fun p => (p.1 : Int)) ∧
        d'.layers[descRow parents sub product]? =
          some ((parentOf calls sub product).elim (-1) fun p => (p.2 : Int)) := by
  induction calls using List.reverseRecOn with
  | nil =>
    unfold DescParents.reset
    dsimp only
    by_cases h0 : parents * d.perParent > 0
    · rw [if_pos h0]
      obtain ⟨c', a1, a2, a3, -⟩ := stRange_get
        (m := prodRealloc memC (parents * d.perParent) d.cells) (a := 0)
        (vs := List.replicate (parents * d.perParent) (-1)) (by
          rw [List.length_replicate, Nat.zero_add]; exact length_prodRealloc _ _ _)
      obtain ⟨l', b1, b2, b3, -⟩ := stRange_get
        (m := prodRealloc memL (parents * d.perParent) d.layers) (a := 0)
        (vs := List.replicate (parents * d.perParent) (-1)) (by
          rw [List.length_replicate, Nat.zero_add]; exact length_prodRealloc _ _ _)
      rw [a1, Option.bind_some, b1, Option.bind_some]
      refine ⟨_, rfl, rfl, rfl, fun sub product hs hp => ?_⟩
      have hr := (C19_descendant_rows hs hp hs (product' := 0)).1
      have e1 := a3 (descRow parents sub product) (by rw [List.length_replicate]; exact hr)
      have e2 := b3 (descRow parents sub product) (by rw [List.length_replicate]; exact hr)
      rw [Nat.zero_add, List.getElem?_replicate, if_pos hr] at e1 e2
      exact ⟨e1, e2⟩
    · rw [if_neg h0]
      refine ⟨_, rfl, rfl, rfl, fun sub product hs hp => ?_⟩
      exact absurd (Nat.mul_pos (by omega : 0 < parents) (by omega : 0 < d.perParent)) h0
  | append_singleton calls x ih =>
    obtain ⟨d', a1, a2, a3, a4⟩ := ih fun y hy => hc y (List.mem_append_left _ hy)
    obtain ⟨hx1, hx2⟩ := hc x (List.mem_append_right _ List.mem_cons_self)
    obtain ⟨d0, e0, e1⟩ := Option.bind_eq_some_iff.1 a1
    rw [e0, Option.bind_some, runItems_append, e1, Option.bind_some, runItems_cons]
    obtain ⟨b1, b2⟩ := a4 x.sub x.product hx1 hx2
    have l1 := (List.getElem?_eq_some_iff.1 b1).1
    have l2 := (List.getElem?_eq_some_iff.1 b2).1
    unfold DescParents.call DescParents.setParent
    rw [a2, st_eq_some l1, Option.bind_some, st_eq_some l2, Option.bind_some, Option.bind_some,
      runItems_nil]
    refine ⟨_, rfl, rfl, a3, fun sub product hs hp => ?_⟩
    rw [parentOf_append]
    dsimp only
    by_cases h : x.sub = sub ∧ x.product = product
    · rw [if_pos h, ← h.1, ← h.2, List.getElem?_set_self l1, List.getElem?_set_self l2]
      exact ⟨rfl, rfl⟩
    · have hne : descRow parents x.sub x.product ≠ descRow parents sub product := fun hr =>
        h ((C19_descendant_rows hx1 hx2 hs).2 hr)
      rw [if_neg h, List.getElem?_set_ne hne, List.getElem?_set_ne hne]
      exact a4 sub product hs hp

/-! ## Examples -/

namespace Ex

/-- Three properties with two, one and two components. -/
def prodProps : List (Nat × Nat) := [(7, 2), (3, 1), (5, 2)]

def junk : Fresh Int := fun n => ⟨List.replicate n 99, List.length_replicate⟩

/-- A matrix that was used before with another number of products. -/
def prodHistory : List (ProdCall Int) :=
  [.setDefault 5 1 4, .reset Sched.inOrder junk 2, .access (.write ⟨1, 2, 1⟩ 8),
    .setDefault 5 1 6]

def prodUse : List (ProdAccess Int) :=
  [.write ⟨2, 0, 1⟩ 11, .add ⟨0, 2, 1⟩ 3, .write ⟨2, 1, 0⟩ 12, .add ⟨0, 2, 1⟩ 5,
    .add ⟨1, 0, 0⟩ 9]

example : ∃ n h, prodRun junk prodProps prodHistory = some (n, h) ∧
    (∀ a ∈ prodUse, a.entry.In prodProps 3) ∧
    ∃ h', (h.reset Sched.reversed junk 3).bind (runItems (ProdHalf.access 3) prodUse) = some h' ∧
      h'.read 3 0 2 1 = some 14 ∧ h'.read 3 1 2 1 = some 6 ∧ h'.read 3 2 0 1 = some 11 ∧
      h'.read 3 1 0 0 = some 9 := by
  have hin : ∀ a ∈ prodUse, a.entry.In prodProps 3 := by
    intro a ha
    simp only [prodUse, List.mem_cons, List.not_mem_nil, or_false] at ha
    rcases ha with rfl | rfl | rfl | rfl | rfl
    · exact ⟨by decide, (7, 2), rfl, by decide⟩
    · exact ⟨by decide, (5, 2), rfl, by decide⟩
    · exact ⟨by decide, (3, 1), rfl, by decide⟩
    · exact ⟨by decide, (5, 2), rfl, by decide⟩
    · exact ⟨by decide, (7, 2), rfl, by decide⟩
  refine ⟨2, _, rfl, hin, ?_⟩
  obtain ⟨h', a1, a2, -⟩ := C19_entries_independent (mem0 := junk) (props := prodProps)
    (calls := prodHistory) (n := 2) rfl Sched.reversed junk 3 prodUse hin
  refine ⟨h', a1, ?_, ?_, ?_, ?_⟩
  · exact a2 ⟨0, 2, 1⟩ ⟨by decide, (5, 2), rfl, by decide⟩
  · exact a2 ⟨1, 2, 1⟩ ⟨by decide, (5, 2), rfl, by decide⟩
  · exact a2 ⟨2, 0, 1⟩ ⟨by decide, (7, 2), rfl, by decide⟩
  · exact a2 ⟨1, 0, 0⟩ ⟨by decide, (7, 2), rfl, by decide⟩

/-- Values for one of the properties. -/
example : ∀ q ∈ prodProps, ∀ x,
    (fun s => if s = 5 then some (2, [1, 2, 3, 4, 5, 6]) else none : Nat → Option (Nat × List Int))
      q.1 = some x → x.1 = q.2 ∧ x.2.length = 3 * q.2 := by
  decide +kernel

/-- Two products per parent, three parents, one product without a call and one with two. -/
example : let calls : List ParentCall := [⟨2, 1, 0, 4⟩, ⟨0, 0, 1, 2⟩, ⟨2, 1, 0, 5⟩]
    (∀ x ∈ calls, x.sub < 3 ∧ x.product < (⟨2, 0, [], []⟩ : DescParents).perParent) ∧
      ((⟨2, 0, [], []⟩ : DescParents).reset junk junk 3).bind (runItems DescParents.call calls) =
        some ⟨2, 3, [1, -1, -1, -1, -1, 0], [2, -1, -1, -1, -1, 5]⟩ ∧
      parentOf calls 2 1 = some (0, 5) ∧ parentOf calls 1 1 = none := by
  decide +kernel

end Ex

end NP
