import Verif.Group.SpecProduct
import Verif.Group.LemmasAddSub
import Verif.Pair.LemmasLoop

/-! Storage of product matrices. -/

set_option autoImplicit false

namespace NP

open Spec

variable {V : Type}

/-- The column of a component of a property. -/
def prodCol (props : List (Nat × Nat)) (property component : Nat) : Nat :=
  ((props.map Prod.snd).take property).sum + component

theorem prodCol_lt {props : List (Nat × Nat)} {property component : Nat} {q : Nat × Nat}
    (hq : props[property]? = some q) (hc : component < q.2) :
    prodCol props property component < (props.map Prod.snd).sum := by
  have h := sum_take_add_le (ns := props.map Prod.snd) (i := property)
    (j := (props.map Prod.snd).length) (n := q.2)
    (by have := (List.getElem?_eq_some_iff.1 hq).1; simpa using this)
    (by rw [List.getElem?_map, hq]; rfl)
  rw [List.take_length] at h
  unfold prodCol
  omega

theorem prodCol_inj {props : List (Nat × Nat)} {p p' c c' : Nat} {q q' : Nat × Nat}
    (hq : props[p]? = some q) (hc : c < q.2) (hq' : props[p']? = some q') (hc' : c' < q'.2)
    (h : prodCol props p c = prodCol props p' c') : p = p' ∧ c = c' := by
  have key : ∀ {p p' c c' : Nat} {q : Nat × Nat}, props[p]? = some q → c < q.2 → p < p' →
      prodCol props p c ≠ prodCol props p' c' := by
    intro p p' c c' q hq hc hlt
    have h := sum_take_add_le (ns := props.map Prod.snd) (n := q.2) hlt
      (by rw [List.getElem?_map, hq]; rfl)
    unfold prodCol
    omega
  rcases Nat.lt_trichotomy p p' with h1 | h1 | h1
  · exact absurd h (key hq hc h1)
  · subst h1
    unfold prodCol at h
    exact ⟨rfl, by omega⟩
  · exact absurd h.symm (key hq' hc' h1)

/-- The position of an entry. -/
def prodPos (props : List (Nat × Nat)) (num : Nat) (t : ProdEntry) : Nat :=
  prodCol props t.property t.component * num + t.product

theorem prodPos_lt {props : List (Nat × Nat)} {num : Nat} {t : ProdEntry} (h : t.In props num) :
    prodPos props num t < num * (props.map Prod.snd).sum := by
  obtain ⟨h1, q, hq, hc⟩ := h
  have := prodCol_lt hq hc
  unfold prodPos
  calc _ < prodCol props t.property t.component * num + num := by omega
    _ = num * (prodCol props t.property t.component + 1) := by ring
    _ ≤ _ := Nat.mul_le_mul_left _ this

theorem prodPos_inj {props : List (Nat × Nat)} {num : Nat} {t t' : ProdEntry} (h : t.In props num)
    (h' : t'.In props num) (he : prodPos props num t = prodPos props num t') : t = t' := by
  obtain ⟨h1, q, hq, hc⟩ := h
  obtain ⟨h1', q', hq', hc'⟩ := h'
  unfold prodPos at he
  have e1 : prodCol props t.property t.component = prodCol props t'.property t'.component := by
    have a := Nat.mul_add_div (show 0 < num by omega) (prodCol props t.property t.component)
      t.product
    have b := Nat.mul_add_div (show 0 < num by omega) (prodCol props t'.property t'.component)
      t'.product
    rw [Nat.div_eq_of_lt h1, Nat.mul_comm] at a
    rw [Nat.div_eq_of_lt h1', Nat.mul_comm] at b
    rw [he] at a
    omega
  rw [e1] at he
  obtain ⟨e2, e3⟩ := prodCol_inj hq hc hq' hc' e1
  cases t; cases t'
  simp only [ProdEntry.mk.injEq] at *
  exact ⟨by omega, e2, e3⟩

/-- The storage belongs to these properties. -/
structure HalfShape (ps : List (Nat × Nat)) (h : ProdHalf V) : Prop where
  props : h.spec.props = ps
  offsets : h.offsets = exclusiveFrom 0 (ps.map Prod.snd)

theorem HalfShape.index {props : List (Nat × Nat)} {h : ProdHalf V} (hs : HalfShape props h)
    {num : Nat} {t : ProdEntry} (ht : t.In props num) :
    h.index num t.product t.property t.component = some (prodPos props num t) := by
  obtain ⟨h1, q, hq, hc⟩ := ht
  unfold ProdHalf.index
  simp only [rd]
  rw [hs.offsets, getElem?_exclusiveFrom _ _ _ (by
    have := (List.getElem?_eq_some_iff.1 hq).1; simpa using this), Option.map_some, Nat.zero_add]
  rfl

theorem HalfShape.offset {props : List (Nat × Nat)} {h : ProdHalf V} (hs : HalfShape props h)
    {p : Nat} {q : Nat × Nat} (hq : props[p]? = some q) :
    h.offsets[p]? = some (prodCol props p 0) := by
  rw [hs.offsets, getElem?_exclusiveFrom _ _ _ (by
    have := (List.getElem?_eq_some_iff.1 hq).1; simpa using this), Nat.zero_add]
  rfl

theorem length_prodRealloc (mem : Fresh V) (size : Nat) (data : List V) :
    size ≤ (prodRealloc mem size data).length := by
  unfold prodRealloc
  by_cases h : size = 0
  · rw [if_pos h]; omega
  · rw [if_neg h]
    by_cases h2 : size > data.length
    · rw [if_pos h2, (mem size).2]
    · rw [if_neg h2]; omega

theorem mem_columns {p : ProdSpec V} {x : Nat × Nat} :
    x ∈ p.columns ↔ ∃ q, p.props[x.1]? = some q ∧ x.2 < q.2 := by
  unfold ProdSpec.columns
  rw [List.mem_flatMap]
  constructor
  · rintro ⟨⟨q, i⟩, h1, h2⟩
    rw [List.mem_zipIdx_iff_getElem?] at h1
    simp only [List.mem_map, List.mem_range] at h2
    obtain ⟨c, hc, rfl⟩ := h2
    exact ⟨q, h1, hc⟩
  · rintro ⟨q, h1, h2⟩
    refine ⟨(q, x.1), List.mem_zipIdx_iff_getElem?.2 h1, ?_⟩
    simp only [List.mem_map, List.mem_range]
    exact ⟨x.2, h2, rfl⟩

/-- Storing a range of values. -/
theorem stRange_get {m vs : List V} {a : Nat} (h : a + vs.length ≤ m.length) :
    ∃ m', stRange m a vs = some m' ∧ m'.length = m.length ∧
      (∀ i, i < vs.length → m'[a + i]? = vs[i]?) ∧
      ∀ k, (k < a ∨ a + vs.length ≤ k) → m'[k]? = m[k]? := by
  refine ⟨_, stRange_eq_some h, ?_, ?_, ?_⟩
  · simp only [List.length_append, List.length_take, List.length_drop]; omega
  · intro i hi
    rw [List.append_assoc, List.getElem?_append_right (by simp), List.getElem?_append_left (by
      simp only [List.length_take]; omega)]
    congr 1
    simp only [List.length_take]; omega
  · rintro k (hk | hk)
    · rw [List.append_assoc, List.getElem?_append_left (by simp; omega), List.getElem?_take_of_lt hk]
    · rw [List.getElem?_append_right (by simp; omega), List.getElem?_drop]
      congr 1
      simp only [List.length_append, List.length_take]; omega

theorem col_disjoint {num c c' k : Nat} (h : c * num ≤ k ∧ k < c * num + num)
    (h' : c' * num ≤ k ∧ k < c' * num + num) : c = c' := by
  rcases Nat.lt_trichotomy c c' with h1 | h1 | h1
  · exfalso
    have : (c + 1) * num ≤ c' * num := Nat.mul_le_mul_right _ h1
    rw [Nat.add_mul] at this
    omega
  · exact h1
  · exfalso
    have : (c' + 1) * num ≤ c * num := Nat.mul_le_mul_right _ h1
    rw [Nat.add_mul] at this
    omega

/-- `reset` makes every entry available with its default value. -/
theorem reset_spec [Zero V] {props : List (Nat × Nat)} {h : ProdHalf V} (hs : HalfShape props h)
    (s : Sched) (mem : Fresh V) (num : Nat) :
    ∃ h', h.reset s mem num = some h' ∧ HalfShape props h' ∧ h'.spec = h.spec ∧
      (0 < num → num * (props.map Prod.snd).sum ≤ h'.data.length) ∧
      ∀ t : ProdEntry, t.In props num → h'.data[prodPos props num t]? = some (resetValue h.spec t) := by
  unfold ProdHalf.reset
  by_cases h0 : num > 0
  · rw [if_pos h0]
    have hlen := length_prodRealloc mem (num * h.spec.total) h.data
    have htot : h.spec.total = (props.map Prod.snd).sum := by
      unfold ProdSpec.total; rw [hs.props]
    generalize prodRealloc mem (num * h.spec.total) h.data = data at hlen
    rw [htot] at hlen
    have hcols : ∀ x, x ∈ s.order h.spec.columns ↔ ∃ q, props[x.1]? = some q ∧ x.2 < q.2 := by
      intro x
      rw [(s.perm _).mem_iff, mem_columns, hs.props]
    have hroom : ∀ x ∈ s.order h.spec.columns,
        prodCol props x.1 x.2 * num + num ≤ data.length := by
      intro x hx
      obtain ⟨q, hq, hc⟩ := (hcols x).1 hx
      refine le_trans ?_ hlen
      rw [← Nat.succ_mul, Nat.mul_comm]
      exact Nat.mul_le_mul_left _ (prodCol_lt hq hc)
    obtain ⟨m', a1, a2, a3, -⟩ := runItems_region (step := h.fillColumn num)
      (items := s.order h.spec.columns) (m := data)
      (fun x k => prodCol props x.1 x.2 * num ≤ k ∧ k < prodCol props x.1 x.2 * num + num)
      (fun x _ => resetValue h.spec ⟨0, x.1, x.2⟩)
      (by
        intro x hx d hd
        obtain ⟨q, hq, hc⟩ := (hcols x).1 hx
        have hr := hroom x hx
        unfold ProdHalf.fillColumn
        simp only [rd]
        rw [hs.props, hq, Option.bind_some, hs.offset hq, Option.bind_some]
        have hcol : prodCol props x.1 0 + x.2 = prodCol props x.1 x.2 := by
          unfold prodCol; omega
        rw [hcol]
        obtain ⟨d', b1, b2, b3, b4⟩ := stRange_get (m := d) (a := prodCol props x.1 x.2 * num)
          (vs := List.replicate num (h.spec.default q.1 x.2)) (by
            rw [List.length_replicate, hd]; exact hr)
        refine ⟨d', b1, b2, fun k hk => ?_, fun k hk => b4 k ?_⟩
        · have := b3 (k - prodCol props x.1 x.2 * num) (by rw [List.length_replicate]; omega)
          rw [show prodCol props x.1 x.2 * num + (k - prodCol props x.1 x.2 * num) = k by omega,
            List.getElem?_replicate, if_pos (by omega)] at this
          rw [this]
          unfold resetValue
          dsimp only
          rw [hs.props, hq]
        · rw [List.length_replicate]; omega)
      (by
        intro x hx y hy k hk hk'
        obtain ⟨q, hq, hc⟩ := (hcols x).1 hx
        obtain ⟨q', hq', hc'⟩ := (hcols y).1 hy
        obtain ⟨e1, e2⟩ := prodCol_inj hq hc hq' hc' (col_disjoint hk hk')
        rw [e1, e2])
    rw [a1]
    refine ⟨_, rfl, ⟨hs.props, hs.offsets⟩, rfl, fun _ => ?_, fun t ht => ?_⟩
    · dsimp only; rw [a2]; exact hlen
    · obtain ⟨h1, q, hq, hc⟩ := ht
      have := a3 (t.property, t.component) ((hcols _).2 ⟨q, hq, hc⟩) (prodPos props num t)
        (by unfold prodPos; dsimp only; omega)
      dsimp only
      rw [this]
      rfl
  · rw [if_neg h0]
    refine ⟨h, rfl, hs, rfl, fun h1 => absurd h1 h0, fun t ht => ?_⟩
    have := ht.1
    omega

/-- An access changes its entry only. -/
theorem access_spec [Add V] {props : List (Nat × Nat)} {h : ProdHalf V} (hs : HalfShape props h)
    {num : Nat} {a : ProdAccess V} (ha : a.entry.In props num) {old : V}
    (hold : h.data[prodPos props num a.entry]? = some old) :
    h.access num a =
      some { h with data := h.data.set (prodPos props num a.entry) (a.effect old) } := by
  have hlt := (List.getElem?_eq_some_iff.1 hold).1
  cases a with
  | write t v =>
    simp only [ProdHalf.access, ProdHalf.write]
    rw [hs.index (t := t) ha, Option.bind_some]
    simp only [ProdAccess.entry] at hlt
    rw [st_eq_some hlt]
    rfl
  | add t v =>
    simp only [ProdHalf.access, ProdHalf.fetchAdd]
    simp only [ProdAccess.entry] at hold hlt
    rw [hs.index (t := t) ha, Option.bind_some]
    simp only [rd]
    rw [hold, Option.bind_some, st_eq_some hlt]
    rfl

theorem entryAfter_cons [Add V] (a : ProdAccess V) (as : List (ProdAccess V)) (t : ProdEntry)
    (v : V) : entryAfter (a :: as) t v =
      entryAfter as t (if a.entry = t then a.effect v else v) := by
  unfold entryAfter
  by_cases h : a.entry = t
  · rw [List.filter_cons_of_pos (by simpa using h), if_pos h]; rfl
  · rw [List.filter_cons_of_neg (by simpa using h), if_neg h]

theorem accesses_spec [Add V] {props : List (Nat × Nat)} {num : Nat} (as : List (ProdAccess V)) :
    ∀ (h : ProdHalf V) (init : ProdEntry → V), HalfShape props h →
      (∀ a ∈ as, a.entry.In props num) →
      (∀ t : ProdEntry, t.In props num → h.data[prodPos props num t]? = some (init t)) →
      ∃ h', runItems (ProdHalf.access num) as h = some h' ∧ HalfShape props h' ∧
        h'.spec = h.spec ∧ h'.data.length = h.data.length ∧
        ∀ t : ProdEntry, t.In props num →
          h'.data[prodPos props num t]? = some (entryAfter as t (init t)) := by
  induction as with
  | nil =>
    intro h init hs _ hi
    exact ⟨h, rfl, hs, rfl, rfl, hi⟩
  | cons a as ih =>
    intro h init hs ha hi
    have ha0 := ha a List.mem_cons_self
    rw [runItems_cons, access_spec hs ha0 (hi _ ha0), Option.bind_some]
    obtain ⟨h', b1, b2, b3, b4, b5⟩ := ih
      { h with data := h.data.set (prodPos props num a.entry) (a.effect (init a.entry)) }
      (fun t => if a.entry = t then a.effect (init t) else init t)
      ⟨hs.props, hs.offsets⟩ (fun x hx => ha x (List.mem_cons_of_mem _ hx)) (by
        intro t ht
        dsimp only
        by_cases he : a.entry = t
        · rw [if_pos he, ← he, List.getElem?_set_self
            (List.getElem?_eq_some_iff.1 (hi _ ha0)).1]
        · rw [if_neg he, List.getElem?_set_ne (fun hc => he (prodPos_inj ha0 ht hc))]
          exact hi t ht)
    refine ⟨h', b1, b2, b3, ?_, fun t ht => ?_⟩
    · rw [b4]; simp
    · rw [b5 t ht, entryAfter_cons]

theorem setProp_shape {num : Nat} {h : ProdHalf V} {values : Nat → Option (Nat × List V)} {sx : Nat}
    {d d' : List V} (hd : h.setProp num values sx d = some d') : d'.length = d.length := by
  unfold ProdHalf.setProp at hd
  obtain ⟨p, -, hd⟩ := Option.bind_eq_some_iff.1 hd
  cases hv : values p.1 with
  | none =>
    rw [hv] at hd
    simp only [Option.some.injEq] at hd
    rw [hd]
  | some q =>
    rw [hv] at hd
    dsimp only at hd
    by_cases hq : p.2 = q.1
    · rw [if_pos hq] at hd
      obtain ⟨off, -, hd⟩ := Option.bind_eq_some_iff.1 hd
      obtain ⟨l, -, hd⟩ := Option.bind_eq_some_iff.1 hd
      exact (length_of_stRange hd).1
    · rw [if_neg hq] at hd; cases hd

/-- The storage keeps its shape in any history. -/
theorem prodRun_shape [Zero V] [Add V] {mem : Fresh V} {props : List (Nat × Nat)}
    {calls : List (ProdCall V)} {s : Nat × ProdHalf V} (h : prodRun mem props calls = some s) :
    HalfShape props s.2 := by
  have key : ∀ (calls : List (ProdCall V)) (s s' : Nat × ProdHalf V), HalfShape props s.2 →
      runItems prodCall calls s = some s' → HalfShape props s'.2 := by
    intro calls
    induction calls with
    | nil =>
      intro s s' hs he
      simp only [runItems_nil, Option.some.injEq] at he
      rw [← he]; exact hs
    | cons c cs ih =>
      intro s s' hs he
      rw [runItems_cons] at he
      obtain ⟨s1, h1, h2⟩ := Option.bind_eq_some_iff.1 he
      refine ih s1 s' ?_ h2
      cases c with
      | setDefault sym comp v =>
        simp only [prodCall, Option.some.injEq] at h1
        subst h1
        exact ⟨hs.props, hs.offsets⟩
      | reset sched mem num =>
        simp only [prodCall, Option.map_eq_some_iff] at h1
        obtain ⟨h', e1, e2⟩ := h1
        subst e2
        obtain ⟨h'', f1, f2, -⟩ := reset_spec hs sched mem num
        rw [f1] at e1
        cases e1
        exact f2
      | access a =>
        simp only [prodCall, Option.map_eq_some_iff] at h1
        obtain ⟨h', e1, e2⟩ := h1
        subst e2
        cases a with
        | write t v =>
          simp only [ProdHalf.access, ProdHalf.write] at e1
          obtain ⟨i, -, e1⟩ := Option.bind_eq_some_iff.1 e1
          obtain ⟨d, -, e1⟩ := Option.map_eq_some_iff.1 e1
          subst e1
          exact ⟨hs.props, hs.offsets⟩
        | add t v =>
          simp only [ProdHalf.access, ProdHalf.fetchAdd] at e1
          obtain ⟨x, e1, e3⟩ := Option.map_eq_some_iff.1 e1
          obtain ⟨i, -, e1⟩ := Option.bind_eq_some_iff.1 e1
          obtain ⟨o, -, e1⟩ := Option.bind_eq_some_iff.1 e1
          obtain ⟨d, -, e1⟩ := Option.map_eq_some_iff.1 e1
          subst e1
          subst e3
          exact ⟨hs.props, hs.offsets⟩
      | set sched values =>
        simp only [prodCall, Option.map_eq_some_iff] at h1
        obtain ⟨h', e1, e2⟩ := h1
        subst e2
        unfold ProdHalf.set at e1
        by_cases h0 : s.1 > 0
        · rw [if_pos h0] at e1
          obtain ⟨d, -, e1⟩ := Option.map_eq_some_iff.1 e1
          subst e1
          exact ⟨hs.props, hs.offsets⟩
        · rw [if_neg h0] at e1
          cases e1
          exact hs
  exact key calls _ s ⟨rfl, rfl⟩ h

end NP
