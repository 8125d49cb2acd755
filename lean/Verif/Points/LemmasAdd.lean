import Verif.Points.LemmasGet
import Verif.Points.Spec
import Mathlib.Data.List.Nodup

/-! # The points that were added and the points that are held -/

set_option autoImplicit false

namespace NP

open Spec

variable {α : Type}

theorem length_filter_range {β : Type} (f : β → Bool) (l : List β) :
    ((List.range l.length).filter fun i => (l[i]?).any f).length = (l.filter f).length := by
  induction l using List.reverseRecOn with
  | nil => rfl
  | append_singleton l x ih =>
    rw [List.length_append, List.length_singleton, List.range_succ, List.filter_append,
      List.filter_append, List.length_append, List.length_append, ← ih]
    congr 1
    · congr 1
      refine List.filter_congr fun i hi => ?_
      rw [List.getElem?_append_left (List.mem_range.1 hi)]
    · cases h : f x <;> simp [h]

theorem foldl_qpAdd (me : Nat) (xs : List (List α)) (acc : List (QPoint α)) :
    xs.foldl (qpAdd me) acc =
      ((xs.zipIdx acc.length).map fun x => (⟨x.1, 0, me, x.2⟩ : QPoint α)).reverse ++ acc := by
  induction xs generalizing acc with
  | nil => simp
  | cons x xs ih =>
    rw [List.foldl_cons, ih, List.zipIdx_cons, List.map_cons, List.reverse_cons, List.append_assoc]
    simp [qpAdd]

theorem mem_qpAdded {me : Nat} {xs : List (List α)} {p : QPoint α} :
    p ∈ qpAdded me xs ↔ p.rank = me ∧ p.cell = 0 ∧ xs[p.index]? = some p.coords := by
  unfold qpAdded
  rw [foldl_qpAdd, List.append_nil, List.mem_reverse, List.mem_map]
  constructor
  · rintro ⟨x, h1, rfl⟩
    refine ⟨rfl, rfl, ?_⟩
    have := List.mem_zipIdx_iff_getElem?.1 h1
    simpa using this
  · rintro ⟨h1, h2, h3⟩
    refine ⟨(p.coords, p.index), ?_, ?_⟩
    · exact List.mem_zipIdx_iff_getElem?.2 (by simpa using h3)
    · obtain ⟨c, l, r, i⟩ := p
      dsimp only at h1 h2 ⊢
      rw [h1, h2]

theorem nodup_qpAdded (me : Nat) (xs : List (List α)) :
    ((qpAdded me xs).map QPoint.index).Nodup := by
  unfold qpAdded
  rw [foldl_qpAdd, List.append_nil, List.map_reverse, List.nodup_reverse, List.map_map]
  have : (QPoint.index ∘ fun x : List α × Nat => (⟨x.1, 0, me, x.2⟩ : QPoint α)) = Prod.snd := rfl
  rw [this, List.zipIdx_map_snd]
  exact List.nodup_range'

theorem mem_pointsOf {n : Nat} {pts : Nat → List (QPoint α)} {t : Nat × Nat × List α} :
    t ∈ pointsOf n pts ↔ ∃ b, b < n ∧ ∃ p ∈ pts b, (p.rank, p.index, p.coords) = t := by
  unfold pointsOf
  rw [List.mem_flatMap]
  constructor
  · rintro ⟨b, h1, h2⟩
    exact ⟨b, List.mem_range.1 h1, List.mem_map.1 h2⟩
  · rintro ⟨b, h1, h2⟩
    exact ⟨b, List.mem_range.2 h1, List.mem_map.2 h2⟩

theorem keys_pointsOf (n : Nat) (pts : Nat → List (QPoint α)) :
    (pointsOf n pts).map (fun t => (t.1, t.2.1)) =
      (List.range n).flatMap fun r => (pts r).map fun p => (p.rank, p.index) := by
  unfold pointsOf
  rw [List.map_flatMap]
  congr 1
  funext r
  rw [List.map_map]
  rfl

/-- Each point is held once, by some rank. -/
theorem placed_of_moved {n : Nat} {xs : Nat → List (List α)} {pts : Nat → List (QPoint α)}
    (h : PointsMoved n (fun r => qpAdded r (xs r)) pts) :
    Placed n (fun r => (xs r).length) pts ∧
      (∀ b, b < n → ∀ p ∈ pts b, (xs p.rank)[p.index]? = some p.coords) ∧
      ∀ (a x : Nat) (pt : List α), a < n → (xs a)[x]? = some pt →
        ∃ (b i : Nat) (p : QPoint α), b < n ∧ (pts b)[i]? = some p ∧ p.rank = a ∧ p.index = x ∧
          p.coords = pt := by
  have hmem : ∀ b, b < n → ∀ p ∈ pts b, p.rank < n ∧ (xs p.rank)[p.index]? = some p.coords := by
    intro b hb p hp
    obtain ⟨r, hr, p', h1, h2⟩ := mem_pointsOf.1 (h.mem_iff.1 (mem_pointsOf.2 ⟨b, hb, p, hp, rfl⟩))
    obtain ⟨h3, -, h4⟩ := mem_qpAdded.1 h1
    simp only [Prod.mk.injEq] at h2
    rw [h2.1] at h3
    rw [← h2.2.1, ← h2.2.2, h3]
    exact ⟨hr, h4⟩
  have hnd : ((List.range n).flatMap fun r => (pts r).map fun p => (p.rank, p.index)).Nodup := by
    rw [← keys_pointsOf, (h.map _).nodup_iff, keys_pointsOf, List.nodup_flatMap]
    constructor
    · intro r hr
      have h1 := nodup_qpAdded r (xs r)
      have h2 : ((qpAdded r (xs r)).map fun p => (p.rank, p.index)).map Prod.snd =
          (qpAdded r (xs r)).map QPoint.index := by
        rw [List.map_map]; rfl
      rw [← h2] at h1
      exact List.Pairwise.of_map (fun x : Nat × Nat => x.2) (fun a b h hh => h (by rw [hh])) h1
    · refine List.nodup_range.imp ?_
      intro a b hab t h1 h2
      obtain ⟨p, p1, p2⟩ := List.mem_map.1 h1
      obtain ⟨p', p3, p4⟩ := List.mem_map.1 h2
      refine hab ?_
      rw [← (mem_qpAdded.1 p1).1, ← (mem_qpAdded.1 p3).1]
      rw [← p4] at p2
      exact congrArg Prod.fst p2
  rw [List.nodup_flatMap] at hnd
  refine ⟨⟨fun b hb p hp => (hmem b hb p hp).1, fun b hb p hp => ?_, ?_⟩,
    fun b hb p hp => (hmem b hb p hp).2, ?_⟩
  · exact (List.getElem?_eq_some_iff.1 (hmem b hb p hp).2).1
  · intro b b' i i' p p' hb hb' h1 h2 h3 h4
    have hbb : b = b' := by
      by_contra hne
      have hd : List.Disjoint ((pts b).map fun p => (p.rank, p.index))
          ((pts b').map fun p => (p.rank, p.index)) := by
        rcases Nat.lt_or_gt_of_ne hne with hlt | hlt
        · have := List.pairwise_iff_getElem.1 hnd.2 b b' (by simpa using hb) (by simpa using hb') hlt
          simpa [Function.onFun] using this
        · have := List.pairwise_iff_getElem.1 hnd.2 b' b (by simpa using hb') (by simpa using hb) hlt
          simp only [List.getElem_range, Function.onFun] at this
          exact fun t h1 h2 => this h2 h1
      exact hd (List.mem_map.2 ⟨p, List.mem_of_getElem? h1, rfl⟩)
        (List.mem_map.2 ⟨p', List.mem_of_getElem? h2, by rw [h3, h4]⟩)
    subst hbb
    refine ⟨rfl, ?_⟩
    have := hnd.1 b (List.mem_range.2 hb)
    refine (List.getElem?_inj (i := i) (j := i') (by
      rw [List.length_map]; exact (List.getElem?_eq_some_iff.1 h1).1) this).1 ?_
    rw [List.getElem?_map, List.getElem?_map, h1, h2, Option.map_some, Option.map_some, h3, h4]
  · intro a x pt ha hx
    obtain ⟨b, hb, p, h1, h2⟩ := mem_pointsOf.1 (h.mem_iff.2 (mem_pointsOf.2
      ⟨a, ha, ⟨pt, 0, a, x⟩, mem_qpAdded.2 ⟨rfl, rfl, hx⟩, rfl⟩))
    obtain ⟨i, hi⟩ := List.mem_iff_getElem?.1 h1
    simp only [Prod.mk.injEq] at h2
    exact ⟨b, i, p, hb, hi, h2.1, h2.2.1, h2.2.2⟩

/-- `set` on one rank. -/
theorem qpSet_ok {n : Nat} (e : QpEnv α) {npoint : Nat → Nat} {pts : Nat → List (QPoint α)}
    (hp : Placed n npoint pts) {a ncomp : Nat} (han : a < n) {q : QpRank α}
    (hnp : q.npoint = npoint a) (hpt : q.pts = pts a) (hh : HeldOk n a (pts a) q.held)
    (hk : 0 < ncomp ∧ ncomp < 1000) {input : List α} (hin : npoint a * ncomp ≤ input.length)
    {vals : List (List α)} (hv : vals.length = (pts a).length)
    (hrow : ∀ row ∈ vals, row.length = ncomp) :
    ∃ vals', qpSet e a ncomp q input vals = some vals' ∧ vals'.length = vals.length ∧
      (∀ row ∈ vals', row.length = ncomp) ∧
      ∀ (i : Nat) (p : QPoint α), (pts a)[i]? = some p →
        (p.rank = a → ∃ row, vals'[i]? = some row ∧
          ∀ c, c < ncomp → row[c]? = input[p.index * ncomp + c]?) ∧
        (p.rank ≠ a → vals'[i]? = vals[i]?) := by
  have hperm := e.s0.perm (List.range (pts a).length)
  obtain ⟨items, hit⟩ : ∃ items, items = e.s0.order (List.range (pts a).length) := ⟨_, rfl⟩
  rw [← hit] at hperm
  have hsi := slice_eq_some (m := input) (a := 0) (b := npoint a * ncomp) (by omega) hin
  rw [Nat.sub_zero, List.drop_zero] at hsi
  have hst := stRange_eq_some (m := (e.loc (max (npoint a * ncomp) 1)).1)
    (vs := input.take (npoint a * ncomp)) (a := 0) (by
      rw [(e.loc _).2, List.length_take]; omega)
  generalize hloc : ((e.loc (max (npoint a * ncomp) 1)).1.take 0 ++
    input.take (npoint a * ncomp) ++ _ : List α) = loc at hst
  have hll : loc.length = max (npoint a * ncomp) 1 := by
    rw [(length_of_stRange hst).1, (e.loc _).2]
  have hlat : ∀ t, t < npoint a * ncomp → loc[t]? = input[t]? := by
    intro t ht
    rw [getElem?_of_stRange hst, if_pos (by rw [List.length_take]; omega), Nat.sub_zero,
      List.getElem?_take_of_lt ht]
  let dl : Nat → Option Nat := fun i => ((pts a)[i]?).bind fun p =>
    if p.rank = a then some i else none
  let V : Nat → List α := fun i => match (pts a)[i]? with
    | none => []
    | some p => (loc.drop (p.index * ncomp)).take ncomp
  have hVat : ∀ (i : Nat) (p : QPoint α), (pts a)[i]? = some p → p.rank = a →
      slice loc (p.index * ncomp) (p.index * ncomp + ncomp) = some (V i) ∧ (V i).length = ncomp ∧
      ∀ c, c < ncomp → (V i)[c]? = input[p.index * ncomp + c]? := by
    intro i p h1 h2
    have := hp.idx a han p (List.mem_of_getElem? h1)
    rw [h2] at this
    have := Nat.mul_le_mul_right ncomp (Nat.succ_le_of_lt this)
    rw [Nat.succ_mul] at this
    simp only [V, h1]
    refine ⟨?_, ?_, ?_⟩
    · rw [slice_eq_some (by omega) (by omega), Nat.add_sub_cancel_left]
    · rw [List.length_take, List.length_drop]; omega
    · intro c hc
      rw [List.getElem?_take_of_lt hc, List.getElem?_drop, hlat _ (by omega)]
  obtain ⟨vals', r1, r2, r3, r4⟩ := runItems_put (items := items) (m := vals) dl V
    (step := fun i s => match dl i with | none => some s | some d => st s d (V i))
    (fun i _ s _ => rfl) (by
      intro i hi j hj d h1 h2
      obtain ⟨p, p1, p2⟩ := Option.bind_eq_some_iff.1 h1
      obtain ⟨p', p3, p4⟩ := Option.bind_eq_some_iff.1 h2
      split at p2
      · split at p4
        · rw [Option.some.inj p2, Option.some.inj p4]
        · cases p4
      · cases p2) (by
      intro i hi d h1
      obtain ⟨p, p1, p2⟩ := Option.bind_eq_some_iff.1 h1
      split at p2
      · rw [← Option.some.inj p2, hv]; exact (List.getElem?_eq_some_iff.1 p1).1
      · cases p2)
  -- rows keep their length, so the two loops agree
  have hagr : ∀ (its : List Nat) (s : List (List α)), (∀ i ∈ its, i < (pts a).length) →
      s.length = (pts a).length → (∀ row ∈ s, row.length = ncomp) →
      runItems (qpSetStep a ncomp q loc) its s =
        runItems (fun i s => match dl i with | none => some s | some d => st s d (V i)) its s ∧
      ∀ s', runItems (qpSetStep a ncomp q loc) its s = some s' → ∀ row ∈ s', row.length = ncomp := by
    intro its
    induction its with
    | nil =>
      intro s _ _ h3
      refine ⟨rfl, fun s' h => ?_⟩
      rw [runItems_nil] at h
      rw [← Option.some.inj h]
      exact h3
    | cons i is ih =>
      intro s h1 h2 h3
      have hi := h1 i List.mem_cons_self
      have hpi := List.getElem?_eq_getElem hi
      have hwi := List.getElem?_eq_getElem (show i < q.held.write.length by rw [hh.wlen]; exact hi)
      have hsi := List.getElem?_eq_getElem (show i < s.length by omega)
      rw [runItems_cons, runItems_cons]
      by_cases hr : ((pts a)[i]).rank = a
      · obtain ⟨v1, v2, v3⟩ := hVat i _ hpi hr
        have hw := hh.loc i _ hpi hr
        have hst : stRange s[i] 0 (V i) = some (V i) := by
          have := hrow
          have hl := h3 s[i] (List.getElem_mem _)
          rw [stRange_eq_some (by omega)]
          simp [v2, hl]
        have e1 : qpSetStep a ncomp q loc i s = st s i (V i) := by
          unfold qpSetStep
          simp only [rd, hpt, hpi, hw, Option.bind_some, if_pos hr, v1, hsi, hst]
        have e2 : dl i = some i := by simp only [dl, hpi, Option.bind_some, if_pos hr]
        simp only [e1, e2]
        rw [st_eq_some (by omega), Option.bind_some]
        refine ih _ (fun j hj => h1 j (List.mem_cons_of_mem _ hj)) (by simpa using h2) ?_
        intro row hm
        rcases List.mem_or_eq_of_mem_set hm with h | h
        · exact h3 row h
        · rw [h, v2]
      · have e1 : qpSetStep a ncomp q loc i s = some s := by
          unfold qpSetStep
          simp only [rd, hpt, hpi, hwi, Option.bind_some, if_neg hr]
        have e2 : dl i = none := by simp only [dl, hpi, Option.bind_some, if_neg hr]
        simp only [e1, e2, Option.bind_some]
        exact ih _ (fun j hj => h1 j (List.mem_cons_of_mem _ hj)) h2 h3
  obtain ⟨g1, g2⟩ := hagr items vals (fun i hi => List.mem_range.1 (hperm.mem_iff.1 hi)) hv hrow
  rw [r1] at g1
  refine ⟨vals', ?_, r2, g2 vals' g1, ?_⟩
  · unfold qpSet
    rw [hnp, if_pos ⟨hk, hin⟩, hsi, Option.bind_some, hst, Option.bind_some, hpt, ← hit]
    exact g1
  · intro i p h1
    have hi : i ∈ items := hperm.mem_iff.2 (List.mem_range.2 (List.getElem?_eq_some_iff.1 h1).1)
    constructor
    · intro h2
      exact ⟨V i, r3 i hi i (by simp only [dl, h1, Option.bind_some, if_pos h2]),
        (hVat i p h1 h2).2.2⟩
    · intro h2
      refine r4 i ?_
      intro j hj hd
      obtain ⟨p', p1, p2⟩ := Option.bind_eq_some_iff.1 hd
      split at p2
      · rename_i hr
        obtain rfl := Option.some.inj p2
        rw [h1] at p1
        exact h2 (by rw [Option.some.inj p1]; exact hr)
      · cases p2

/-- `interpolate` on one rank. -/
theorem qpInterp_ok (e : QpEnv α) (pts : List (QPoint α)) (fs : List (List α → α))
    {vals : List (List α)} (hv : vals.length = pts.length)
    (hrow : ∀ row ∈ vals, row.length = fs.length) :
    qpInterp e pts fs vals = some (pts.map fun p => fs.map fun f => f p.coords) := by
  have hperm := e.s0.perm (List.range pts.length)
  obtain ⟨items, hit⟩ : ∃ items, items = e.s0.order (List.range pts.length) := ⟨_, rfl⟩
  rw [← hit] at hperm
  let V : Nat → List α := fun i => match pts[i]? with
    | none => []
    | some p => fs.map fun f => f p.coords
  obtain ⟨vals', r1, r2, r3, -⟩ := runItems_put (items := items) (m := vals) (fun i => some i) V
    (step := fun i s => st s i (V i)) (fun i _ s _ => rfl) (by
      intro i hi j hj d h1 h2
      rw [Option.some.inj h1, Option.some.inj h2]) (by
      intro i hi d h1
      rw [← Option.some.inj h1, hv]; exact List.mem_range.1 (hperm.mem_iff.1 hi))
  have hagr : ∀ (its : List Nat) (s : List (List α)), (∀ i ∈ its, i < pts.length) →
      s.length = pts.length → (∀ row ∈ s, row.length = fs.length) →
      runItems (qpInterpStep pts fs) its s = runItems (fun i s => st s i (V i)) its s := by
    intro its
    induction its with
    | nil => intro s _ _ _; rfl
    | cons i is ih =>
      intro s h1 h2 h3
      have hi := h1 i List.mem_cons_self
      have hpi := List.getElem?_eq_getElem hi
      have hsi := List.getElem?_eq_getElem (show i < s.length by omega)
      have hV : V i = fs.map fun f => f (pts[i]).coords := by simp only [V, hpi]
      have hst : stRange s[i] 0 (V i) = some (V i) := by
        have hl := h3 s[i] (List.getElem_mem _)
        have hvl : (V i).length = fs.length := by rw [hV, List.length_map]
        rw [stRange_eq_some (by omega)]
        simp [hl, hvl]
      have e1 : qpInterpStep pts fs i s = st s i (V i) := by
        unfold qpInterpStep
        simp only [rd, hpi, hsi, Option.bind_some, ← hV, hst]
      rw [runItems_cons, runItems_cons, e1, st_eq_some (by omega), Option.bind_some,
        Option.bind_some]
      refine ih _ (fun j hj => h1 j (List.mem_cons_of_mem _ hj)) (by simpa using h2) ?_
      intro row hm
      rcases List.mem_or_eq_of_mem_set hm with h | h
      · exact h3 row h
      · rw [h, hV, List.length_map]
  unfold qpInterp
  rw [← hit, hagr items vals (fun i hi => List.mem_range.1 (hperm.mem_iff.1 hi)) hv hrow, r1]
  congr 1
  apply List.ext_getElem?
  intro i
  by_cases hi : i < pts.length
  · rw [r3 i (hperm.mem_iff.2 (List.mem_range.2 hi)) i rfl, List.getElem?_map,
      List.getElem?_eq_getElem hi, Option.map_some]
    simp only [V, List.getElem?_eq_getElem hi]
  · rw [List.getElem?_eq_none (by omega), List.getElem?_eq_none (by rw [List.length_map]; omega)]

end NP
