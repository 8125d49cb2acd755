import Verif.Points.Model
import Verif.Basics.Lemmas
import Verif.Common.Atomic
import Verif.Comm.LemmasExchange
import Mathlib.Data.List.Induction

/-! # What a rank knows about the quadrature points that it holds -/

set_option autoImplicit false

namespace NP

variable {α : Type}

/-! ## The map from ranks to indices -/

/-- The number of entries for a key. -/
def mapCount (m : List (Nat × List Nat)) (k : Nat) : Nat :=
  ((m.filter fun x => x.1 = k).map fun x => x.2.length).sum

theorem mem_mapPush {r v k : Nat} {m : List (Nat × List Nat)} :
    k ∈ (mapPush r v m).map Prod.fst ↔ k = r ∨ k ∈ m.map Prod.fst := by
  induction m with
  | nil => simp [mapPush]
  | cons x m ih =>
    obtain ⟨a, l⟩ := x
    unfold mapPush
    by_cases h1 : r < a
    · rw [if_pos h1]; simp
    · rw [if_neg h1]
      by_cases h2 : r = a
      · rw [if_pos h2]; simp [h2]
      · rw [if_neg h2, List.map_cons, List.mem_cons, ih]; simp; tauto

theorem sorted_mapPush {r v : Nat} {m : List (Nat × List Nat)}
    (h : (m.map Prod.fst).Pairwise (· < ·)) : ((mapPush r v m).map Prod.fst).Pairwise (· < ·) := by
  induction m with
  | nil => simp [mapPush]
  | cons x m ih =>
    obtain ⟨a, l⟩ := x
    rw [List.map_cons, List.pairwise_cons] at h
    unfold mapPush
    by_cases h1 : r < a
    · rw [if_pos h1, List.map_cons, List.map_cons, List.pairwise_cons, List.pairwise_cons]
      refine ⟨?_, h⟩
      intro b hb
      rcases List.mem_cons.1 hb with rfl | hb
      · exact h1
      · exact Nat.lt_trans h1 (h.1 b hb)
    · rw [if_neg h1]
      by_cases h2 : r = a
      · rw [if_pos h2, List.map_cons, List.pairwise_cons]; exact h
      · rw [if_neg h2, List.map_cons, List.pairwise_cons]
        refine ⟨?_, ih h.2⟩
        intro b hb
        rcases mem_mapPush.1 hb with rfl | hb
        · show a < b; omega
        · exact h.1 b hb

theorem mapCount_mapPush {r v k : Nat} {m : List (Nat × List Nat)} :
    mapCount (mapPush r v m) k = mapCount m k + if r = k then 1 else 0 := by
  induction m with
  | nil =>
    unfold mapPush mapCount
    by_cases h : r = k <;> simp [h]
  | cons x m ih =>
    obtain ⟨a, l⟩ := x
    unfold mapPush
    by_cases h1 : r < a
    · rw [if_pos h1]
      unfold mapCount
      by_cases h : r = k
      · simp [h]; omega
      · simp [h]
    · rw [if_neg h1]
      by_cases h2 : r = a
      · rw [if_pos h2]
        subst h2
        unfold mapCount
        by_cases h : r = k
        · simp [h]; omega
        · simp [h]
      · rw [if_neg h2]
        have : ∀ m', mapCount ((a, l) :: m') k = (if a = k then l.length else 0) + mapCount m' k := by
          intro m'
          unfold mapCount
          by_cases h : a = k <;> simp [h]
        rw [this, this, ih]; omega

theorem total_mapPush {r v : Nat} {m : List (Nat × List Nat)} :
    ((mapPush r v m).map fun x => x.2.length).sum = (m.map fun x => x.2.length).sum + 1 := by
  induction m with
  | nil => simp [mapPush]
  | cons x m ih =>
    obtain ⟨a, l⟩ := x
    unfold mapPush
    by_cases h1 : r < a
    · rw [if_pos h1]; simp; omega
    · rw [if_neg h1]
      by_cases h2 : r = a
      · rw [if_pos h2]; simp; omega
      · rw [if_neg h2, List.map_cons, List.sum_cons, ih, List.map_cons, List.sum_cons]; omega

theorem mapCount_of_mem {m : List (Nat × List Nat)} (h : (m.map Prod.fst).Pairwise (· < ·))
    {x : Nat × List Nat} (hx : x ∈ m) : x.2.length = mapCount m x.1 := by
  induction m with
  | nil => simp at hx
  | cons y m ih =>
    rw [List.map_cons, List.pairwise_cons] at h
    unfold mapCount
    rcases List.mem_cons.1 hx with rfl | hx
    · have : m.filter (fun y => decide (y.1 = x.1)) = [] := by
        rw [List.filter_eq_nil_iff]
        intro z hz hh
        have := h.1 z.1 (List.mem_map.2 ⟨z, hz, rfl⟩)
        simp at hh
        omega
      simp [this]
    · have h1 := h.1 x.1 (List.mem_map.2 ⟨x, hx, rfl⟩)
      have h2 := ih h.2 hx
      unfold mapCount at h2
      rw [List.filter_cons_of_neg (by simp; omega)]
      exact h2

/-- The map that groups the remote points. -/
theorem group_spec (L : List QpRemote) {m : List (Nat × List Nat)}
    (hm : m = L.foldl (fun m p => mapPush p.rank p.index m) []) :
    (m.map Prod.fst).Pairwise (· < ·) ∧ (∀ r, r ∈ m.map Prod.fst ↔ ∃ p ∈ L, p.rank = r) ∧
      (∀ k, mapCount m k = (L.filter fun p => p.rank = k).length) ∧
      (m.map fun x => x.2.length).sum = L.length := by
  subst hm
  induction L using List.reverseRecOn with
  | nil => simp [mapCount]
  | append_singleton L p ih =>
    obtain ⟨h1, h2, h3, h4⟩ := ih
    rw [List.foldl_append, List.foldl_cons, List.foldl_nil]
    refine ⟨sorted_mapPush h1, ?_, ?_, ?_⟩
    · intro r
      rw [mem_mapPush, h2]
      simp only [List.mem_append, List.mem_singleton]
      constructor
      · rintro (rfl | ⟨q, hq, rfl⟩)
        · exact ⟨p, Or.inr rfl, rfl⟩
        · exact ⟨q, Or.inl hq, rfl⟩
      · rintro ⟨q, hq | rfl, rfl⟩
        · exact Or.inr ⟨q, hq, rfl⟩
        · exact Or.inl rfl
    · intro k
      rw [mapCount_mapPush, h3, List.filter_append, List.length_append]
      by_cases h : p.rank = k <;> simp [h]
    · rw [total_mapPush, h4, List.length_append]; rfl

/-! ## Segments -/

theorem take_sum_succ {l : List Nat} {j c : Nat} (h : l[j]? = some c) :
    (l.take (j + 1)).sum = (l.take j).sum + c := by
  rw [List.take_add_one, List.sum_append, h]
  simp

theorem take_sum_mono (l : List Nat) {i j : Nat} (h : i ≤ j) : (l.take i).sum ≤ (l.take j).sum := by
  induction l generalizing i j with
  | nil => simp
  | cons a l ih =>
    cases i with
    | zero => simp
    | succ i =>
      cases j with
      | zero => omega
      | succ j =>
        simp only [List.take_succ_cons, List.sum_cons]
        have := ih (i := i) (j := j) (by omega)
        omega

theorem take_sum_le (l : List Nat) (i : Nat) : (l.take i).sum ≤ l.sum := by
  have := take_sum_mono l (i := i) (j := i + l.length) (by omega)
  rwa [List.take_of_length_le (i := i + l.length) (by omega)] at this

/-- Segments do not overlap. -/
theorem segment_unique {l : List Nat} {i j c d k m : Nat} (hi : l[i]? = some c)
    (hj : l[j]? = some d) (hk : k < c) (hm : m < d)
    (h : (l.take i).sum + k = (l.take j).sum + m) : i = j ∧ k = m := by
  have h1 := take_sum_succ hi
  have h2 := take_sum_succ hj
  rcases Nat.lt_trichotomy i j with hh | hh | hh
  · have := take_sum_mono l (i := i + 1) (j := j) hh; omega
  · subst hh; exact ⟨rfl, by omega⟩
  · have := take_sum_mono l (i := j + 1) (j := i) hh; omega

/-- Every position is in a segment. -/
theorem segment_exists {l : List Nat} {w : Nat} (h : w < l.sum) :
    ∃ j c k, l[j]? = some c ∧ k < c ∧ w = (l.take j).sum + k := by
  induction l generalizing w with
  | nil => simp at h
  | cons a l ih =>
    rw [List.sum_cons] at h
    by_cases hw : w < a
    · exact ⟨0, a, w, rfl, hw, by simp⟩
    · obtain ⟨j, c, k, h1, h2, h3⟩ := ih (w := w - a) (by omega)
      refine ⟨j + 1, c, k, h1, h2, ?_⟩
      rw [List.take_succ_cons, List.sum_cons]; omega

theorem segment_lt {l : List Nat} {j c k : Nat} (h : l[j]? = some c) (hk : k < c) :
    (l.take j).sum + k < l.sum := by
  have := take_sum_succ h
  have := take_sum_le l (j + 1)
  omega

/-! ## The first loop -/

/-- The rank that added point `i`, if it is another one. -/
def qpKey (me : Nat) (pts : List (QPoint α)) (i : Nat) : Option Nat :=
  (pts[i]?).bind fun p => if p.rank ≠ me then some p.rank else none

theorem qpKey_some {me : Nat} {pts : List (QPoint α)} {i r : Nat} :
    qpKey me pts i = some r ↔ ∃ p, pts[i]? = some p ∧ p.rank = r ∧ r ≠ me := by
  unfold qpKey
  cases pts[i]? with
  | none => simp
  | some p =>
    by_cases h : p.rank ≠ me
    · simp only [Option.bind_some, if_pos h, Option.some.injEq, exists_eq_left']
      constructor
      · rintro rfl; exact ⟨rfl, h⟩
      · rintro ⟨rfl, -⟩; rfl
    · simp only [Option.bind_some, if_neg h, Option.some.injEq, exists_eq_left']
      constructor
      · intro h; simp at h
      · rintro ⟨rfl, h2⟩; exact absurd h2 h

/-- All remote points use the same counter. -/
def qpKey0 (me : Nat) (pts : List (QPoint α)) (i : Nat) : Option Nat :=
  (qpKey me pts i).map fun _ => 0

theorem loop0_spec (me : Nat) (pts : List (QPoint α)) {items : List Nat}
    (hp : items.Perm (List.range pts.length)) {remote : List QpRemote} {tmp : List Nat}
    (hr : remote.length = pts.length) (ht : tmp.length = pts.length) :
    ∃ remote' tmp', runItems (qpStep0 me pts) items ([0], remote, tmp) =
        some ([keyCount (qpKey0 me pts) items 0], remote', tmp') ∧
      remote'.length = pts.length ∧ tmp'.length = pts.length ∧
      keyCount (qpKey0 me pts) items 0 ≤ pts.length ∧
      (∀ (i : Nat) (p : QPoint α), pts[i]? = some p → p.rank ≠ me →
        ∃ t, t < keyCount (qpKey0 me pts) items 0 ∧ tmp'[i]? = some t) ∧
      ∃ L, slice remote' 0 (keyCount (qpKey0 me pts) items 0) = some L ∧
        L.length = keyCount (qpKey0 me pts) items 0 ∧
        (L.map QpRemote.rank) = (items.filterMap (qpKey me pts)) := by
  have hnd : items.Nodup := hp.nodup_iff.2 List.nodup_range
  have hmem : ∀ i ∈ items, ∃ p, pts[i]? = some p := by
    intro i hi
    have := List.mem_range.1 (hp.mem_iff.1 hi)
    exact ⟨pts[i], List.getElem?_eq_getElem this⟩
  generalize hK : keyCount (qpKey0 me pts) items 0 = K
  have hKle : K ≤ pts.length := by
    rw [← hK]
    unfold keyCount
    refine Nat.le_trans (List.length_filter_le _ _) ?_
    rw [hp.length_eq, List.length_range]
  have hk0 : ∀ i, qpKey0 me pts i = some 0 ↔ ∃ p, pts[i]? = some p ∧ p.rank ≠ me := by
    intro i
    unfold qpKey0
    cases h : qpKey me pts i with
    | none =>
      simp only [Option.map_none]
      constructor
      · intro hh; simp at hh
      · rintro ⟨p, h1, h2⟩
        rw [qpKey_some.2 ⟨p, h1, rfl, h2⟩] at h
        simp at h
    | some r =>
      obtain ⟨p, h1, h2, h3⟩ := qpKey_some.1 h
      simp only [Option.map_some, true_iff]
      exact ⟨p, h1, h2 ▸ h3⟩
  have hk0n : ∀ i p, pts[i]? = some p → p.rank = me → qpKey0 me pts i = none := by
    intro i p h1 h2
    unfold qpKey0 qpKey
    rw [h1]; simp [h2]
  let store : Nat → Nat → List QpRemote × List Nat → Option (List QpRemote × List Nat) :=
    fun i v s => (rd pts i).bind fun p =>
      (st s.1 v ⟨p.rank, p.index, 0⟩).bind fun remote =>
      (st s.2 i v).bind fun tmp => some (remote, tmp)
  have e1 : runItems (qpStep0 me pts) items ([0], remote, tmp) =
      runItems (fetchStep (qpKey0 me pts) store (fun _ s => some s)) items ([0], remote, tmp) := by
    refine runItems_congr ?_ _
    intro i hi s
    obtain ⟨p, hp1⟩ := hmem i hi
    unfold qpStep0 fetchStep
    by_cases hr : p.rank ≠ me
    · rw [(hk0 i).2 ⟨p, hp1, hr⟩]
      simp only [rd, hp1, Option.bind_some, if_pos hr, store]
      cases fetchAdd s.1 0 with
      | none => rfl
      | some x =>
        simp only [Option.bind_some]
        cases st s.2.1 x.1 (⟨p.rank, p.index, 0⟩ : QpRemote) with
        | none => rfl
        | some y =>
          simp only [Option.bind_some]
          cases st s.2.2 i x.1 <;> rfl
    · rw [hk0n i p hp1 (by simpa using hr)]
      simp only [rd, hp1, Option.bind_some, if_neg hr]
  rw [e1, runItems_fetch hnd (by
    intro i hi c hc
    unfold qpKey0 at hc
    obtain ⟨r, -, h⟩ := Option.map_eq_some_iff.1 hc
    rw [← h]; simp)]
  have hrk : ∀ i ∈ items, ∀ p, pts[i]? = some p → p.rank ≠ me →
      rank (qpKey0 me pts) items i < K := by
    intro i hi p h1 h2
    rw [← hK]
    exact rank_lt hi ((hk0 i).2 ⟨p, h1, h2⟩)
  obtain ⟨remote', f1, f2, f3, -⟩ := runItems_put (items := items) (m := remote)
    (step := fun i s => match qpKey0 me pts i with
      | none => some s
      | some _ => (rd pts i).bind fun p => st s (rank (qpKey0 me pts) items i)
          ⟨p.rank, p.index, 0⟩)
    (fun i => (qpKey0 me pts i).map fun _ => rank (qpKey0 me pts) items i)
    (fun i => match pts[i]? with
      | some p => ⟨p.rank, p.index, 0⟩
      | none => ⟨0, 0, 0⟩) (by
      intro i hi a ha
      obtain ⟨p, hp1⟩ := hmem i hi
      cases h : qpKey0 me pts i with
      | none => rfl
      | some c => simp [rd, hp1]) (by
      intro i hi j hj d h1 h2
      obtain ⟨c, c1, rfl⟩ := Option.map_eq_some_iff.1 h1
      obtain ⟨c', c2, c3⟩ := Option.map_eq_some_iff.1 h2
      have z1 : c = 0 := by
        obtain ⟨_, _, h⟩ := Option.map_eq_some_iff.1 c1
        exact h.symm
      have z2 : c' = 0 := by
        obtain ⟨_, _, h⟩ := Option.map_eq_some_iff.1 c2
        exact h.symm
      subst z1; subst z2
      rw [rank_inj hj c2 c1 c3]) (by
      intro i hi d h1
      obtain ⟨c, c1, rfl⟩ := Option.map_eq_some_iff.1 h1
      have z1 : c = 0 := by
        obtain ⟨_, _, h⟩ := Option.map_eq_some_iff.1 c1
        exact h.symm
      subst z1
      obtain ⟨p, p1, p2⟩ := (hk0 i).1 c1
      have := hrk i hi p p1 p2
      omega)
  obtain ⟨tmp', g1, g2, g3, -⟩ := runItems_put (items := items) (m := tmp)
    (step := fun i s => match qpKey0 me pts i with
      | none => some s
      | some _ => st s i (rank (qpKey0 me pts) items i))
    (fun i => (qpKey0 me pts i).map fun _ => i)
    (fun i => rank (qpKey0 me pts) items i) (by
      intro i hi a ha
      cases h : qpKey0 me pts i with
      | none => rfl
      | some c => rfl) (by
      intro i hi j hj d h1 h2
      obtain ⟨c, c1, rfl⟩ := Option.map_eq_some_iff.1 h1
      obtain ⟨c', c2, c3⟩ := Option.map_eq_some_iff.1 h2
      rw [c3]) (by
      intro i hi d h1
      obtain ⟨c, c1, rfl⟩ := Option.map_eq_some_iff.1 h1
      have := List.mem_range.1 (hp.mem_iff.1 hi)
      omega)
  rw [runItems_prod (f := fun i s => match qpKey0 me pts i with
      | none => some s
      | some _ => (rd pts i).bind fun p => st s (rank (qpKey0 me pts) items i)
          ⟨p.rank, p.index, 0⟩) (g := fun i s => match qpKey0 me pts i with
      | none => some s
      | some _ => st s i (rank (qpKey0 me pts) items i)) (s' := remote') (t' := tmp') (by
      intro i hi s t
      obtain ⟨p, hp1⟩ := hmem i hi
      cases h : qpKey0 me pts i with
      | none => rfl
      | some c =>
        have z1 : c = 0 := by
          obtain ⟨_, _, h⟩ := Option.map_eq_some_iff.1 h
          exact h.symm
        subst z1
        simp [store, rd, hp1]) f1 g1]
  have hctr : addCounts (qpKey0 me pts) items [0] = [K] := by
    unfold addCounts
    simp [hK]
  have hsl : slice remote' 0 K = some ((remote'.drop 0).take (K - 0)) :=
    slice_eq_some (by omega) (by omega)
  refine ⟨remote', tmp', by rw [Option.map_some, hctr], by omega, by omega, hKle, ?_, _, hsl, ?_, ?_⟩
  · intro i p h1 h2
    have hi : i ∈ items := hp.mem_iff.2 (List.mem_range.2 (List.getElem?_eq_some_iff.1 h1).1)
    exact ⟨_, hrk i hi p h1 h2, g3 i hi i (by rw [(hk0 i).2 ⟨p, h1, h2⟩]; rfl)⟩
  · simp; omega
  · have hfm : items.filterMap (qpKey me pts) =
        (items.filter fun i => qpKey0 me pts i = some 0).map fun i =>
          ((pts[i]?).map QPoint.rank).getD 0 := by
      clear e1 f1 f3 g1 g3 hrk hsl hctr hK hKle hp hnd
      induction items with
      | nil => rfl
      | cons i is ih =>
        have ih := ih (fun j hj => hmem j (List.mem_cons_of_mem _ hj))
        obtain ⟨p, hp1⟩ := hmem i List.mem_cons_self
        by_cases hr : p.rank ≠ me
        · have h0 := (hk0 i).2 ⟨p, hp1, hr⟩
          have h1 := qpKey_some.2 ⟨p, hp1, rfl, hr⟩
          rw [List.filterMap_cons_some h1, List.filter_cons_of_pos (by simp [h0]), ih,
            List.map_cons, hp1]
          rfl
        · have h0 := hk0n i p hp1 (by simpa using hr)
          have h1 : qpKey me pts i = none := by
            unfold qpKey; rw [hp1, Option.bind_some, if_neg hr]
          rw [List.filterMap_cons_none h1, List.filter_cons_of_neg (by simp [h0]), ih]
    rw [hfm]
    have hKf : K = (items.filter fun i => decide (qpKey0 me pts i = some 0)).length := hK.symm
    apply List.ext_getElem?
    intro t
    by_cases ht : t < K
    · have hin : t < (items.filter fun i => decide (qpKey0 me pts i = some 0)).length := by omega
      have hm2 := List.getElem_mem hin
      rw [List.mem_filter] at hm2
      obtain ⟨hm3, hm4⟩ := hm2
      have hm4 := of_decide_eq_true hm4
      obtain ⟨p, p1, p2⟩ := (hk0 _).1 hm4
      have hrank : rank (qpKey0 me pts) items
          (items.filter fun i => decide (qpKey0 me pts i = some 0))[t] = t := by
        unfold rank
        rw [hm4]
        exact List.Nodup.idxOf_getElem (hnd.filter _) t hin
      have h3 := f3 _ hm3 t (by rw [hm4, Option.map_some, hrank])
      rw [p1] at h3
      rw [List.getElem?_map, List.getElem?_map, List.getElem?_eq_getElem hin, Option.map_some, p1,
        List.drop_zero, List.getElem?_take_of_lt (by omega), h3]
      rfl
    · rw [List.getElem?_eq_none (by simp; omega), List.getElem?_eq_none (by simp; omega)]

end NP
