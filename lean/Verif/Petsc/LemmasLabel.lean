import Verif.Petsc.SpecLabel
import Verif.Petsc.LemmasCell
import Verif.Comm.LemmasExchange
import Verif.Group.LemmasCounts

/-!
# Lemmas: labels for edges that are given by their vertices
-/

set_option autoImplicit false

namespace NP

open Spec

/-! ## Gathering -/

theorem sum_take_succ {ns : List Nat} {r : Nat} (h : r < ns.length) :
    (ns.take (r + 1)).sum = (ns.take r).sum + ns[r] := by
  rw [List.take_succ_eq_append_getElem h, List.sum_append]
  simp

theorem allgatherv_flatten (sends : List (List Int)) :
    allgatherv (sends.map List.length).sum (sends.map List.length) (exscanSums (sends.map List.length)) sends =
      some sends.flatten := by
  have key : ∃ s, runItems (fun r buf => (rd sends r).bind fun vs => (rd (sends.map List.length) r).bind fun n =>
      (rd (exscanSums (sends.map List.length)) r).bind fun d =>
      if vs.length = n then stRange buf d vs else none) (List.range sends.length)
      (List.replicate (sends.map List.length).sum (0 : Int)) = some s ∧
      s = (sends.take sends.length).flatten ++
        List.replicate ((sends.drop sends.length).map List.length).sum 0 := by
    rw [List.range_eq_range']
    refine forLoop_invariant (a := 0) (b := sends.length) (P := fun r s => s = (sends.take r).flatten ++
        List.replicate ((sends.drop r).map List.length).sum 0) (Nat.zero_le _) ?_ (by simp)
    intro r s _ hr hs
    have h1 : rd sends r = some sends[r] := List.getElem?_eq_getElem hr
    have h2 : rd (sends.map List.length) r = some sends[r].length := by
      unfold rd
      rw [List.getElem?_map, List.getElem?_eq_getElem hr]
      rfl
    have h3 : rd (exscanSums (sends.map List.length)) r = some ((sends.map List.length).take r).sum := by
      unfold rd exscanSums
      rw [List.getElem?_map, List.getElem?_range (by simpa using hr)]
      rfl
    have hlen : ((sends.map List.length).take r).sum = (sends.take r).flatten.length := by
      rw [List.length_flatten, List.map_take]
    have hdrop : sends.drop r = sends[r] :: sends.drop (r + 1) := List.drop_eq_getElem_cons hr
    rw [hdrop] at hs
    simp only [List.map_cons, List.sum_cons] at hs
    refine ⟨_, ?_, rfl⟩
    rw [h1]
    simp only [Option.bind_some]
    rw [h2]
    simp only [Option.bind_some]
    rw [h3]
    simp only [Option.bind_some, if_true]
    rw [stRange_eq_some (by
      rw [hs, hlen]
      simp only [List.length_append, List.length_replicate]
      omega)]
    congr 1
    rw [hs, hlen, List.take_left, List.take_succ_eq_append_getElem hr]
    rw [List.drop_append, List.drop_of_length_le (by omega), List.flatten_append]
    simp
  obtain ⟨s, e, hs⟩ := key
  unfold allgatherv
  rw [e, hs]
  simp

theorem flatten_get {α β γ : Type} : ∀ (as : List (List α)) (bs : List (List β)) (cs : List (List γ)),
    as.map List.length = bs.map List.length → as.map List.length = cs.map List.length →
    ∀ (x : α) (y : β) (z : γ),
    (∃ i : Nat, as.flatten[i]? = some x ∧ bs.flatten[i]? = some y ∧ cs.flatten[i]? = some z) ↔
    ∃ (r i : Nat) (a : List α) (b : List β) (c : List γ), as[r]? = some a ∧ bs[r]? = some b ∧
      cs[r]? = some c ∧ a[i]? = some x ∧ b[i]? = some y ∧ c[i]? = some z
  | [], [], [], _, _, x, y, z => by simp
  | a :: as, b :: bs, c :: cs, h1, h2, x, y, z => by
    simp only [List.map_cons, List.cons.injEq] at h1 h2
    have ih := flatten_get as bs cs h1.2 h2.2 x y z
    simp only [List.flatten_cons]
    constructor
    · rintro ⟨i, hx, hy, hz⟩
      by_cases hi : i < a.length
      · rw [List.getElem?_append_left hi] at hx
        rw [List.getElem?_append_left (by omega)] at hy hz
        exact ⟨0, i, a, b, c, rfl, rfl, rfl, hx, hy, hz⟩
      · rw [List.getElem?_append_right (by omega)] at hx hy hz
        rw [← h1.1] at hy
        rw [← h2.1] at hz
        obtain ⟨r, j, a', b', c', g1, g2, g3, g4⟩ := ih.1 ⟨_, hx, hy, hz⟩
        exact ⟨r + 1, j, a', b', c', g1, g2, g3, g4⟩
    · rintro ⟨r, i, a', b', c', g1, g2, g3, hx, hy, hz⟩
      cases r with
      | zero =>
        cases g1; cases g2; cases g3
        have hi := (List.getElem?_eq_some_iff.1 hx).1
        refine ⟨i, ?_, ?_, ?_⟩
        · rw [List.getElem?_append_left hi]; exact hx
        · rw [List.getElem?_append_left (by omega)]; exact hy
        · rw [List.getElem?_append_left (by omega)]; exact hz
      | succ r =>
        obtain ⟨j, hx', hy', hz'⟩ := ih.2 ⟨r, i, a', b', c', g1, g2, g3, hx, hy, hz⟩
        refine ⟨a.length + j, ?_, ?_, ?_⟩
        · rw [List.getElem?_append_right (by omega), Nat.add_sub_cancel_left]; exact hx'
        · rw [h1.1, List.getElem?_append_right (by omega), Nat.add_sub_cancel_left]; exact hy'
        · rw [h2.1, List.getElem?_append_right (by omega), Nat.add_sub_cancel_left]; exact hz'

/-! ## One rank -/

theorem setIntersection_mem (s t : List Int) (hs : s.Pairwise (· < ·)) (ht : t.Pairwise (· < ·)) (x : Int) :
    x ∈ stdSetIntersection s t ↔ x ∈ s ∧ x ∈ t := by
  fun_induction stdSetIntersection s t with
  | case1 a as b bs hab ih =>
    rw [ih (List.pairwise_cons.1 hs).2 ht]
    constructor
    · rintro ⟨h1, h2⟩; exact ⟨List.mem_cons_of_mem _ h1, h2⟩
    · rintro ⟨h1, h2⟩
      refine ⟨?_, h2⟩
      rcases List.mem_cons.1 h1 with rfl | h1
      · rcases List.mem_cons.1 h2 with rfl | h2
        · omega
        · have := (List.pairwise_cons.1 ht).1 _ h2
          omega
      · exact h1
  | case2 a as b bs hab hba ih =>
    rw [ih hs (List.pairwise_cons.1 ht).2]
    constructor
    · rintro ⟨h1, h2⟩; exact ⟨h1, List.mem_cons_of_mem _ h2⟩
    · rintro ⟨h1, h2⟩
      refine ⟨h1, ?_⟩
      rcases List.mem_cons.1 h2 with rfl | h2
      · rcases List.mem_cons.1 h1 with rfl | h1
        · omega
        · have := (List.pairwise_cons.1 hs).1 _ h1
          omega
      · exact h2
  | case3 a as b bs hab hba ih =>
    have e : a = b := by omega
    subst e
    rw [List.mem_cons, ih (List.pairwise_cons.1 hs).2 (List.pairwise_cons.1 ht).2]
    constructor
    · rintro (rfl | ⟨h1, h2⟩)
      · exact ⟨by simp, by simp⟩
      · exact ⟨by simp [h1], by simp [h2]⟩
    · rintro ⟨h1, h2⟩
      rcases List.mem_cons.1 h1 with rfl | h1
      · exact Or.inl rfl
      · rcases List.mem_cons.1 h2 with rfl | h2
        · exact Or.inl rfl
        · exact Or.inr ⟨h1, h2⟩
  | case4 s t h =>
    cases s with
    | nil => simp
    | cons a s =>
      cases t with
      | nil => simp
      | cons b t => exact absurd rfl (h a s b t rfl)

theorem unsignedId_eq {k v : Int} : unsignedId k = v ↔ 0 ≤ v ∧ (k = v ∨ k = -v - 1) := by
  unfold unsignedId
  split <;> omega

theorem labelVertexMap_get {m : LabelRank} (h : LabelRankOk m) (v : Int) (l : Nat) :
    omGet (labelVertexMap m) v = some l ↔
      ∃ (i : Nat) (k : Int), m.numbers[i]? = some k ∧ unsignedId k = v ∧ l = m.vstart + i := by
  have key : ∀ (pre post : List Int), m.numbers = pre ++ post → ∀ o : OMap Nat,
      (∀ v l, omGet o v = some l ↔ ∃ (i : Nat) (k : Int), pre[i]? = some k ∧ unsignedId k = v ∧ l = m.vstart + i) →
      ∀ v l, omGet ((post.zipIdx pre.length).foldl
        (fun o ci => omPut o (unsignedId ci.1) (m.vstart + ci.2)) o) v = some l ↔
        ∃ (i : Nat) (k : Int), m.numbers[i]? = some k ∧ unsignedId k = v ∧ l = m.vstart + i := by
    intro pre post
    induction post generalizing pre with
    | nil => intro e o ho v l; rw [e]; simpa using ho v l
    | cons x post ih =>
      intro e o ho v l
      rw [List.zipIdx_cons, List.foldl_cons]
      have := ih (pre ++ [x]) (by simp [e]) (omPut o (unsignedId x) (m.vstart + pre.length)) (by
        intro v l
        rw [omGet_put]
        by_cases hv : unsignedId x = v
        · rw [if_pos hv]
          constructor
          · intro hh
            cases hh
            exact ⟨pre.length, x, by simp, hv, rfl⟩
          · rintro ⟨i, k, hi, hk, rfl⟩
            have h1 : m.numbers[i]? = some k := by
              rw [e, show pre ++ x :: post = (pre ++ [x]) ++ post by simp]
              rw [List.getElem?_append_left (List.getElem?_eq_some_iff.1 hi).1]
              exact hi
            have h2 : m.numbers[pre.length]? = some x := by rw [e]; simp
            have := h.inj i pre.length k x h1 h2 (by
              rw [unsignedId_eq] at hv hk
              omega)
            rw [this]
        · rw [if_neg hv, ho]
          constructor
          · rintro ⟨i, k, hi, hk, rfl⟩
            exact ⟨i, k, by rw [List.getElem?_append_left (List.getElem?_eq_some_iff.1 hi).1]; exact hi, hk, rfl⟩
          · rintro ⟨i, k, hi, hk, rfl⟩
            by_cases hlt : i < pre.length
            · rw [List.getElem?_append_left hlt] at hi
              exact ⟨i, k, hi, hk, rfl⟩
            · have hi' := hi
              rw [List.getElem?_append_right (by omega)] at hi
              have : i - pre.length = 0 := by
                have := (List.getElem?_eq_some_iff.1 hi).1
                simp at this
                omega
              rw [this] at hi
              cases hi
              exact absurd hk hv) v l
      rw [List.length_append] at this
      exact this
  exact key [] m.numbers rfl [] (by intro v l; simp [omGet]) v l

theorem labels_fold (ll : Int) : ∀ (ps : List Int) (lab : List (Int × Int)) (x : Int × Int),
    x ∈ ps.foldl (fun l p => setLabelValue l (p, ll)) lab ↔ x ∈ lab ∨ (x.1 ∈ ps ∧ x.2 = ll)
  | [], lab, x => by simp
  | p :: ps, lab, x => by
    rw [List.foldl_cons, labels_fold ll ps]
    have h1 : x ∈ setLabelValue lab (p, ll) ↔ x ∈ lab ∨ x = (p, ll) := by
      unfold setLabelValue
      split
      · rename_i hm
        constructor
        · exact Or.inl
        · rintro (h | rfl)
          · exact h
          · exact hm
      · simp
    rw [h1, Prod.ext_iff, List.mem_cons]
    tauto

/-- One requested edge on one rank. -/
theorem labelStep_spec {m : LabelRank} (h : LabelRankOk m) {starts ends labels : List Int} {ix : Nat}
    {vs ve ll : Int} (h1 : starts[ix]? = some vs) (h2 : ends[ix]? = some ve) (h3 : labels[ix]? = some ll)
    (s : List (Int × Int) × List Int) (hix : ix < s.2.length) :
    ∃ s', labelStep m starts ends labels ix s = some s' ∧ s'.2.length = s.2.length ∧
      (∀ x, x ∈ s'.1 ↔ x ∈ s.1 ∨ (Joins m vs ve x.1 ∧ x.2 = ll)) ∧
      (∀ j, j ≠ ix → s'.2[j]? = s.2[j]?) ∧
      ((∃ p, Joins m vs ve p) → s'.2[ix]? = some 1) ∧ ((¬ ∃ p, Joins m vs ve p) → s'.2[ix]? = s.2[ix]?) := by
  have hedge : ∀ v p, EdgeAtVertex m v p ↔ ∃ l sup, omGet (labelVertexMap m) v = some l ∧ m.support l = some sup ∧
      sup.Pairwise (· < ·) ∧ p ∈ sup := by
    intro v p
    constructor
    · rintro ⟨i, k, sup, hi, hk, hv, hs, hp⟩
      obtain ⟨sup', hs', hsort⟩ := h.support i (List.getElem?_eq_some_iff.1 hi).1
      rw [hs] at hs'
      cases hs'
      exact ⟨m.vstart + i, sup, (labelVertexMap_get h v _).2 ⟨i, k, hi, unsignedId_eq.2 ⟨hv, hk⟩, rfl⟩, hs,
        hsort, hp⟩
    · rintro ⟨l, sup, hl, hs, -, hp⟩
      obtain ⟨i, k, hi, hk, rfl⟩ := (labelVertexMap_get h v l).1 hl
      have := unsignedId_eq.1 hk
      exact ⟨i, k, sup, hi, this.2, this.1, hs, hp⟩
  have hsup : ∀ v l, omGet (labelVertexMap m) v = some l → ∃ sup, m.support l = some sup ∧ sup.Pairwise (· < ·) := by
    intro v l hl
    obtain ⟨i, k, hi, -, rfl⟩ := (labelVertexMap_get h v l).1 hl
    exact h.support i (List.getElem?_eq_some_iff.1 hi).1
  unfold labelStep rd
  rw [h1, h2, h3]
  simp only [Option.bind_some]
  have hnone : ((¬ ∃ p, Joins m vs ve p) → ∃ s', some s = some s' ∧ s'.2.length = s.2.length ∧
      (∀ x, x ∈ s'.1 ↔ x ∈ s.1 ∨ (Joins m vs ve x.1 ∧ x.2 = ll)) ∧
      (∀ j, j ≠ ix → s'.2[j]? = s.2[j]?) ∧
      ((∃ p, Joins m vs ve p) → s'.2[ix]? = some 1) ∧
      ((¬ ∃ p, Joins m vs ve p) → s'.2[ix]? = s.2[ix]?)) := by
    intro hno
    refine ⟨s, rfl, rfl, fun x => ?_, fun _ _ => rfl, fun hh => absurd hh hno, fun _ => rfl⟩
    constructor
    · exact Or.inl
    · rintro (hx | ⟨hx, -⟩)
      · exact hx
      · exact absurd ⟨_, hx⟩ hno
  cases hls : omGet (labelVertexMap m) vs with
  | none =>
    refine hnone ?_
    rintro ⟨p, hp, -⟩
    obtain ⟨l, sup, hl, -⟩ := (hedge vs p).1 hp
    rw [hls] at hl
    cases hl
  | some ls =>
    cases hle : omGet (labelVertexMap m) ve with
    | none =>
      refine hnone ?_
      rintro ⟨p, -, hp⟩
      obtain ⟨l, sup, hl, -⟩ := (hedge ve p).1 hp
      rw [hle] at hl
      cases hl
    | some le =>
      obtain ⟨ss, hss, hss'⟩ := hsup vs ls hls
      obtain ⟨se, hse, hse'⟩ := hsup ve le hle
      have hj : ∀ p, Joins m vs ve p ↔ p ∈ stdSetIntersection ss se := by
        intro p
        rw [setIntersection_mem _ _ hss' hse']
        constructor
        · rintro ⟨a, b⟩
          obtain ⟨l, sup, hl, hsu, -, hp⟩ := (hedge vs p).1 a
          rw [hls] at hl; cases hl
          rw [hss] at hsu; cases hsu
          obtain ⟨l', sup', hl', hsu', -, hp'⟩ := (hedge ve p).1 b
          rw [hle] at hl'; cases hl'
          rw [hse] at hsu'; cases hsu'
          exact ⟨hp, hp'⟩
        · rintro ⟨a, b⟩
          exact ⟨(hedge vs p).2 ⟨ls, ss, hls, hss, hss', a⟩, (hedge ve p).2 ⟨le, se, hle, hse, hse', b⟩⟩
      simp only [hss, hse, Option.bind_some]
      by_cases hb : (stdSetIntersection ss se).length ≠ 0
      · rw [if_pos hb]
        have hst : st s.2 ix 1 = some (s.2.set ix 1) := by unfold st; rw [if_pos hix]
        rw [hst]
        refine ⟨_, rfl, by simp, fun x => ?_, fun j hj => ?_, fun _ => ?_, fun hno => ?_⟩
        · show x ∈ (stdSetIntersection ss se).foldl (fun l p => setLabelValue l (p, ll)) s.1 ↔ _
          rw [labels_fold, hj]
        · show (s.2.set ix 1)[j]? = _
          rw [List.getElem?_set_ne (Ne.symm hj)]
        · show (s.2.set ix 1)[ix]? = _
          rw [List.getElem?_set_self hix]
        · exfalso
          obtain ⟨p, hp⟩ := List.exists_mem_of_length_pos (Nat.pos_of_ne_zero hb)
          exact hno ⟨p, (hj p).2 hp⟩
      · rw [if_neg hb]
        have hempty : stdSetIntersection ss se = [] := List.length_eq_zero_iff.1 (not_not.1 hb)
        rw [hempty] at hj ⊢
        refine ⟨_, rfl, rfl, fun x => ?_, fun _ _ => rfl, fun hh => ?_, fun _ => rfl⟩
        · show x ∈ s.1 ↔ _
          rw [hj]
          simp
        · obtain ⟨p, hp⟩ := hh
          exact absurd ((hj p).1 hp) (by simp)

/-- All requested edges on one rank. -/
theorem labelLoop_spec {m : LabelRank} (h : LabelRankOk m) {starts ends labels : List Int} {total : Nat}
    (h1 : starts.length = total) (h2 : ends.length = total) (h3 : labels.length = total)
    (before : List (Int × Int)) :
    ∃ s, forLoop 0 total (labelStep m starts ends labels) (before, List.replicate total 0) = some s ∧
      (∀ x, x ∈ s.1 ↔ x ∈ before ∨ ∃ (j : Nat) (vs ve : Int), starts[j]? = some vs ∧ ends[j]? = some ve ∧
        labels[j]? = some x.2 ∧ Joins m vs ve x.1) ∧
      ∀ (j : Nat) (vs ve : Int), starts[j]? = some vs → ends[j]? = some ve → ∃ f, s.2[j]? = some f ∧
        (f = 0 ∨ f = 1) ∧ (f = 1 ↔ ∃ p, Joins m vs ve p) := by
  obtain ⟨s, e, -, hm, hf⟩ := forLoop_invariant (a := 0) (b := total)
    (step := labelStep m starts ends labels) (s := (before, List.replicate total 0))
    (P := fun i s => s.2.length = total ∧
      (∀ x, x ∈ s.1 ↔ x ∈ before ∨ ∃ (j : Nat) (vs ve : Int), j < i ∧ starts[j]? = some vs ∧
        ends[j]? = some ve ∧ labels[j]? = some x.2 ∧ Joins m vs ve x.1) ∧
      ∀ (j : Nat) (vs ve : Int), starts[j]? = some vs → ends[j]? = some ve → ∃ f, s.2[j]? = some f ∧
        (f = 0 ∨ f = 1) ∧ (f = 1 ↔ j < i ∧ ∃ p, Joins m vs ve p)) (Nat.zero_le _)
    (by
      intro i s _ hi ⟨hlen, hm, hf⟩
      have e1 : starts[i]? = some starts[i] := List.getElem?_eq_getElem (by omega)
      have e2 : ends[i]? = some ends[i] := List.getElem?_eq_getElem (by omega)
      have e3 : labels[i]? = some labels[i] := List.getElem?_eq_getElem (by omega)
      obtain ⟨s', g1, g2, g3, g4, g5, g6⟩ := labelStep_spec h e1 e2 e3 s (by omega)
      refine ⟨s', g1, by omega, fun x => ?_, fun j vs ve hj1 hj2 => ?_⟩
      · rw [g3, hm]
        constructor
        · rintro ((hx | ⟨j, vs, ve, hj, a, b, c, d⟩) | ⟨hx, hl⟩)
          · exact Or.inl hx
          · exact Or.inr ⟨j, vs, ve, by omega, a, b, c, d⟩
          · exact Or.inr ⟨i, _, _, by omega, e1, e2, by rw [hl]; exact e3, hx⟩
        · rintro (hx | ⟨j, vs, ve, hj, a, b, c, d⟩)
          · exact Or.inl (Or.inl hx)
          · by_cases hji : j < i
            · exact Or.inl (Or.inr ⟨j, vs, ve, hji, a, b, c, d⟩)
            · obtain rfl : j = i := by omega
              rw [e1] at a; cases a
              rw [e2] at b; cases b
              rw [e3] at c
              exact Or.inr ⟨d, (Option.some.inj c).symm⟩
      · obtain ⟨f, hf1, hf2, hf3⟩ := hf j vs ve hj1 hj2
        by_cases hji : j = i
        · subst hji
          rw [e1] at hj1; cases hj1
          rw [e2] at hj2; cases hj2
          by_cases hp : ∃ p, Joins m starts[j] ends[j] p
          · exact ⟨1, g5 hp, Or.inr rfl, by simp [hp]⟩
          · refine ⟨f, (g6 hp).trans hf1, hf2, ?_⟩
            rw [hf3]
            constructor
            · rintro ⟨a, -⟩; omega
            · rintro ⟨-, b⟩; exact absurd b hp
        · refine ⟨f, (g4 j hji).trans hf1, hf2, ?_⟩
          rw [hf3]
          have : j < i ↔ j < i + 1 := by omega
          rw [this])
    ⟨by simp, by simp, by
      intro j vs ve hj1 _
      have := (List.getElem?_eq_some_iff.1 hj1).1
      exact ⟨0, by rw [List.getElem?_replicate, if_pos (by omega)], Or.inl rfl, by simp⟩⟩
  refine ⟨s, e, fun x => ?_, fun j vs ve hj1 hj2 => ?_⟩
  · rw [hm]
    constructor
    · rintro (hx | ⟨j, vs, ve, -, r⟩)
      · exact Or.inl hx
      · exact Or.inr ⟨j, vs, ve, r⟩
    · rintro (hx | ⟨j, vs, ve, r⟩)
      · exact Or.inl hx
      · exact Or.inr ⟨j, vs, ve, by have := (List.getElem?_eq_some_iff.1 r.1).1; omega, r⟩
  · obtain ⟨f, hf1, hf2, hf3⟩ := hf j vs ve hj1 hj2
    refine ⟨f, hf1, hf2, ?_⟩
    rw [hf3]
    have := (List.getElem?_eq_some_iff.1 hj1).1
    constructor
    · exact fun hh => hh.2
    · exact fun hh => ⟨by omega, hh⟩

end NP
