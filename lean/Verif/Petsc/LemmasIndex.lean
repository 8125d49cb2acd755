import Verif.Petsc.LemmasHalo

/-!
# Lemmas: the numbering of the points of a halo
-/

set_option autoImplicit false

namespace NP

open Spec

/-- Depths of points, with any cache of correct depths. -/
theorem repDepth_spec {g : GMesh} {ndim ks : Nat} (hg : GMeshOk g ndim ks) {c0 : Int} :
    ∀ (fuel : Nat) (c : StdCell) (p : Int),
      (∀ p v, omGet c.cones p = some v ↔ InClosure g c0 p ∧ v = g.cone p) →
      (∀ p d, omGet c.depthOf p = some d → d = g.depth p) → InClosure g c0 p → g.depth p < fuel →
      ∃ c', repDepth fuel c p = some (g.depth p, c') ∧ c'.cones = c.cones ∧
        ∀ p d, omGet c'.depthOf p = some d → d = g.depth p
  | 0, _, _, _, _, _, h => by omega
  | fuel + 1, c, p, hc, hd, hp, hf => by
    unfold repDepth
    rw [(hc p _).2 ⟨hp, rfl⟩]
    simp only [Option.bind_some]
    cases hcache : omGet c.depthOf p with
    | some d =>
      rw [hd p d hcache]
      exact ⟨c, rfl, rfl, hd⟩
    | none =>
      cases hcone : g.cone p with
      | nil =>
        rw [(hg.vertex p).1 hcone]
        exact ⟨c, rfl, rfl, hd⟩
      | cons q qs =>
        have hq : q ∈ g.cone p := by rw [hcone]; simp
        have hl := hg.lower p q hq
        obtain ⟨c', e1, e2, e3⟩ := repDepth_spec hg fuel c q hc hd (.cone hp hq) (by omega)
        refine ⟨{ c' with depthOf := omPut c'.depthOf p (g.depth q + 1) }, ?_, e2, ?_⟩
        · show (repDepth fuel c q).bind _ = _
          rw [e1]
          simp only [Option.bind_some]
          rw [hl]
        · intro p' d hpd
          rw [omGet_put] at hpd
          by_cases e : p = p'
          · rw [if_pos e] at hpd
            cases hpd
            rw [← e]
            exact hl
          · rw [if_neg e] at hpd
            exact e3 p' d hpd

/-- The points of the cells with their depths. -/
theorem haloDepths_spec {g : GMesh} {ndim ks : Nat} (hg : GMeshOk g ndim ks) {fuel : Nat}
    (ids : List Int) (reps : List StdCell)
    (hreps : List.Forall₂ (fun r c => CellIs r g c ∧ OMapOk r.cones ∧ r.depthOf = []) reps ids)
    (hf : ∀ c ∈ ids, ∀ p, InClosure g c p → g.depth p < fuel) :
    ∃ pts, haloDepths fuel reps = some pts ∧ pts.Pairwise (fun a b => pairLt a b = true) ∧
      ∀ y, y ∈ pts ↔ y.1 = g.depth y.2 ∧ ∃ c ∈ ids, InClosure g c y.2 := by
  have key : ∀ (reps : List StdCell) (ids : List Int) (m : List (Nat × Int)),
      List.Forall₂ (fun r c => CellIs r g c ∧ OMapOk r.cones ∧ r.depthOf = []) reps ids →
      (∀ c ∈ ids, ∀ p, InClosure g c p → g.depth p < fuel) →
      m.Pairwise (fun a b => pairLt a b = true) →
      ∃ pts, reps.foldlM (fun m c =>
        (c.cones.foldlM (fun (s : List (Nat × Int) × StdCell) px =>
          (repDepth fuel s.2 px.1).bind fun (d, c) => some (psIns s.1 (d, px.1), c)) (m, c)).map (·.1)) m
          = some pts ∧ pts.Pairwise (fun a b => pairLt a b = true) ∧
        ∀ y, y ∈ pts ↔ y ∈ m ∨ (y.1 = g.depth y.2 ∧ ∃ c ∈ ids, InClosure g c y.2) := by
    intro reps
    induction reps with
    | nil =>
      intro ids m h _ hm
      cases h
      exact ⟨m, rfl, hm, fun y => by simp⟩
    | cons r reps ih =>
      intro ids m h hf hm
      cases h with
      | @cons _ c _ ids' hr hrest =>
      obtain ⟨his, hok, hcache⟩ := hr
      obtain ⟨s, s1, s2, s3, s4, s5⟩ := foldlM_inv (fun (s : List (Nat × Int) × StdCell)
          (px : Int × List Int) =>
          (repDepth fuel s.2 px.1).bind fun (d, c) => some (psIns s.1 (d, px.1), c))
        (fun pre s => s.2.cones = r.cones ∧ (∀ p d, omGet s.2.depthOf p = some d → d = g.depth p) ∧
          s.1.Pairwise (fun a b => pairLt a b = true) ∧
          ∀ y, y ∈ s.1 ↔ y ∈ m ∨ (y.1 = g.depth y.2 ∧ ∃ e ∈ pre, e.1 = y.2)) r.cones (m, r)
        ⟨rfl, (by rw [hcache]; intro p d hh; cases hh), hm, fun y => by simp⟩ (by
          intro pre px post s hl ⟨i1, i2, i3, i4⟩
          have hpx : (px.1, px.2) ∈ r.cones := by rw [hl]; simp
          have hin := ((his.cones px.1 px.2).1 (omGet_of_mem hok hpx)).1
          obtain ⟨c', e1, e2, e3⟩ := repDepth_spec hg (c0 := c) fuel s.2 px.1
            (by rw [i1]; exact his.cones) i2 hin (hf c List.mem_cons_self px.1 hin)
          refine ⟨(psIns s.1 (g.depth px.1, px.1), c'), ?_, by rw [e2, i1], e3,
            psIns_sorted_int _ _ i3, ?_⟩
          · rw [e1]
            rfl
          · intro y
            show y ∈ psIns s.1 (g.depth px.1, px.1) ↔ _
            rw [mem_psIns, i4]
            constructor
            · rintro (rfl | hy | ⟨hy, e, he, hey⟩)
              · exact .inr ⟨rfl, px, by simp, rfl⟩
              · exact .inl hy
              · exact .inr ⟨hy, e, List.mem_append_left _ he, hey⟩
            · rintro (hy | ⟨hy, e, he, hey⟩)
              · exact .inr (.inl hy)
              · rcases List.mem_append.1 he with he | he
                · exact .inr (.inr ⟨hy, e, he, hey⟩)
                · rw [List.mem_singleton] at he
                  subst he
                  exact .inl (Prod.ext (by rw [hy, hey]) hey.symm))
      obtain ⟨pts, p1, p2, p3⟩ := ih ids' s.1 hrest (fun c' h' => hf c' (List.mem_cons_of_mem _ h')) s4
      refine ⟨pts, ?_, p2, ?_⟩
      · rw [List.foldlM_cons, s1]
        exact p1
      · intro y
        rw [p3, s5]
        have hkeys : (∃ e ∈ r.cones, e.1 = y.2) ↔ InClosure g c y.2 := by
          constructor
          · rintro ⟨e, he, hey⟩
            rw [← hey]
            exact ((his.cones e.1 e.2).1 (omGet_of_mem hok he)).1
          · intro hin
            exact ⟨_, omGet_some_mem ((his.cones y.2 _).2 ⟨hin, rfl⟩), rfl⟩
        rw [hkeys]
        constructor
        · rintro ((hy | ⟨hy, hin⟩) | ⟨hy, c', hc', hin⟩)
          · exact .inl hy
          · exact .inr ⟨hy, c, List.mem_cons_self, hin⟩
          · exact .inr ⟨hy, c', List.mem_cons_of_mem _ hc', hin⟩
        · rintro (hy | ⟨hy, c', hc', hin⟩)
          · exact .inl (.inl hy)
          · rcases List.mem_cons.1 hc' with rfl | hc'
            · exact .inl (.inr ⟨hy, hin⟩)
            · exact .inr ⟨hy, c', hc', hin⟩
  obtain ⟨pts, p1, p2, p3⟩ := key reps ids [] hreps hf List.Pairwise.nil
  refine ⟨pts, p1, p2, fun y => ?_⟩
  rw [p3]
  simp

/-- Number of points of depth less than `d`. -/
def below (pts : List (Nat × Int)) (d : Nat) : Nat := pts.countP (fun x => decide (x.1 < d))

theorem below_succ (pts : List (Nat × Int)) (d : Nat) :
    below pts (d + 1) = below pts d + pts.countP (fun x => x.1 == d) := by
  unfold below
  induction pts with
  | nil => rfl
  | cons x pts ih =>
    rw [List.countP_cons, List.countP_cons, List.countP_cons, ih]
    simp only [decide_eq_true_eq, beq_iff_eq]
    split <;> split <;> split <;> omega

theorem haloStrata_spec (pts : List (Nat × Int)) (d : Nat)
    (h : ∀ i ≤ d, pts.countP (fun x => x.1 == i) ≠ 0) :
    haloStrata pts d = some ((List.range (d + 1)).map (below pts),
      (List.range (d + 1)).map (fun i => below pts (i + 1))) := by
  induction d with
  | zero =>
    unfold haloStrata
    simp only
    rw [if_neg (h 0 (Nat.le_refl _))]
    have h0 : below pts 0 = 0 := by
      unfold below
      rw [List.countP_eq_zero]
      intro x _
      simp
    have h1 := below_succ pts 0
    rw [h0] at h1
    simp [h0, h1]
  | succ d ih =>
    unfold haloStrata
    rw [ih (fun i hi => h i (by omega))]
    simp only [Option.bind_some]
    have hget : ((List.range (d + 1)).map (fun i => below pts (i + 1)))[d]? =
        some (below pts (d + 1)) := by
      rw [List.getElem?_map, List.getElem?_range (by omega)]
      rfl
    rw [hget]
    simp only [Option.bind_some]
    rw [if_neg (h (d + 1) (Nat.le_refl _)), List.range_succ (n := d + 1), List.map_append,
      List.map_append]
    simp only [List.map_cons, List.map_nil]
    rw [below_succ pts (d + 1)]

theorem foldl_max_ge (l : List Nat) (a : Nat) : a ≤ l.foldl max a ∧ ∀ x ∈ l, x ≤ l.foldl max a := by
  induction l generalizing a with
  | nil => exact ⟨Nat.le_refl _, fun x hx => nomatch hx⟩
  | cons y l ih =>
    obtain ⟨h1, h2⟩ := ih (max a y)
    rw [List.foldl_cons]
    refine ⟨by omega, ?_⟩
    intro x hx
    rcases List.mem_cons.1 hx with rfl | hx
    · omega
    · exact h2 x hx

theorem foldl_max_mem (l : List Nat) (a : Nat) : l.foldl max a = a ∨ l.foldl max a ∈ l := by
  induction l generalizing a with
  | nil => exact .inl rfl
  | cons y l ih =>
    rw [List.foldl_cons]
    rcases ih (max a y) with h | h
    · rw [h]
      rcases Nat.le_total a y with hle | hle
      · exact .inr (by rw [Nat.max_eq_right hle]; exact List.mem_cons_self)
      · exact .inl (Nat.max_eq_left hle)
    · exact .inr (List.mem_cons_of_mem _ h)

/-- In a list sorted by depth, the position of an element is the number of points of smaller depth
plus the number of earlier points of the same depth. -/
theorem sorted_position {pre post : List (Nat × Int)} {x : Nat × Int}
    (h : (pre ++ x :: post).Pairwise (fun a b => pairLt a b = true)) :
    below (pre ++ x :: post) x.1 + pre.countP (fun y => y.1 == x.1) = pre.length := by
  rw [List.pairwise_append] at h
  obtain ⟨h1, h2, h3⟩ := h
  have h2' := List.pairwise_cons.1 h2
  have hpost : (x :: post).countP (fun y => decide (y.1 < x.1)) = 0 := by
    rw [List.countP_eq_zero]
    intro y hy
    rcases List.mem_cons.1 hy with rfl | hy
    · simp
    · have := (pairLt_iff _ _).1 (h2'.1 y hy)
      simp only [decide_eq_true_eq]
      omega
  have hpre : ∀ y ∈ pre, y.1 ≤ x.1 := by
    intro y hy
    have := (pairLt_iff _ _).1 (h3 y hy x List.mem_cons_self)
    omega
  unfold below
  rw [List.countP_append, hpost, Nat.add_zero]
  clear h1 h2 h3 h2' hpost
  induction pre with
  | nil => rfl
  | cons y pre ih =>
    have hy := hpre y List.mem_cons_self
    have := ih (fun z hz => hpre z (List.mem_cons_of_mem _ hz))
    rw [List.countP_cons, List.countP_cons, List.length_cons]
    simp only [decide_eq_true_eq, beq_iff_eq]
    split <;> split <;> omega

/-- The numbering. -/
theorem haloIndex_spec {g : GMesh} {ndim ks : Nat} (hg : GMeshOk g ndim ks) {fuel : Nat}
    (ids : List Int) (reps : List StdCell)
    (hreps : List.Forall₂ (fun r c => CellIs r g c ∧ OMapOk r.cones ∧ r.depthOf = []) reps ids)
    (hf : ∀ c ∈ ids, ∀ p, InClosure g c p → g.depth p < fuel) (hne : ids ≠ []) :
    ∃ ix pts, haloIndex fuel reps = some ix ∧ pts.Pairwise (fun a b => pairLt a b = true) ∧
      (∀ y, y ∈ pts ↔ y.1 = g.depth y.2 ∧ ∃ c ∈ ids, InClosure g c y.2) ∧
      ix.chartEnd = pts.length ∧
      (∀ p l, omGet ix.toLocal p = some l ↔ pts[l]? = some (g.depth p, p)) ∧
      (∀ y ∈ pts, ix.starts[y.1]? = some (below pts y.1) ∧
        ix.ends[y.1]? = some (below pts (y.1 + 1))) ∧
      ix.starts[0]? = some 0 ∧ ix.ends[0]? = some (below pts 1) := by
  obtain ⟨pts, p1, p2, p3⟩ := haloDepths_spec hg ids reps hreps hf
  have hrl : reps.length ≠ 0 := by
    rw [hreps.length_eq]
    exact fun h => hne (List.length_eq_zero_iff.1 h)
  generalize hM : (pts.map (·.1)).foldl max 0 = dmax
  have hmax : ∀ y ∈ pts, y.1 ≤ dmax := by
    intro y hy
    rw [← hM]
    exact (foldl_max_ge _ _).2 _ (List.mem_map.2 ⟨y, hy, rfl⟩)
  have hptsne : pts ≠ [] := by
    obtain ⟨c, rest, rfl⟩ : ∃ c rest, ids = c :: rest := by
      cases ids with
      | nil => exact absurd rfl hne
      | cons c rest => exact ⟨c, rest, rfl⟩
    intro hh
    have := (p3 (g.depth c, c)).2 ⟨rfl, c, List.mem_cons_self, .self⟩
    rw [hh] at this
    cases this
  -- every depth up to the largest one occurs
  have hatt : ∃ y ∈ pts, y.1 = dmax := by
    rcases foldl_max_mem (pts.map (·.1)) 0 with h | h
    · obtain ⟨y, rest, hy⟩ : ∃ y rest, pts = y :: rest := by
        cases pts with
        | nil => exact absurd rfl hptsne
        | cons y rest => exact ⟨y, rest, rfl⟩
      have hyp : y ∈ pts := by rw [hy]; exact List.mem_cons_self
      have := hmax y hyp
      exact ⟨y, hyp, by omega⟩
    · obtain ⟨y, hy, he⟩ := List.mem_map.1 h
      exact ⟨y, hy, by rw [he, hM]⟩
  have hall : ∀ k i, i + k = dmax → ∃ y ∈ pts, y.1 = i := by
    intro k
    induction k with
    | zero => intro i hi; obtain ⟨y, hy, he⟩ := hatt; exact ⟨y, hy, by omega⟩
    | succ k ih =>
      intro i hi
      obtain ⟨y, hy, he⟩ := ih (i + 1) (by omega)
      obtain ⟨hyd, c, hc, hin⟩ := (p3 y).1 hy
      cases hcone : g.cone y.2 with
      | nil => have := (hg.vertex y.2).1 hcone; omega
      | cons q qs =>
        have hq : q ∈ g.cone y.2 := by rw [hcone]; simp
        have hl := hg.lower y.2 q hq
        exact ⟨(g.depth q, q), (p3 _).2 ⟨rfl, c, hc, .cone hin hq⟩, by show g.depth q = i; omega⟩
  have hcount : ∀ i ≤ dmax, pts.countP (fun x => x.1 == i) ≠ 0 := by
    intro i hi
    obtain ⟨y, hy, he⟩ := hall (dmax - i) i (by omega)
    intro h0
    rw [List.countP_eq_zero] at h0
    exact h0 y hy (by simp [he])
  have hany : pts.any (fun x => x.1 == 0) = true := by
    obtain ⟨y, hy, he⟩ := hall dmax 0 (by omega)
    exact List.any_eq_true.2 ⟨y, hy, by simp [he]⟩
  have hstrata := haloStrata_spec pts dmax hcount
  have hnd := sorted_nodup_int p2
  obtain ⟨s, a1, a2, a3, a4, a5⟩ := foldlM_inv haloAssign
    (fun pre s => s.1.length = dmax + 1 ∧
      (∀ i ≤ dmax, s.1[i]? = some (below pts i + pre.countP (fun x => x.1 == i))) ∧
      s.2.2 = pre.length ∧
      ∀ p l, omGet s.2.1 p = some l ↔ pre[l]? = some (g.depth p, p)) pts
    ((List.range (dmax + 1)).map (below pts), [], 0)
    ⟨by simp, by
      intro i hi
      rw [List.getElem?_map, List.getElem?_range (by omega)]
      simp, rfl, fun p l => ⟨fun hh => (nomatch hh), fun hh => by simp at hh⟩⟩ (by
    intro pre x post s hl ⟨i1, i2, i3, i4⟩
    have hx : x ∈ pts := by rw [hl]; simp
    have hxm := hmax x hx
    have hxd := ((p3 x).1 hx).1
    have hpos : below pts x.1 + pre.countP (fun y => y.1 == x.1) = pre.length := by
      have := sorted_position (pre := pre) (x := x) (post := post) (by rw [← hl]; exact p2)
      rw [← hl] at this
      exact this
    refine ⟨(s.1.set x.1 (pre.length + 1), omPut s.2.1 x.2 pre.length, s.2.2 + 1), ?_, ?_, ?_, ?_, ?_⟩
    · unfold haloAssign
      rw [i2 x.1 hxm, hpos]
      rfl
    · simpa using i1
    · intro i hi
      show (s.1.set x.1 (pre.length + 1))[i]? = _
      rw [List.getElem?_set, List.countP_append, List.countP_singleton]
      by_cases e : x.1 = i
      · rw [if_pos e, if_pos (by omega), ← e, if_pos (by simp)]
        congr 1
        omega
      · rw [if_neg e, i2 i hi, if_neg (by simpa using e), Nat.add_zero]
    · show s.2.2 + 1 = _
      rw [i3]
      simp
    · intro p l
      show omGet (omPut s.2.1 x.2 pre.length) p = some l ↔ _
      rw [omGet_put]
      by_cases e : x.2 = p
      · rw [if_pos e]
        constructor
        · intro hh
          cases hh
          rw [List.getElem?_append_right (Nat.le_refl _), Nat.sub_self, ← e, ← hxd]
          rfl
        · intro hh
          by_cases hlt : l < pre.length
          · exfalso
            rw [List.getElem?_append_left hlt, ← e, ← hxd] at hh
            have : x ∈ pre := List.mem_of_getElem? hh
            rw [hl, List.nodup_append] at hnd
            exact hnd.2.2 x this x List.mem_cons_self rfl
          · have hl2 := (List.getElem?_eq_some_iff.1 hh).1
            rw [List.length_append, List.length_singleton] at hl2
            congr 1
            omega
      · rw [if_neg e, i4]
        constructor
        · intro hh
          rw [List.getElem?_append_left (List.getElem?_eq_some_iff.1 hh).1]
          exact hh
        · intro hh
          by_cases hlt : l < pre.length
          · rw [List.getElem?_append_left hlt] at hh
            exact hh
          · exfalso
            have hl2 := (List.getElem?_eq_some_iff.1 hh).1
            rw [List.length_append, List.length_singleton] at hl2
            have : l = pre.length := by omega
            rw [this, List.getElem?_append_right (Nat.le_refl _), Nat.sub_self] at hh
            simp only [List.getElem?_cons_zero, Option.some.injEq] at hh
            exact e (by rw [hh]))
  have hbelow : below pts (dmax + 1) = pts.length := by
    unfold below
    rw [List.countP_eq_length]
    intro y hy
    have := hmax y hy
    simp only [decide_eq_true_eq]
    omega
  have hnext : s.1 = (List.range (dmax + 1)).map (fun i => below pts (i + 1)) := by
    refine List.ext_getElem? ?_
    intro i
    by_cases hi : i ≤ dmax
    · rw [a3 i hi, List.getElem?_map, List.getElem?_range (by omega), ← below_succ]
      rfl
    · rw [List.getElem?_eq_none (by omega), List.getElem?_eq_none (by simp; omega)]
  refine ⟨⟨pts.length, (List.range (dmax + 1)).map (below pts),
    (List.range (dmax + 1)).map (fun i => below pts (i + 1)), s.2.1⟩, pts, ?_, p2, p3, rfl, a5, ?_,
    ?_, ?_⟩
  · unfold haloIndex
    rw [if_neg hrl, p1]
    simp only [Option.bind_some]
    rw [hM, if_pos hany, hstrata]
    simp only [Option.bind_some]
    rw [a1]
    simp only [Option.bind_some]
    rw [if_pos ⟨hnext, by
      rw [List.getElem?_map, List.getElem?_range (by omega), a4]
      simp [hbelow]⟩, a4]
  · intro y hy
    have := hmax y hy
    simp only
    rw [List.getElem?_map, List.getElem?_range (by omega), List.getElem?_map,
      List.getElem?_range (by omega)]
    exact ⟨rfl, rfl⟩
  · simp only
    rw [List.getElem?_map, List.getElem?_range (by omega)]
    simp only [Option.map_some, Option.some.injEq]
    unfold below
    rw [List.countP_eq_zero]
    intro x _
    simp
  · simp only
    rw [List.getElem?_map, List.getElem?_range (by omega)]
    rfl

end NP
