import Verif.Petsc.LemmasCells

/-! # Lemmas: tables of vertices and points at vertices -/

set_option autoImplicit false

namespace NP
open NP.Spec

theorem foldl_max_mono {α : Type} (f : α → Nat) (l : List α) (a : Nat) :
    a ≤ l.foldl (fun a v => max a (f v)) a ∧ ∀ v ∈ l, f v ≤ l.foldl (fun a v => max a (f v)) a := by
  induction l generalizing a with
  | nil => simp
  | cons x l ih =>
    obtain ⟨h1, h2⟩ := ih (max a (f x))
    rw [List.foldl_cons]
    refine ⟨by omega, fun v hv => ?_⟩
    rcases List.mem_cons.mp hv with rfl | h
    · omega
    · exact h2 v h

theorem tableOfCell {α : Type} {n mx : Nat} {v : List (List α)} (hv : ∀ w ∈ v, w.length = n)
    (hmx : v.length ≤ mx) :
    ∃ tab, forLoop 0 v.length (fun rx tab => forLoop 0 n (fun cx tab =>
      (rd v rx).bind fun w => (rd w cx).bind fun x => (rd tab rx).bind fun row =>
      (st row cx (some x)).bind fun row => st tab rx row) tab)
      (List.replicate mx (List.replicate n none)) = some tab ∧ tab.length = mx ∧
      ∀ (r : Nat) w, v[r]? = some w → tab[r]? = some (w.map some) := by
  obtain ⟨tab, t1, t2, t3, -⟩ := forLoop_invariant (a := 0) (b := v.length)
    (step := fun rx tab => forLoop 0 n (fun cx tab =>
      (rd v rx).bind fun w => (rd w cx).bind fun x => (rd tab rx).bind fun row =>
      (st row cx (some x)).bind fun row => st tab rx row) tab)
    (s := List.replicate mx (List.replicate n (none : Option α)))
    (fun i tab => tab.length = mx ∧ (∀ r < i, ∀ w, v[r]? = some w → tab[r]? = some (w.map some)) ∧
      ∀ row ∈ tab, row.length = n) (Nat.zero_le _) (by
      rintro i tab - hi ⟨q1, q2, q3⟩
      have hvi : rd v i = some v[i] := List.getElem?_eq_getElem hi
      have hl := hv _ (List.getElem_mem hi)
      obtain ⟨tab', p1, p2, p3, p4, p5⟩ := forLoop_invariant (a := 0) (b := n)
        (step := fun cx tab =>
          (rd v i).bind fun w => (rd w cx).bind fun x => (rd tab i).bind fun row =>
          (st row cx (some x)).bind fun row => st tab i row) (s := tab)
        (fun d t => t.length = mx ∧ (∀ row ∈ t, row.length = n) ∧ (∀ j, j ≠ i → t[j]? = tab[j]?) ∧
          ∀ k < d, ∀ row, t[i]? = some row → row[k]? = some (v[i][k]?)) (Nat.zero_le _) (by
          rintro d t - hd ⟨r1, r2, r3, r4⟩
          have hti : rd t i = some (t[i]'(by omega)) := List.getElem?_eq_getElem _
          have htl := r2 _ (List.getElem_mem (show i < t.length by omega))
          have hx : rd v[i] d = some (v[i][d]'(by omega)) := List.getElem?_eq_getElem _
          refine ⟨t.set i ((t[i]'(by omega)).set d (some (v[i][d]'(by omega)))), ?_, by simpa using r1, ?_, ?_, ?_⟩
          · simp only [hvi, hx, hti, Option.bind_some]
            rw [st_eq_some (by omega), Option.bind_some, st_eq_some (by omega)]
          · intro row hrow
            rcases List.mem_or_eq_of_mem_set hrow with h | h
            · exact r2 row h
            · rw [h]; simpa using htl
          · intro j hj
            rw [List.getElem?_set_ne (by omega), r3 j hj]
          · intro k hk row hrow
            rw [List.getElem?_set_self (by omega), Option.some.injEq] at hrow
            subst hrow
            by_cases h : k = d
            · subst h
              rw [List.getElem?_set_self (by omega), List.getElem?_eq_getElem (show k < v[i].length by omega)]
            · rw [List.getElem?_set_ne (by omega)]
              exact r4 k (by omega) _ hti)
        ⟨q1, q3, fun _ _ => rfl, fun k hk => by omega⟩
      refine ⟨tab', p1, p2, ?_, p3⟩
      intro r hr w hw
      by_cases h : r = i
      · subst h
        have hw' : w = v[r] := by
          rw [show v[r]? = some v[r] from hvi, Option.some.injEq] at hw; exact hw.symm
        subst hw'
        have hti : tab'[r]? = some (tab'[r]'(by omega)) := List.getElem?_eq_getElem _
        have htl := p3 _ (List.getElem_mem (show r < tab'.length by omega))
        rw [hti, Option.some.injEq]
        apply List.ext_getElem?
        intro k
        by_cases hk : k < n
        · rw [p5 k hk _ hti, List.getElem?_map, List.getElem?_eq_getElem (show k < v[r].length by omega)]; rfl
        · rw [List.getElem?_eq_none (by omega), List.getElem?_eq_none (by simp; omega)]
      · rw [p4 r h]
        exact q2 r (by omega) w hw)
    ⟨by simp, fun r hr => by omega, fun row hrow => by rw [(List.mem_replicate.mp hrow).2]; simp⟩
  refine ⟨tab, t1, t2, fun r w hw => t3 r ?_ w hw⟩
  obtain ⟨h, -⟩ := List.getElem?_eq_some_iff.mp hw
  exact h

theorem verticesCdc_ok {α : Type} [Zero α] {m : PlexCells α} (hm : PlexCellsOk m) :
    ∃ t, m.verticesCdc = some t ∧ t.num.length = m.toPetsc.length ∧ t.rows.length = m.toPetsc.length ∧
      ∀ c < m.toPetsc.length, ∃ vs tab, IsVertices m c vs ∧ t.num[c]? = some (some vs.length) ∧
        t.rows[c]? = some tab ∧ ∀ (r : Nat) w, vs[r]? = some w → tab[r]? = some (w.map some) := by
  obtain ⟨vertices, v1, v2, v3⟩ := mapM_range_exists (n := m.toPetsc.length) (f := m.vertices)
    (R := fun c vs => IsVertices m c vs) (fun c hc => by
      obtain ⟨vs, h1, h2, -⟩ := plexVertices_ok hm hc
      exact ⟨vs, h1, h2⟩)
  obtain ⟨out, o1, o2, o3⟩ := mapM_range_exists (n := m.toPetsc.length)
    (f := fun cellx => (rd vertices cellx).bind fun v =>
      (forLoop 0 v.length (fun rx tab => forLoop 0 m.ndim (fun cx tab =>
        (rd v rx).bind fun w => (rd w cx).bind fun x => (rd tab rx).bind fun row =>
        (st row cx (some x)).bind fun row => st tab rx row) tab)
        (List.replicate (vertices.foldl (fun a v => max a v.length) 0)
          (List.replicate m.ndim none))).bind fun tab => some (some v.length, tab))
    (R := fun c o => ∃ vs tab, IsVertices m c vs ∧ o = (some vs.length, tab) ∧
      ∀ (r : Nat) w, vs[r]? = some w → tab[r]? = some (w.map some)) (fun c hc => by
      obtain ⟨vs, h1, h2⟩ := v3 c hc
      have hmem : vs ∈ vertices := List.mem_of_getElem? h1
      obtain ⟨tab, t1, -, t3⟩ := tableOfCell (isVertices_length h2) ((foldl_max_mono List.length vertices 0).2 vs hmem)
      refine ⟨(some vs.length, tab), ?_, vs, tab, h2, rfl, t3⟩
      rw [show rd vertices c = some vs from h1, Option.bind_some, t1]; rfl)
  refine ⟨⟨out.map (·.1), out.map (·.2)⟩, ?_, by simpa using o2, by simpa using o2, fun c hc => ?_⟩
  · unfold PlexCells.verticesCdc
    rw [v1, Option.bind_some]
    simp only
    rw [o1]; rfl
  · obtain ⟨o, h1, vs, tab, h2, rfl, h3⟩ := o3 c hc
    exact ⟨vs, tab, h2, by simp [h1], by simp [h1], h3⟩

theorem isMean_unique {n : Nat} {vs : List (List ℚ)} {a b : List ℚ} (ha : IsMean n vs a) (hb : IsMean n vs b) :
    a = b := by
  apply List.ext_getElem?
  intro d
  by_cases hd : d < n
  · rw [ha.2 d hd, hb.2 d hd]
  · rw [List.getElem?_eq_none (by have := ha.1; omega), List.getElem?_eq_none (by have := hb.1; omega)]

theorem placed_filter {β : Type} (loc : β → Nat) (occ : List (List β)) (k : Nat)
    (h : ∀ (c : Nat) ps, occ[c]? = some ps → ∀ x ∈ ps, loc x = k + c) (target : Nat) :
    occ.flatten.filter (fun x => loc x = target) = if k ≤ target then (occ[target - k]?).getD [] else [] := by
  induction occ generalizing k with
  | nil => simp
  | cons ps occ ih =>
    rw [List.flatten_cons, List.filter_append, ih (k + 1) fun c q hq x hx => by
      rw [h (c + 1) q (by simpa using hq) x hx]; omega]
    have h0 := h 0 ps (by simp)
    by_cases h1 : target = k
    · subst h1
      rw [if_neg (by omega), if_pos (Nat.le_refl _), Nat.sub_self, List.append_nil, List.filter_eq_self.mpr]
      · rfl
      · intro x hx; simpa using h0 x hx
    · rw [List.filter_eq_nil_iff.mpr (by intro x hx; have := h0 x hx; simp; omega), List.nil_append]
      by_cases h2 : k ≤ target
      · rw [if_pos (by omega), if_pos h2, show target - k = (target - (k + 1)) + 1 by omega,
          List.getElem?_cons_succ]
      · rw [if_neg (by omega), if_neg h2]

/-- The vertices and their means of all cells. -/
theorem plexCells_choose {m : PlexCells ℚ} (hm : PlexCellsOk m) :
    ∃ (V : Nat → List (List ℚ)) (A : Nat → List ℚ), ∀ c < m.toPetsc.length,
      IsVertices m c (V c) ∧ IsMean m.ndim (V c) (A c) ∧
      ∀ avg : List ℚ, avg.length = m.ndim → m.average c avg = some (A c) := by
  have key : ∀ c, ∃ (V : List (List ℚ)) (A : List ℚ), c < m.toPetsc.length →
      IsVertices m c V ∧ IsMean m.ndim V A ∧ ∀ avg : List ℚ, avg.length = m.ndim → m.average c avg = some A := by
    intro c
    by_cases hc : c < m.toPetsc.length
    · obtain ⟨vs, a, h1, h2, h3, h4, h5⟩ := plexAverage_ok hm hc (avg := List.replicate m.ndim 0) (by simp)
      refine ⟨vs, a, fun _ => ⟨h2, h5, fun avg ha => ?_⟩⟩
      obtain ⟨vs', a', g1, g2, g3, g4, g5⟩ := plexAverage_ok hm hc ha
      rw [h1, Option.some.injEq] at g1
      subst g1
      rw [g4, isMean_unique h5 g5]
    · exact ⟨[], [], fun h => absurd h hc⟩
  choose V A h using key
  exact ⟨V, A, h⟩

theorem mapperPoints_ok {m : PlexCells ℚ} {V : Nat → List (List ℚ)} {A : Nat → List ℚ}
    (h : ∀ c < m.toPetsc.length, IsMean m.ndim (V c) (A c) ∧
      ∀ avg : List ℚ, avg.length = m.ndim → m.average c avg = some (A c)) {t : VertexTable ℚ}
    (ht : ∀ c < m.toPetsc.length, t.num[c]? = some (some (V c).length)) :
    m.mapperPoints t = some (((List.range m.toPetsc.length).map fun c => List.replicate (V c).length (A c)).flatten) := by
  obtain ⟨s, h1, h2, h3⟩ := forLoop_invariant (a := 0) (b := m.toPetsc.length)
    (step := fun cellx (s : List ℚ × List (List ℚ)) =>
      (rd t.num cellx).join.bind fun n => (m.average cellx s.1).bind fun avg =>
      (forLoop 0 n (fun _ pts => some (pts ++ [avg])) s.2).bind fun pts => some (avg, pts))
    (s := (List.replicate m.ndim 0, []))
    (fun i s => s.1.length = m.ndim ∧
      s.2 = ((List.range i).map fun c => List.replicate (V c).length (A c)).flatten) (Nat.zero_le _) (by
      rintro i s - hi ⟨q1, q2⟩
      refine ⟨(A i, s.2 ++ List.replicate (V i).length (A i)), ?_, (h i hi).1.1, ?_⟩
      · rw [show rd t.num i = _ from ht i hi]
        simp only [Option.join_some, Option.bind_some]
        rw [(h i hi).2 _ q1, Option.bind_some, appendLoop]; rfl
      · simp only
        rw [q2, List.range_succ, List.map_append, List.flatten_append]; simp) (by simp)
  unfold PlexCells.mapperPoints
  rw [h1, Option.map_some, h3]

theorem averagePoints_ok {m : PlexCells ℚ} {A : Nat → List ℚ}
    (h : ∀ c < m.toPetsc.length, (A c).length = m.ndim ∧
      ∀ avg : List ℚ, avg.length = m.ndim → m.average c avg = some (A c)) :
    m.averagePoints = some ((List.range m.toPetsc.length).map A) := by
  obtain ⟨s, h1, h2, h3⟩ := forLoop_invariant (a := 0) (b := m.toPetsc.length)
    (step := fun cellx (s : List ℚ × List (List ℚ)) =>
      (m.average cellx s.1).bind fun avg => some (avg, s.2 ++ [avg]))
    (s := (List.replicate m.ndim 0, []))
    (fun i s => s.1.length = m.ndim ∧ s.2 = (List.range i).map A) (Nat.zero_le _) (by
      rintro i s - hi ⟨q1, q2⟩
      refine ⟨(A i, s.2 ++ [A i]), ?_, (h i hi).1, ?_⟩
      · rw [(h i hi).2 _ q1]; rfl
      · simp only
        rw [q2, List.range_succ, List.map_append]; simp) (by simp)
  unfold PlexCells.averagePoints
  rw [h1, Option.map_some, h3]

theorem moveToVertices_ok {n k : Nat} {t : VertexTable ℚ} {V : Nat → List (List ℚ)}
    {occ : List (List (List ℚ))} (hk : occ.length = k)
    (hV : ∀ c < k, ∀ v ∈ V c, v.length = n)
    (ht : ∀ c < k, ∃ tab, t.rows[c]? = some tab ∧ ∀ (r : Nat) w, (V c)[r]? = some w → tab[r]? = some (w.map some))
    (ho : ∀ (c : Nat) ps, occ[c]? = some ps → ps.length = (V c).length ∧ ∀ x ∈ ps, x.length = n) :
    moveToVertices n t occ = some ((List.range k).map V) := by
  unfold moveToVertices
  rw [hk]
  apply mapM_of_forall
  intro c hc
  have hc := List.mem_range.mp hc
  have hoc : rd occ c = some (occ[c]'(by omega)) := List.getElem?_eq_getElem _
  obtain ⟨o1, o2⟩ := ho c _ hoc
  obtain ⟨tab, t1, t2⟩ := ht c hc
  rw [hoc, Option.bind_some, o1, mapM_of_forall (g := fun layer => ((V c)[layer]?).getD [])]
  · congr 1
    apply List.ext_getElem
    · simp
    · intro i h1 h2
      simp [List.getElem?_eq_getElem h2]
  · intro layer hlayer
    have hlayer := List.mem_range.mp hlayer
    have hp : rd (occ[c]'(by omega)) layer = some ((occ[c]'(by omega))[layer]'(by omega)) :=
      List.getElem?_eq_getElem _
    have hv : (V c)[layer]? = some (V c)[layer] := List.getElem?_eq_getElem hlayer
    have hl := hV c hc _ (List.getElem_mem hlayer)
    rw [hp, Option.bind_some, hv, fillAll (w := fun d => ((V c)[layer][d]?).getD 0)]
    · congr 1
      apply List.ext_getElem
      · simpa using hl.symm
      · intro i h1 h2
        simp only [Option.getD_some] at h2
        simp [List.getElem?_eq_getElem h2]
    · exact o2 _ (List.getElem_mem _)
    · intro d hd p
      rw [show rd t.rows c = _ from t1, Option.bind_some, show rd tab layer = _ from t2 layer _ hv,
        Option.bind_some]
      simp only [rd]
      rw [List.getElem?_map, List.getElem?_eq_getElem (by omega)]
      rfl

end NP
