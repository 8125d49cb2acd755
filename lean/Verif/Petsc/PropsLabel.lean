import Verif.Petsc.LemmasLabel
import Verif.Petsc.LemmasBary2
import Mathlib.Tactic.IntervalCases

/-!
# Property C92: labels for edges that are given by their vertices

On every rank `label_dmplex_edges` attaches to exactly those points that are an edge between two
requested vertices (whichever rank made the request) the requested label. A request for two vertices
that no rank knows to be joined is reported, as are argument vectors of unequal sizes.
-/

set_option autoImplicit false

namespace NP

open Spec

theorem labelEdges_eq (ki : Nat) {ranks : List LabelRank} {starts ends labels : List (List Int)}
    {before : List (List (Int × Int))} (hok : ∀ m ∈ ranks, LabelRankOk m)
    (hse : starts.map List.length = ends.map List.length)
    (hsl : starts.map List.length = labels.map List.length) :
    ∃ g : LabelRank × List (Int × Int) → List (Int × Int) × List Int,
      labelEdges ki ranks starts ends labels before =
        (if (starts.map List.length).sum * ki ≤ (starts.map List.length).sum * 4 then
          (forLoop 0 (starts.map List.length).sum (fun ix (_ : Unit) =>
            (((ranks.zip before).map g).mapM fun lf => rd lf.2 ix).bind fun fs =>
              if fs.sum ≥ 1 then some () else none) ()).map fun _ => ((ranks.zip before).map g).map (·.1)
        else none) ∧
      ∀ mb ∈ ranks.zip before,
        (∀ x, x ∈ (g mb).1 ↔ x ∈ mb.2 ∨ ∃ vs ve, Requested starts ends labels vs ve x.2 ∧ Joins mb.1 vs ve x.1) ∧
        ∀ (j : Nat) (vs ve : Int), starts.flatten[j]? = some vs → ends.flatten[j]? = some ve →
          ∃ f, (g mb).2[j]? = some f ∧ (f = 0 ∨ f = 1) ∧ (f = 1 ↔ ∃ p, Joins mb.1 vs ve p) := by
  have l1 : starts.flatten.length = (starts.map List.length).sum := List.length_flatten
  have l2 : ends.flatten.length = (starts.map List.length).sum := by rw [hse]; exact List.length_flatten
  have l3 : labels.flatten.length = (starts.map List.length).sum := by rw [hsl]; exact List.length_flatten
  have hex : ∀ mb : LabelRank × List (Int × Int), ∃ s, mb ∈ ranks.zip before →
      forLoop 0 (starts.map List.length).sum (labelStep mb.1 starts.flatten ends.flatten labels.flatten)
        (mb.2, List.replicate (starts.map List.length).sum 0) = some s ∧
      (∀ x, x ∈ s.1 ↔ x ∈ mb.2 ∨ ∃ vs ve, Requested starts ends labels vs ve x.2 ∧ Joins mb.1 vs ve x.1) ∧
      ∀ (j : Nat) (vs ve : Int), starts.flatten[j]? = some vs → ends.flatten[j]? = some ve →
        ∃ f, s.2[j]? = some f ∧ (f = 0 ∨ f = 1) ∧ (f = 1 ↔ ∃ p, Joins mb.1 vs ve p) := by
    intro mb
    by_cases hm : mb ∈ ranks.zip before
    · obtain ⟨s, h1, h2, h3⟩ := labelLoop_spec (hok mb.1 (List.of_mem_zip hm).1) l1 l2 l3 mb.2
      refine ⟨s, fun _ => ⟨h1, fun x => ?_, h3⟩⟩
      rw [h2]
      constructor
      · rintro (hx | ⟨j, vs, ve, a, b, c, d⟩)
        · exact Or.inl hx
        · exact Or.inr ⟨vs, ve, (flatten_get starts ends labels hse hsl vs ve x.2).1 ⟨j, a, b, c⟩, d⟩
      · rintro (hx | ⟨vs, ve, hr, d⟩)
        · exact Or.inl hx
        · obtain ⟨j, a, b, c⟩ := (flatten_get starts ends labels hse hsl vs ve x.2).2 hr
          exact Or.inr ⟨j, vs, ve, a, b, c, d⟩
    · exact ⟨([], []), fun h => absurd h hm⟩
  choose g hg using hex
  refine ⟨g, ?_, fun mb hm => (hg mb hm).2⟩
  unfold labelEdges
  rw [if_pos ⟨hse, hsl⟩]
  simp only
  rw [allgatherv_flatten starts]
  have e2 := allgatherv_flatten ends
  rw [← hse] at e2
  have e3 := allgatherv_flatten labels
  rw [← hsl] at e3
  simp only [Option.bind_some, e2, e3]
  rw [mapM_of_forall (g := g) fun mb hm => (hg mb hm).1]
  rfl

/-- With `PetscInt`s of 32 bits: when every requested pair of vertices is joined by an edge on some
rank, the call completes, and afterwards the label on every rank has the pairs it had before and those
of the requested label with the edges between the requested vertices, and no other. -/
theorem C92_labels {ranks : List LabelRank} {starts ends labels : List (List Int)}
    {before : List (List (Int × Int))} (hok : ∀ m ∈ ranks, LabelRankOk m)
    (hb : before.length = ranks.length)
    (hse : starts.map List.length = ends.map List.length)
    (hsl : starts.map List.length = labels.map List.length)
    (hj : ∀ vs ve l, Requested starts ends labels vs ve l → ∃ m ∈ ranks, ∃ p, Joins m vs ve p) :
    ∃ out, labelEdges 4 ranks starts ends labels before = some out ∧ out.length = ranks.length ∧
      ∀ (r : Nat) (m : LabelRank) (b o : List (Int × Int)), ranks[r]? = some m → before[r]? = some b →
        out[r]? = some o → ∀ p l, (p, l) ∈ o ↔
          (p, l) ∈ b ∨ ∃ vs ve, Requested starts ends labels vs ve l ∧ Joins m vs ve p := by
  obtain ⟨g, e, hg⟩ := labelEdges_eq (before := before) 4 hok hse hsl
  have hloop : forLoop 0 (starts.map List.length).sum (fun ix (_ : Unit) =>
      (((ranks.zip before).map g).mapM fun lf => rd lf.2 ix).bind fun fs =>
        if fs.sum ≥ 1 then some () else none) () = some () := by
    rw [forLoop_unit]
    intro ix hix
    have h1 : starts.flatten[ix]? = some (starts.flatten[ix]'(by rw [List.length_flatten]; exact hix)) :=
      List.getElem?_eq_getElem _
    have h2 : ends.flatten[ix]? = some (ends.flatten[ix]'(by rw [List.length_flatten, ← hse]; exact hix)) :=
      List.getElem?_eq_getElem _
    have h3 : labels.flatten[ix]? = some (labels.flatten[ix]'(by rw [List.length_flatten, ← hsl]; exact hix)) :=
      List.getElem?_eq_getElem _
    generalize starts.flatten[ix]'_ = vs at h1
    generalize ends.flatten[ix]'_ = ve at h2
    generalize labels.flatten[ix]'_ = ll at h3
    have hq := (flatten_get starts ends labels hse hsl vs ve ll).1 ⟨ix, h1, h2, h3⟩
    obtain ⟨m, hm, p, hp⟩ := hj vs ve ll hq
    obtain ⟨r, hr, hrm⟩ := List.getElem_of_mem hm
    have hflag : ∀ mb : LabelRank × List (Int × Int), ∃ f, mb ∈ ranks.zip before →
        rd (g mb).2 ix = some f ∧ (f = 0 ∨ f = 1) ∧ (f = 1 ↔ ∃ p, Joins mb.1 vs ve p) := by
      intro mb
      by_cases hmb : mb ∈ ranks.zip before
      · obtain ⟨f, hf⟩ := (hg mb hmb).2 ix vs ve h1 h2
        exact ⟨f, fun _ => hf⟩
      · exact ⟨0, fun h => absurd h hmb⟩
    choose F hF using hflag
    have hF' : (ranks.zip before).mapM ((fun lf : List (Int × Int) × List Int => rd lf.2 ix) ∘ g) =
        some ((ranks.zip before).map F) := mapM_of_forall fun mb hmb => (hF mb hmb).1
    rw [List.mapM_map, hF']
    rw [Option.bind_some, if_pos]
    have hmem : (m, before[r]'(by omega)) ∈ ranks.zip before := by
      rw [List.mem_iff_getElem]
      exact ⟨r, by simp only [List.length_zip]; omega, by rw [List.getElem_zip, hrm]⟩
    have hone : F (m, before[r]'(by omega)) = 1 := (hF _ hmem).2.2.2 ⟨p, hp⟩
    have hnn : ∀ x ∈ (ranks.zip before).map F, (0 : Int) ≤ x := by
      intro x hx
      obtain ⟨mb, hmb, rfl⟩ := List.mem_map.1 hx
      rcases (hF mb hmb).2.1 with h | h <;> omega
    have := List.single_le_sum hnn 1 (by rw [← hone]; exact List.mem_map_of_mem hmem)
    omega
  refine ⟨_, by rw [e, if_pos (Nat.le_refl _), hloop]; rfl, by simp [hb], ?_⟩
  intro r m b o hr hb' ho p l
  have hz : (ranks.zip before)[r]? = some (m, b) := by
    rw [List.getElem?_zip_eq_some]; exact ⟨hr, hb'⟩
  simp only [List.getElem?_map, hz, Option.map_some, Option.some.injEq] at ho
  subst ho
  exact (hg (m, b) (List.mem_of_getElem? hz)).1 (p, l)

/-- A request for two vertices that are joined on no rank is reported. -/
theorem C92_missing (ki : Nat) {ranks : List LabelRank} {starts ends labels : List (List Int)}
    {before : List (List (Int × Int))} (hok : ∀ m ∈ ranks, LabelRankOk m) {vs ve l : Int}
    (hr : Requested starts ends labels vs ve l) (hno : ∀ m ∈ ranks, ∀ p, ¬ Joins m vs ve p) :
    labelEdges ki ranks starts ends labels before = none := by
  by_cases hs : (starts.map List.length = ends.map List.length) ∧ (starts.map List.length = labels.map List.length)
  swap
  · unfold labelEdges; rw [if_neg hs]
  obtain ⟨hse, hsl⟩ := hs
  obtain ⟨g, e, hg⟩ := labelEdges_eq (before := before) ki hok hse hsl
  rw [e]
  obtain ⟨ix, h1, h2, h3⟩ := (flatten_get starts ends labels hse hsl vs ve l).2 hr
  have hix : ix < (starts.map List.length).sum := by
    have := (List.getElem?_eq_some_iff.1 h1).1
    rwa [List.length_flatten] at this
  split
  swap
  · rfl
  cases hl : forLoop 0 (starts.map List.length).sum (fun ix (_ : Unit) =>
      (((ranks.zip before).map g).mapM fun lf => rd lf.2 ix).bind fun fs =>
        if fs.sum ≥ 1 then some () else none) () with
  | none => rfl
  | some u =>
    exfalso
    have := forLoop_unit.1 hl ix hix
    rw [List.mapM_map, mapM_of_forall (g := fun _ => 0)] at this
    · simp at this
    · intro mb hmb
      obtain ⟨f, hf1, hf2, hf3⟩ := (hg mb hmb).2 ix vs ve h1 h2
      rcases hf2 with rfl | rfl
      · exact hf1
      · obtain ⟨p, hp⟩ := hf3.1 rfl
        exact absurd hp (hno _ (List.of_mem_zip hmb).1 p)

/-- Argument vectors of unequal sizes on a rank are reported. -/
theorem C92_sizes (ki : Nat) {ranks : List LabelRank} {starts ends labels : List (List Int)}
    {before : List (List (Int × Int))} {r : Nat} {a b c : List Int} (ha : starts[r]? = some a)
    (hb : ends[r]? = some b) (hc : labels[r]? = some c) (hne : a.length ≠ b.length ∨ a.length ≠ c.length) :
    labelEdges ki ranks starts ends labels before = none := by
  unfold labelEdges
  rw [if_neg]
  rintro ⟨h1, h2⟩
  have g1 : (starts.map List.length)[r]? = some a.length := by simp [ha]
  have g2 : (ends.map List.length)[r]? = some b.length := by simp [hb]
  have g3 : (labels.map List.length)[r]? = some c.length := by simp [hc]
  rcases hne with h | h
  · rw [h1, g2] at g1
    exact h (Option.some.inj g1).symm
  · rw [h2, g3] at g1
    exact h (Option.some.inj g1).symm

/-- With `PetscInt`s of 64 bits every call with a request reads past the end of a vector: the flags
are `int`s, and are summed over the ranks as `PetscInt`s. -/
theorem C92_wide {ranks : List LabelRank} {starts ends labels : List (List Int)}
    {before : List (List (Int × Int))} (hok : ∀ m ∈ ranks, LabelRankOk m) {vs ve l : Int}
    (hr : Requested starts ends labels vs ve l) :
    labelEdges 8 ranks starts ends labels before = none := by
  by_cases hs : (starts.map List.length = ends.map List.length) ∧ (starts.map List.length = labels.map List.length)
  swap
  · unfold labelEdges; rw [if_neg hs]
  obtain ⟨hse, hsl⟩ := hs
  obtain ⟨g, e, hg⟩ := labelEdges_eq (before := before) 8 hok hse hsl
  rw [e, if_neg]
  obtain ⟨ix, h1, -, -⟩ := (flatten_get starts ends labels hse hsl vs ve l).2 hr
  have := (List.getElem?_eq_some_iff.1 h1).1
  rw [List.length_flatten] at this
  omega

namespace Ex

/-- Two ranks that share the vertex with number 1. The first owns vertices 0 and 1 (points 4 and 5),
joined by the edge 7; the second owns vertex 2 and knows of 1 (points 2 and 3), joined by the edge 6. -/
def labelRank0 : LabelRank := ⟨4, [0, 1], fun p => if p = 4 then some [7, 8] else if p = 5 then some [7, 9] else none⟩
def labelRank1 : LabelRank := ⟨2, [2, -2], fun p => if p = 2 then some [5, 6] else if p = 3 then some [6] else none⟩

theorem labelRank0_ok : LabelRankOk labelRank0 := by
  constructor
  · intro i j a b hi hj hab
    have hi' := (List.getElem?_eq_some_iff.1 hi).1
    have hj' := (List.getElem?_eq_some_iff.1 hj).1
    simp only [labelRank0, List.length_cons, List.length_nil] at hi' hj'
    interval_cases i <;> interval_cases j <;> simp_all [labelRank0] <;> omega
  · intro i hi
    simp only [labelRank0, List.length_cons, List.length_nil] at hi
    interval_cases i <;> exact ⟨_, rfl, by decide⟩

theorem labelRank1_ok : LabelRankOk labelRank1 := by
  constructor
  · intro i j a b hi hj hab
    have hi' := (List.getElem?_eq_some_iff.1 hi).1
    have hj' := (List.getElem?_eq_some_iff.1 hj).1
    simp only [labelRank1, List.length_cons, List.length_nil] at hi' hj'
    interval_cases i <;> interval_cases j <;> simp_all [labelRank1] <;> omega
  · intro i hi
    simp only [labelRank1, List.length_cons, List.length_nil] at hi
    interval_cases i <;> exact ⟨_, rfl, by decide⟩

theorem labelRanks_ok : ∀ m ∈ [labelRank0, labelRank1], LabelRankOk m := by
  intro m hm
  simp only [List.mem_cons, List.not_mem_nil, or_false] at hm
  rcases hm with rfl | rfl
  · exact labelRank0_ok
  · exact labelRank1_ok

/-- Each rank asks for the edge that the other has. -/
example : ∃ out, labelEdges 4 [labelRank0, labelRank1] [[1], [0]] [[2], [1]] [[100], [200]] [[(8, 50)], []] =
    some out ∧ out.length = 2 ∧ ∀ o, out[1]? = some o → ((6, 100) ∈ o) := by
  obtain ⟨out, h1, h2, h3⟩ := C92_labels (before := [[(8, 50)], []]) (starts := [[1], [0]])
    (ends := [[2], [1]]) (labels := [[100], [200]]) labelRanks_ok rfl rfl rfl (by
      rintro vs ve l ⟨r, i, a, b, c, ha, hb, hc, ha', hb', hc'⟩
      have hr := (List.getElem?_eq_some_iff.1 ha).1
      simp only [List.length_cons, List.length_nil] at hr
      interval_cases r
      · cases ha; cases hb; cases hc
        have hi := (List.getElem?_eq_some_iff.1 ha').1
        simp only [List.length_cons, List.length_nil] at hi
        interval_cases i
        cases ha'; cases hb'
        exact ⟨labelRank1, by simp, 6, ⟨1, -2, [6], rfl, by omega, by omega, rfl, by simp⟩,
          ⟨0, 2, [5, 6], rfl, by omega, by omega, rfl, by simp⟩⟩
      · cases ha; cases hb; cases hc
        have hi := (List.getElem?_eq_some_iff.1 ha').1
        simp only [List.length_cons, List.length_nil] at hi
        interval_cases i
        cases ha'; cases hb'
        exact ⟨labelRank0, by simp, 7, ⟨0, 0, [7, 8], rfl, by omega, by omega, rfl, by simp⟩,
          ⟨1, 1, [7, 9], rfl, by omega, by omega, rfl, by simp⟩⟩)
  refine ⟨out, h1, h2, fun o ho => ?_⟩
  exact (h3 1 labelRank1 [] o rfl rfl ho 6 100).2 (Or.inr ⟨1, 2,
    ⟨0, 0, [1], [2], [100], rfl, rfl, rfl, rfl, rfl, rfl⟩,
    ⟨1, -2, [6], rfl, by omega, by omega, rfl, by simp⟩, ⟨0, 2, [5, 6], rfl, by omega, by omega, rfl, by simp⟩⟩)

/-- The vertices 0 and 2 are not joined. -/
example : labelEdges 4 [labelRank0, labelRank1] [[0], []] [[2], []] [[100], []] [[], []] = none := by
  refine C92_missing 4 labelRanks_ok (vs := 0) (ve := 2) (l := 100)
    ⟨0, 0, [0], [2], [100], rfl, rfl, rfl, rfl, rfl, rfl⟩ ?_
  intro m hm p hp
  simp only [List.mem_cons, List.not_mem_nil, or_false] at hm
  rcases hm with rfl | rfl
  · obtain ⟨-, i, k, s, hi, hk, -⟩ := hp
    have hi' := (List.getElem?_eq_some_iff.1 hi).1
    simp only [labelRank0, List.length_cons, List.length_nil] at hi'
    interval_cases i <;> cases hi <;> omega
  · obtain ⟨⟨i, k, s, hi, hk, -⟩, -⟩ := hp
    have hi' := (List.getElem?_eq_some_iff.1 hi).1
    simp only [labelRank1, List.length_cons, List.length_nil] at hi'
    interval_cases i <;> cases hi <;> omega

example : labelEdges 4 [labelRank0] [[0, 1]] [[1]] [[100, 100]] [[]] = none :=
  C92_sizes 4 (r := 0) rfl rfl rfl (Or.inl (by decide))

example : labelEdges 8 [labelRank0] [[0]] [[1]] [[100]] [[]] = none :=
  C92_wide (vs := 0) (ve := 1) (l := 100) (by
    intro m hm
    simp only [List.mem_cons, List.not_mem_nil, or_false] at hm
    subst hm
    exact labelRank0_ok) ⟨0, 0, [0], [1], [100], rfl, rfl, rfl, rfl, rfl, rfl⟩

/-- A mesh whose supports are not in ascending order. -/
def labelUnsorted : LabelRank := ⟨0, [0, 1], fun p => if p = 0 then some [8, 7] else if p = 1 then some [7] else none⟩

end Ex

/-- The order of the supports matters: the edge 7 joins the vertices 0 and 1 of the mesh
`Ex.labelUnsorted`, but the request for it is reported as one that could not be met. -/
theorem C92_order_needed : Joins Ex.labelUnsorted 0 1 7 ∧
    labelEdges 4 [Ex.labelUnsorted] [[0]] [[1]] [[100]] [[]] = none := by
  constructor
  · exact ⟨⟨0, 0, [8, 7], rfl, by omega, by omega, rfl, by simp⟩, ⟨1, 1, [7], rfl, by omega, by omega, rfl, by simp⟩⟩
  · have e1 : stdSetIntersection [8, 7] [7] = [] := by
      rw [stdSetIntersection, if_neg (by decide), if_pos (by decide), stdSetIntersection]
      simp
    have e2 : labelStep Ex.labelUnsorted [0] [1] [100] 0 ([], [0]) = some ([], [0]) := by
      have a : omGet (labelVertexMap Ex.labelUnsorted) 0 = some 0 := by decide
      have b : omGet (labelVertexMap Ex.labelUnsorted) 1 = some 1 := by decide
      have c : Ex.labelUnsorted.support 0 = some [8, 7] := rfl
      have d : Ex.labelUnsorted.support 1 = some [7] := rfl
      simp [labelStep, rd, a, b, c, d, e1]
    have g : ∀ x : Int, allgatherv 1 [1] [0] [[x]] = some [x] := fun _ => rfl
    have e3 : exscanSums [1] = [0] := by decide
    simp [labelEdges, e3, g, forLoop, runItems, e2, rd]

end NP
