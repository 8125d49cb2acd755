import Verif.Mesh.SpecPlot
import Verif.Mesh.Props
import Verif.Mesh.LemmasNeighbour
import Verif.Petsc.LemmasCell
import Verif.Comm.LemmasExchange
import Mathlib.Tactic.Ring
import Mathlib.Tactic.Linarith

/-!
# Lemmas about plots of the cells of a mesh hierarchy: vertices, edges and the file
-/

set_option autoImplicit false

namespace NP
open NP.Spec

/-- The vertices that have an index so far, in order. -/
structure PlotInv (w : PlotWriter) (vs : List PlotVert) : Prop where
  nodup : vs.Nodup
  find : ∀ v i, plotFind w.vertsToIndex v = some i ↔ ∃ k : Nat, i = k ∧ vs[k]? = some v
  get : ∀ k : Nat, omGet w.indexToVerts (k : Int) = vs[k]?
  len : w.indexToVerts.length = vs.length
  keys : ∀ e ∈ w.indexToVerts, e.1 < (vs.length : Int)
  next : w.next = vs.length

theorem plotInv_nil (cells : List Int) : PlotInv ⟨cells, [], [], 0⟩ [] :=
  ⟨List.nodup_nil, by simp [plotFind], by simp [omGet], rfl, by simp, rfl⟩

theorem getIndex_spec {w : PlotWriter} {vs : List PlotVert} (h : PlotInv w vs) (v : PlotVert) :
    ∃ (k : Nat) (ext : List PlotVert), (w.getIndex v).1 = k ∧ PlotInv (w.getIndex v).2 (vs ++ ext) ∧
      (vs ++ ext)[k]? = some v ∧ (w.getIndex v).2.cells = w.cells ∧ ∀ u ∈ ext, u = v := by
  cases hf : plotFind w.vertsToIndex v with
  | some i =>
    obtain ⟨k, rfl, hk⟩ := (h.find v i).mp hf
    have hg : w.getIndex v = ((k : Int), w) := by unfold PlotWriter.getIndex; rw [hf]
    refine ⟨k, [], by rw [hg], ?_, ?_, by rw [hg], by simp⟩
    · rw [hg, List.append_nil]; exact h
    · rw [List.append_nil]; exact hk
  | none =>
    have hg : w.getIndex v = (w.next, { w with
        vertsToIndex := w.vertsToIndex ++ [(v, w.next)]
        indexToVerts := omPut w.indexToVerts w.next v
        next := w.next + 1 }) := by unfold PlotWriter.getIndex; rw [hf]
    have hv : v ∉ vs := by
      intro hin
      obtain ⟨k, hk⟩ := List.mem_iff_getElem?.mp hin
      have := (h.find v k).mpr ⟨k, rfl, hk⟩
      rw [hf] at this; cases this
    refine ⟨vs.length, [v], by rw [hg]; exact h.next, ?_, by simp, by rw [hg], by simp⟩
    rw [hg]
    have hput : omPut w.indexToVerts w.next v = w.indexToVerts ++ [(w.next, v)] :=
      omPut_last _ _ _ (by rw [h.next]; exact h.keys)
    constructor
    · rw [List.nodup_append]
      exact ⟨h.nodup, by simp, fun a ha b hb => by
        rw [List.mem_singleton] at hb
        subst hb
        exact fun e => hv (e ▸ ha)⟩
    · intro u i
      have hfind : plotFind (w.vertsToIndex ++ [(v, w.next)]) u =
          (plotFind w.vertsToIndex u).or (if v = u then some w.next else none) := by
        unfold plotFind
        rw [List.find?_append]
        cases hu : w.vertsToIndex.find? (fun e => e.1 == u) with
        | some e => rfl
        | none =>
          by_cases hvu : v = u
          · simp [hvu]
          · simp [hvu]
      simp only
      rw [hfind]
      constructor
      · intro hu
        cases hu' : plotFind w.vertsToIndex u with
        | some j =>
          rw [hu', Option.some_or, Option.some.injEq] at hu
          subst hu
          obtain ⟨k, rfl, hk⟩ := (h.find u j).mp hu'
          refine ⟨k, rfl, ?_⟩
          obtain ⟨hlt, -⟩ := List.getElem?_eq_some_iff.mp hk
          rw [List.getElem?_append_left hlt]
          exact hk
        | none =>
          rw [hu', Option.none_or] at hu
          split at hu
          · rename_i hvu
            subst hvu
            rw [Option.some.injEq] at hu
            exact ⟨vs.length, by rw [← hu, h.next], by simp⟩
          · cases hu
      · rintro ⟨k, rfl, hk⟩
        by_cases hlt : k < vs.length
        · rw [List.getElem?_append_left hlt] at hk
          rw [(h.find u k).mpr ⟨k, rfl, hk⟩, Option.some_or]
        · have hke : k = vs.length := by
            obtain ⟨hl, -⟩ := List.getElem?_eq_some_iff.mp hk
            simp at hl
            omega
          subst hke
          simp at hk
          subst hk
          rw [hf, Option.none_or, if_pos rfl, h.next]
    · intro k
      simp only
      rw [omGet_put, h.next]
      by_cases hk : k = vs.length
      · subst hk; simp
      · rw [if_neg (by omega), h.get]
        by_cases hlt : k < vs.length
        · rw [List.getElem?_append_left hlt]
        · rw [List.getElem?_eq_none (by omega), List.getElem?_eq_none (by simp; omega)]
    · simp only
      rw [hput]
      simp [h.len]
    · intro e he
      simp only at he
      rw [hput, List.mem_append, List.mem_singleton] at he
      simp only [List.length_append, List.length_singleton, Nat.cast_add, Nat.cast_one]
      rcases he with he | rfl
      · have := h.keys e he; omega
      · simp only; rw [h.next]; omega
    · simp [h.next]

/-- The edge `e` of indices stands for the line `l`. -/
def PlotEdge (vs : List PlotVert) (e : Int × Int) (l : PlotVert × PlotVert) : Prop :=
  ∃ a b : Nat, e = ((a : Int), (b : Int)) ∧ vs[a]? = some l.1 ∧ vs[b]? = some l.2

theorem PlotEdge.mono {vs ext : List PlotVert} {e : Int × Int} {l : PlotVert × PlotVert} (h : PlotEdge vs e l) :
    PlotEdge (vs ++ ext) e l := by
  obtain ⟨a, b, h1, h2, h3⟩ := h
  have := (List.getElem?_eq_some_iff.mp h2).1
  have := (List.getElem?_eq_some_iff.mp h3).1
  exact ⟨a, b, h1, by rw [List.getElem?_append_left (by assumption), h2],
    by rw [List.getElem?_append_left (by assumption), h3]⟩

/-- The end points of lines. -/
def IsEnd (lines : List (PlotVert × PlotVert)) (v : PlotVert) : Prop := ∃ l ∈ lines, v = l.1 ∨ v = l.2

theorem plotPush_spec (lines : List (PlotVert × PlotVert)) : ∀ {s : PlotWriter × List (Int × Int)}
    {vs : List PlotVert} {before : List (PlotVert × PlotVert)}, PlotInv s.1 vs →
    List.Forall₂ (PlotEdge vs) s.2 before → (∀ v ∈ vs, IsEnd before v) →
    ∃ vs', PlotInv (plotPush lines s).1 vs' ∧ List.Forall₂ (PlotEdge vs') (plotPush lines s).2 (before ++ lines) ∧
      (∀ v ∈ vs', IsEnd (before ++ lines) v) ∧ (plotPush lines s).1.cells = s.1.cells := by
  induction lines with
  | nil =>
    intro s vs before h1 h2 h3
    rw [List.append_nil]
    exact ⟨vs, h1, h2, h3, rfl⟩
  | cons l lines ih =>
    intro s vs before h1 h2 h3
    obtain ⟨a, ext, a1, a2, a3, a4, a5⟩ := getIndex_spec h1 l.1
    obtain ⟨b, ext', b1, b2, b3, b4, b5⟩ := getIndex_spec a2 l.2
    have hstep : plotPush (l :: lines) s = plotPush lines
        (((s.1.getIndex l.1).2.getIndex l.2).2,
          s.2 ++ [((s.1.getIndex l.1).1, ((s.1.getIndex l.1).2.getIndex l.2).1)]) := rfl
    have halt := (List.getElem?_eq_some_iff.mp a3).1
    obtain ⟨vs', c1, c2, c3, c4⟩ := ih (s := (((s.1.getIndex l.1).2.getIndex l.2).2,
          s.2 ++ [((s.1.getIndex l.1).1, ((s.1.getIndex l.1).2.getIndex l.2).1)]))
      (vs := vs ++ ext ++ ext') (before := before ++ [l]) b2 (by
        refine List.rel_append (h2.imp fun e m hm => hm.mono.mono) ?_
        · refine List.Forall₂.cons ⟨a, b, by rw [a1, b1], ?_, b3⟩ .nil
          rw [List.getElem?_append_left halt, a3]) (by
        intro v hv
        simp only [List.mem_append] at hv
        rcases hv with (hv | hv) | hv
        · obtain ⟨m, m1, m2⟩ := h3 v hv
          exact ⟨m, by simp [m1], m2⟩
        · exact ⟨l, by simp, Or.inl (a5 v hv)⟩
        · exact ⟨l, by simp, Or.inr (b5 v hv)⟩)
    rw [List.append_assoc, List.singleton_append] at c2 c3
    exact ⟨vs', by rw [hstep]; exact c1, by rw [hstep]; exact c2, c3, by rw [hstep, c4, b4, a4]⟩

theorem plotPush_foldl {n : Nat} (bases : List PlotVert) : ∀ s : PlotWriter × List (Int × Int),
    bases.foldl (fun s base => plotPush (plotLines n base) s) s = plotPush (bases.flatMap (plotLines n)) s := by
  induction bases with
  | nil => intro s; rfl
  | cons b bases ih =>
    intro s
    rw [List.foldl_cons, ih, List.flatMap_cons]
    unfold plotPush
    rw [List.foldl_append]

theorem parseLines_flatMap (es : List (Int × Int)) :
    parseLines (es.flatMap fun e => [2, e.1, e.2]) = some es := by
  induction es with
  | nil => rfl
  | cons e es ih =>
    rw [List.flatMap_cons]
    simp only [List.cons_append, List.nil_append, parseLines, ih, Option.map_some]

/-- The coordinates of a vertex. -/
def vertAt (width : ℚ) (o : ℚ × ℚ × ℚ) (v : PlotVert) : List ℚ :=
  [(v.1 : ℚ) * width + o.1, (v.2.1 : ℚ) * width + o.2.1, (v.2.2 : ℚ) * width + o.2.2]

theorem vertAt_inj {width : ℚ} (hw : 0 < width) (o : ℚ × ℚ × ℚ) : Function.Injective (vertAt width o) := by
  rintro ⟨a, b, c⟩ ⟨a', b', c'⟩ h
  have hne : width ≠ 0 := ne_of_gt hw
  simp only [vertAt, List.cons.injEq, and_true, add_left_inj] at h
  obtain ⟨h1, h2, h3⟩ := h
  have e1 := mul_right_cancel₀ hne h1
  have e2 := mul_right_cancel₀ hne h2
  have e3 := mul_right_cancel₀ hne h3
  exact Prod.ext (by exact_mod_cast e1) (Prod.ext (by exact_mod_cast e2) (by exact_mod_cast e3))

/-- The file of a list of lines. -/
theorem plotFile_read {w : PlotWriter} {edges : List (Int × Int)} {vs : List PlotVert}
    {lines : List (PlotVert × PlotVert)} (h : PlotInv w vs) (he : List.Forall₂ (PlotEdge vs) edges lines)
    {width : ℚ} {o0 o1 o2 : ℚ} {f : PlotFile}
    (hf : f = ⟨w.indexToVerts.length, (intRange 0 w.next).map (fun vx =>
        let v := (omGet w.indexToVerts vx).getD (0, 0, 0)
        [(v.1 : ℚ) * width + o0, (v.2.1 : ℚ) * width + o1, (v.2.2 : ℚ) * width + o2]), edges.length,
      (edges.flatMap fun e => [2, e.1, e.2]).length, edges.flatMap fun e => [2, e.1, e.2],
      List.replicate edges.length 3⟩) :
    f.points = vs.map (vertAt width (o0, o1, o2)) ∧
    readPlot f = some (lines.map fun l => (vertAt width (o0, o1, o2) l.1, vertAt width (o0, o1, o2) l.2)) := by
  have hp : f.points = vs.map (vertAt width (o0, o1, o2)) := by
    rw [hf]
    apply List.ext_getElem?
    intro k
    simp only [List.getElem?_map, intRange, h.next, Int.sub_zero, Int.toNat_natCast]
    by_cases hk : k < vs.length
    · rw [List.getElem?_range hk, List.getElem?_eq_getElem hk]
      simp only [Option.map_some, Int.zero_add]
      rw [h.get, List.getElem?_eq_getElem hk]
      rfl
    · rw [List.getElem?_eq_none (by simpa using hk), List.getElem?_eq_none (by omega)]
      rfl
  refine ⟨hp, ?_⟩
  have hpt : ∀ k : Nat, plotPoint f (k : Int) = (vs[k]?).map (vertAt width (o0, o1, o2)) := by
    intro k
    unfold plotPoint
    rw [if_pos (by omega), hp, List.getElem?_map, Int.toNat_natCast]
  have hlen : f.points.length = vs.length := by rw [hp, List.length_map]
  unfold readPlot
  rw [if_pos (by
    refine ⟨?_, ?_, ?_, ?_⟩
    · rw [hlen, hf]; exact h.len
    · rw [hf]
    · rw [hf]; simp
    · rw [hf]; intro t ht; exact List.eq_of_mem_replicate ht)]
  have hints : f.ints = edges.flatMap fun e => [2, e.1, e.2] := by rw [hf]
  have hnc : f.ncells = edges.length := by rw [hf]
  rw [hints, parseLines_flatMap, Option.bind_some, hnc, if_pos rfl]
  clear hf hints hnc
  induction he with
  | nil => rfl
  | @cons e l es ls h1 h2 ih =>
    obtain ⟨a, b, rfl, ha, hb⟩ := h1
    rw [List.mapM_cons, ih]
    simp only [hpt, ha, hb]
    rfl

end NP
