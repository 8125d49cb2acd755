import Verif.Mesh.LemmasPlot2
import Mathlib.Tactic.Positivity
import Mathlib.Tactic.NormNum

/-!
# C100: plots of mesh hierarchies show exactly the edges of their cells
-/

set_option autoImplicit false

namespace NP
open NP.Spec

/-- What `write_inner` writes for base corners that are cells of a grid. -/
theorem writeInner_spec {mh : MeshHierarchy} {g : PlotGeom} (hv : ValidPlot mh g) (fine : Bool) (w : PlotWriter)
    {bases : List PlotVert} {P : List Int → Prop}
    (hb : (if fine then w.cells.mapM (plotTuple mh) else plotCoarse mh) = some bases)
    (hP : ∀ b, b ∈ bases ↔ ∃ x, P x ∧ b = vertOf x) (hlen : ∀ x, P x → x.length = mh.dims.length) :
    ∃ f w', w.writeInner mh g fine = some (f, w') ∧ w'.cells = w.cells ∧
      f.ncells = (bases.flatMap (plotLines mh.ndim)).length ∧
      IsPlotOf f (if fine then g.extent / 2 ^ mh.order else g.extent) g.origin P := by
  obtain ⟨vs, p1, p2, p3, p4⟩ := plotPush_spec (bases.flatMap (plotLines mh.ndim))
    (s := ((⟨w.cells, [], [], 0⟩ : PlotWriter), [])) (before := []) (plotInv_nil w.cells) .nil (by simp)
  rw [List.nil_append] at p2 p3
  set r := plotPush (bases.flatMap (plotLines mh.ndim)) ((⟨w.cells, [], [], 0⟩ : PlotWriter), []) with hr
  set width := (if fine then g.extent / 2 ^ mh.order else g.extent) with hwidth
  have hpos : 0 < width := by
    rw [hwidth]
    have := hv.extent
    split
    · positivity
    · exact this
  refine ⟨_, r.1, by
    unfold PlotWriter.writeInner
    simp only
    rw [hb, Option.bind_some, plotPush_foldl, plotOrigin_spec (n := mh.ndim) hv.ndim hv.origin]
    rfl, p4, ?_, ?_⟩
  · exact p2.length_eq
  · obtain ⟨r1, r2⟩ := plotFile_read p1 p2 (width := width) (o0 := (originOf g.origin).1)
      (o1 := (originOf g.origin).2.1) (o2 := (originOf g.origin).2.2) rfl
    refine ⟨⟨_, r2, fun p q => ?_, fun p hp => ?_⟩, ?_⟩
    · rw [List.mem_map]
      constructor
      · rintro ⟨l, hl, he⟩
        rw [Prod.mk.injEq] at he
        obtain ⟨b, hb1, hb2⟩ := List.mem_flatMap.mp hl
        obtain ⟨x, hx, rfl⟩ := (hP b).mp hb1
        have hxl := hlen x hx
        have hne : mh.dims.length ≠ 0 := fun e => hv.mesh.1 (List.length_eq_zero_iff.mp e)
        refine ⟨x, hx, (plotLines_edges (by omega) (by rw [hxl]; exact hv.ndim) (by rw [hv.origin, hxl]) p q).mp
          ⟨l, ?_, he.1.symm, he.2.symm⟩⟩
        rw [hxl]; exact hb2
      · rintro ⟨x, hx, he⟩
        have hxl := hlen x hx
        have hne : mh.dims.length ≠ 0 := fun e => hv.mesh.1 (List.length_eq_zero_iff.mp e)
        obtain ⟨l, l1, l2, l3⟩ := (plotLines_edges (by omega) (by rw [hxl]; exact hv.ndim)
          (by rw [hv.origin, hxl]) p q).mpr he
        rw [hxl] at l1
        exact ⟨l, List.mem_flatMap.mpr ⟨_, (hP _).mpr ⟨x, hx, rfl⟩, l1⟩, by rw [l2, l3]⟩
    · rw [r1, List.mem_map] at hp
      obtain ⟨v, hv1, rfl⟩ := hp
      obtain ⟨l, l1, l2⟩ := p3 v hv1
      refine ⟨_, List.mem_map.mpr ⟨l, l1, rfl⟩, ?_⟩
      rcases l2 with rfl | rfl
      · exact Or.inl rfl
      · exact Or.inr rfl
    · rw [r1]
      exact p1.nodup.map (vertAt_inj hpos _)

/-- The number of lines of a cell: none without dimensions, otherwise the number of edges of a cube. -/
theorem plotLines_length {n : Nat} (h1 : 1 ≤ n) (h3 : n ≤ 3) (b : PlotVert) :
    (plotLines n b).length = n * 2 ^ (n - 1) := by
  have : n = 1 ∨ n = 2 ∨ n = 3 := by omega
  rcases this with rfl | rfl | rfl <;> rfl

/-- **C100** `write`: whatever the writer wrote before, the file shows exactly the edges of the cells that were pushed,
no vertex is in the file twice, each cell gives one line per edge, and the writer keeps its cells. -/
theorem C100_write (mh : MeshHierarchy) (g : PlotGeom) (hv : ValidPlot mh g) (w : PlotWriter)
    (hc : ∀ c ∈ w.cells, 0 ≤ c ∧ c < mh.ncellsGlobal) :
    ∃ f w', w.write mh g = some (f, w') ∧ w'.cells = w.cells ∧
      f.ncells = w.cells.length * (mh.dims.length * 2 ^ (mh.dims.length - 1)) ∧
      IsPlotOf f (g.extent / 2 ^ mh.order) g.origin (fun x => ∃ c ∈ w.cells, IsCellAt mh x c) := by
  classical
  -- the base corner of each cell
  have hbase : ∃ base : Int → List Int, ∀ c ∈ w.cells, IsCellAt mh (base c) c ∧
      (base c).length = mh.dims.length ∧ plotTuple mh c = some (vertOf (base c)) := by
    refine ⟨fun c => if h : ∃ x, IsCellAt mh x c ∧ x.length = mh.dims.length ∧ plotTuple mh c = some (vertOf x)
      then h.choose else [], fun c hcm => ?_⟩
    have h := plotTuple_spec hv.mesh hv.ndim (hc c hcm).1 (hc c hcm).2
    simp only [dif_pos h]
    exact h.choose_spec
  obtain ⟨base, hbase⟩ := hbase
  have hmap : w.cells.mapM (plotTuple mh) = some (w.cells.map fun c => vertOf (base c)) :=
    mapM_of_forall fun c hcm => (hbase c hcm).2.2
  obtain ⟨f, w', h1, h2, h3, h4⟩ := writeInner_spec hv true w (P := fun x => ∃ c ∈ w.cells, IsCellAt mh x c)
    (bases := w.cells.map fun c => vertOf (base c)) (by simpa using hmap) (by
      intro b
      rw [List.mem_map]
      constructor
      · rintro ⟨c, hcm, rfl⟩
        exact ⟨base c, ⟨c, hcm, (hbase c hcm).1⟩, rfl⟩
      · rintro ⟨x, ⟨c, hcm, hx⟩, rfl⟩
        exact ⟨c, hcm, by rw [isCellAt_unique' hv.mesh hx (hbase c hcm).1]⟩)
    (by
      rintro x ⟨c, hcm, hx⟩
      rw [isCellAt_unique' hv.mesh hx (hbase c hcm).1]
      exact (hbase c hcm).2.1)
  refine ⟨f, w', h1, h2, ?_, h4⟩
  rw [h3, List.length_flatMap]
  have hne : mh.dims.length ≠ 0 := fun e => hv.mesh.1 (List.length_eq_zero_iff.mp e)
  have : (List.map (fun b => (plotLines mh.ndim b).length) (w.cells.map fun c => vertOf (base c))) =
      List.replicate w.cells.length (mh.dims.length * 2 ^ (mh.dims.length - 1)) := by
    rw [List.eq_replicate_iff]
    refine ⟨by simp, fun b hb => ?_⟩
    obtain ⟨v, -, rfl⟩ := List.mem_map.mp hb
    exact plotLines_length (by omega) hv.ndim v
  rw [this]; simp

/-- Pushing cells. -/
theorem pushBack_foldl (l : List Int) : ∀ w : PlotWriter,
    (l.foldl (fun w c => w.pushBack c) w).cells = w.cells ++ l := by
  induction l with
  | nil => intro w; simp
  | cons c l ih =>
    intro w
    rw [List.foldl_cons, ih]
    simp [PlotWriter.pushBack]

/-- **C100** `write_all_fine`: on rank 0 the file shows exactly the edges of all fine cells of the domain; other ranks
write nothing. -/
theorem C100_fine (mh : MeshHierarchy) (g : PlotGeom) (hv : ValidPlot mh g) (rank : Nat) (w : PlotWriter)
    (hc : ∀ c ∈ w.cells, 0 ≤ c ∧ c < mh.ncellsGlobal) :
    ∃ file w', w.writeAllFine mh g rank = some (file, w') ∧ (file.isSome ↔ rank = 0) ∧
      ∀ f, file = some f → IsPlotOf f (g.extent / 2 ^ mh.order) g.origin
        (InRange (mh.dims.map (· * 2 ^ mh.order))) := by
  unfold PlotWriter.writeAllFine
  by_cases hr : rank = 0
  · rw [if_pos hr]
    have hcells := pushBack_foldl (intRange 0 mh.ncellsGlobal) w
    obtain ⟨f, w', h1, h2, h3, h4⟩ := C100_write mh g hv (w := (intRange 0 mh.ncellsGlobal).foldl
      (fun w c => w.pushBack c) w) (by
        rw [hcells]
        intro c hcm
        rw [List.mem_append, mem_intRange] at hcm
        rcases hcm with hcm | hcm
        · exact hc c hcm
        · exact hcm)
    refine ⟨some f, w', by rw [h1]; rfl, by simp [hr], fun f' hf => ?_⟩
    rw [Option.some.injEq] at hf
    subst hf
    have hiff : (fun x => ∃ c ∈ ((intRange 0 mh.ncellsGlobal).foldl (fun w c => w.pushBack c) w).cells,
        IsCellAt mh x c) = InRange (mh.dims.map (· * 2 ^ mh.order)) := by
      funext x
      rw [hcells]
      refine propext ⟨fun ⟨c, hcm, hx⟩ => isCellAt_inRange hx, fun hx => ?_⟩
      obtain ⟨c, hcx⟩ := isCellAt_exists hv.mesh hx
      refine ⟨c, ?_, hcx⟩
      rw [List.mem_append, mem_intRange]
      right
      obtain ⟨cs, fs, a1, a2, a3, -⟩ := hcx
      obtain ⟨i, i1, i2, i3, -⟩ := (C33_global mh hv.mesh).tuple (cs ++ fs) (List.rel_append a1 a2)
      rw [a3, Option.some.injEq] at i1
      subst i1
      refine ⟨i2, ?_⟩
      have hN : mh.dims.prod * (2 ^ mh.order) ^ mh.dims.length = mh.ncellsGlobal := by
        unfold MeshHierarchy.ncellsGlobal
        rw [ncellsCoarse_eq]; rfl
      rw [← hN]; exact i3
    rw [← hiff]
    exact h4
  · rw [if_neg hr]
    exact ⟨none, w, rfl, by simp [hr], by simp⟩

/-- **C100** `write_all_coarse`: on rank 0 the file shows exactly the edges of all coarse cells; other ranks write
nothing. -/
theorem C100_coarse (mh : MeshHierarchy) (g : PlotGeom) (hv : ValidPlot mh g) (rank : Nat) (w : PlotWriter) :
    ∃ file w', w.writeAllCoarse mh g rank = some (file, w') ∧ (file.isSome ↔ rank = 0) ∧ w'.cells = w.cells ∧
      ∀ f, file = some f → IsPlotOf f g.extent g.origin (InRange mh.dims) := by
  unfold PlotWriter.writeAllCoarse
  by_cases hr : rank = 0
  · rw [if_pos hr]
    obtain ⟨bases, b1, b2⟩ := plotCoarse_spec hv.mesh hv.ndim
    obtain ⟨f, w', h1, h2, h3, h4⟩ := writeInner_spec hv false w (P := InRange mh.dims) (bases := bases)
      (by simpa using b1) b2 (fun x hx => hx.length_eq.symm)
    refine ⟨some f, w', by rw [h1]; rfl, by simp [hr], h2, fun f' hf => ?_⟩
    rw [Option.some.injEq] at hf
    subst hf
    simpa using h4
  · rw [if_neg hr]
    exact ⟨none, w, rfl, by simp [hr], rfl, by simp⟩

namespace Ex

/-- A hierarchy of 3 by 2 coarse cells, each of 2 by 2 fine cells. -/
def plotMesh : MeshHierarchy := ⟨[3, 2], 1⟩
def plotGeom : PlotGeom := ⟨[1 / 2, -1], 2⟩

theorem plotMesh_valid : ValidPlot plotMesh plotGeom :=
  ⟨⟨by decide, by decide⟩, by decide, rfl, by norm_num [plotGeom]⟩

/-- Two fine cells next to each other: eight lines, six vertices. The second write gives the same file. -/
example : (((PlotWriter.new.pushBack 0).pushBack 1).write plotMesh plotGeom).map (fun r =>
    (r.1.ncells, r.1.points, r.2.cells)) =
    some (8, [[1 / 2, -1, 0], [3 / 2, -1, 0], [1 / 2, 0, 0], [3 / 2, 0, 0], [5 / 2, -1, 0], [5 / 2, 0, 0]], [0, 1]) := by
  decide +kernel

example : ∃ f w', ((PlotWriter.new.pushBack 0).pushBack 1).write plotMesh plotGeom = some (f, w') ∧
    f.ncells = 8 ∧ IsPlotOf f (2 / 2 ^ 1) [1 / 2, -1] (fun x => ∃ c ∈ [0, 1], IsCellAt plotMesh x c) := by
  obtain ⟨f, w', h1, -, h3, h4⟩ := C100_write plotMesh plotGeom plotMesh_valid
    ((PlotWriter.new.pushBack 0).pushBack 1) (by decide)
  exact ⟨f, w', h1, h3, h4⟩

/-- All coarse cells: 24 lines between 12 vertices. -/
example : (PlotWriter.new.writeAllCoarse plotMesh plotGeom 0).map (fun r =>
    r.1.map fun f => (f.ncells, f.npoints, f.nints)) = some (some (24, 12, 72)) := by decide +kernel

end Ex

end NP
