import Verif.Io.SpecVtk
import Verif.Io.Lemmas
import Verif.Petsc.LemmasCell
import Verif.Comm.LemmasExchange

/-!
# Lemmas: VTKHDF files, writing
-/

set_option autoImplicit false

namespace NP

open Spec

/-! ## Maps -/

theorem omapOk_tail {α : Type} {e : Int × α} {m : OMap α} (h : OMapOk (e :: m)) : OMapOk m :=
  (List.pairwise_cons.mp h).2

/-- A map is its names with the values found for them. -/
theorem omap_of_keys {α : Type} {m : OMap α} (hm : OMapOk m) {P : List Int} (hP : m.map (·.1) = P) {g : Int → α}
    (hg : ∀ k ∈ P, omGet m k = some (g k)) : m = P.map fun k => (k, g k) := by
  subst hP
  rw [List.map_map]
  conv_lhs => rw [← List.map_id m]
  refine List.map_congr_left fun e he => ?_
  have h1 := omGet_of_mem hm (k := e.1) (v := e.2) he
  rw [hg e.1 (List.mem_map.mpr ⟨e, he, rfl⟩), Option.some.injEq] at h1
  show e = (e.1, g e.1)
  rw [h1]

theorem omGet_isSome_iff {α : Type} {m : OMap α} (hm : OMapOk m) (k : Int) :
    (∃ v, omGet m k = some v) ↔ k ∈ m.map (·.1) := by
  constructor
  · rintro ⟨v, hv⟩
    exact List.mem_map.mpr ⟨_, omGet_some_mem hv, rfl⟩
  · intro h
    obtain ⟨e, he, rfl⟩ := List.mem_map.mp h
    exact ⟨e.2, omGet_of_mem hm he⟩

/-- Sorted lists with the same members are equal. -/
theorem keys_unique {P Q : List Int} (hP : P.Pairwise (· < ·)) (hQ : Q.Pairwise (· < ·))
    (h : ∀ k, k ∈ P ↔ k ∈ Q) : P = Q := by
  have hp : P.Nodup := hP.imp (fun h => by omega)
  have hq : Q.Nodup := hQ.imp (fun h => by omega)
  have hperm : P.Perm Q := (List.perm_ext_iff_of_nodup hp hq).mpr h
  exact hperm.eq_of_pairwise (fun a b _ _ h1 h2 => absurd h1 (by omega)) hP hQ

theorem omPut_keys_foldl (l : List Int) : ∀ m : OMap (List Int), OMapOk m →
    OMapOk (l.foldl (fun m k => omPut m k []) m) ∧
    ∀ k, omGet (l.foldl (fun m k => omPut m k []) m) k = if k ∈ l then some [] else omGet m k := by
  induction l with
  | nil => intro m hm; exact ⟨hm, fun k => by simp⟩
  | cons a l ih =>
    intro m hm
    obtain ⟨h1, h2⟩ := ih (omPut m a []) (omPut_ok hm a [])
    refine ⟨h1, fun k => ?_⟩
    rw [List.foldl_cons, h2 k, omGet_put]
    by_cases hk : k ∈ l
    · rw [if_pos hk, if_pos (List.mem_cons_of_mem _ hk)]
    · rw [if_neg hk]
      by_cases ha : a = k
      · rw [if_pos ha, if_pos (by rw [ha]; exact List.mem_cons_self)]
      · rw [if_neg ha, if_neg (by simp [hk, Ne.symm ha])]

/-- Inserting one vector per name. -/
theorem vtkInsert_all (l : OMap (List Int)) (hl : OMapOk l) : ∀ m : OMap (List Int), OMapOk m →
    OMapOk (l.foldl (fun m nd => vtkInsert m nd.1 nd.2) m) ∧
    ∀ k, omGet (l.foldl (fun m nd => vtkInsert m nd.1 nd.2) m) k =
      match omGet l k with
      | some d => some ((omGet m k).getD [] ++ d)
      | none => omGet m k := by
  induction l with
  | nil => intro m hm; exact ⟨hm, fun k => rfl⟩
  | cons e l ih =>
    intro m hm
    obtain ⟨h1, h2⟩ := ih (omapOk_tail hl) (vtkInsert m e.1 e.2) (omPut_ok hm _ _)
    refine ⟨h1, fun k => ?_⟩
    rw [List.foldl_cons, h2 k, omGet_cons]
    by_cases hk : e.1 = k
    · rw [if_pos hk]
      have hnone : omGet l k = none := by
        cases hg : omGet l k with
        | none => rfl
        | some v =>
          have : e.1 < k := (List.pairwise_cons.mp hl).1 k (List.mem_map.mpr ⟨_, omGet_some_mem hg, rfl⟩)
          omega
      rw [hnone]
      unfold vtkInsert
      rw [omGet_put, if_pos hk, hk]
    · rw [if_neg hk]
      unfold vtkInsert
      rw [omGet_put, if_neg hk]

theorem vtkInsert_run (n : Nat) (l : OMap (List Int)) (hn : ∀ e ∈ l, e.2.length = n) : ∀ m : OMap (List Int),
    runItems (fun (nd : Int × List Int) m => if nd.2.length = n then some (vtkInsert m nd.1 nd.2) else none) l m =
    some (l.foldl (fun m nd => vtkInsert m nd.1 nd.2) m) := by
  induction l with
  | nil => intro m; rfl
  | cons e l ih =>
    intro m
    rw [runItems, if_pos (hn e List.mem_cons_self), Option.bind_some, ih (fun x hx => hn x (List.mem_cons_of_mem _ hx)),
      List.foldl_cons]

theorem vtkInsert_single (l : OMap Int) : ∀ m : OMap (List Int),
    l.foldl (fun m nd => vtkInsert m nd.1 [nd.2]) m =
    (l.map fun nd => (nd.1, [nd.2])).foldl (fun m nd => vtkInsert m nd.1 nd.2) m := by
  intro m; rw [List.foldl_map]

theorem omGet_map {α β : Type} (f : α → β) (l : OMap α) (k : Int) :
    omGet (l.map fun nd => (nd.1, f nd.2)) k = (omGet l k).map f := by
  induction l with
  | nil => rfl
  | cons e l ih =>
    rw [List.map_cons, omGet_cons, omGet_cons, ih]
    split <;> rfl

/-! ## The loop over the cells -/

/-- The value of a quantity for the points of a cell. -/
def pointVal (k : Int) (c : VtkCell) : List Int := (omGet c.pointData k).getD []

/-- The value of a quantity for a cell. -/
def cellVal (k : Int) (c : VtkCell) : Int := (omGet c.cellData k).getD 0

/-- Numbers of points. -/
def nps (cells : List VtkCell) : List Nat := cells.map (·.numPoints)

/-- The offsets of the cells of a rank. -/
def offsetsOf (cells : List VtkCell) : List Nat := (List.range (cells.length + 1)).map (before (nps cells))

theorem connectivity_run (n : Nat) : ∀ (l : List Nat) (p : Nat),
    forLoop 0 n (fun _ (t : List Nat × Nat) => some (t.1 ++ [t.2], t.2 + 1)) (l, p) =
    some (l ++ (List.range n).map (p + ·), p + n) := by
  intro l p
  obtain ⟨s', h1, h2⟩ := forLoop_invariant (a := 0) (b := n) (s := (l, p))
    (step := fun _ (t : List Nat × Nat) => some (t.1 ++ [t.2], t.2 + 1))
    (fun i (s : List Nat × Nat) => s = (l ++ (List.range i).map (p + ·), p + i)) (Nat.zero_le n)
    (by
      rintro i s - hi rfl
      refine ⟨_, rfl, ?_⟩
      rw [List.range_succ, List.map_append, List.append_assoc]
      rfl) (by simp)
  rw [h1, h2]

theorem before_full (l : List Nat) {n : Nat} (h : l.length ≤ n) : before l n = l.sum := by
  unfold before; rw [List.take_of_length_le h]

theorem before_append (l m : List Nat) {n : Nat} (h : n ≤ l.length) : before (l ++ m) n = before l n := by
  unfold before; rw [List.take_append_of_le_length h]

theorem offsetsOf_snoc (cells : List VtkCell) (c : VtkCell) :
    offsetsOf (cells ++ [c]) = offsetsOf cells ++ [(nps cells).sum + c.numPoints] := by
  unfold offsetsOf
  rw [List.length_append, List.length_singleton, List.range_succ (n := cells.length + 1), List.map_append]
  congr 1
  · refine List.map_congr_left fun k hk => ?_
    rw [List.mem_range] at hk
    unfold nps
    rw [List.map_append, before_append _ _ (by rw [List.length_map]; omega)]
  · rw [List.map_singleton, before_full _ (by simp [nps])]
    simp [nps]

/-- What the loop over the cells has done. -/
structure VtkGathered (P C : List Int) (r : VtkRank) (pre : List VtkCell) (s : VtkLocal) : Prop where
  npoint : s.npoint = (nps pre).sum
  ncell : s.ncell = pre.length
  points : s.points = pre.flatMap (·.points)
  types : s.types = pre.map (·.cellType)
  connectivity : s.connectivity = List.range (nps pre).sum
  offsets : s.offsets = offsetsOf pre
  pointIndex : s.pointIndex = (nps pre).sum
  okP : OMapOk s.pointData
  okC : OMapOk s.cellData
  pd : ∀ k, omGet s.pointData k = if k ∈ r.pointKeys ∨ (pre ≠ [] ∧ k ∈ P) then some (pre.flatMap (pointVal k)) else none
  cd : ∀ k, omGet s.cellData k = if k ∈ r.cellKeys ∨ (pre ≠ [] ∧ k ∈ C) then some (pre.map (cellVal k)) else none

theorem gathered_step {P C : List Int} (hP : P.Pairwise (· < ·)) (hC : C.Pairwise (· < ·)) {r : VtkRank}
    (hr : VtkRankOk P C r) {pre : List VtkCell} {c : VtkCell} (hc : VtkCellOk P C c) {s : VtkLocal}
    (g : VtkGathered P C r pre s) : ∃ s', vtkCellStep c s = some s' ∧ VtkGathered P C r (pre ++ [c]) s' := by
  have okp : OMapOk c.pointData := by unfold OMapOk; rw [hc.pointKeys]; exact hP
  have okc : OMapOk c.cellData := by unfold OMapOk; rw [hc.cellKeys]; exact hC
  have okc' : OMapOk (c.cellData.map fun nd => (nd.1, [nd.2])) := by
    unfold OMapOk; rw [List.map_map]; exact okc
  obtain ⟨p1, p2⟩ := vtkInsert_all c.pointData okp s.pointData g.okP
  obtain ⟨q1, q2⟩ := vtkInsert_all _ okc' s.cellData g.okC
  unfold vtkCellStep
  rw [if_pos hc.points, vtkInsert_run _ _ hc.lengths, Option.bind_some, connectivity_run, Option.bind_some]
  have hs : (nps (pre ++ [c])).sum = (nps pre).sum + c.numPoints := by simp [nps]
  refine ⟨_, rfl, ?_⟩
  constructor
  · show s.npoint + c.numPoints = _
    rw [g.npoint, hs]
  · show s.ncell + 1 = _
    rw [g.ncell]; simp
  · show s.points ++ c.points = _
    rw [g.points]; simp
  · show s.types ++ [c.cellType] = _
    rw [g.types]; simp
  · show s.connectivity ++ _ = _
    rw [g.connectivity, g.pointIndex, hs, List.range_add]
  · show s.offsets ++ [_] = _
    rw [g.offsets, g.pointIndex, offsetsOf_snoc]
  · show s.pointIndex + c.numPoints = _
    rw [g.pointIndex, hs]
  · exact p1
  · show OMapOk (c.cellData.foldl (fun m nd => vtkInsert m nd.1 [nd.2]) s.cellData)
    rw [vtkInsert_single]; exact q1
  · intro k
    show omGet (c.pointData.foldl (fun m nd => vtkInsert m nd.1 nd.2) s.pointData) k = _
    rw [p2 k]
    by_cases hk : k ∈ P
    · obtain ⟨v, hv⟩ := (omGet_isSome_iff okp k).mpr (by rw [hc.pointKeys]; exact hk)
      have h1 : (omGet s.pointData k).getD [] = pre.flatMap (pointVal k) := by
        rw [g.pd k]
        split
        · rfl
        · rename_i hn
          have : pre = [] := by
            by_cases h0 : pre = []
            · exact h0
            · exact absurd (Or.inr ⟨h0, hk⟩) hn
          rw [this]; rfl
      have hpv : pointVal k c = v := by unfold pointVal; rw [hv]; rfl
      rw [hv]
      dsimp only
      rw [h1, if_pos (Or.inr ⟨by simp, hk⟩), List.flatMap_append, List.flatMap_singleton, hpv]
    · have hnone : omGet c.pointData k = none := by
        cases hg : omGet c.pointData k with
        | none => rfl
        | some v => exact absurd (hc.pointKeys ▸ (omGet_isSome_iff okp k).mp ⟨v, hg⟩) hk
      have hkk : k ∉ r.pointKeys := fun h => hk (hr.pointKeys k h)
      rw [hnone]
      dsimp only
      rw [g.pd k, if_neg (by simp [hk, hkk]), if_neg (by simp [hk, hkk])]
  · intro k
    show omGet (c.cellData.foldl (fun m nd => vtkInsert m nd.1 [nd.2]) s.cellData) k = _
    rw [vtkInsert_single, q2 k, omGet_map (fun v : Int => [v])]
    by_cases hk : k ∈ C
    · obtain ⟨v, hv⟩ := (omGet_isSome_iff okc k).mpr (by rw [hc.cellKeys]; exact hk)
      have h1 : (omGet s.cellData k).getD [] = pre.map (cellVal k) := by
        rw [g.cd k]
        split
        · rfl
        · rename_i hn
          have : pre = [] := by
            by_cases h0 : pre = []
            · exact h0
            · exact absurd (Or.inr ⟨h0, hk⟩) hn
          rw [this]; rfl
      have hpv : cellVal k c = v := by unfold cellVal; rw [hv]; rfl
      rw [hv]
      dsimp only [Option.map_some]
      rw [h1, if_pos (Or.inr ⟨by simp, hk⟩), List.map_append, List.map_singleton, hpv]
    · have hnone : omGet c.cellData k = none := by
        cases hg : omGet c.cellData k with
        | none => rfl
        | some v => exact absurd (hc.cellKeys ▸ (omGet_isSome_iff okc k).mp ⟨v, hg⟩) hk
      have hkk : k ∉ r.cellKeys := fun h => hk (hr.cellKeys k h)
      rw [hnone, Option.map_none]
      dsimp only
      rw [g.cd k, if_neg (by simp [hk, hkk]), if_neg (by simp [hk, hkk])]

/-- The local variables after the loop. -/
def localOf (P C : List Int) (cells : List VtkCell) : VtkLocal :=
  ⟨(nps cells).sum, cells.length, cells.flatMap (·.points), cells.map (·.cellType), List.range (nps cells).sum,
    offsetsOf cells, P.map fun k => (k, cells.flatMap (pointVal k)), C.map fun k => (k, cells.map (cellVal k)),
    (nps cells).sum⟩

theorem keyed_eq {α : Type} {m : OMap (List α)} (hm : OMapOk m) {P : List Int} (hP : P.Pairwise (· < ·))
    {g : Int → List α} (h : ∀ k, omGet m k = if k ∈ P then some (g k) else none) :
    m = P.map fun k => (k, g k) := by
  refine omap_of_keys hm (keys_unique hm hP fun k => ?_) fun k hk => by rw [h k, if_pos hk]
  rw [← omGet_isSome_iff hm, h k]
  split <;> simp_all

theorem vtkGather_spec {P C : List Int} (hP : P.Pairwise (· < ·)) (hC : C.Pairwise (· < ·)) {r : VtkRank}
    (hr : VtkRankOk P C r) : vtkGather r = some (localOf P C r.cells) := by
  unfold vtkGather
  obtain ⟨a1, a2⟩ := omPut_keys_foldl r.pointKeys [] List.Pairwise.nil
  obtain ⟨b1, b2⟩ := omPut_keys_foldl r.cellKeys [] List.Pairwise.nil
  obtain ⟨s', h1, g⟩ := runItems_invariant (step := vtkCellStep) (items := r.cells) (s := vtkStart r)
    (P := fun pre s => VtkGathered P C r pre s)
    (by
      intro pre c post s hi g
      exact gathered_step hP hC hr (hr.cells c (by rw [hi]; simp)) g)
    ⟨rfl, rfl, rfl, rfl, rfl, rfl, rfl, a1, b1, fun k => by
      show omGet (r.pointKeys.foldl (fun m k => omPut m k []) []) k = _
      rw [a2 k]; simp [omGet_nil], fun k => by
      show omGet (r.cellKeys.foldl (fun m k => omPut m k []) []) k = _
      rw [b2 k]; simp [omGet_nil]⟩
  rw [h1]
  congr 1
  have e1 : s'.pointData = P.map fun k => (k, r.cells.flatMap (pointVal k)) := by
    refine keyed_eq g.okP hP fun k => ?_
    rw [g.pd k]
    congr 1
    refine propext ⟨?_, fun hk => ?_⟩
    · rintro (h | h)
      · exact hr.pointKeys k h
      · exact h.2
    · by_cases h0 : r.cells = []
      · exact Or.inl (hr.pointAll h0 k hk)
      · exact Or.inr ⟨h0, hk⟩
  have e2 : s'.cellData = C.map fun k => (k, r.cells.map (cellVal k)) := by
    refine keyed_eq g.okC hC fun k => ?_
    rw [g.cd k]
    congr 1
    refine propext ⟨?_, fun hk => ?_⟩
    · rintro (h | h)
      · exact hr.cellKeys k h
      · exact h.2
    · by_cases h0 : r.cells = []
      · exact Or.inl (hr.cellAll h0 k hk)
      · exact Or.inr ⟨h0, hk⟩
  obtain ⟨v1, v2, v3, v4, v5, v6, v7, v8, v9⟩ := s'
  have := g.npoint; have := g.ncell; have := g.points; have := g.types; have := g.connectivity
  have := g.offsets; have := g.pointIndex
  simp only at *
  subst_vars
  rfl

/-! ## Datasets -/

theorem vtkExscan_get (counts : List Nat) {r : Nat} (h : r < counts.length) :
    (vtkExscan counts)[r]? = some (before counts r) := by
  unfold vtkExscan
  rw [List.getElem?_map, List.getElem?_range h, Option.map_some]
  congr 1
  split
  · rename_i h0; subst h0; rfl
  · rfl

theorem vtkGlobal_eq {counts : List Nat} (h : counts ≠ []) : vtkGlobal counts = some counts.sum := by
  have hl : 0 < counts.length := List.length_pos_iff.mpr h
  unfold vtkGlobal rd
  have hg : counts[counts.length - 1]? = some counts[counts.length - 1] := List.getElem?_eq_getElem (by omega)
  rw [vtkExscan_get _ (by omega), Option.bind_some, hg, Option.bind_some, ← before_succ hg,
    before_full _ (by omega)]

theorem vtkDataset_spec {α : Type} (sch : Sched) (data : List (List α)) {global : Nat} {offsets : List Nat}
    (hg : global = (data.map List.length).sum)
    (ho : ∀ r < data.length, offsets[r]? = some (before (data.map List.length) r)) :
    vtkDataset sch global offsets data = some (data.flatten.map some) := by
  unfold vtkDataset
  have hlen : (data.map (·.map some)).map List.length = data.map List.length := by
    rw [List.map_map]; refine List.map_congr_left fun d _ => ?_; simp
  have h := runItems_slabs (α := Option α) (segs := data.map (·.map some))
    (items := sch.order (List.range data.length)) (m := List.replicate global none)
    (step := fun r m => (rd data r).bind fun d => (rd offsets r).bind fun o => stRange m o (d.map some))
    (by rw [List.length_map]; exact sch.perm _) (by rw [hlen, List.length_replicate, hg])
    (by
      intro i hi s
      rw [List.length_map] at hi
      unfold rd
      rw [List.getElem?_eq_getElem hi, Option.bind_some, ho i hi, Option.bind_some, hlen, List.getElem?_map,
        List.getElem?_eq_getElem hi]
      rfl)
  rw [h, List.map_flatten]

theorem before_ones {α : Type} (l : List α) (f : α → Nat) (r : Nat) (h : r ≤ l.length) :
    before ((l.map fun x => [f x]).map List.length) r = r := by
  unfold before
  rw [List.map_map]
  have : (List.length ∘ fun x : α => [f x]) = fun _ => 1 := rfl
  rw [this, List.map_const', List.take_replicate, List.sum_replicate]
  simp; omega

theorem vtkNumbers (sch : Sched) (ls : List VtkLocal) (f : VtkLocal → Nat) :
    vtkDataset sch ls.length (List.range ls.length) (ls.map fun l => [f l]) = some (ls.map fun l => some (f l)) := by
  rw [vtkDataset_spec]
  · congr 1
    induction ls with
    | nil => rfl
    | cons a l ih =>
      rw [List.map_cons, List.flatten_cons, List.map_append, ih]
      rfl
  · have := before_ones ls f ls.length (Nat.le_refl _)
    rw [before_full _ (by simp)] at this
    exact this.symm
  · intro r hr
    rw [List.length_map] at hr
    rw [List.getElem?_range hr, before_ones _ _ _ (Nat.le_of_lt hr)]

end NP
