import Verif.Io.LemmasVtk

/-!
# Lemmas: VTKHDF files, the file that is written and reading it
-/

set_option autoImplicit false

namespace NP

open Spec

/-- The file that is written. -/
def vtkFileOf (P C : List Int) (cs : List (List VtkCell)) : VtkFile where
  points := (cs.map fun c => c.flatMap (·.points)).flatten.map some
  numberOfPoints := cs.map fun c => some (nps c).sum
  numberOfCells := cs.map fun c => some c.length
  types := (cs.map fun c => c.map (·.cellType)).flatten.map some
  connectivity := (cs.map fun c => List.range (nps c).sum).flatten.map some
  numberOfConnectivityIds := cs.map fun c => some (nps c).sum
  offsets := (cs.map offsetsOf).flatten.map some
  pointData := P.map fun k => (k, (cs.map fun c => c.flatMap (pointVal k)).flatten.map some)
  cellData := C.map fun k => (k, (cs.map fun c => c.map (cellVal k)).flatten.map some)

theorem omGet_keyed {α : Type} {P : List Int} (g : Int → α) {k : Int} (hk : k ∈ P) :
    omGet (P.map fun k => (k, g k)) k = some (g k) := by
  induction P with
  | nil => cases hk
  | cons a P ih =>
    rw [List.map_cons, omGet_cons]
    by_cases h : a = k
    · rw [if_pos h, h]
    · rw [if_neg h]
      rcases List.mem_cons.mp hk with h' | h'
      · exact absurd h'.symm h
      · exact ih h'

theorem vtkKeyed_spec (sch : Sched) {P : List Int} (cs : List (List VtkCell)) (hcs : cs ≠ [])
    (g : Int → List VtkCell → List Int) {n : List VtkCell → Nat} (hn : ∀ k ∈ P, ∀ c ∈ cs, (g k c).length = n c)
    {global : Nat} {offsets : List Nat} (hg : global = (cs.map n).sum)
    (ho : ∀ r < cs.length, offsets[r]? = some (before (cs.map n) r)) :
    vtkKeyed sch global offsets (cs.map fun c => P.map fun k => (k, g k c)) =
      some (P.map fun k => (k, (cs.map (g k)).flatten.map some)) := by
  obtain ⟨c0, cs', rfl⟩ := List.exists_cons_of_ne_nil hcs
  unfold vtkKeyed rd
  rw [List.map_cons, List.getElem?_cons_zero, Option.bind_some, ← List.map_cons (f := fun c => P.map fun k => (k, g k c)), if_pos]
  · rw [List.mapM_map]
    refine mapM_of_forall fun k hk => ?_
    have h1 : ((c0 :: cs').map fun c => P.map fun k => (k, g k c)).mapM (fun m => omGet m k) =
        some ((c0 :: cs').map (g k)) := by
      rw [List.mapM_map]
      exact mapM_of_forall fun c _ => omGet_keyed (fun k => g k c) hk
    have hl : ((c0 :: cs').map (g k)).map List.length = (c0 :: cs').map n := by
      rw [List.map_map]; exact List.map_congr_left fun c hc => hn k hk c hc
    show ((((c0 :: cs').map fun c => P.map fun k => (k, g k c)).mapM (fun m => omGet m k)).bind _) = _
    rw [h1, Option.bind_some, vtkDataset_spec sch _ (by rw [hl, hg]) (by rw [hl, List.length_map]; exact ho)]
    rfl
  · rw [List.all_eq_true]
    intro m hm
    obtain ⟨c, -, rfl⟩ := List.mem_map.mp hm
    simp [List.map_map, Function.comp_def]

theorem length_pointVal {P C : List Int} (hP : P.Pairwise (· < ·)) {c : VtkCell} (hc : VtkCellOk P C c) {k : Int}
    (hk : k ∈ P) : (pointVal k c).length = c.numPoints := by
  have okp : OMapOk c.pointData := by unfold OMapOk; rw [hc.pointKeys]; exact hP
  obtain ⟨v, hv⟩ := (omGet_isSome_iff okp k).mpr (by rw [hc.pointKeys]; exact hk)
  unfold pointVal
  rw [hv]
  exact hc.lengths _ (omGet_some_mem hv)

theorem length_flatMap_of {α : Type} (f : VtkCell → List α) (w : Nat) (cells : List VtkCell)
    (h : ∀ c ∈ cells, (f c).length = c.numPoints * w) : (cells.flatMap f).length = (nps cells).sum * w := by
  induction cells with
  | nil => simp [nps]
  | cons a l ih =>
    rw [List.flatMap_cons, List.length_append, ih fun c hc => h c (List.mem_cons_of_mem _ hc),
      h a List.mem_cons_self]
    simp only [nps, List.map_cons, List.sum_cons]
    rw [Nat.add_mul]

theorem before_mul (l : List Nat) (w r : Nat) : before (l.map (· * w)) r = before l r * w := by
  unfold before
  rw [← List.map_take]
  generalize l.take r = l'
  induction l' with
  | nil => simp
  | cons a l ih => rw [List.map_cons, List.sum_cons, ih, List.sum_cons, Nat.add_mul]

theorem sum_map_mul (l : List Nat) (w : Nat) : (l.map (· * w)).sum = l.sum * w := by
  rw [← before_full (l.map (· * w)) (Nat.le_of_eq (List.length_map _)), before_mul, before_full l (Nat.le_refl _)]

theorem before_plus_one {α : Type} (l : List (List α)) : ∀ p ≤ l.length,
    before (l.map fun c => c.length + 1) p = before (l.map List.length) p + p := by
  intro p
  induction p with
  | zero => intro _; rfl
  | succ p ih =>
    intro h
    have hp : l[p]? = some l[p] := List.getElem?_eq_getElem (by omega)
    rw [before_succ (n := l[p].length + 1) (by rw [List.getElem?_map, hp]; rfl),
      before_succ (n := l[p].length) (by rw [List.getElem?_map, hp]; rfl), ih (by omega)]
    omega

theorem length_offsetsOf (c : List VtkCell) : (offsetsOf c).length = c.length + 1 := by
  unfold offsetsOf; simp

/-- Writing succeeds and gives this file. -/
theorem vtkWrite_spec {P C : List Int} (hP : P.Pairwise (· < ·)) (hC : C.Pairwise (· < ·)) (sch : Sched)
    {ranks : List VtkRank} (hne : ranks ≠ []) (hr : ∀ r ∈ ranks, VtkRankOk P C r) :
    VtkWriter.write sch ⟨true, none⟩ ranks = some ⟨true, some (vtkFileOf P C (ranks.map (·.cells)))⟩ := by
  unfold VtkWriter.write
  rw [if_pos ⟨rfl, rfl⟩]
  have h1 : ranks.mapM vtkGather = some ((ranks.map (·.cells)).map (localOf P C)) := by
    rw [List.map_map]
    exact mapM_of_forall fun r h => vtkGather_spec hP hC (hr r h)
  rw [h1, Option.bind_some]
  have hcell : ∀ c ∈ ranks.map (·.cells), ∀ x ∈ c, VtkCellOk P C x := by
    intro c hc x hx
    obtain ⟨r, h, rfl⟩ := List.mem_map.mp hc
    exact (hr r h).cells x hx
  have hne' : ranks.map (·.cells) ≠ [] := by simpa using hne
  generalize ranks.map (·.cells) = cs at *
  dsimp only
  have n1 : (cs.map (localOf P C)).map (·.npoint) = cs.map fun c => (nps c).sum := by rw [List.map_map]; rfl
  have n2 : (cs.map (localOf P C)).map (·.ncell) = cs.map fun c => c.length := by rw [List.map_map]; rfl
  have n3 : (cs.map (localOf P C)).map (·.connectivity.length) = cs.map fun c => (nps c).sum := by
    rw [List.map_map]; refine List.map_congr_left fun c _ => ?_; simp [localOf]
  have n4 : (cs.map (localOf P C)).map (fun l => l.ncell + 1) = cs.map fun c => c.length + 1 := by
    rw [List.map_map]; rfl
  have n5 : (cs.map (localOf P C)).map (·.offsets.length) = cs.map fun c => c.length + 1 := by
    rw [List.map_map]; exact List.map_congr_left fun c _ => length_offsetsOf c
  have n6 : (cs.map (localOf P C)).map (·.points) = cs.map fun c => c.flatMap (·.points) := by rw [List.map_map]; rfl
  have n7 : (cs.map (localOf P C)).map (fun l => [l.npoint]) = cs.map fun c => [(nps c).sum] := by rw [List.map_map]; rfl
  have n8 : (cs.map (localOf P C)).map (fun l => [l.ncell]) = cs.map fun c => [c.length] := by rw [List.map_map]; rfl
  have n9 : (cs.map (localOf P C)).map (·.types) = cs.map fun c => c.map (·.cellType) := by rw [List.map_map]; rfl
  have n10 : (cs.map (localOf P C)).map (·.connectivity) = cs.map fun c => List.range (nps c).sum := by
    rw [List.map_map]; rfl
  have n11 : (cs.map (localOf P C)).map (fun l => [l.connectivity.length]) = cs.map fun c => [(nps c).sum] := by
    rw [List.map_map]; refine List.map_congr_left fun c _ => ?_; simp [localOf]
  have n12 : (cs.map (localOf P C)).map (·.offsets) = cs.map offsetsOf := by rw [List.map_map]; rfl
  have n13 : (cs.map (localOf P C)).map (·.pointData) = cs.map fun c => P.map fun k => (k, c.flatMap (pointVal k)) := by
    rw [List.map_map]; rfl
  have n14 : (cs.map (localOf P C)).map (·.cellData) = cs.map fun c => C.map fun k => (k, c.map (cellVal k)) := by
    rw [List.map_map]; rfl
  rw [n1, n2, n3, n4, n5, n6, n7, n8, n9, n10, n11, n12, n13, n14]
  rw [vtkGlobal_eq (by simpa using hne'), Option.bind_some, vtkGlobal_eq (by simpa using hne'), Option.bind_some,
    Option.bind_some, vtkGlobal_eq (by simpa using hne'), Option.bind_some, if_pos rfl]
  have hpt : ∀ c ∈ cs, (c.flatMap (·.points)).length = (nps c).sum * 3 := fun c hc =>
    length_flatMap_of _ 3 c fun x hx => (hcell c hc x hx).points
  have d1 : (cs.map fun c => c.flatMap (·.points)).map List.length = (cs.map fun c => (nps c).sum).map (· * 3) := by
    rw [List.map_map, List.map_map]; exact List.map_congr_left fun c hc => hpt c hc
  have p1 : vtkDataset2 sch (cs.map fun c => (nps c).sum).sum (vtkExscan (cs.map fun c => (nps c).sum))
      (cs.map fun c => (nps c).sum) 3 (cs.map fun c => c.flatMap (·.points)) =
      some ((cs.map fun c => c.flatMap (·.points)).flatten.map some) := by
    unfold vtkDataset2
    rw [if_pos d1.symm, vtkDataset_spec]
    · rw [d1, sum_map_mul]
    · intro r h
      rw [List.length_map] at h
      rw [List.getElem?_map, vtkExscan_get _ (by simpa using h), d1, before_mul]
      rfl
  have p2 : ∀ f : List VtkCell → Nat, vtkDataset sch (cs.map (localOf P C)).length
      (List.range (cs.map (localOf P C)).length) (cs.map fun c => [f c]) = some (cs.map fun c => some (f c)) := by
    intro f
    rw [vtkDataset_spec]
    · congr 1
      generalize cs = l
      induction l with
      | nil => rfl
      | cons a l ih => rw [List.map_cons, List.flatten_cons, List.map_append, ih]; rfl
    · have := before_ones cs f cs.length (Nat.le_refl _)
      rw [before_full _ (by simp)] at this
      rw [List.length_map]
      exact this.symm
    · intro r h
      rw [List.length_map] at h
      rw [List.getElem?_range (by simpa using h), before_ones _ _ _ (Nat.le_of_lt h)]
  have p3 : ∀ {α : Type} (f : List VtkCell → List α) (n : List VtkCell → Nat), (∀ c, (f c).length = n c) →
      vtkDataset sch (cs.map n).sum (vtkExscan (cs.map n)) (cs.map f) = some ((cs.map f).flatten.map some) := by
    intro α f n hf
    have hl : (cs.map f).map List.length = cs.map n := by
      rw [List.map_map]; exact List.map_congr_left fun c _ => hf c
    rw [vtkDataset_spec]
    · rw [hl]
    · intro r h
      rw [List.length_map] at h
      rw [vtkExscan_get _ (by simpa using h), hl]
  have q2 : ∀ f : List VtkCell → Nat, vtkDataset sch cs.length
      (List.range cs.length) (cs.map fun c => [f c]) = some (cs.map fun c => some (f c)) := by
    intro f
    have := p2 f
    rwa [List.length_map] at this
  rw [p1, Option.bind_some, List.length_map, q2 fun c => (nps c).sum, Option.bind_some, q2 fun c => c.length, Option.bind_some,
    p3 (fun c => c.map (·.cellType)) (fun c => c.length) (fun c => by simp), Option.bind_some,
    p3 (fun c => List.range (nps c).sum) (fun c => (nps c).sum) (fun c => by simp), Option.bind_some,
    Option.bind_some, p3 offsetsOf (fun c => c.length + 1) length_offsetsOf, Option.bind_some,
    vtkKeyed_spec sch cs hne' (fun k c => c.flatMap (pointVal k)) (n := fun c => (nps c).sum)
      (fun k hk c hc => by
        have := length_flatMap_of (pointVal k) 1 c fun x hx => by
          rw [length_pointVal hP (hcell c hc x hx) hk, Nat.mul_one]
        rwa [Nat.mul_one] at this) rfl
      (fun r h => vtkExscan_get _ (by simpa using h)), Option.bind_some,
    vtkKeyed_spec sch cs hne' (fun k c => c.map (cellVal k)) (n := fun c => c.length)
      (fun k _ c _ => by simp) rfl
      (fun r h => vtkExscan_get _ (by simpa using h)), Option.bind_some]
  rfl

/-! ## Reading -/

theorem entry_flatten {α : Type} {ll : List (List α)} {c k : Nat} {row : List α} {v : α} (hr : ll[c]? = some row)
    (hk : row[k]? = some v) {i : Nat} (hi : i = before (ll.map List.length) c + k) :
    vtkEntry (ll.flatten.map some) i = some v := by
  have hlt : k < row.length := (List.getElem?_eq_some_iff.mp hk).1
  unfold vtkEntry
  rw [hi, List.getElem?_map, flatten_getElem? ll hr hlt, hk]
  rfl

theorem sumBefore_map {β : Type} (l : List β) (f : β → Nat) (p : Nat) :
    sumBefore (l.map fun c => some (f c)) p = some (before (l.map f) p) := by
  unfold sumBefore before
  rw [← List.map_take, ← List.map_take, List.mapM_map]
  have h := mapM_of_forall (f := id ∘ fun c => some (f c)) (g := f) (l := l.take p) fun x _ => rfl
  rw [h]
  rfl

theorem entry_map {β : Type} {l : List β} (f : β → Nat) {p : Nat} {c : β} (h : l[p]? = some c) :
    vtkEntry (l.map fun c => some (f c)) p = some (f c) := by
  unfold vtkEntry
  rw [List.getElem?_map, h]
  rfl

/-- The row of a cell in the concatenation of the rows of the cells of its rank. -/
theorem flatMap_row {α : Type} (f : VtkCell → List α) {w : Nat} {cells : List VtkCell}
    (h : ∀ c ∈ cells, (f c).length = c.numPoints * w) {i : Nat} {c : VtkCell} (hc : cells[i]? = some c) {j : Nat}
    (hj : j < (f c).length) : (cells.flatMap f)[before (nps cells) i * w + j]? = (f c)[j]? := by
  have h1 := flatten_getElem? (cells.map f) (c := i) (k := j) (row := f c) (by rw [List.getElem?_map, hc]; rfl) hj
  have h2 : (cells.map f).map List.length = (nps cells).map (· * w) := by
    unfold nps; rw [List.map_map, List.map_map]; exact List.map_congr_left fun c hc => h c hc
  rw [h2, before_mul] at h1
  rw [List.flatMap_def]
  exact h1

theorem triples (n : Nat) (f : Nat → Int) :
    ((List.range n).map fun j => (List.range 3).map fun x => f (j * 3 + x)).flatten = (List.range (n * 3)).map f := by
  induction n with
  | zero => rfl
  | succ n ih =>
    rw [List.range_succ (n := n), List.map_append, List.flatten_append, ih, Nat.add_mul, Nat.one_mul, List.range_add,
      List.map_append, List.map_map]
    simp [Function.comp_def]

theorem range_getD (l : List Int) {n : Nat} (h : l.length = n) : (List.range n).map (fun i => l.getD i 0) = l := by
  subst h
  refine List.ext_getElem (by simp) fun i h1 h2 => ?_
  simp [List.getElem?_eq_getElem h2]

/-- Reading cell `i` of partition `p` gives that cell. -/
theorem readVtk_spec {P C : List Int} (hP : P.Pairwise (· < ·)) (hC : C.Pairwise (· < ·)) {cs : List (List VtkCell)}
    (hok : ∀ c ∈ cs, ∀ x ∈ c, VtkCellOk P C x) {p i : Nat} {cells : List VtkCell} (hp : cs[p]? = some cells)
    {c : VtkCell} (hi : cells[i]? = some c) : readVtkCell (vtkFileOf P C cs) p i = some c := by
  have hmem : cells ∈ cs := List.mem_of_getElem? hp
  have hc : VtkCellOk P C c := hok cells hmem c (List.mem_of_getElem? hi)
  have hlt : i < cells.length := (List.getElem?_eq_some_iff.mp hi).1
  unfold readVtkCell
  have e1 : vtkEntry (vtkFileOf P C cs).numberOfCells p = some cells.length := entry_map (fun c : List VtkCell => c.length) hp
  have e2 : sumBefore (vtkFileOf P C cs).numberOfCells p = some (before (cs.map List.length) p) :=
    sumBefore_map cs List.length p
  have e3 : sumBefore (vtkFileOf P C cs).numberOfPoints p = some (before (cs.map fun c => (nps c).sum) p) :=
    sumBefore_map cs (fun c => (nps c).sum) p
  have e4 : sumBefore (vtkFileOf P C cs).numberOfConnectivityIds p = some (before (cs.map fun c => (nps c).sum) p) :=
    sumBefore_map cs (fun c => (nps c).sum) p
  have hb1 : before ((cs.map offsetsOf).map List.length) p = before (cs.map List.length) p + p := by
    have hple : p ≤ cs.length := Nat.le_of_lt (List.getElem?_eq_some_iff.mp hp).1
    have hl : (cs.map offsetsOf).map List.length = cs.map (fun c => c.length + 1) := by
      rw [List.map_map]; exact List.map_congr_left fun c _ => length_offsetsOf c
    rw [hl, before_plus_one cs p hple]
  have hoff : ∀ k, k ≤ cells.length → (offsetsOf cells)[k]? = some (before (nps cells) k) := by
    intro k hk
    unfold offsetsOf
    rw [List.getElem?_map, List.getElem?_range (by omega)]
    rfl
  have e5 : vtkEntry (vtkFileOf P C cs).offsets (before (cs.map List.length) p + p + i) = some (before (nps cells) i) :=
    entry_flatten (ll := cs.map offsetsOf) (by rw [List.getElem?_map, hp]; rfl) (hoff i (by omega)) (by rw [hb1])
  have e6 : vtkEntry (vtkFileOf P C cs).offsets (before (cs.map List.length) p + p + (i + 1)) =
      some (before (nps cells) (i + 1)) :=
    entry_flatten (ll := cs.map offsetsOf) (by rw [List.getElem?_map, hp]; rfl) (hoff (i + 1) (by omega)) (by rw [hb1])
  have hs : before (nps cells) (i + 1) = before (nps cells) i + c.numPoints :=
    before_succ (by unfold nps; rw [List.getElem?_map, hi]; rfl)
  have hle : before (nps cells) (i + 1) ≤ (nps cells).sum := by
    rw [← before_full (nps cells) (Nat.le_refl _)]
    unfold before
    have : (nps cells).take (nps cells).length = (nps cells).take (i + 1) ++ ((nps cells).drop (i + 1)) := by
      rw [List.take_length, List.take_append_drop]
    rw [this, List.sum_append]
    omega
  rw [e1, Option.bind_some, if_pos hlt, e2, Option.bind_some, e3, Option.bind_some, e4, Option.bind_some, e5,
    Option.bind_some, e6, Option.bind_some, hs, Nat.add_sub_cancel_left]
  have e7 : (List.range c.numPoints).mapM (fun j => vtkEntry (vtkFileOf P C cs).connectivity
      (before (cs.map fun c => (nps c).sum) p + (before (nps cells) i + j))) =
      some ((List.range c.numPoints).map fun j => before (nps cells) i + j) := by
    refine mapM_of_forall fun j hj => ?_
    rw [List.mem_range] at hj
    refine entry_flatten (ll := cs.map fun c => List.range (nps c).sum) (c := p) (k := before (nps cells) i + j)
      (row := List.range (nps cells).sum) (by rw [List.getElem?_map, hp]; rfl) ?_ ?_
    · rw [List.getElem?_range (by omega)]
    · congr 2
      rw [List.map_map]; refine List.map_congr_left fun c _ => ?_; simp
  have e8 : vtkEntry (vtkFileOf P C cs).types (before (cs.map List.length) p + i) = some c.cellType := by
    refine entry_flatten (ll := cs.map fun c => c.map (·.cellType)) (c := p) (k := i)
      (row := cells.map (·.cellType)) (by rw [List.getElem?_map, hp]; rfl) (by rw [List.getElem?_map, hi]; rfl) ?_
    congr 2
    rw [List.map_map]; refine List.map_congr_left fun c _ => ?_; simp
  rw [e7, Option.bind_some, e8, Option.bind_some]
  have hp3 : ∀ x ∈ cells, x.points.length = x.numPoints * 3 := fun x hx => (hok cells hmem x hx).points
  have e9 : ((List.range c.numPoints).map fun j => before (nps cells) i + j).mapM (fun q => (List.range 3).mapM fun x =>
      vtkEntry (vtkFileOf P C cs).points ((before (cs.map fun c => (nps c).sum) p + q) * 3 + x)) =
      some ((List.range c.numPoints).map fun j => (List.range 3).map fun x => c.points.getD (j * 3 + x) 0) := by
    rw [List.mapM_map]
    refine mapM_of_forall fun j hj => mapM_of_forall fun x hx => ?_
    rw [List.mem_range] at hj hx
    have hjx : j * 3 + x < c.points.length := by rw [hc.points]; omega
    refine entry_flatten (ll := cs.map fun c => c.flatMap (·.points)) (c := p)
      (k := before (nps cells) i * 3 + (j * 3 + x)) (row := cells.flatMap (·.points))
      (by rw [List.getElem?_map, hp]; rfl) ?_ ?_
    · rw [flatMap_row (·.points) hp3 hi hjx, List.getD_eq_getElem?_getD, List.getElem?_eq_getElem hjx]
      rfl
    · have hl : (cs.map fun c => c.flatMap (·.points)).map List.length = (cs.map fun c => (nps c).sum).map (· * 3) := by
        rw [List.map_map, List.map_map]
        exact List.map_congr_left fun d hd => length_flatMap_of _ 3 d fun x hx => (hok d hd x hx).points
      rw [hl, before_mul]
      show (before (cs.map fun c => (nps c).sum) p + (before (nps cells) i + j)) * 3 + x = _
      omega
  rw [e9, Option.bind_some]
  have okc : OMapOk c.cellData := by unfold OMapOk; rw [hc.cellKeys]; exact hC
  have okp : OMapOk c.pointData := by unfold OMapOk; rw [hc.pointKeys]; exact hP
  have e10 : (vtkFileOf P C cs).cellData.mapM (fun e => (vtkEntry e.2 (before (cs.map List.length) p + i)).map
      fun v => (e.1, v)) = some c.cellData := by
    have hcd : c.cellData = C.map fun k => (k, cellVal k c) := by
      refine omap_of_keys okc hc.cellKeys fun k hk => ?_
      obtain ⟨v, hv⟩ := (omGet_isSome_iff okc k).mpr (by rw [hc.cellKeys]; exact hk)
      unfold cellVal; rw [hv]; rfl
    conv_rhs => rw [hcd]
    show (C.map _).mapM _ = _
    rw [List.mapM_map]
    refine mapM_of_forall fun k hk => ?_
    have : vtkEntry ((cs.map fun c => c.map (cellVal k)).flatten.map some) (before (cs.map List.length) p + i) =
        some (cellVal k c) := by
      refine entry_flatten (c := p) (k := i) (row := cells.map (cellVal k)) (by rw [List.getElem?_map, hp]; rfl)
        (by rw [List.getElem?_map, hi]; rfl) ?_
      congr 2
      rw [List.map_map]; refine List.map_congr_left fun c _ => ?_; simp
    show (vtkEntry ((cs.map fun c => c.map (cellVal k)).flatten.map some) _).map _ = _
    rw [this]; rfl
  have e11 : (vtkFileOf P C cs).pointData.mapM (fun e => (((List.range c.numPoints).map fun j =>
      before (nps cells) i + j).mapM fun q => vtkEntry e.2 (before (cs.map fun c => (nps c).sum) p + q)).map
      fun v => (e.1, v)) = some c.pointData := by
    have hcd : c.pointData = P.map fun k => (k, pointVal k c) := by
      refine omap_of_keys okp hc.pointKeys fun k hk => ?_
      obtain ⟨v, hv⟩ := (omGet_isSome_iff okp k).mpr (by rw [hc.pointKeys]; exact hk)
      unfold pointVal; rw [hv]; rfl
    conv_rhs => rw [hcd]
    show (P.map _).mapM _ = _
    rw [List.mapM_map]
    refine mapM_of_forall fun k hk => ?_
    have hlen : ∀ x ∈ cells, (pointVal k x).length = x.numPoints * 1 := fun x hx => by
      rw [length_pointVal hP (hok cells hmem x hx) hk, Nat.mul_one]
    have : (((List.range c.numPoints).map fun j => before (nps cells) i + j).mapM fun q =>
        vtkEntry ((cs.map fun c => c.flatMap (pointVal k)).flatten.map some) (before (cs.map fun c => (nps c).sum) p + q)) =
        some (pointVal k c) := by
      conv_rhs => rw [← range_getD (pointVal k c) (length_pointVal hP hc hk)]
      rw [List.mapM_map]
      refine mapM_of_forall fun j hj => ?_
      rw [List.mem_range] at hj
      have hj' : j < (pointVal k c).length := by rw [length_pointVal hP hc hk]; exact hj
      refine entry_flatten (ll := cs.map fun c => c.flatMap (pointVal k)) (c := p)
        (k := before (nps cells) i * 1 + j) (row := cells.flatMap (pointVal k))
        (by rw [List.getElem?_map, hp]; rfl) ?_ ?_
      · rw [flatMap_row (pointVal k) hlen hi hj', List.getD_eq_getElem?_getD, List.getElem?_eq_getElem hj']
        rfl
      · have hl : (cs.map fun c => c.flatMap (pointVal k)).map List.length = cs.map fun c => (nps c).sum := by
          rw [List.map_map]
          refine List.map_congr_left fun d hd => ?_
          have := length_flatMap_of (pointVal k) 1 d fun x hx => by
            rw [length_pointVal hP (hok d hd x hx) hk, Nat.mul_one]
          rwa [Nat.mul_one] at this
        rw [hl, Nat.mul_one]
    show (((List.range c.numPoints).map fun j => before (nps cells) i + j).mapM fun q =>
        vtkEntry ((cs.map fun c => c.flatMap (pointVal k)).flatten.map some) _).map _ = _
    rw [this]; rfl
  rw [e10, Option.bind_some, e11, Option.bind_some, triples c.numPoints (fun i => c.points.getD i 0), range_getD _ hc.points, List.length_map,
    List.length_range]

theorem readVtk_none {P C : List Int} {cs : List (List VtkCell)} {p i : Nat} (h : ∀ cells, cs[p]? = some cells → cells.length ≤ i) :
    readVtkCell (vtkFileOf P C cs) p i = none := by
  unfold readVtkCell
  cases hp : cs[p]? with
  | none =>
    have : vtkEntry (vtkFileOf P C cs).numberOfCells p = none := by
      unfold vtkEntry; show ((cs.map _)[p]?).join = none; rw [List.getElem?_map, hp]; rfl
    rw [this]; rfl
  | some cells =>
    have : vtkEntry (vtkFileOf P C cs).numberOfCells p = some cells.length := entry_map (fun c : List VtkCell => c.length) hp
    rw [this, Option.bind_some, if_neg (by have := h cells hp; omega)]

end NP
