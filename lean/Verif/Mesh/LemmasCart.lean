import Verif.Mesh.SpecCart
import Verif.Mesh.LemmasMap
import Verif.Basics.Lemmas

/-!
# Lemmas for the Cartesian mesh
-/

set_option autoImplicit false

namespace NP

/-- The coordinates are in the box. -/
def InBox (b : List (Int × Int)) (t : List Int) : Prop :=
  List.Forall₂ (fun (p : Int × Int) x => p.1 ≤ x ∧ x < p.2) b t

theorem inGrid_iff {ns xs : List Nat} : CartComm.inGrid ns xs = true ↔ Spec.InGrid ns xs := by
  induction ns generalizing xs with
  | nil => cases xs <;> simp [CartComm.inGrid, Spec.InGrid]
  | cons n ns ih =>
    cases xs with
    | nil => simp [CartComm.inGrid, Spec.InGrid]
    | cons x xs =>
      simp only [CartComm.inGrid, Bool.and_eq_true, decide_eq_true_eq, ih, Spec.InGrid,
        List.forall₂_cons]

theorem cartRank_eq {c : CartComm} {xs : List Nat} (h : Spec.InGrid c.dims xs) :
    c.cartRank xs = some (c.rankOf xs) := by
  unfold CartComm.cartRank
  rw [if_pos (inGrid_iff.mpr h)]

theorem owningCoords_spec {ns : List Nat} {cs t u : List Int}
    (h : List.Forall₂ (fun (n : Nat) (c : Int) => 0 < n ∧ (n : Int) ≤ c) ns cs)
    (ht : Spec.InRange cs t) :
    ∃ xs, owningCoords ns cs (t ++ u) = some xs ∧ Spec.InGrid ns xs := by
  induction h generalizing t with
  | nil => cases ht; exact ⟨[], by simp [owningCoords], List.Forall₂.nil⟩
  | @cons n c ns cs hn _ ih =>
    obtain ⟨x, xs, hx, hxs, rfl⟩ := List.forall₂_cons_left_iff.mp ht
    obtain ⟨r, h1, h2⟩ := ih hxs
    obtain ⟨i, h3, h4, -⟩ := getDecomp1dInverse_spec (n := n) (N := c.toNat) (w := x.toNat)
      hn.1 (by omega)
    refine ⟨i :: r, ?_, List.Forall₂.cons h4 h2⟩
    simp only [List.cons_append, owningCoords]
    rw [if_pos hx, h3, Option.bind_some, h1, Option.bind_some]

theorem boxOf_spec {ns xs : List Nat} {cs : List Int}
    (h : List.Forall₂ (fun (n : Nat) (c : Int) => 0 < n ∧ (n : Int) ≤ c) ns cs)
    (hx : Spec.InGrid ns xs) :
    ∃ b, boxOf ns cs xs = some b ∧ b.length = cs.length ∧ (∀ p ∈ b, p.1 < p.2 ∧ 0 ≤ p.1) ∧
      (∀ t, InBox b t → Spec.InRange cs t) ∧
      (∀ t u, Spec.InRange cs t → (InBox b t ↔ owningCoords ns cs (t ++ u) = some xs)) := by
  induction h generalizing xs with
  | nil =>
    cases hx
    refine ⟨[], rfl, rfl, by simp, fun t ht => ?_, fun t u ht => ?_⟩
    · cases ht; exact List.Forall₂.nil
    · cases ht; simp [InBox, owningCoords]
  | @cons n c ns cs hn hr ih =>
    obtain ⟨x, xs, hx, hxs, rfl⟩ := List.forall₂_cons_left_iff.mp hx
    obtain ⟨b, h1, h2, h3, h4, h5⟩ := ih hxs
    have hlt := dstart_lt_succ (n := n) (N := c.toNat) (i := x) hn.1 (by omega)
    have hle : dstart n c.toNat (x + 1) ≤ c.toNat := by
      have := dstart_mono (n := n) (N := c.toNat) (show x + 1 ≤ n by omega)
      rwa [dstart_top _ hn.1] at this
    refine ⟨((dstart n c.toNat x : Int), (dstart n c.toNat (x + 1) : Int)) :: b, ?_, ?_, ?_, ?_, ?_⟩
    · simp only [boxOf]
      rw [getDecomp1d_eq hn.1, Option.bind_some]
      simp only
      rw [if_pos (by omega), h1, Option.bind_some]
    · simp [h2]
    · intro p hp
      rcases List.mem_cons.mp hp with rfl | hp
      · exact ⟨by simp only; omega, by simp only; omega⟩
      · exact h3 p hp
    · intro t ht
      obtain ⟨y, ys, hy, hys, rfl⟩ := List.forall₂_cons_left_iff.mp ht
      exact List.Forall₂.cons (by simp only at hy; omega) (h4 ys hys)
    · intro t u ht
      obtain ⟨y, ys, hy, hys, rfl⟩ := List.forall₂_cons_left_iff.mp ht
      obtain ⟨i, hi1, hi2, hi3, hi4⟩ := getDecomp1dInverse_spec (n := n) (N := c.toNat)
        (w := y.toNat) hn.1 (by omega)
      simp only [InBox, List.forall₂_cons, List.cons_append, owningCoords]
      rw [if_pos hy, hi1, Option.bind_some]
      obtain ⟨r, hr1, hr2⟩ := owningCoords_spec (u := u) hr hys
      rw [hr1, Option.bind_some]
      have h5' := h5 ys u hys
      rw [hr1] at h5'
      unfold InBox at h5'
      simp only [Option.some.injEq, List.cons.injEq] at h5' ⊢
      rw [h5']
      have : ((dstart n c.toNat x : Int) ≤ y ∧ y < (dstart n c.toNat (x + 1) : Int)) ↔ i = x := by
        constructor
        · intro ⟨a, b⟩
          exact dstart_unique hi3 hi4 (by omega) (by omega)
        · rintro rfl
          omega
      rw [this]

/-! ## The loops over cells -/

/-- The cells of a box, the first dimension fastest. -/
def boxCells : List (Int × Int) → List (List Int)
  | [] => [[]]
  | b :: bs => (boxCells bs).flatMap fun t => (intRange b.1 b.2).map fun x => x :: t

theorem mem_boxCells {b : List (Int × Int)} {t : List Int} : t ∈ boxCells b ↔ InBox b t := by
  induction b generalizing t with
  | nil => simp [boxCells, InBox]
  | cons p b ih =>
    simp only [boxCells, List.mem_flatMap, List.mem_map, mem_intRange, ih, InBox,
      List.forall₂_cons_left_iff]
    constructor
    · rintro ⟨s, hs, x, hx, rfl⟩; exact ⟨x, s, hx, hs, rfl⟩
    · rintro ⟨x, s, hx, hs, rfl⟩; exact ⟨s, hs, x, hx, rfl⟩

theorem intRange_length {a b : Int} : (intRange a b).length = (b - a).toNat := by
  simp [intRange]

theorem intRange_getElem? {a b : Int} {i : Nat} (h : (i : Int) < b - a) :
    (intRange a b)[i]? = some (a + i) := by
  unfold intRange
  rw [List.getElem?_map, List.getElem?_range (by omega)]
  rfl

theorem intRange_nodup {a b : Int} : (intRange a b).Nodup := by
  unfold intRange
  apply List.Nodup.map _ List.nodup_range
  intro x y h
  simpa using h

theorem boxCells_nodup {b : List (Int × Int)} : (boxCells b).Nodup := by
  induction b with
  | nil => simp [boxCells]
  | cons p b ih =>
    rw [boxCells, List.nodup_flatMap]
    constructor
    · intro t _
      apply List.Nodup.map _ intRange_nodup
      intro x y h
      simpa using h
    · apply ih.imp
      intro t t' hne x hx hx'
      simp only [List.mem_map] at hx hx'
      obtain ⟨a, -, rfl⟩ := hx
      obtain ⟨a', -, h⟩ := hx'
      simp at h
      exact hne h.2.symm

theorem boxCells_length {b : List (Int × Int)} (h : ∀ p ∈ b, p.1 < p.2) :
    ((boxCells b).length : Int) = (boxWidths b).prod := by
  induction b with
  | nil => simp [boxCells, boxWidths]
  | cons p b ih =>
    have hp := h p (by simp)
    have := ih (fun q hq => h q (by simp [hq]))
    have hlen : (boxCells (p :: b)).length = (boxCells b).length * (p.2 - p.1).toNat := by
      simp [boxCells, List.length_flatMap, intRange_length]
    simp only [boxWidths, List.map_cons, List.prod_cons]
    unfold boxWidths at this
    rw [← this, hlen]
    push_cast
    rw [Int.toNat_of_nonneg (by omega)]
    ring

theorem getElem?_flatMap_const {α β : Type} {f : α → List β} {w : Nat} (hw : 0 < w) {l : List α}
    (hf : ∀ x ∈ l, (f x).length = w) (i : Nat) :
    (l.flatMap f)[i]? = (l[i / w]?).bind fun x => (f x)[i % w]? := by
  induction l generalizing i with
  | nil => simp
  | cons a l ih =>
    rw [List.flatMap_cons]
    have ha := hf a (by simp)
    by_cases hi : i < w
    · rw [List.getElem?_append_left (by omega), Nat.div_eq_of_lt hi, Nat.mod_eq_of_lt hi]
      rfl
    · rw [List.getElem?_append_right (by omega), ha, ih (fun x hx => hf x (by simp [hx]))]
      obtain ⟨k, rfl⟩ : ∃ k, i = k + w := ⟨i - w, by omega⟩
      rw [Nat.add_sub_cancel, Nat.add_div_right _ hw, Nat.add_mod_right]
      rfl

theorem globalCellTuple_eq {b : List (Int × Int)} (h : ∀ p ∈ b, p.1 < p.2) {i : Nat}
    (hi : i < (boxCells b).length) :
    globalCellTuple b i = (boxCells b)[i]? := by
  induction b generalizing i with
  | nil =>
    simp [boxCells] at hi
    subst hi
    rfl
  | cons p b ih =>
    have hp := h p (by simp)
    have hl : ∀ t ∈ boxCells b, ((intRange p.1 p.2).map fun x => x :: t).length =
        (p.2 - p.1).toNat := by
      intro t _; simp [intRange_length]
    have hw : 0 < (p.2 - p.1).toNat := by omega
    have hlen : (boxCells (p :: b)).length = (boxCells b).length * (p.2 - p.1).toNat := by
      simp [boxCells, List.length_flatMap, intRange_length]
    rw [hlen] at hi
    have hdiv : i / (p.2 - p.1).toNat < (boxCells b).length := by
      rw [Nat.div_lt_iff_lt_mul hw]; exact hi
    rw [boxCells, getElem?_flatMap_const hw hl]
    simp only [globalCellTuple]
    have e1 : (p.2 - p.1) = ((p.2 - p.1).toNat : Int) := by omega
    have hmod : (i : Int).tmod (p.2 - p.1) = ((i % (p.2 - p.1).toNat : Nat) : Int) := by
      rw [e1, Int.tmod_eq_emod_of_nonneg (by omega)]
      norm_cast
    have hq : ((i : Int) - (i : Int).tmod (p.2 - p.1)).tdiv (p.2 - p.1) =
        ((i / (p.2 - p.1).toNat : Nat) : Int) := by
      have hx : (i : Int) - (i : Int).tmod (p.2 - p.1) =
          (p.2 - p.1) * (i : Int).tdiv (p.2 - p.1) := by
        have := Int.mul_tdiv_add_tmod (i : Int) (p.2 - p.1)
        omega
      rw [hx, Int.mul_tdiv_cancel_left _ (by omega), e1, Int.tdiv_eq_ediv_of_nonneg (by omega)]
      norm_cast
    rw [if_neg (by omega), hq, hmod, ih (fun q hq => h q (by simp [hq])) hdiv,
      List.getElem?_eq_getElem hdiv, Option.bind_some, Option.bind_some, List.getElem?_map,
      intRange_getElem? (by have := Nat.mod_lt i hw; omega)]
    rfl

theorem loop3_eq {b0 b1 b2 : Int × Int} : loop3 [b0, b1, b2] = some (boxCells [b0, b1, b2]) := by
  simp only [loop3, rd, List.getElem?_cons_zero, List.getElem?_cons_succ, Option.bind_some,
    boxCells, List.flatMap_cons, List.flatMap_nil, List.append_nil, List.flatMap_map,
    List.flatMap_assoc]

theorem padBox_eq {b : List (Int × Int)} (h : b.length ≤ 3) :
    ∃ b0 b1 b2, padBox b = [b0, b1, b2] := by
  match b, h with
  | [], _ => exact ⟨_, _, _, rfl⟩
  | [_], _ => exact ⟨_, _, _, rfl⟩
  | [_, _], _ => exact ⟨_, _, _, rfl⟩
  | [_, _, _], _ => exact ⟨_, _, _, rfl⟩

theorem loop3_padBox {b : List (Int × Int)} (h : b.length ≤ 3) :
    loop3 (padBox b) = some (boxCells (padBox b)) := by
  obtain ⟨b0, b1, b2, he⟩ := padBox_eq h
  rw [he]
  exact loop3_eq

theorem boxCells_append_unit {b : List (Int × Int)} {k : Nat} :
    boxCells (b ++ List.replicate k (0, 1)) =
      (boxCells b).map fun t => t ++ List.replicate k 0 := by
  induction b with
  | nil =>
    rw [List.nil_append]
    induction k with
    | zero => simp [boxCells]
    | succ k ih =>
      rw [List.replicate_succ]
      show (boxCells (List.replicate k (0, 1))).flatMap _ = _
      rw [ih]
      simp [boxCells, intRange, List.replicate_succ]
  | cons p b ih =>
    rw [List.cons_append, boxCells, ih, boxCells, List.flatMap_map, List.map_flatMap]
    simp [Function.comp_def]

theorem getOwnedCells_eq {b : List (Int × Int)} (h : b.length ≤ 3) :
    getOwnedCells b = some ((boxCells b).map fun t => t ++ List.replicate (3 - b.length) 0) := by
  unfold getOwnedCells
  rw [loop3_padBox h, padBox, boxCells_append_unit]

theorem pad3_inj {s t : List Int} (hl : s.length = t.length)
    (h : Spec.pad3 s = Spec.pad3 t) : s = t := by
  unfold Spec.pad3 at h
  exact (List.append_inj h hl).1

theorem mem_ownedCells {b : List (Int × Int)} {t : List Int}
    (ht : t.length = b.length) :
    Spec.pad3 t ∈ ((boxCells b).map fun t => t ++ List.replicate (3 - b.length) 0) ↔
      InBox b t := by
  rw [List.mem_map]
  constructor
  · rintro ⟨s, hs, he⟩
    rw [mem_boxCells] at hs
    have hl : s.length = b.length := hs.length_eq.symm
    rw [← hl] at he
    rw [← pad3_inj (hl.trans ht.symm) he]
    exact hs
  · intro hb
    exact ⟨t, mem_boxCells.mpr hb, by rw [Spec.pad3, ht]⟩

/-! ## Cells of the mesh and of the hierarchy -/

theorem cartToTuple_append {mh : MeshHierarchy} {t u : List Int} (h : t.length = mh.dims.length) :
    mh.cartToTuple (t ++ u) =
      some (t.map (·.tdiv mh.ncellsDimFine) ++ t.map (·.tmod mh.ncellsDimFine)) := by
  have key : ∀ f : Int → Int, forAllM (fun d => (rd (t ++ u) d).bind fun c => some (f c))
      (List.range mh.ndim) = some (t.map f) := by
    intro f
    rw [forAllM_eq (g := fun d => f ((t[d]?).getD 0))]
    · congr 1
      apply List.ext_getElem?
      intro d
      by_cases hd : d < mh.dims.length
      · have : d < t.length := by omega
        simp [MeshHierarchy.ndim, hd, List.getElem?_eq_getElem this]
      · rw [List.getElem?_eq_none (by simp [MeshHierarchy.ndim]; omega),
          List.getElem?_eq_none (by simp; omega)]
    · intro d hd
      have hd' : d < t.length := by
        rw [h]; simpa [MeshHierarchy.ndim] using hd
      simp only [rd]
      rw [List.getElem?_append_left hd', List.getElem?_eq_getElem hd']
      rfl
  unfold MeshHierarchy.cartToTuple
  rw [key (·.tdiv mh.ncellsDimFine), Option.bind_some, key (·.tmod mh.ncellsDimFine),
    Option.bind_some]

theorem cart_split {nf : Int} (hnf : 0 < nf) {ds cs fs : List Int} (hc : Spec.InRange ds cs)
    (hf : Spec.InRange (List.replicate ds.length nf) fs) :
    (cart nf cs fs).map (·.tdiv nf) = cs ∧ (cart nf cs fs).map (·.tmod nf) = fs := by
  induction ds generalizing cs fs with
  | nil => cases hc; cases hf; exact ⟨rfl, rfl⟩
  | cons n ds ih =>
    obtain ⟨c, cs, h1, h2, rfl⟩ := List.forall₂_cons_left_iff.mp hc
    rw [List.length_cons, List.replicate_succ] at hf
    obtain ⟨f, fs, h3, h4, rfl⟩ := List.forall₂_cons_left_iff.mp hf
    obtain ⟨i1, i2⟩ := ih h2 h4
    have hnn : 0 ≤ c * nf + f := by
      have : 0 ≤ c * nf := mul_nonneg h1.1 (by omega)
      omega
    simp only [cart, List.zipWith_cons_cons, List.map_cons, List.cons.injEq]
    refine ⟨⟨?_, i1⟩, ?_, i2⟩
    · rw [Int.tdiv_eq_ediv_of_nonneg hnn, add_comm, Int.add_mul_ediv_right _ _ (by omega),
        Int.ediv_eq_zero_of_lt h3.1 h3.2, zero_add]
    · rw [Int.tmod_eq_emod_of_nonneg hnn, add_comm, Int.add_mul_emod_self_right,
        Int.emod_eq_of_lt h3.1 h3.2]

theorem isCellAt_bounds {mh : MeshHierarchy} (h : Spec.ValidMesh mh) {x : List Int} {c : Int}
    (hc : Spec.IsCellAt mh x c) : 0 ≤ c ∧ c < mh.ncellsGlobal := by
  obtain ⟨cs, fs, h1, h2, h3, -⟩ := hc
  rw [tupleToLinearGlobal_eq h h1 h2] at h3
  rw [← Option.some.inj h3]
  exact global_bounds h1 h2

theorem mhIndex_spec {m : CartMesh} (hm : Spec.ValidMesh m.mh) {t u : List Int}
    (ht : Spec.IsMeshCell m t) :
    ∃ c, m.mhIndex (t ++ u) = some c ∧ Spec.IsCellAt m.mh t c ∧ 0 ≤ c ∧
      c < m.mh.ncellsGlobal := by
  obtain ⟨cs, fs, h1, h2, h3⟩ := exists_cart (ncellsDimFine_pos (mh := m.mh)) ht
  have hl : t.length = m.mh.dims.length := by have := ht.length; simpa using this
  have hcell : Spec.IsCellAt m.mh t _ := ⟨cs, fs, h1, h2, tupleToLinearGlobal_eq hm h1 h2, h3.symm⟩
  refine ⟨_, ?_, hcell, isCellAt_bounds hm hcell⟩
  unfold CartMesh.mhIndex CartMesh.meshTupleToMh
  rw [cartToTuple_append hl, Option.bind_some, ← h3, (cart_split ncellsDimFine_pos h1 h2).1,
    (cart_split ncellsDimFine_pos h1 h2).2]
  exact tupleToLinearGlobal_eq hm h1 h2

/-! ## Ownership -/

theorem grid_length {m : CartMesh} (hv : Spec.ValidCartMesh m) :
    m.comm.dims.length = m.mh.dims.length := by
  have := hv.grid.length_eq
  simpa using this

/-- The box of a rank and what it owns. -/
theorem box_spec {m : CartMesh} (hv : Spec.ValidCartMesh m) {r : Nat}
    (hr : r < m.comm.dims.prod) :
    ∃ b, m.box r = some b ∧ b.length = m.mh.dims.length ∧ (∀ p ∈ b, p.1 < p.2 ∧ 0 ≤ p.1) ∧
      (∀ t, InBox b t → Spec.IsMeshCell m t) ∧
      (∀ t u, Spec.IsMeshCell m t → (InBox b t ↔ m.owningRank (t ++ u) = some r)) := by
  obtain ⟨hg, hrr⟩ := hv.comm.coords r hr
  obtain ⟨b, h1, h2, h3, h4, h5⟩ := boxOf_spec hv.grid hg
  refine ⟨b, h1, by simpa using h2, h3, h4, ?_⟩
  intro t u ht
  rw [h5 t u ht]
  obtain ⟨xs, hx1, hx2⟩ := owningCoords_spec (u := u) hv.grid ht
  unfold CartMesh.owningRank CartMesh.cellCounts
  rw [hx1, Option.bind_some, cartRank_eq hx2]
  simp only [Option.some.injEq]
  constructor
  · rintro rfl; exact hrr
  · intro h
    rw [← (hv.comm.rank xs hx2).2, h]

theorem owningRank_spec {m : CartMesh} (hv : Spec.ValidCartMesh m) {t : List Int}
    (ht : Spec.IsMeshCell m t) (u : List Int) :
    ∃ r, m.owningRank (t ++ u) = some r ∧ r < m.comm.dims.prod := by
  obtain ⟨xs, hx1, hx2⟩ := owningCoords_spec (u := u) hv.grid ht
  refine ⟨m.comm.rankOf xs, ?_, (hv.comm.rank xs hx2).1⟩
  unfold CartMesh.owningRank CartMesh.cellCounts
  rw [hx1, Option.bind_some, cartRank_eq hx2]

end NP
