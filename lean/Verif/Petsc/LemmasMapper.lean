import Verif.Petsc.LemmasPolygon
import Verif.Petsc.LemmasHalo
import Verif.Mesh.PropsOverlay

/-!
# Lemmas: particles to cells of two dimensional meshes
-/

set_option autoImplicit false

namespace NP

open Spec

/-! ## Containment -/

theorem crossLoop_tri (a b c p : ℚ × ℚ) (hcv : turn a b c ≠ 0) :
    ∃ n, crossLoop p (flatCoords [a, b, c]) [0, 1, 1, 2, 2, 0] (List.range 3) 0 = some n ∧
      (n % 2 = 1 ↔ Binned [a, b, c] p) := by
  have e : crossLoop p (flatCoords [a, b, c]) [0, 1, 1, 2, 2, 0] (List.range 3) 0 =
      (match edgeTest p a b with
      | .on => some 1
      | .cross => (match edgeTest p b c with
        | .on => some 1
        | .cross => (match edgeTest p c a with
          | .on => some 1
          | .cross => some 3
          | .miss => some 2)
        | .miss => (match edgeTest p c a with
          | .on => some 1
          | .cross => some 2
          | .miss => some 1))
      | .miss => (match edgeTest p b c with
        | .on => some 1
        | .cross => (match edgeTest p c a with
          | .on => some 1
          | .cross => some 2
          | .miss => some 1)
        | .miss => (match edgeTest p c a with
          | .on => some 1
          | .cross => some 1
          | .miss => some 0))) := rfl
  rw [e, ← tri_binned hcv]
  cases edgeTest p a b <;> cases edgeTest p b c <;> cases edgeTest p c a <;>
    exact ⟨_, rfl, by decide⟩

theorem crossLoop_quad (a b c d p : ℚ × ℚ) (s : ℚ) (h1 : 0 < s * turn a b c)
    (h2 : 0 < s * turn b c d) (h3 : 0 < s * turn c d a) (h4 : 0 < s * turn d a b) :
    ∃ n, crossLoop p (flatCoords [a, b, c, d]) [0, 1, 1, 2, 2, 3, 3, 0] (List.range 4) 0 = some n ∧
      (n % 2 = 1 ↔ Binned [a, b, c, d] p) := by
  have e : crossLoop p (flatCoords [a, b, c, d]) [0, 1, 1, 2, 2, 3, 3, 0] (List.range 4) 0 =
      (match edgeTest p a b with
      | .on => some 1
      | .cross => (match edgeTest p b c with
        | .on => some 1
        | .cross => (match edgeTest p c d with
          | .on => some 1
          | .cross => (match edgeTest p d a with
            | .on => some 1
            | .cross => some 4
            | .miss => some 3)
          | .miss => (match edgeTest p d a with
            | .on => some 1
            | .cross => some 3
            | .miss => some 2))
        | .miss => (match edgeTest p c d with
          | .on => some 1
          | .cross => (match edgeTest p d a with
            | .on => some 1
            | .cross => some 3
            | .miss => some 2)
          | .miss => (match edgeTest p d a with
            | .on => some 1
            | .cross => some 2
            | .miss => some 1)))
      | .miss => (match edgeTest p b c with
        | .on => some 1
        | .cross => (match edgeTest p c d with
          | .on => some 1
          | .cross => (match edgeTest p d a with
            | .on => some 1
            | .cross => some 3
            | .miss => some 2)
          | .miss => (match edgeTest p d a with
            | .on => some 1
            | .cross => some 2
            | .miss => some 1))
        | .miss => (match edgeTest p c d with
          | .on => some 1
          | .cross => (match edgeTest p d a with
            | .on => some 1
            | .cross => some 2
            | .miss => some 1)
          | .miss => (match edgeTest p d a with
            | .on => some 1
            | .cross => some 1
            | .miss => some 0)))) := rfl
  rw [e, ← quad_binned s h1 h2 h3 h4]
  cases edgeTest p a b <;> cases edgeTest p b c <;> cases edgeTest p c d <;> cases edgeTest p d a <;>
    exact ⟨_, rfl, by decide⟩

theorem contains_spec {vs : List (ℚ × ℚ)} (h : Convex2D vs) (rank localId : Int) :
    ∃ data, populateCell (flatCoords vs) rank localId = some data ∧ data.rank = rank ∧
      data.localId = localId ∧ ∀ p, ∃ b, data.contains p = some b ∧ (b = true ↔ Binned vs p) := by
  have two : ∀ n : Nat, (n % 2 != 0) = true ↔ n % 2 = 1 := by
    intro n
    rcases Nat.mod_two_eq_zero_or_one n with h | h <;> rw [h] <;> decide
  match vs, h with
  | [a, b, c], h =>
    refine ⟨_, rfl, rfl, rfl, fun p => ?_⟩
    obtain ⟨n, e1, e2⟩ := crossLoop_tri a b c p h
    refine ⟨n % 2 != 0, ?_, (two n).trans e2⟩
    unfold Linear2D.contains
    rw [show crossLoop p _ _ _ 0 = some n from e1]
    rfl
  | [a, b, c, d], h =>
    refine ⟨_, rfl, rfl, rfl, fun p => ?_⟩
    have : ∃ s, 0 < s * turn a b c ∧ 0 < s * turn b c d ∧ 0 < s * turn c d a ∧
        0 < s * turn d a b := by
      rcases h with ⟨h1, h2, h3, h4⟩ | ⟨h1, h2, h3, h4⟩
      · exact ⟨1, by linarith, by linarith, by linarith, by linarith⟩
      · exact ⟨-1, by linarith, by linarith, by linarith, by linarith⟩
    obtain ⟨s, h1, h2, h3, h4⟩ := this
    obtain ⟨n, e1, e2⟩ := crossLoop_quad a b c d p s h1 h2 h3 h4
    refine ⟨n % 2 != 0, ?_, (two n).trans e2⟩
    unfold Linear2D.contains
    rw [show crossLoop p _ _ _ 0 = some n from e1]
    rfl

theorem cellContainsPoint_eq {vs : List (ℚ × ℚ)} (h : Convex2D vs) (rank localId : Int)
    {data : Linear2D ℚ} (hd : populateCell (flatCoords vs) rank localId = some data) (p : ℚ × ℚ) :
    cellContainsPoint (flatCoords vs) p = data.contains p := by
  have two : ∀ n : Nat, (n % 2 == 1) = (n % 2 != 0) := by
    intro n
    rcases Nat.mod_two_eq_zero_or_one n with h | h <;> rw [h] <;> decide
  match vs, h with
  | [a, b, c], h =>
    obtain rfl := Option.some.inj hd
    unfold cellContainsPoint Linear2D.contains
    simp only [two]
    rw [show (flatCoords [a, b, c]).length = 6 from rfl, if_neg (by decide)]
  | [a, b, c, d], h =>
    obtain rfl := Option.some.inj hd
    unfold cellContainsPoint Linear2D.contains
    simp only [two]
    rw [show (flatCoords [a, b, c, d]).length = 8 from rfl, if_pos rfl]

/-! ## Boxes -/

theorem isBox_iff {b : BBox} : IsBox b ↔ ∃ lx ly lz ux uy uz, b = ([lx, ly, lz], [ux, uy, uz]) := by
  constructor
  · rintro ⟨h1, h2⟩
    obtain ⟨l, u⟩ := b
    match l, u, h1, h2 with
    | [a, b, c], [d, e, f], _, _ => exact ⟨a, b, c, d, e, f, rfl⟩
  · rintro ⟨lx, ly, lz, ux, uy, uz, rfl⟩
    exact ⟨rfl, rfl⟩

theorem inBox2_isBox {b : BBox} {p : ℚ × ℚ} (h : InBox2 b p) : IsBox b := by
  obtain ⟨lx, ly, lz, ux, uy, uz, rfl, -⟩ := h
  exact ⟨rfl, rfl⟩

theorem cellBox_spec {vs : List (ℚ × ℚ)} (h : Convex2D vs) (big : ℚ) :
    ∃ b, cellBox big (flatCoords vs) = some b ∧ IsBox b ∧ ∀ v ∈ vs, InBox2 b v := by
  match vs, h with
  | [a, b, c], h =>
    refine ⟨([min (min (min big a.1) b.1) c.1, min (min (min big a.2) b.2) c.2, 0],
      [max (max (max (-big) a.1) b.1) c.1, max (max (max (-big) a.2) b.2) c.2, 0]),
      by simp [cellBox, forLoop, runItems, rd, st, flatCoords, List.range'], ⟨rfl, rfl⟩, ?_⟩
    intro v hv
    simp only [List.mem_cons, List.not_mem_nil, or_false] at hv
    rcases hv with hv | hv | hv <;> rw [hv] <;>
      exact ⟨_, _, _, _, _, _, rfl, by simp, by simp, by simp, by simp⟩
  | [a, b, c, d], h =>
    refine ⟨([min (min (min (min big a.1) b.1) c.1) d.1, min (min (min (min big a.2) b.2) c.2) d.2,
        0], [max (max (max (max (-big) a.1) b.1) c.1) d.1,
        max (max (max (max (-big) a.2) b.2) c.2) d.2, 0]),
      by simp [cellBox, forLoop, runItems, rd, st, flatCoords, List.range'], ⟨rfl, rfl⟩, ?_⟩
    intro v hv
    simp only [List.mem_cons, List.not_mem_nil, or_false] at hv
    rcases hv with hv | hv | hv | hv <;> rw [hv] <;>
      exact ⟨_, _, _, _, _, _, rfl, by simp, by simp, by simp, by simp⟩

theorem expand_isBox {a b : BBox} (ha : IsBox a) (hb : IsBox b) : IsBox (a.expand b) := by
  unfold IsBox BBox.expand
  simp [ha.1, ha.2, hb.1, hb.2]

theorem expand_left {a b : BBox} (hb : IsBox b) {p : ℚ × ℚ} (h : InBox2 a p) :
    InBox2 (a.expand b) p := by
  obtain ⟨lx, ly, lz, ux, uy, uz, rfl, h1, h2, h3, h4⟩ := h
  obtain ⟨kx, ky, kz, vx, vy, vz, rfl⟩ := isBox_iff.mp hb
  exact ⟨_, _, _, _, _, _, rfl, min_le_of_left_le h1, le_max_of_le_left h2, min_le_of_left_le h3,
    le_max_of_le_left h4⟩

theorem expand_right {a b : BBox} (ha : IsBox a) {p : ℚ × ℚ} (h : InBox2 b p) :
    InBox2 (a.expand b) p := by
  obtain ⟨lx, ly, lz, ux, uy, uz, rfl, h1, h2, h3, h4⟩ := h
  obtain ⟨kx, ky, kz, vx, vy, vz, rfl⟩ := isBox_iff.mp ha
  exact ⟨_, _, _, _, _, _, rfl, min_le_of_right_le h1, le_max_of_le_right h2,
    min_le_of_right_le h3, le_max_of_le_right h4⟩

theorem meshBox_spec (big : ℚ) (cells : List (List (ℚ × ℚ))) (h : ∀ vs ∈ cells, Convex2D vs) :
    ∃ b, meshBox big (cells.map flatCoords) = some b ∧ IsBox b ∧
      ∀ vs ∈ cells, ∀ v ∈ vs, InBox2 b v := by
  unfold meshBox
  rw [List.foldlM_map]
  refine foldlM_inv _ (fun pre b => IsBox b ∧ ∀ vs ∈ pre, ∀ v ∈ vs, InBox2 b v) cells _
    ⟨⟨rfl, rfl⟩, by simp⟩ ?_
  rintro pre vs post b rfl ⟨hb, hin⟩
  obtain ⟨b', e1, e2, e3⟩ := cellBox_spec (h vs (by simp)) big
  refine ⟨b.expand b', by rw [e1]; rfl, expand_isBox hb e2, ?_⟩
  intro ws hws w hw
  rcases List.mem_append.mp hws with h | h
  · exact expand_left e2 (hin ws h w hw)
  · rw [List.mem_singleton] at h
    exact expand_right hb (e3 w (h ▸ hw))

/-- A cell with an area is wider and higher than a point. -/
theorem convex_wide {vs : List (ℚ × ℚ)} (h : Convex2D vs) :
    (∃ u ∈ vs, ∃ v ∈ vs, u.1 < v.1) ∧ ∃ u ∈ vs, ∃ v ∈ vs, u.2 < v.2 := by
  have key : ∀ a b c : ℚ × ℚ, turn a b c ≠ 0 → a ∈ vs → b ∈ vs → c ∈ vs →
      (∃ u ∈ vs, ∃ v ∈ vs, u.1 < v.1) ∧ ∃ u ∈ vs, ∃ v ∈ vs, u.2 < v.2 := by
    intro a b c ht ha hb hc
    constructor
    · rcases lt_trichotomy a.1 b.1 with h | h | h
      · exact ⟨a, ha, b, hb, h⟩
      · rcases lt_trichotomy a.1 c.1 with h' | h' | h'
        · exact ⟨a, ha, c, hc, h'⟩
        · exfalso
          apply ht
          unfold turn
          rw [← h, ← h']
          ring
        · exact ⟨c, hc, a, ha, h'⟩
      · exact ⟨b, hb, a, ha, h⟩
    · rcases lt_trichotomy a.2 b.2 with h | h | h
      · exact ⟨a, ha, b, hb, h⟩
      · rcases lt_trichotomy a.2 c.2 with h' | h' | h'
        · exact ⟨a, ha, c, hc, h'⟩
        · exfalso
          apply ht
          unfold turn
          rw [← h, ← h']
          ring
        · exact ⟨c, hc, a, ha, h'⟩
      · exact ⟨b, hb, a, ha, h⟩
  match vs, h with
  | [a, b, c], h => exact key a b c h (by simp) (by simp) (by simp)
  | [a, b, c, d], h =>
    refine key a b c ?_ (by simp) (by simp) (by simp)
    rcases h with h | h
    · exact ne_of_gt h.1
    · exact ne_of_lt h.1

/-! ## Overlay cells -/

theorem overlay_interval {x : OverlayDim} (he : 0 < x.extent) (hc : 0 < x.count) {p : ℚ}
    (h1 : x.origin ≤ p) (h2 : p ≤ x.origin + x.extent) :
    x.origin + x.cell p * (x.extent / x.count) ≤ p ∧
      p ≤ x.origin + (x.cell p + 1) * (x.extent / x.count) := by
  obtain ⟨-, -, k1, -, k2⟩ := overlayDim_cell he hc p
  rcases lt_or_eq_of_le h2 with h | h
  · exact ⟨(k1 h1 h).1, (k1 h1 h).2.le⟩
  · have := k2 (le_of_eq h.symm)
    have hcq : (0 : ℚ) < x.count := by exact_mod_cast hc
    rw [this]
    push_cast
    rw [sub_add_cancel, h]
    have e : (x.count : ℚ) * (x.extent / x.count) = x.extent := by field_simp
    have hw : 0 < x.extent / x.count := div_pos he hcq
    constructor
    · rw [sub_mul, e]
      linarith
    · rw [e]

/-- A two dimensional overlay mesh. -/
def ov2 (o0 o1 e0 e1 : ℚ) (n0 n1 : Int) : OverlayMesh := ⟨[o0, o1], [e0, e1], [n0, n1]⟩

/-- The overlay cell of a point. -/
def pointCell (ov : OverlayMesh) (p : ℚ × ℚ) : Option Int :=
  (ov.dim 0).bind fun d0 => (ov.dim 1).bind fun d1 => ov.linearIndex [d0.cell p.1, d1.cell p.2]

theorem ov2_valid {o0 o1 e0 e1 : ℚ} {n0 n1 : Int} (he0 : 0 < e0) (he1 : 0 < e1) (hn0 : 0 < n0)
    (hn1 : 0 < n1) : ValidOverlay (ov2 o0 o1 e0 e1 n0 n1) := by
  rw [validOverlay_iff]
  refine ⟨by simp [ov2], rfl, rfl, ?_, ?_⟩ <;> simp [ov2, he0, he1, hn0, hn1]

theorem ov2_tuple {o0 o1 e0 e1 : ℚ} {n0 n1 : Int} (he0 : 0 < e0) (he1 : 0 < e1) (hn0 : 0 < n0)
    (hn1 : 0 < n1) (p : ℚ × ℚ) :
    InRange (ov2 o0 o1 e0 e1 n0 n1).counts
      [OverlayDim.cell ⟨o0, e0, n0⟩ p.1, OverlayDim.cell ⟨o1, e1, n1⟩ p.2] := by
  have k0 := overlayDim_cell (x := ⟨o0, e0, n0⟩) he0 hn0 p.1
  have k1 := overlayDim_cell (x := ⟨o1, e1, n1⟩) he1 hn1 p.2
  unfold InRange
  exact List.Forall₂.cons ⟨k0.1, k0.2.1⟩ (List.Forall₂.cons ⟨k1.1, k1.2.1⟩ List.Forall₂.nil)

theorem pointCell_some {o0 o1 e0 e1 : ℚ} {n0 n1 : Int} (he0 : 0 < e0) (he1 : 0 < e1) (hn0 : 0 < n0)
    (hn1 : 0 < n1) (p : ℚ × ℚ) : ∃ oc, pointCell (ov2 o0 o1 e0 e1 n0 n1) p = some oc := by
  obtain ⟨i, hi, -⟩ := (C44_index _ (ov2_valid (o0 := o0) (o1 := o1) he0 he1 hn0 hn1)).1 _
    (ov2_tuple he0 he1 hn0 hn1 p)
  exact ⟨i, hi⟩

/-- The point is over the mesh. -/
def OverMesh (ov : OverlayMesh) (p : ℚ × ℚ) : Prop :=
  ∃ o0 o1 e0 e1 n0 n1, ov = ov2 o0 o1 e0 e1 n0 n1 ∧ 0 < e0 ∧ 0 < e1 ∧ 0 < n0 ∧ 0 < n1 ∧
    o0 ≤ p.1 ∧ p.1 ≤ o0 + e0 ∧ o1 ≤ p.2 ∧ p.2 ≤ o1 + e1

/-- The overlay cell of a point in a box is one of the cells that intersect the box. -/
theorem pointCell_intersects {ov : OverlayMesh} {p : ℚ × ℚ} (hp : OverMesh ov p) {b : BBox}
    (hb : InBox2 b p) : ∃ cells oc, ov.intersectingCells b.1 b.2 = some cells ∧
      pointCell ov p = some oc ∧ oc ∈ cells := by
  obtain ⟨o0, o1, e0, e1, n0, n1, rfl, he0, he1, hn0, hn1, p1, p2, p3, p4⟩ := hp
  obtain ⟨lx, ly, lz, ux, uy, uz, rfl, b1, b2, b3, b4⟩ := hb
  have hv := ov2_valid (o0 := o0) (o1 := o1) he0 he1 hn0 hn1
  obtain ⟨cells, c1, -, -, c4, -⟩ := C44_intersecting_partial _ hv (show 2 ≤ 2 by omega)
    [lx, ly, lz] [ux, uy, uz] (show 2 ≤ 3 by omega) (show 2 ≤ 3 by omega)
  obtain ⟨oc, hoc⟩ := pointCell_some (o0 := o0) (o1 := o1) he0 he1 hn0 hn1 p
  refine ⟨cells, oc, c1, hoc, c4 _ oc (ov2_tuple he0 he1 hn0 hn1 p) ?_ hoc⟩
  have k0 := overlay_interval (x := ⟨o0, e0, n0⟩) he0 hn0 p1 p2
  have k1 := overlay_interval (x := ⟨o1, e1, n1⟩) he1 hn1 p3 p4
  intro d o e lo hi c i g1 g2 g3 g4 g5 g6
  match d with
  | 0 =>
    obtain rfl := Option.some.inj g1
    obtain rfl := Option.some.inj g2
    obtain rfl := Option.some.inj g3
    obtain rfl := Option.some.inj g4
    obtain rfl := Option.some.inj g5
    obtain rfl := Option.some.inj g6
    exact ⟨by rw [add_zero]; exact le_trans b1 k0.2, by rw [add_zero]; exact le_trans k0.1 b2⟩
  | 1 =>
    obtain rfl := Option.some.inj g1
    obtain rfl := Option.some.inj g2
    obtain rfl := Option.some.inj g3
    obtain rfl := Option.some.inj g4
    obtain rfl := Option.some.inj g5
    obtain rfl := Option.some.inj g6
    exact ⟨by rw [add_zero]; exact le_trans b3 k1.2, by rw [add_zero]; exact le_trans k1.1 b4⟩
  | d + 2 => cases g1

theorem hull_inBox {vs : List (ℚ × ℚ)} {b : BBox} (hb : IsBox b) (h : ∀ v ∈ vs, InBox2 b v)
    {p : ℚ × ℚ} (hp : InCell2D vs p) : InBox2 b p := by
  obtain ⟨lx, ly, lz, ux, uy, uz, rfl⟩ := isBox_iff.mp hb
  have hv : ∀ v ∈ vs, lx ≤ v.1 ∧ v.1 ≤ ux ∧ ly ≤ v.2 ∧ v.2 ≤ uy := by
    intro v hv
    obtain ⟨_, _, _, _, _, _, e, q⟩ := h v hv
    simp only [Prod.mk.injEq, List.cons.injEq, and_true] at e
    obtain ⟨⟨rfl, rfl, rfl⟩, rfl, rfl, rfl⟩ := e
    exact q
  exact ⟨lx, ly, lz, ux, uy, uz, rfl, hull_right hp _ (fun v h => (hv v h).1),
    hull_left hp _ (fun v h => (hv v h).2.1), hull_above hp _ (fun v h => (hv v h).2.2.1),
    hull_below hp _ (fun v h => (hv v h).2.2.2)⟩

/-! ## The tables -/

theorem omGet_pushAll {α : Type} (m : OMap (List α)) (k : Int) (xs : List α) (j : Int) :
    omGet (omPushAll m k xs) j = if k = j then some ((omGet m k).getD [] ++ xs) else omGet m j := by
  unfold omPushAll
  rw [omGet_put]

theorem push_all {ov : List Int} (hnd : ov.Nodup) (t : OMap (List Nat)) (k : Nat) (j : Int) :
    omGet (ov.foldl (fun t ox => omPushAll t ox [k]) t) j =
      if j ∈ ov then some ((omGet t j).getD [] ++ [k]) else omGet t j := by
  induction ov generalizing t with
  | nil => simp
  | cons x xs ih =>
    rw [List.foldl_cons, ih (List.nodup_cons.mp hnd).2, omGet_pushAll]
    have hx := (List.nodup_cons.mp hnd).1
    by_cases h : x = j
    · subst h
      rw [if_neg hx, if_pos rfl, if_pos (by simp)]
    · rw [if_neg h]
      by_cases hj : j ∈ xs
      · rw [if_pos hj, if_pos (by simp [hj])]
      · rw [if_neg hj, if_neg (by simp [hj]; exact fun e => h e.symm)]

/-- What the mapper knows after it was given some cells. -/
structure MapInv (ov : OverlayMesh) (cells : List MeshCell) (m : Mapper2D) : Prop where
  overlay : m.overlay = ov
  length : m.cellData.length = cells.length
  data : ∀ (i : Nat) (c : MeshCell), cells[i]? = some c → ∃ d, m.cellData[i]? = some d ∧
    d.rank = c.rank ∧ d.localId = c.localId ∧
    ∀ p, ∃ b, d.contains p = some b ∧ (b = true ↔ Binned c.corners p)
  sorted : ∀ oc l, omGet m.candidates oc = some l → l.Pairwise (· < ·) ∧ ∀ i ∈ l, i < cells.length
  found : ∀ (i : Nat) (c : MeshCell) p oc, cells[i]? = some c → InCell2D c.corners p →
    pointCell ov p = some oc → ∃ l, omGet m.candidates oc = some l ∧ i ∈ l

theorem mapInv_new (ov : OverlayMesh) : MapInv ov [] ⟨ov, [], []⟩ where
  overlay := rfl
  length := rfl
  data := fun _ _ h => nomatch h
  sorted := fun _ _ h => nomatch h
  found := fun _ _ _ _ h => nomatch h

theorem addCell_inv {ov : OverlayMesh} {cells : List MeshCell} {m : Mapper2D} (big : ℚ)
    (hm : MapInv ov cells m) (c : MeshCell) (hc : Convex2D c.corners)
    (hov : ∀ p, InCell2D c.corners p → OverMesh ov p) :
    ∃ m', m.addCell big (flatCoords c.corners, c.rank, c.localId) = some m' ∧
      MapInv ov (cells ++ [c]) m' := by
  obtain ⟨b, b1, b2, b3⟩ := cellBox_spec hc big
  obtain ⟨v, hv⟩ : ∃ v, v ∈ c.corners := by
    obtain ⟨⟨u, hu, -⟩, -⟩ := convex_wide hc
    exact ⟨u, hu⟩
  obtain ⟨ovs, -, e1, -, -⟩ := pointCell_intersects (hov v (in_hull_of_mem hv)) (b3 v hv)
  obtain ⟨data, d1, d2, d3, d4⟩ := contains_spec hc c.rank c.localId
  obtain ⟨o0, o1, e0, ee1, n0, n1, hovE, he0, he1, hn0, hn1, -⟩ := hov v (in_hull_of_mem hv)
  have hnd : ovs.Nodup := by
    have hvv := ov2_valid (o0 := o0) (o1 := o1) he0 he1 hn0 hn1
    obtain ⟨lx, ly, lz, ux, uy, uz, rfl⟩ := isBox_iff.mp b2
    obtain ⟨cells', c1, c2, -⟩ := C44_intersecting_partial _ hvv (show 2 ≤ 2 by omega)
      [lx, ly, lz] [ux, uy, uz] (show 2 ≤ 3 by omega) (show 2 ≤ 3 by omega)
    rw [← hovE, e1] at c1
    obtain rfl := Option.some.inj c1
    exact c2
  refine ⟨_, by
    unfold Mapper2D.addCell
    simp only
    rw [b1, Option.bind_some, hm.overlay, e1, Option.bind_some, d1, Option.bind_some], ?_⟩
  refine ⟨hm.overlay ▸ rfl, by simp [hm.length], ?_, ?_, ?_⟩
  · intro i c' hi
    simp only
    rcases Nat.lt_trichotomy i cells.length with h | h | h
    · rw [List.getElem?_append_left h] at hi
      obtain ⟨d, q1, q2⟩ := hm.data i c' hi
      exact ⟨d, by rw [List.getElem?_append_left (by rw [hm.length]; exact h), q1], q2⟩
    · rw [h, List.getElem?_append_right (le_refl _), Nat.sub_self] at hi
      obtain rfl := Option.some.inj hi
      refine ⟨data, ?_, d2, d3, d4⟩
      rw [h, ← hm.length, List.getElem?_append_right (le_refl _), Nat.sub_self]
      rfl
    · rw [List.getElem?_eq_none (by simp; omega)] at hi
      cases hi
  · intro oc l hl
    simp only at hl
    rw [push_all hnd] at hl
    split at hl
    · obtain rfl := Option.some.inj hl
      have : ((omGet m.candidates oc).getD []).Pairwise (· < ·) ∧
          ∀ i ∈ (omGet m.candidates oc).getD [], i < cells.length := by
        cases hg : omGet m.candidates oc with
        | none => simp
        | some l => exact hm.sorted oc l hg
      refine ⟨List.pairwise_append.mpr ⟨this.1, List.pairwise_singleton _ _, ?_⟩, ?_⟩
      · intro a ha b hb
        rw [List.mem_singleton] at hb
        rw [hb, hm.length]
        exact this.2 a ha
      · intro i hi
        rw [List.length_append, List.length_singleton]
        rcases List.mem_append.mp hi with h | h
        · exact Nat.lt_succ_of_lt (this.2 i h)
        · rw [List.mem_singleton] at h
          rw [h, hm.length]
          exact Nat.lt_succ_self _
    · obtain ⟨q1, q2⟩ := hm.sorted oc l hl
      refine ⟨q1, fun i hi => ?_⟩
      rw [List.length_append, List.length_singleton]
      exact Nat.lt_succ_of_lt (q2 i hi)
  · intro i c' p oc hi hp hoc
    simp only
    rw [push_all hnd]
    rcases Nat.lt_trichotomy i cells.length with h | h | h
    · rw [List.getElem?_append_left h] at hi
      obtain ⟨l, q1, q2⟩ := hm.found i c' p oc hi hp hoc
      rw [q1]
      split
      · exact ⟨_, rfl, by simp [q2]⟩
      · exact ⟨l, rfl, q2⟩
    · rw [h, List.getElem?_append_right (le_refl _), Nat.sub_self] at hi
      obtain rfl := Option.some.inj hi
      obtain ⟨ovs', oc', f1, f2, f3⟩ := pointCell_intersects (hov p hp) (hull_inBox b2 b3 hp)
      rw [e1] at f1
      obtain rfl := Option.some.inj f1
      rw [hoc] at f2
      obtain rfl := Option.some.inj f2
      rw [if_pos f3]
      exact ⟨_, rfl, by simp [h, hm.length]⟩
    · rw [List.getElem?_eq_none (by simp; omega)] at hi
      cases hi

/-! ## One particle -/

/-- The last cell that contains the point, in the order of the cells. -/
theorem cand_loop {cells : List MeshCell} {dat : List (Linear2D ℚ)} {p : ℚ × ℚ}
    (hdat : ∀ (i : Nat) (c : MeshCell), cells[i]? = some c → ∃ d, dat[i]? = some d ∧
      d.rank = c.rank ∧ d.localId = c.localId ∧
      ∃ b, d.contains p = some b ∧ (b = true ↔ Binned c.corners p))
    (l : List Nat) (hs : l.Pairwise (· < ·)) (hl : ∀ i ∈ l, i < cells.length) (s : Int × Int) :
    ∃ r, l.foldlM (fun s cand => (rd dat cand).bind fun data =>
      (data.contains p).bind fun b => some (if b then (data.localId, data.rank) else s)) s = some r ∧
    ((∀ i ∈ l, ∀ c, cells[i]? = some c → ¬ Binned c.corners p) → r = s) ∧
    (∀ i ∈ l, ∀ c, cells[i]? = some c → Binned c.corners p →
      (∀ j ∈ l, ∀ d, i < j → cells[j]? = some d → ¬ Binned d.corners p) →
      r = (c.localId, c.rank)) := by
  induction l generalizing s with
  | nil => exact ⟨s, rfl, fun _ => rfl, by simp⟩
  | cons x xs ih =>
    obtain ⟨hx, hxs⟩ := List.pairwise_cons.mp hs
    have hlt := hl x (by simp)
    obtain ⟨d, q1, q2, q3, b, q4, q5⟩ := hdat x _ (List.getElem?_eq_getElem hlt)
    obtain ⟨r, r1, r2, r3⟩ := ih hxs (fun i hi => hl i (by simp [hi]))
      (if b then (d.localId, d.rank) else s)
    refine ⟨r, ?_, ?_, ?_⟩
    · rw [List.foldlM_cons]
      simp only [rd]
      rw [q1, Option.bind_some, q4, Option.bind_some]
      exact r1
    · intro hno
      rw [r2 (fun i hi => hno i (by simp [hi]))]
      have : ¬ b = true := fun h => hno x (by simp) _ (List.getElem?_eq_getElem hlt) (q5.mp h)
      rw [if_neg this]
    · intro i hi c hc hb hlast
      rcases List.mem_cons.mp hi with h | h
      · rw [h, List.getElem?_eq_getElem hlt] at hc
        obtain rfl := Option.some.inj hc
        rw [r2 (fun j hj e he => hlast j (by simp [hj]) e (h ▸ hx j hj) he), if_pos (q5.mpr hb), q2,
          q3]
      · exact r3 i h c hc hb (fun j hj e hij he => hlast j (by simp [hj]) e hij he)

theorem particle_spec {ov : OverlayMesh} {cells : List MeshCell} {m : Mapper2D}
    (hm : MapInv ov cells m) {p : ℚ × ℚ} {oc : Int} (hoc : pointCell ov p = some oc)
    (s : Int × Int) : ∃ r, m.particle p s = some r ∧
    ((∀ c ∈ cells, ¬ Binned c.corners p) → r = s) ∧
    (∀ (i : Nat) (c : MeshCell), cells[i]? = some c → Binned c.corners p →
      (∀ (j : Nat) (d : MeshCell), i < j → cells[j]? = some d → ¬ Binned d.corners p) →
      r = (c.localId, c.rank)) := by
  have hl : ((omGet m.candidates oc).getD []).Pairwise (· < ·) ∧
      ∀ i ∈ (omGet m.candidates oc).getD [], i < cells.length := by
    cases hg : omGet m.candidates oc with
    | none => simp
    | some l => exact hm.sorted oc l hg
  obtain ⟨r, r1, r2, r3⟩ := cand_loop (cells := cells) (dat := m.cellData) (p := p)
    (fun i c hi => by
      obtain ⟨d, q1, q2, q3, q4⟩ := hm.data i c hi
      exact ⟨d, q1, q2, q3, q4 p⟩) _ hl.1 hl.2 s
  refine ⟨r, ?_, ?_, ?_⟩
  · unfold Mapper2D.particle
    rw [hm.overlay]
    unfold pointCell at hoc
    cases h0 : ov.dim 0 with
    | none => rw [h0] at hoc; cases hoc
    | some d0 =>
      rw [h0, Option.bind_some] at hoc
      rw [Option.bind_some]
      cases h1 : ov.dim 1 with
      | none => rw [h1] at hoc; cases hoc
      | some d1 =>
        rw [h1, Option.bind_some] at hoc
        rw [Option.bind_some, hoc, Option.bind_some]
        exact r1
  · intro hno
    exact r2 (fun i _ c hc => hno c (List.mem_of_getElem? hc))
  · intro i c hc hb hlast
    obtain ⟨l, l1, l2⟩ := hm.found i c p oc hc hb.1 hoc
    exact r3 i (by rw [l1]; exact l2) c hc hb (fun j _ d hij hd => hlast j d hij hd)

end NP
