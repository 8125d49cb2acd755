import Verif.Petsc.SpecEdges
import Verif.Containers.LemmasTree
import Mathlib.Tactic.FieldSimp
import Mathlib.Tactic.LinearCombination
import Mathlib.Tactic.Linarith
import Mathlib.Algebra.Order.AbsoluteValue.Basic

/-!
# Lemmas: intersection of segments, search of one cell
-/

set_option autoImplicit false

namespace NP

open Spec

theorem qdiv_of_ne {a b : ℚ} (h : b ≠ 0) : qdiv a b = some (a / b) := if_neg h

theorem lineLambda_eq {xa ya xb yb x0 y0 x1 y1 : ℚ} (hx : x1 - x0 ≠ 0)
    (hd : (xb - xa) * (y1 - y0) - (yb - ya) * (x1 - x0) ≠ 0) :
    lineLambda xa ya xb yb x0 y0 x1 y1 =
      some (((x0 - xa) * (y1 - y0) - (y0 - ya) * (x1 - x0)) /
          ((xb - xa) * (y1 - y0) - (yb - ya) * (x1 - x0)),
        (xa - x0 + ((x0 - xa) * (y1 - y0) - (y0 - ya) * (x1 - x0)) /
          ((xb - xa) * (y1 - y0) - (yb - ya) * (x1 - x0)) * (xb - xa)) / (x1 - x0)) := by
  have h : yb - ya - (xb - xa) * (y1 - y0) * (1 / (x1 - x0)) =
      -((xb - xa) * (y1 - y0) - (yb - ya) * (x1 - x0)) / (x1 - x0) := by
    field_simp
    ring
  have hne : yb - ya - (xb - xa) * (y1 - y0) * (1 / (x1 - x0)) ≠ 0 := by
    rw [h]
    exact div_ne_zero (neg_ne_zero.mpr hd) hx
  have hq : (-ya + y0 + (xa - x0) * (y1 - y0) * (1 / (x1 - x0))) /
      (yb - ya - (xb - xa) * (y1 - y0) * (1 / (x1 - x0))) =
      ((x0 - xa) * (y1 - y0) - (y0 - ya) * (x1 - x0)) /
          ((xb - xa) * (y1 - y0) - (yb - ya) * (x1 - x0)) := by
    rw [div_eq_div_iff hne hd, h]
    field_simp
    ring
  unfold lineLambda
  rw [qdiv_of_ne hx, Option.bind_some, qdiv_of_ne hne, Option.bind_some, hq]
  simp only [mul_one_div]

/-- The parameter of the meeting point of the lines. -/
def meetAt (xa ya xb yb x0 y0 x1 y1 : ℚ) : ℚ :=
  ((x0 - xa) * (y1 - y0) - (y0 - ya) * (x1 - x0)) / ((xb - xa) * (y1 - y0) - (yb - ya) * (x1 - x0))

theorem segLambda_eq {xa ya xb yb x0 y0 x1 y1 : ℚ}
    (hd : (xb - xa) * (y1 - y0) - (yb - ya) * (x1 - x0) ≠ 0) :
    (if |x1 - x0| > |xb - xa| then (lineLambda xa ya xb yb x0 y0 x1 y1).map (·.1)
      else (lineLambda x0 y0 x1 y1 xa ya xb yb).map (·.2)) =
      some (meetAt xa ya xb yb x0 y0 x1 y1) := by
  split
  · rename_i h
    have hx : x1 - x0 ≠ 0 := by
      intro e
      rw [e, abs_zero] at h
      exact absurd (abs_nonneg (xb - xa)) (not_le.mpr h)
    rw [lineLambda_eq hx hd]
    rfl
  · rename_i h
    have hx : xb - xa ≠ 0 := by
      intro e
      rw [e, abs_zero] at h
      have : x1 - x0 = 0 := abs_nonpos_iff.mp (not_lt.mp h)
      apply hd
      rw [e, this]
      ring
    have hd' : (x1 - x0) * (yb - ya) - (y1 - y0) * (xb - xa) ≠ 0 := by
      intro e
      apply hd
      linear_combination -e
    rw [lineLambda_eq hx hd', Option.map_some]
    congr 1
    simp only [meetAt]
    rw [div_eq_div_iff hx hd]
    have : ((xa - x0) * (yb - ya) - (ya - y0) * (xb - xa)) /
        ((x1 - x0) * (yb - ya) - (y1 - y0) * (xb - xa)) =
        -(((xa - x0) * (yb - ya) - (ya - y0) * (xb - xa)) /
        ((xb - xa) * (y1 - y0) - (yb - ya) * (x1 - x0))) := by
      rw [← div_neg]
      congr 1
      ring
    rw [this]
    field_simp
    ring

theorem min_if (a b : ℚ) : (if a < b then a else b) = min a b := by
  rcases lt_or_ge a b with h | h
  · rw [if_pos h, min_eq_left h.le]
  · rw [if_neg (not_lt.mpr h), min_eq_right h]

theorem max_if (a b : ℚ) : (if a < b then b else a) = max a b := by
  rcases lt_or_ge a b with h | h
  · rw [if_pos h, max_eq_right h.le]
  · rw [if_neg (not_lt.mpr h), max_eq_left h]

theorem meet_unique {v w a b p : Pt} {t u : ℚ} (hd : NotParallel a b v w) (hp : p = ptAlong v w t)
    (hq : p = ptAlong a b u) : t = meetAt v.1 v.2 w.1 w.2 a.1 a.2 b.1 b.2 := by
  have h1 : v.1 + t * (w.1 - v.1) = a.1 + u * (b.1 - a.1) := by
    have := congrArg Prod.fst (hp.symm.trans hq); exact this
  have h2 : v.2 + t * (w.2 - v.2) = a.2 + u * (b.2 - a.2) := by
    have := congrArg Prod.snd (hp.symm.trans hq); exact this
  have hd' : (w.1 - v.1) * (b.2 - a.2) - (w.2 - v.2) * (b.1 - a.1) ≠ 0 := by
    intro e
    apply hd
    linear_combination -e
  unfold meetAt
  rw [eq_div_iff hd']
  linear_combination (b.2 - a.2) * h1 - (b.1 - a.1) * h2

theorem meet_on_line {v w a b : Pt} (hd : NotParallel a b v w) :
    ∃ u, ptAlong v w (meetAt v.1 v.2 w.1 w.2 a.1 a.2 b.1 b.2) = ptAlong a b u := by
  have hd' : (w.1 - v.1) * (b.2 - a.2) - (w.2 - v.2) * (b.1 - a.1) ≠ 0 := by
    intro e
    apply hd
    linear_combination -e
  have h := div_mul_cancel₀ ((a.1 - v.1) * (b.2 - a.2) - (a.2 - v.2) * (b.1 - a.1)) hd'
  have ht : meetAt v.1 v.2 w.1 w.2 a.1 a.2 b.1 b.2 =
    ((a.1 - v.1) * (b.2 - a.2) - (a.2 - v.2) * (b.1 - a.1)) /
      ((w.1 - v.1) * (b.2 - a.2) - (w.2 - v.2) * (b.1 - a.1)) := rfl
  rw [← ht] at h
  generalize meetAt v.1 v.2 w.1 w.2 a.1 a.2 b.1 b.2 = t at *
  refine ⟨((a.1 - v.1) * (w.2 - v.2) - (a.2 - v.2) * (w.1 - v.1)) /
    ((w.1 - v.1) * (b.2 - a.2) - (w.2 - v.2) * (b.1 - a.1)), ?_⟩
  have h' : ((a.1 - v.1) * (w.2 - v.2) - (a.2 - v.2) * (w.1 - v.1)) /
    ((w.1 - v.1) * (b.2 - a.2) - (w.2 - v.2) * (b.1 - a.1)) *
    ((w.1 - v.1) * (b.2 - a.2) - (w.2 - v.2) * (b.1 - a.1)) = _ := div_mul_cancel₀ _ hd'
  generalize ((a.1 - v.1) * (w.2 - v.2) - (a.2 - v.2) * (w.1 - v.1)) /
    ((w.1 - v.1) * (b.2 - a.2) - (w.2 - v.2) * (b.1 - a.1)) = u at *
  unfold ptAlong
  refine Prod.ext ?_ ?_
  · simp only
    apply mul_right_cancel₀ hd'
    linear_combination (w.1 - v.1) * h - (b.1 - a.1) * h'
  · simp only
    apply mul_right_cancel₀ hd'
    linear_combination (w.2 - v.2) * h - (b.2 - a.2) * h'

/-- What the search computes for an edge from `v` to `w` and a step from `a` to `b`. -/
theorem segIntersect_spec (v w a b : Pt) (tol : ℚ) :
    ∃ r, segIntersect v.1 v.2 w.1 w.2 a.1 a.2 b.1 b.2 tol = some r ∧
      ∀ p, r = some p ↔ CrossesTol tol a b v w p := by
  unfold segIntersect
  split
  · rename_i hd
    have hnp : NotParallel a b v w := by
      intro e
      apply hd
      linear_combination -e
    rw [segLambda_eq hd, Option.bind_some]
    simp only [min_if, max_if]
    obtain ⟨u, hu⟩ := meet_on_line hnp
    have hpt : (v.1 + meetAt v.1 v.2 w.1 w.2 a.1 a.2 b.1 b.2 * (w.1 - v.1),
        v.2 + meetAt v.1 v.2 w.1 w.2 a.1 a.2 b.1 b.2 * (w.2 - v.2)) =
        ptAlong v w (meetAt v.1 v.2 w.1 w.2 a.1 a.2 b.1 b.2) := rfl
    split
    · rename_i hc
      refine ⟨_, rfl, fun p => ?_⟩
      rw [hpt]
      constructor
      · intro e
        cases e
        refine ⟨hnp, ⟨u, hu⟩, ⟨_, by linarith [hc.1.1], hc.1.2, rfl⟩, ⟨hc.2.1, hc.2.2.1⟩,
          ⟨hc.2.2.2.1, hc.2.2.2.2⟩⟩
      · rintro ⟨-, ⟨u', hu'⟩, ⟨t, -, -, ht⟩, -, -⟩
        rw [← meet_unique hnp ht hu', ht]
    · rename_i hc
      refine ⟨none, rfl, fun p => ⟨fun e => (nomatch e), ?_⟩⟩
      rintro ⟨-, ⟨u', hu'⟩, ⟨t, ht0, ht1, ht⟩, hx, hy⟩
      exfalso
      apply hc
      have := meet_unique hnp ht hu'
      subst this
      rw [ht] at hx hy
      exact ⟨⟨by linarith, ht1⟩, hx.1, hx.2, hy.1, hy.2⟩
  · rename_i hd
    refine ⟨none, rfl, fun p => ⟨fun e => (nomatch e), ?_⟩⟩
    rintro ⟨hnp, -⟩
    exfalso
    apply hd
    intro e
    apply hnp
    linear_combination -e

theorem within_of_param {x y t : ℚ} {tol : ℚ} (htol : 0 ≤ tol) (h0 : 0 ≤ t) (h1 : t ≤ 1) :
    Within tol x y (x + t * (y - x)) := by
  unfold Within
  rcases le_total x y with h | h
  · rw [min_eq_left h, max_eq_right h]
    constructor <;> nlinarith
  · rw [min_eq_right h, max_eq_left h]
    constructor <;> nlinarith

theorem param_of_within {x y t : ℚ} (hne : y - x ≠ 0) (h : Within 0 x y (x + t * (y - x))) :
    0 ≤ t ∧ t ≤ 1 := by
  obtain ⟨h1, h2⟩ := h
  rcases lt_or_gt_of_ne hne with hlt | hlt
  · rw [min_eq_right (by linarith)] at h1
    rw [max_eq_left (by linarith)] at h2
    constructor
    · by_contra hh
      push Not at hh
      nlinarith
    · by_contra hh
      push Not at hh
      nlinarith
  · rw [min_eq_left (by linarith)] at h1
    rw [max_eq_right (by linarith)] at h2
    constructor
    · by_contra hh
      push Not at hh
      nlinarith
    · by_contra hh
      push Not at hh
      nlinarith

/-- Exact crossings are found with every tolerance. -/
theorem crosses_tol {a b v w p : Pt} (h : Crosses a b v w p) {tol : ℚ} (htol : 0 ≤ tol) :
    CrossesTol tol a b v w p := by
  obtain ⟨hnp, ⟨u, hu0, hu1, hu⟩, ⟨t, ht0, ht1, ht⟩⟩ := h
  refine ⟨hnp, ⟨u, hu⟩, ⟨t, by linarith, by linarith, ht⟩, ?_, ?_⟩
  · rw [hu]; exact within_of_param htol hu0 hu1
  · rw [hu]; exact within_of_param htol hu0 hu1

/-- Without tolerance nothing else is found. -/
theorem crossesTol_zero {a b v w p : Pt} : CrossesTol 0 a b v w p ↔ Crosses a b v w p := by
  refine ⟨?_, fun h => crosses_tol h le_rfl⟩
  rintro ⟨hnp, ⟨u, hu⟩, ⟨t, ht0, ht1, ht⟩, hx, hy⟩
  refine ⟨hnp, ⟨u, ?_⟩, ⟨t, by linarith, by linarith, ht⟩⟩
  rw [hu] at hx hy
  have : 0 ≤ u ∧ u ≤ 1 := by
    by_cases hb : b.1 - a.1 = 0
    · refine param_of_within (x := a.2) (y := b.2) (fun e => hnp ?_) hy
      rw [hb, e]; ring
    · exact param_of_within hb hx
  exact ⟨this.1, this.2, hu⟩

/-! ## The search of one cell -/

/-- The step crosses a stored edge. -/
def DevEdge.HitAt (tol : ℚ) (a b : Pt) (e : DevEdge) (p : Pt) : Prop :=
  CrossesTol tol a b (e.x0, e.y0) (e.x1, e.y1) p

/-- What is known after the edges `S` were searched. -/
def EdgeHitInv (big tol : ℚ) (a b : Pt) (S : List DevEdge) (s : HitState) : Prop :=
  (s = ⟨big, 0, 0, 0, 0, 0, 0, 0⟩ ∧ ∀ e ∈ S, ∀ p, e.HitAt tol a b p → big ≤ dist2 a p) ∨
  (s.flag = 1 ∧ s.dist = dist2 a (s.px, s.py) ∧ s.dist < big ∧
    (∃ e ∈ S, e.HitAt tol a b (s.px, s.py) ∧ s.group = e.group ∧ s.edge = e.edge) ∧
    ∀ e ∈ S, ∀ p, e.HitAt tol a b p → s.dist ≤ dist2 a p)

/-- The same up to the normal. -/
def EdgeHitInv' (big tol : ℚ) (a b : Pt) (S : List DevEdge) (s : HitState) (q : HitState × Bool) : Prop :=
  EdgeHitInv big tol a b S q.1 ∧ if q.2 then q.1.flag = 1 else q.1 = s

theorem findEdge_spec {big tol : ℚ} {a b : Pt} {S : List DevEdge} {s : HitState}
    {q : HitState × Bool} (h : EdgeHitInv' big tol a b S s q) (e : DevEdge) :
    ∃ q', findEdge tol a b q e = some q' ∧ EdgeHitInv' big tol a b (S ++ [e]) s q' := by
  obtain ⟨r, hr, hiff⟩ := segIntersect_spec (e.x0, e.y0) (e.x1, e.y1) a b tol
  unfold findEdge
  simp only at hr
  rw [hr, Option.map_some]
  obtain ⟨hq, hf⟩ := h
  have key : (∀ p, e.HitAt tol a b p → q.1.dist ≤ dist2 a p) → EdgeHitInv' big tol a b (S ++ [e]) s q := by
    intro hle
    refine ⟨?_, hf⟩
    rcases hq with ⟨h1, h2⟩ | ⟨h1, h2, h3, ⟨e', he', h4⟩, h5⟩
    · refine Or.inl ⟨h1, fun e' he' p hp => ?_⟩
      rcases List.mem_append.mp he' with hm | hm
      · exact h2 e' hm p hp
      · rw [List.mem_singleton] at hm
        subst hm
        have := hle p hp
        rw [h1] at this
        exact this
    · refine Or.inr ⟨h1, h2, h3, ⟨e', List.mem_append_left _ he', h4⟩, fun e' he' p hp => ?_⟩
      rcases List.mem_append.mp he' with hm | hm
      · exact h5 e' hm p hp
      · rw [List.mem_singleton] at hm
        subst hm
        exact hle p hp
  cases r with
  | none =>
    refine ⟨_, rfl, key fun p hp => ?_⟩
    have := (hiff p).mpr hp
    cases this
  | some p =>
    have hp := (hiff p).mp rfl
    have huniq : ∀ p', e.HitAt tol a b p' → p' = p := by
      intro p' hp'
      have := (hiff p').mpr hp'
      exact (Option.some.inj this).symm
    simp only
    split
    · rename_i hlt
      refine ⟨_, rfl, Or.inr ⟨rfl, rfl, ?_, ⟨e, by simp, hp, rfl, rfl⟩, ?_⟩, by simp⟩
      · simp only
        rcases hq with ⟨h1, -⟩ | ⟨-, -, h3, -⟩
        · rw [h1] at hlt; exact hlt
        · exact hlt.trans h3
      · intro e' he' p' hp'
        simp only
        rcases List.mem_append.mp he' with hm | hm
        · rcases hq with ⟨h1, h2⟩ | ⟨-, -, h3, -, h5⟩
          · rw [h1] at hlt
            exact hlt.le.trans (h2 e' hm p' hp')
          · exact hlt.le.trans (h5 e' hm p' hp')
        · rw [List.mem_singleton] at hm
          subst hm
          rw [huniq p' hp']
          exact le_rfl
    · rename_i hlt
      refine ⟨_, rfl, key fun p' hp' => ?_⟩
      rw [huniq p' hp']
      exact not_lt.mp hlt

theorem findEdges_spec {big tol : ℚ} {a b : Pt} {s : HitState} (es : List DevEdge) :
    ∀ {S : List DevEdge} {q : HitState × Bool}, EdgeHitInv' big tol a b S s q →
    ∃ q', es.foldlM (findEdge tol a b) q = some q' ∧ EdgeHitInv' big tol a b (S ++ es) s q' := by
  induction es with
  | nil => intro S q h; exact ⟨q, rfl, by rwa [List.append_nil]⟩
  | cons e es ih =>
    intro S q h
    obtain ⟨q1, h1, h2⟩ := findEdge_spec h e
    obtain ⟨q2, h3, h4⟩ := ih h2
    refine ⟨q2, ?_, by rwa [List.append_assoc] at h4⟩
    rw [List.foldlM_cons, h1]
    exact h3

/-- Reading a location of the tree. -/
theorem TreeOk.nodeRead_some {V : Type} {t : BlockedTree V} {f : Int → Option V} (h : TreeOk 8 t f)
    {root : Nat} (hroot : t.root = some root) {key : Int} {v : V} (hf : f key = some v) :
    nodeRead t.heap root 8 key = some (some (true, v)) := by
  obtain ⟨l, hl, hlk, hsum⟩ := key_split 8 (by omega) key
  obtain ⟨c, r, hc, hs, hr⟩ := h.srch (key / (8 : Nat))
  rw [hroot] at hs
  have hn : getNodeKey 8 key = key / (8 : Nat) := getNodeKey_eq 8 (by omega) key
  have hk : getLeafKey 8 key = key % (8 : Nat) := getLeafKey_eq 8 (by omega) key
  unfold nodeRead
  rw [hn, hk, hs.getLocation hc, Option.bind_some]
  cases r with
  | none =>
    have := h.absent key (fun p hp => by have := (hr p).mpr hp; cases this)
    rw [hf] at this; cases this
  | some p =>
    obtain ⟨n, hn, hk, hsz, hval⟩ := h.node _ p ((hr p).mp rfl)
    have hi : index (key % ((8 : Nat) : Int)) = some l := by rw [hlk]; simp [index]
    have := hval l hl
    rw [hsum, hf] at this
    simp only at this
    simp only [rd, hn, Option.bind_some, hi, this.1, this.2, Option.map_some]

theorem TreeOk.nodeRead_none {V : Type} {t : BlockedTree V} {f : Int → Option V} (h : TreeOk 8 t f)
    {root : Nat} (hroot : t.root = some root) {key : Int} (hf : f key = none) :
    nodeRead t.heap root 8 key = some none ∨
      ∃ v, nodeRead t.heap root 8 key = some (some (false, v)) := by
  obtain ⟨l, hl, hlk, hsum⟩ := key_split 8 (by omega) key
  obtain ⟨c, r, hc, hs, hr⟩ := h.srch (key / (8 : Nat))
  rw [hroot] at hs
  have hn : getNodeKey 8 key = key / (8 : Nat) := getNodeKey_eq 8 (by omega) key
  have hk : getLeafKey 8 key = key % (8 : Nat) := getLeafKey_eq 8 (by omega) key
  unfold nodeRead
  rw [hn, hk, hs.getLocation hc, Option.bind_some]
  cases r with
  | none => exact Or.inl rfl
  | some p =>
    obtain ⟨n, hn, hk, hsz, hval⟩ := h.node _ p ((hr p).mp rfl)
    have hi : index (key % ((8 : Nat) : Int)) = some l := by rw [hlk]; simp [index]
    have := hval l hl
    rw [hsum, hf] at this
    simp only at this
    obtain ⟨v, hv⟩ : ∃ v, n.data[l]? = some v := by
      have hlen : l < n.data.length := by
        have := hsz
        unfold NodeSized at this
        omega
      exact ⟨_, List.getElem?_eq_getElem hlen⟩
    refine Or.inr ⟨v, ?_⟩
    simp only [rd, hn, Option.bind_some, hi, this, hv, Option.map_some]

theorem TreeOk.root_none {V : Type} {t : BlockedTree V} {f : Int → Option V} (h : TreeOk 8 t f)
    (hroot : t.root = none) (key : Int) : f key = none := by
  have := h.get (w := 8) (by omega) key
  unfold BlockedTree.hostGet at this
  rw [hroot] at this
  simpa using this.symm

/-- The search of one cell. `fd` and `fn` are what the trees store. -/
theorem find_spec {e : Edges2D} {fd : Int → Option (List DevEdge)} {fn : Int → Option (ℚ × ℚ)}
    (hd : TreeOk 8 e.discovery fd) (hn : TreeOk 8 e.normals fn) {root : Nat}
    (hroot : e.discovery.root = some root) {big : ℚ} {a b : Pt} {S : List DevEdge} {s : HitState}
    (hs : EdgeHitInv big e.tol a b S s) (hsn : s.flag = 1 → fn s.edge = some (s.nx, s.ny)) (cell : Int)
    (hfn : ∀ e' ∈ S ++ (fd cell).getD [], (fn e'.edge).isSome) :
    ∃ s', e.find root cell a b s = some s' ∧ EdgeHitInv big e.tol a b (S ++ (fd cell).getD []) s' ∧
      (s'.flag = 1 → fn s'.edge = some (s'.nx, s'.ny)) := by
  unfold Edges2D.find
  cases hc : fd cell with
  | none =>
    rw [Option.getD_none, List.append_nil]
    rcases hd.nodeRead_none hroot hc with h | ⟨v, h⟩
    · rw [h]; exact ⟨s, rfl, hs, hsn⟩
    · rw [h]; exact ⟨s, rfl, hs, hsn⟩
  | some es =>
    rw [hc, Option.getD_some] at hfn
    rw [hd.nodeRead_some hroot hc, Option.bind_some, Option.getD_some]
    simp only
    obtain ⟨q, h1, h2, h3⟩ := findEdges_spec (s := s) es (S := S) (q := (s, false)) ⟨hs, rfl⟩
    rw [h1, Option.bind_some]
    by_cases hq : q.2 = true
    · rw [if_pos hq] at h3
      rw [if_pos hq]
      have h2' := h2
      rcases h2 with ⟨h4, -⟩ | ⟨h4, h5, h6, ⟨e', he', h7, h8, h9⟩, h10⟩
      · rw [h4] at h3; simp at h3
      obtain ⟨v, hv⟩ := Option.isSome_iff_exists.mp (hfn e' he')
      rw [← h9] at hv
      cases hrn : e.normals.root with
      | none =>
        have := hn.root_none hrn q.1.edge
        rw [hv] at this; cases this
      | some rn =>
        rw [Option.bind_some, hn.nodeRead_some hrn hv, Option.map_some]
        exact ⟨_, rfl, Or.inr ⟨h4, h5, h6, ⟨e', he', h7, h8, h9⟩, h10⟩, fun _ => hv⟩
    · rw [if_neg hq] at h3
      rw [if_neg hq]
      exact ⟨_, rfl, h2, by rw [h3]; exact hsn⟩

end NP
