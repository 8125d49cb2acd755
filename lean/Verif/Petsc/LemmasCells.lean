import Verif.Petsc.SpecCells
import Verif.Containers.LemmasND
import Verif.Containers.LemmasArray
import Verif.Petsc.LemmasCell
import Verif.Comm.LemmasExchange
import Verif.Common.KernelLemmas
import Mathlib.Algebra.BigOperators.Group.List.Basic

/-! # Lemmas: the cells of an unstructured mesh -/

set_option autoImplicit false

namespace NP
open NP.Spec

theorem take_drop_range {α : Type} {cs : List α} {b n : Nat} (h : b + n ≤ cs.length) (z : α) :
    (List.range n).map (fun d => (cs[b + d]?).getD z) = (cs.drop b).take n := by
  apply List.ext_getElem
  · simp; omega
  · intro i h1 h2
    simp only [List.length_map, List.length_range] at h1
    simp [List.getElem?_eq_getElem (show b + i < cs.length by omega)]

theorem plexVertices_ok {α : Type} [Zero α] {m : PlexCells α} (hm : PlexCellsOk m) {c : Nat}
    (hc : c < m.toPetsc.length) : ∃ vs, m.vertices c = some vs ∧ IsVertices m c vs ∧ vs ≠ [] := by
  obtain ⟨cs, h1, h2, h3⟩ := hm.cells _ (List.getElem_mem hc)
  have hd := hm.dim
  obtain ⟨vs, v1, v2, v3⟩ := forLoop_invariant (a := 0) (b := cs.length / m.ndim)
    (step := fun vx (vs : List (List α)) =>
      (forLoop 0 m.ndim (fun d tmp => (rd cs (vx * m.ndim + d)).bind fun x => st tmp d x)
      (List.replicate m.ndim 0)).bind fun tmp => some (vs ++ [tmp])) (s := [])
    (fun i vs => vs.flatten = cs.take (i * m.ndim) ∧ ∀ v ∈ vs, v.length = m.ndim) (Nat.zero_le _) (by
      rintro i vs - hi ⟨q1, q2⟩
      have hb : i * m.ndim + m.ndim ≤ cs.length := by
        have : (i + 1) * m.ndim ≤ cs.length / m.ndim * m.ndim := Nat.mul_le_mul_right _ hi
        rw [Nat.div_mul_cancel h2, Nat.succ_mul] at this
        exact this
      have e := fillAll (n := m.ndim) (m := List.replicate m.ndim (0 : α))
        (f := fun d tmp => (rd cs (i * m.ndim + d)).bind fun x => st tmp d x)
        (w := fun d => (cs[i * m.ndim + d]?).getD 0) (by simp) (by
          intro d hd t
          simp only [rd]
          rw [List.getElem?_eq_getElem (by omega)]; rfl)
      rw [take_drop_range hb] at e
      refine ⟨vs ++ [(cs.drop (i * m.ndim)).take m.ndim], by rw [e]; rfl, ?_, ?_⟩
      · rw [List.flatten_append, q1, Nat.succ_mul, List.take_add]; simp
      · intro v hv
        rcases List.mem_append.mp hv with h | h
        · exact q2 v h
        · rw [List.mem_singleton.mp h]; simp; omega) (by simp)
  rw [Nat.div_mul_cancel h2, List.take_length] at v2
  have hp : rd m.toPetsc c = some m.toPetsc[c] := List.getElem?_eq_getElem hc
  refine ⟨vs, ?_, ⟨_, cs, hp, h1, v2, v3⟩, ?_⟩
  · unfold PlexCells.vertices
    rw [hp, Option.bind_some, show rd m.coords m.toPetsc[c] = some cs from h1, Option.bind_some,
      if_neg (by omega)]
    exact v1
  · rintro rfl
    exact h3 v2.symm

theorem isVertices_length {α : Type} {m : PlexCells α} {c : Nat} {vs : List (List α)} (h : IsVertices m c vs) :
    ∀ v ∈ vs, v.length = m.ndim := by
  obtain ⟨_, _, _, _, _, h⟩ := h
  exact h

theorem blocks_eq {α : Type} {n : Nat} (hn : 0 < n) {a b : List (List α)} (ha : ∀ v ∈ a, v.length = n)
    (hb : ∀ v ∈ b, v.length = n) (h : a.flatten = b.flatten) : a = b := by
  induction a generalizing b with
  | nil =>
    cases b with
    | nil => rfl
    | cons y b =>
      have h1 := congrArg List.length h
      rw [List.flatten_cons, List.length_append, hb y (by simp), List.flatten_nil, List.length_nil] at h1
      omega
  | cons x a ih =>
    cases b with
    | nil =>
      have h1 := congrArg List.length h
      rw [List.flatten_cons, List.length_append, ha x (by simp), List.flatten_nil, List.length_nil] at h1
      omega
    | cons y b =>
      rw [List.flatten_cons, List.flatten_cons] at h
      obtain ⟨h1, h2⟩ := List.append_inj h (by rw [ha x (by simp), hb y (by simp)])
      rw [h1, ih (fun v hv => ha v (by simp [hv])) (fun v hv => hb v (by simp [hv])) h2]

theorem isVertices_unique {α : Type} {m : PlexCells α} (hd : 0 < m.ndim) {c : Nat} {a b : List (List α)}
    (ha : IsVertices m c a) (hb : IsVertices m c b) : a = b := by
  obtain ⟨p, cs, a1, a2, a3, a4⟩ := ha
  obtain ⟨p', cs', b1, b2, b3, b4⟩ := hb
  rw [a1, Option.some.injEq] at b1
  subst b1
  rw [a2, Option.some.injEq] at b2
  subst b2
  exact blocks_eq hd a4 b4 (a3.trans b3.symm)

/-- A loop that updates every entry of a list from its old value. -/
theorem updateAll {α : Type} {n : Nat} {f : Nat → List α → Option (List α)} {w : Nat → α → α} {m : List α}
    (hm : m.length = n)
    (hf : ∀ i < n, ∀ t y, t.length = n → t[i]? = some y → f i t = st t i (w i y)) :
    ∃ t, forLoop 0 n f m = some t ∧ t.length = n ∧ ∀ i : Nat, t[i]? = (m[i]?).map (w i) := by
  obtain ⟨t, h1, h2, h3, h4⟩ := forLoop_invariant (a := 0) (b := n) (step := f) (s := m)
    (fun i t => t.length = n ∧ (∀ k < i, t[k]? = (m[k]?).map (w k)) ∧ ∀ k, i ≤ k → t[k]? = m[k]?)
    (Nat.zero_le n) (by
      rintro i t - hi ⟨q1, q2, q3⟩
      have hy : t[i]? = some (t[i]'(by omega)) := List.getElem?_eq_getElem _
      refine ⟨t.set i (w i (t[i]'(by omega))), by rw [hf i hi t _ q1 hy, st_eq_some (by omega)], by simpa using q1,
        ?_, ?_⟩
      · intro k hk
        by_cases h : k = i
        · subst h
          rw [List.getElem?_set_self (by omega), ← q3 k (Nat.le_refl _), hy]; rfl
        · rw [List.getElem?_set_ne (by omega), q2 k (by omega)]
      · intro k hk
        rw [List.getElem?_set_ne (by omega), q3 k (by omega)]) ⟨hm, by intro k hk; omega, by simp⟩
  refine ⟨t, h1, h2, fun i => ?_⟩
  by_cases hi : i < n
  · exact h3 i hi
  · rw [List.getElem?_eq_none (by omega), List.getElem?_eq_none (by omega)]; rfl

theorem plexAverage_ok {m : PlexCells ℚ} (hm : PlexCellsOk m) {c : Nat} (hc : c < m.toPetsc.length)
    {avg : List ℚ} (ha : avg.length = m.ndim) :
    ∃ vs a, m.vertices c = some vs ∧ IsVertices m c vs ∧ vs ≠ [] ∧ m.average c avg = some a ∧
      IsMean m.ndim vs a := by
  obtain ⟨vs, v1, v2, v3⟩ := plexVertices_ok hm hc
  have hl := isVertices_length v2
  obtain ⟨s, s1, s2, s3⟩ := forLoop_invariant (a := 0) (b := vs.length)
    (step := fun vx a => forLoop 0 m.ndim (fun d a =>
      (rd vs vx).bind fun v => (rd v d).bind fun x => (rd a d).bind fun y => st a d (y + x)) a)
    (s := avg.map fun _ => (0 : ℚ))
    (fun i a => a.length = m.ndim ∧
      ∀ d < m.ndim, a[d]? = some (((vs.take i).map fun v => (v[d]?).getD 0).sum)) (Nat.zero_le _) (by
      rintro i a - hi ⟨q1, q2⟩
      have hv : vs[i]? = some vs[i] := List.getElem?_eq_getElem hi
      have hvl := hl _ (List.getElem_mem hi)
      obtain ⟨t, t1, t2, t3⟩ := updateAll (n := m.ndim) (m := a)
        (f := fun d a => (rd vs i).bind fun v => (rd v d).bind fun x => (rd a d).bind fun y => st a d (y + x))
        (w := fun d y => y + (vs[i][d]?).getD 0) q1 (by
          intro d hd t y ht hy
          simp only [rd]
          rw [hv, Option.bind_some, List.getElem?_eq_getElem (show d < vs[i].length by omega), Option.bind_some,
            hy]; rfl)
      refine ⟨t, t1, t2, fun d hd => ?_⟩
      rw [t3, q2 d hd, Option.map_some, List.take_add_one, hv, List.map_append, List.sum_append]
      simp) ⟨by simpa using ha, by
        intro d hd
        rw [List.getElem?_map, List.getElem?_eq_getElem (by omega)]; simp⟩
  rw [List.take_length] at s3
  obtain ⟨a, a1, a2, a3⟩ := updateAll (n := m.ndim) (m := s)
    (f := fun d a => (rd a d).bind fun y => st a d (y * (1 / (vs.length : ℚ))))
    (w := fun _ y => y * (1 / (vs.length : ℚ))) s2 (by
      intro d hd t y ht hy
      simp only [rd]
      rw [hy]; rfl)
  refine ⟨vs, a, v1, v2, v3, ?_, a2, fun d hd => ?_⟩
  · unfold PlexCells.average
    rw [if_pos ha, v1, Option.bind_some, s1, Option.bind_some,
      if_neg (by simpa [List.length_eq_zero_iff] using v3)]
    exact a1
  · rw [a3, s3 d hd, Option.map_some, mul_one_div]

theorem faceSetsOf_ok (value : Nat → Int) {start stop : Nat} (h : start ≤ stop) :
    ∃ m, faceSetsOf value start stop = some m ∧ OMapOk m ∧ ∀ (v : Int),
      (omGet m v).getD [] = (List.range' start (stop - start)).filter (fun px => value px = v) ∧
      (omGet m v ≠ some []) := by
  obtain ⟨m, m1, m2, m3⟩ := forLoop_invariant (a := start) (b := stop)
    (step := fun px m => some (omPut m (value px) (((omGet m (value px)).getD []) ++ [px])))
    (s := ([] : OMap (List Nat)))
    (fun i m => OMapOk m ∧ ∀ (v : Int),
      (omGet m v).getD [] = (List.range' start (i - start)).filter (fun px => value px = v) ∧
      (omGet m v ≠ some [])) h (by
      rintro i m hi - ⟨q1, q2⟩
      refine ⟨_, rfl, omPut_ok q1 _ _, fun v => ?_⟩
      rw [omGet_put, show i + 1 - start = (i - start) + 1 by omega, List.range'_concat, List.filter_append,
        ← (q2 v).1, Nat.one_mul, show start + (i - start) = i by omega]
      by_cases hv : value i = v
      · subst hv
        simp
      · simp [hv, (q2 v).2]) ⟨by simp [OMapOk], by simp [omGet]⟩
  exact ⟨m, m1, m2, m3⟩

theorem plexLocalVolume_ok (vols : List ℚ) : plexLocalVolume vols = some vols.sum := by
  obtain ⟨s, h1, h2⟩ := forLoop_invariant (a := 0) (b := vols.length)
    (step := fun cx s => (rd vols cx).bind fun v => some (s + v)) (s := (0 : ℚ))
    (fun i s => s = (vols.take i).sum) (Nat.zero_le _) (by
      rintro i s - hi rfl
      refine ⟨(vols.take i).sum + vols[i], by simp only [rd]; rw [List.getElem?_eq_getElem hi]; rfl, ?_⟩
      rw [List.take_add_one, List.getElem?_eq_getElem hi, List.sum_append]
      show _ = _ + [vols[i]].sum
      rw [List.sum_singleton]) (by simp)
  rw [List.take_length] at h2
  rw [← h2]
  exact h1

theorem appendLoop {α : Type} (n : Nat) (x : α) (l : List α) :
    forLoop 0 n (fun _ pts => some (pts ++ [x])) l = some (l ++ List.replicate n x) := by
  obtain ⟨s, h1, h2⟩ := forLoop_invariant (a := 0) (b := n) (step := fun _ pts => some (pts ++ [x])) (s := l)
    (fun i s => s = l ++ List.replicate i x) (Nat.zero_le _) (by
      rintro i s - hi rfl
      exact ⟨_, rfl, by rw [List.append_assoc, List.replicate_succ']⟩) (by simp)
  rw [h1, h2]

theorem vtkPoints_ok {vs : List (List Int)} (h : ∀ v ∈ vs, v.length = 2) :
    forLoop 0 vs.length (fun vx pts =>
        (forLoop 0 2 (fun dx pts => (rd vs vx).bind fun v => (rd v dx).bind fun x =>
          some (pts ++ [x])) pts).bind fun pts =>
        forLoop 2 3 (fun _ pts => some (pts ++ [0])) pts) [] = some (vs.flatMap fun v => v ++ [0]) := by
  obtain ⟨s, h1, h2⟩ := forLoop_invariant (a := 0) (b := vs.length)
    (step := fun vx pts =>
        (forLoop 0 2 (fun dx pts => (rd vs vx).bind fun v => (rd v dx).bind fun x =>
          some (pts ++ [x])) pts).bind fun pts =>
        forLoop 2 3 (fun _ pts => some (pts ++ [(0 : Int)])) pts) (s := [])
    (fun i s => s = (vs.take i).flatMap fun v => v ++ [0]) (Nat.zero_le _) (by
      rintro i s - hi rfl
      have hv : rd vs i = some vs[i] := List.getElem?_eq_getElem hi
      have hl := h _ (List.getElem_mem hi)
      have hv' : vs[i]? = some vs[i] := hv
      rw [hv, List.take_add_one, hv']
      revert hl
      generalize vs[i] = w
      intro hl
      match w, hl with
      | [x, y], _ =>
        refine ⟨_, rfl, ?_⟩
        simp) (by simp)
  rw [List.take_length] at h2
  rw [h1, h2]

end NP
