import Verif.Petsc.SpecBary
import Verif.Petsc.LemmasProject
import Verif.Mesh.PropsCoord
import Verif.Group.LemmasCounts
import Mathlib.LinearAlgebra.Matrix.NonsingularInverse
import Mathlib.Tactic.LinearCombination

/-!
# Lemmas: weights, sums over vertices, inverse matrices
-/

set_option autoImplicit false

namespace NP

open Spec Finset

/-! ## Weights -/

theorem Spec.IsWeights.baryW_eq {vs : List (ℝ × ℝ)} {x : ℝ × ℝ} {w : List ℝ} (h : IsWeights vs x w) :
    baryW vs x = some w := by
  have key : ∀ {e : ℝ × ℝ}, RefSquare e → quadCollToBary e.1 e.2 =
      ((1 - e.1) * (1 - e.2) / 4, (1 + e.1) * (1 - e.2) / 4, (1 + e.1) * (1 + e.2) / 4,
        (1 - e.1) * (1 + e.2) / 4) := by
    rintro e ⟨h1, h2, h3, h4⟩
    unfold quadCollToBary
    simp only [min_eq_right h2, min_eq_right h4, max_eq_right h1, max_eq_right h3, Prod.mk.injEq]
    refine ⟨?_, ?_, ?_, ?_⟩ <;> ring
  cases h with
  | @tri a b c _ l1 l2 l3 ht hs hx =>
    obtain ⟨m1, m2, m3, h1, -, -, -, h2⟩ := C86_triangle a b c x ht
    obtain ⟨rfl, rfl, rfl⟩ := h2 l1 l2 l3 hs hx
    simp only [baryW, h1, Option.map_some]
  | @par a b c d e ht hp he =>
    simp only [baryW, quadCartToBary, C86_parallelogram a b c d ht hp e he, Option.bind_some, key he,
      Option.map_some]
  | @quad a b c d e hq he h1 h2 =>
    simp only [baryW, quadCartToBary, C86_quad_partial a b c d hq e he h1 h2, Option.bind_some, key he,
      Option.map_some]

theorem baryW_length {vs : List (ℝ × ℝ)} {x : ℝ × ℝ} {w : List ℝ} (h : baryW vs x = some w) :
    w.length = vs.length := by
  unfold baryW at h
  split at h
  · rw [Option.map_eq_some_iff] at h
    obtain ⟨l, -, rfl⟩ := h
    rfl
  · rw [Option.map_eq_some_iff] at h
    obtain ⟨l, -, rfl⟩ := h
    rfl
  · cases h

/-- The weights give affine functions back. -/
theorem Spec.IsWeights.affine {vs : List (ℝ × ℝ)} {x : ℝ × ℝ} {w : List ℝ} (h : IsWeights vs x w)
    (α β γ : ℝ) : ∑ v ∈ range vs.length, ent w v * (α + β * (vs[v]?.getD 0).1 + γ * (vs[v]?.getD 0).2)
      = α + β * x.1 + γ * x.2 := by
  cases h with
  | @tri a b c _ l1 l2 l3 ht hs hx =>
    subst hx
    simp only [List.length_cons, List.length_nil, sum_range_succ, sum_range_zero, ent, zero_add,
      List.getElem?_cons_zero, List.getElem?_cons_succ, Option.getD_some, Prod.fst_add, Prod.snd_add,
      Prod.smul_fst, Prod.smul_snd, smul_eq_mul]
    linear_combination α * hs
  | @par a b c d e ht hp he =>
    simp only [List.length_cons, List.length_nil, sum_range_succ, sum_range_zero, ent, zero_add, bilinear,
      List.getElem?_cons_zero, List.getElem?_cons_succ, Option.getD_some, Prod.fst_add, Prod.snd_add,
      Prod.smul_fst, Prod.smul_snd, smul_eq_mul]
    ring
  | @quad a b c d e hq he h1 h2 =>
    simp only [List.length_cons, List.length_nil, sum_range_succ, sum_range_zero, ent, zero_add, bilinear,
      List.getElem?_cons_zero, List.getElem?_cons_succ, Option.getD_some, Prod.fst_add, Prod.snd_add,
      Prod.smul_fst, Prod.smul_snd, smul_eq_mul]
    ring

theorem Spec.IsWeights.sum_eq {vs : List (ℝ × ℝ)} {x : ℝ × ℝ} {w : List ℝ} (h : IsWeights vs x w) :
    ∑ v ∈ range vs.length, ent w v = 1 := by
  have := h.affine 1 0 0
  simpa using this

theorem rd_ent {l : List ℝ} {i : Nat} (h : i < l.length) : rd l i = some (ent l i) := by
  simp only [rd, ent, List.getElem?_eq_getElem h, Option.getD_some]

/-! ## Kernels -/

theorem addGrid_spec {K : Type} [AddCommMonoid K] {t : CellTab K} {c n m : Nat} (hc : c < t.ncells)
    (hn : n ≤ t.ncol) (hm : m ≤ t.nrow) {step : Nat → Nat → CellTab K → Option (CellTab K)}
    {g : Nat → Nat → K} (hs : ∀ vx < n, ∀ cx < m, ∀ t, step vx cx t = t.add c cx vx (g cx vx)) :
    ∃ t', forLoop 0 n (fun vx t => forLoop 0 m (step vx) t) t = some t' ∧ t.Same t' ∧
      ∀ c' r k, t'.val c' r k =
        t.val c' r k + if c' = c then (if r < m ∧ k < n then g r k else 0) else 0 := by
  obtain ⟨t', h1, h2, h3⟩ := forLoop_invariant (a := 0) (b := n) (s := t)
    (step := fun vx t => forLoop 0 m (step vx) t)
    (P := fun i t' => t.Same t' ∧ ∀ c' r k, t'.val c' r k =
        t.val c' r k + if c' = c ∧ r < m ∧ k < i then g r k else 0) (Nat.zero_le _) (by
      rintro i t1 - hi ⟨k1, k2⟩
      obtain ⟨t2, m1, m2, m3⟩ := forLoop_invariant (a := 0) (b := m) (s := t1) (step := step i)
        (P := fun j t' => t.Same t' ∧ ∀ c' r k, t'.val c' r k =
          t1.val c' r k + if c' = c ∧ r < j ∧ k = i then g r k else 0) (Nat.zero_le _) (by
        rintro j t' - hj ⟨a1, a2⟩
        obtain ⟨t3, b1, b2, b3⟩ := CellTab.add_eq (t := t') (c := c) (r := j) (k := i) (g j i)
          (by rw [a1.1]; exact hc) (by rw [a1.2.1]; omega) (by rw [a1.2.2]; omega)
        refine ⟨t3, by rw [hs i hi j hj, b1], a1.trans b2, fun c' r k => ?_⟩
        rw [b3]
        by_cases hcase : c' = c ∧ r = j ∧ k = i
        · obtain ⟨rfl, rfl, rfl⟩ := hcase
          rw [if_pos ⟨rfl, rfl, rfl⟩, a2, if_neg (by omega), if_pos ⟨rfl, by omega, rfl⟩, add_zero]
        · rw [if_neg hcase, a2]
          have : (c' = c ∧ r < j ∧ k = i) ↔ (c' = c ∧ r < j + 1 ∧ k = i) := by
            constructor
            · rintro ⟨a, b, d⟩; exact ⟨a, by omega, d⟩
            · rintro ⟨a, b, d⟩
              refine ⟨a, ?_, d⟩
              by_contra hb
              exact hcase ⟨a, by omega, d⟩
          simp only [this]) ⟨k1, fun c' r k => by simp⟩
      refine ⟨t2, m1, m2, fun c' r k => ?_⟩
      rw [m3, k2, add_assoc]
      congr 1
      by_cases hc' : c' = c
      · by_cases hr : r < m
        · by_cases hk : k < i
          · rw [if_pos ⟨hc', hr, hk⟩, if_neg (by omega), if_pos ⟨hc', hr, by omega⟩, add_zero]
          · by_cases hk2 : k = i
            · rw [if_neg (by omega), if_pos ⟨hc', hr, hk2⟩, if_pos ⟨hc', hr, by omega⟩, zero_add]
            · rw [if_neg (by omega), if_neg (by omega), if_neg (by omega), zero_add]
        · rw [if_neg (by omega), if_neg (by omega), if_neg (by omega), zero_add]
      · rw [if_neg (by omega), if_neg (by omega), if_neg (by omega), zero_add])
    ⟨CellTab.Same.refl t, fun c' r k => by simp⟩
  refine ⟨t', h1, h2, fun c' r k => ?_⟩
  rw [h3]
  congr 1
  by_cases hcc : c' = c
  · rw [if_pos hcc]
    simp only [hcc, true_and]
  · rw [if_neg hcc, if_neg (fun h => hcc h.1)]

theorem barySum_spec {n : Nat} {b : List ℝ} {t : CellTab ℝ} {c cx : Nat} (hb : b.length = n)
    (hc : c < t.ncells) (hr : cx < t.nrow) (hn : n ≤ t.ncol) :
    barySum n b t c cx = some (∑ v ∈ range n, ent b v * t.val c cx v) := by
  unfold barySum
  obtain ⟨x, h1, rfl⟩ := forLoop_invariant (a := 0) (b := n) (s := (0 : ℝ))
    (step := fun vx tmp => (rd b vx).bind fun l => (t.at c cx vx).map fun v => tmp + l * v)
    (P := fun i x => x = ∑ v ∈ range i, ent b v * t.val c cx v) (Nat.zero_le _) (by
      rintro i x - hi rfl
      refine ⟨_, ?_, (sum_range_succ _ i).symm⟩
      simp only [rd_ent (show i < b.length by omega), Option.bind_some, CellTab.at_eq hc hr (show i < t.ncol by omega),
        Option.map_some]) (by simp)
  exact h1

theorem writeComps_spec {K : Type} {ncomp : Nat} {val : List K} (hv : val.length = ncomp)
    {step : Nat → List K → Option (List K)} {g : Nat → K}
    (hs : ∀ cx < ncomp, ∀ val, step cx val = st val cx (g cx)) :
    forLoop 0 ncomp step val = some ((List.range ncomp).map g) := by
  obtain ⟨v, h1, h2⟩ := forLoop_invariant (a := 0) (b := ncomp) (s := val) (step := step)
    (P := fun i v => v = (List.range i).map g ++ val.drop i) (Nat.zero_le _) (by
      rintro i q - hi rfl
      rw [hs i hi]
      have hd : val.drop i = val[i]'(by omega) :: val.drop (i + 1) := List.drop_eq_getElem_cons (by omega)
      refine ⟨_, if_pos (by simp; omega), ?_⟩
      rw [hd, List.set_append_right _ _ (by simp)]
      have hz : i - ((List.range i).map g).length = 0 := by simp
      rw [hz, List.set_cons_zero, List.range_succ, List.map_append]
      simp) (by simp)
  rw [h1, h2, List.drop_eq_nil_of_le (by omega), List.append_nil]

/-! ## Partial loops -/

theorem runItems_each {ι σ : Type} {step : ι → σ → Option σ} (l : List ι) : ∀ {s s' : σ},
    runItems step l s = some s' → ∀ i ∈ l, ∃ s1 s2, step i s1 = some s2 := by
  induction l with
  | nil => intro s s' _ i hi; cases hi
  | cons a l ih =>
    intro s s' h i hi
    rw [runItems_cons] at h
    cases hf : step a s with
    | none => rw [hf] at h; cases h
    | some s1 =>
      rw [hf] at h
      rcases List.mem_cons.mp hi with rfl | hi
      · exact ⟨_, _, hf⟩
      · exact ih h i hi

theorem loopWrite_conv {P : Type} {s : Sched} {f : Nat → P → Option P} {sel : List (Nat × Nat)}
    (hnd : sel.Nodup) {cells cells' : List (List P)} (h : loopWrite s f sel cells = some cells') :
    ∀ it ∈ sel, ∃ p p', rd2 cells it = some p ∧ f it.1 p = some p' := by
  have hperm := s.perm sel
  have hnd' := hperm.nodup_iff.mpr hnd
  unfold loopWrite at h
  intro it hit
  have hit' := hperm.mem_iff.mpr hit
  generalize s.order sel = l at h hnd' hit'
  clear hit hnd hperm
  induction l generalizing cells with
  | nil => cases hit'
  | cons a l ih =>
    rw [runItems_cons] at h
    cases hp : rd2 cells a with
    | none => rw [hp] at h; cases h
    | some p =>
      rw [hp] at h
      simp only [Option.bind_some] at h
      cases hf : f a.1 p with
      | none => rw [hf] at h; cases h
      | some p' =>
        rw [hf] at h
        simp only [Option.bind_some] at h
        obtain ⟨cs', hc1, hc2, hc3, hc4⟩ := st2_spec (v := p') hp
        rw [hc1] at h
        rcases List.mem_cons.mp hit' with rfl | hm
        · exact ⟨p, p', hp, hf⟩
        · have hne : it ≠ a := fun he => by
            subst he
            exact (List.nodup_cons.mp hnd').1 hm
          obtain ⟨q, q', h1, h2⟩ := ih h (List.nodup_cons.mp hnd').2 hm
          exact ⟨q, q', by rw [← hc3 it hne]; exact h1, h2⟩

theorem loopWrite_some {P : Type} {s : Sched} {f : Nat → P → Option P} {sel : List (Nat × Nat)}
    (hnd : sel.Nodup) {cells cells' : List (List P)} (h : loopWrite s f sel cells = some cells') :
    (∀ it ∈ sel, ∃ p p', rd2 cells it = some p ∧ f it.1 p = some p' ∧ rd2 cells' it = some p') ∧
      ∀ it, it ∉ sel → rd2 cells' it = rd2 cells it := by
  have hconv := loopWrite_conv hnd h
  obtain ⟨c', h1, -, h3, h4⟩ := loopWrite_spec s (f := f) hnd hconv
  have : c' = cells' := Option.some.inj (h1.symm.trans h)
  subst this
  refine ⟨fun it hit => ?_, h4⟩
  obtain ⟨p, p', hp, hf⟩ := hconv it hit
  exact ⟨p, p', hp, hf, by rw [h3 it hit p hp, hf]⟩

/-! ## Inverse matrices -/

theorem sum_range_fin {N : Nat} (f : Nat → ℝ) : ∑ k ∈ range N, f k = ∑ k : Fin N, f k :=
  (Fin.sum_univ_eq_sum_range f N).symm

theorem left_inverse {N : Nat} {A M : Nat → Nat → ℝ}
    (h : ∀ i < N, ∀ j < N, ∑ k ∈ range N, A i k * M k j = if i = j then 1 else 0) :
    ∀ i < N, ∀ j < N, ∑ k ∈ range N, M i k * A k j = if i = j then 1 else 0 := by
  have h1 : (Matrix.of fun i j : Fin N => A i j) * (Matrix.of fun i j : Fin N => M i j) = 1 := by
    ext i j
    rw [Matrix.mul_apply, Matrix.one_apply]
    have := h i i.2 j j.2
    rw [sum_range_fin] at this
    simp only [Matrix.of_apply, this, Fin.ext_iff]
  have h2 := _root_.mul_eq_one_comm.mp h1
  intro i hi j hj
  have := congrFun (congrFun h2 ⟨i, hi⟩) ⟨j, hj⟩
  rw [Matrix.mul_apply, Matrix.one_apply] at this
  rw [sum_range_fin]
  simpa only [Matrix.of_apply, Fin.ext_iff] using this

theorem has_inverse {N : Nat} {A : Nat → Nat → ℝ}
    (h : ∀ q : Nat → ℝ, (∀ i < N, ∑ k ∈ range N, A i k * q k = 0) → ∀ k < N, q k = 0) :
    ∃ Y : Nat → Nat → ℝ, ∀ i < N, ∀ j < N, ∑ k ∈ range N, A i k * Y k j = if i = j then 1 else 0 := by
  have hu : IsUnit (Matrix.of fun i j : Fin N => A i j) := by
    rw [← Matrix.mulVec_injective_iff_isUnit]
    intro x y hxy
    have hz : Matrix.mulVec (Matrix.of fun i j : Fin N => A i j) (x - y) = 0 := by
      rw [Matrix.mulVec_sub, hxy, sub_self]
    funext k
    have := h (fun k => if hk : k < N then (x - y) ⟨k, hk⟩ else 0) (fun i hi => by
      have hi' := congrFun hz ⟨i, hi⟩
      simp only [Matrix.mulVec, dotProduct, Matrix.of_apply, Pi.zero_apply] at hi'
      rw [sum_range_fin, ← hi']
      refine sum_congr rfl fun k _ => ?_
      rw [dif_pos k.2]) k k.2
    rw [dif_pos k.2] at this
    simpa [sub_eq_zero] using this
  obtain ⟨u, hu⟩ := hu
  have hinv : (Matrix.of fun i j : Fin N => A i j) * (u⁻¹ : (Matrix (Fin N) (Fin N) ℝ)ˣ).val = 1 := by
    rw [← hu]; exact u.mul_inv
  refine ⟨fun i j => if h : i < N ∧ j < N then (u⁻¹ : (Matrix (Fin N) (Fin N) ℝ)ˣ).val ⟨i, h.1⟩ ⟨j, h.2⟩ else 0,
    fun i hi j hj => ?_⟩
  have := congrFun (congrFun hinv ⟨i, hi⟩) ⟨j, hj⟩
  rw [Matrix.mul_apply, Matrix.one_apply] at this
  rw [sum_range_fin]
  simp only [Fin.ext_iff] at this
  rw [← this]
  refine sum_congr rfl fun k _ => ?_
  beta_reduce
  rw [dif_pos ⟨k.2, hj⟩]
  rfl

theorem flat_get {α : Type} (f : Nat → Nat → α) (n m : Nat) {c r : Nat} (hc : c < n) (hr : r < m) :
    ((List.range n).flatMap fun c => (List.range m).map fun r => f c r)[c * m + r]? = some (f c r) := by
  induction n with
  | zero => omega
  | succ n ih =>
    have hl : ((List.range n).flatMap fun c => (List.range m).map fun r => f c r).length = n * m := by
      simp [List.length_flatMap]
    rw [List.range_succ, List.flatMap_append]
    by_cases h : c < n
    · have : (c + 1) * m ≤ n * m := Nat.mul_le_mul_right _ h
      rw [Nat.succ_mul] at this
      rw [List.getElem?_append_left (by omega)]
      exact ih h
    · have hcn : c = n := by omega
      subst hcn
      rw [List.getElem?_append_right (by omega), hl, Nat.add_sub_cancel_left]
      simp [hr]

theorem flat_length {α : Type} (f : Nat → Nat → α) (n m : Nat) :
    ((List.range n).flatMap fun c => (List.range m).map fun r => f c r).length = n * m := by
  simp [List.length_flatMap]

theorem flat_ent (f : Nat → Nat → ℝ) (n m : Nat) {c r : Nat} (hc : c < n) (hr : r < m) :
    ent ((List.range n).flatMap fun c => (List.range m).map fun r => f c r) (c * m + r) = f c r := by
  unfold ent
  rw [flat_get f n m hc hr, Option.getD_some]

theorem idx_lt {N i j : Nat} (hi : i < N) (hj : j < N) : i * N + j < N * N := by
  have : (i + 1) * N ≤ N * N := Nat.mul_le_mul_right _ hi
  rw [Nat.succ_mul] at this
  omega

theorem mapM_grid {f : Nat → Nat → Option ℝ} {g : Nat → Nat → ℝ} {N : Nat}
    (h : ∀ i < N, ∀ j < N, f i j = some (g i j)) :
    ((List.range N).mapM fun i => (List.range N).mapM fun j => f i j) =
      some ((List.range N).map fun i => (List.range N).map fun j => g i j) :=
  mapM_of_forall fun i hi => mapM_of_forall fun j hj => h i (List.mem_range.mp hi) j (List.mem_range.mp hj)

theorem invertMatrix_spec {solve : Nat → List ℝ → List ℝ → Option (List ℝ)} (hs : LuSolves solve) {N : Nat}
    {A : List ℝ} (hA : A.length = N * N) :
    (∀ M, invertMatrix solve N A = some M → M.length = N * N ∧ ∀ i < N, ∀ j < N,
      ∑ k ∈ range N, ent A (i * N + k) * ent M (k * N + j) = if i = j then 1 else 0) ∧
    ((∃ Y : Nat → Nat → ℝ, ∀ i < N, ∀ j < N,
      ∑ k ∈ range N, ent A (i * N + k) * Y k j = if i = j then 1 else 0) →
      ∃ M, invertMatrix solve N A = some M) := by
  unfold invertMatrix
  rw [mapM_grid (g := fun rx cx => ent A (cx * N + rx)) (fun i hi j hj =>
    rd_ent (by rw [hA]; exact idx_lt hj hi)), Option.bind_some]
  simp only [← List.flatMap_def]
  have lA := flat_length (fun rx cx => ent A (cx * N + rx)) N N
  have lB := flat_length (fun rx cx => if rx = cx then (1 : ℝ) else 0) N N
  have eA : ∀ i < N, ∀ k < N, ent ((List.range N).flatMap fun rx => (List.range N).map fun cx =>
      ent A (cx * N + rx)) (k * N + i) = ent A (i * N + k) := fun i hi k hk =>
    flat_ent (fun rx cx => ent A (cx * N + rx)) N N hk hi
  constructor
  · intro M h
    rw [Option.bind_eq_some_iff] at h
    obtain ⟨X, hX, hM⟩ := h
    obtain ⟨l, e⟩ := hs.sound N _ _ X lA lB hX
    rw [mapM_grid (g := fun rx cx => ent X (cx * N + rx)) (fun i hi j hj =>
      rd_ent (by rw [l]; exact idx_lt hj hi)), Option.map_some, ← List.flatMap_def] at hM
    cases hM
    refine ⟨flat_length _ N N, fun i hi j hj => ?_⟩
    have := e i hi j hj
    rw [flat_ent (fun rx cx => if rx = cx then (1 : ℝ) else 0) N N hj hi] at this
    rw [← if_congr (eq_comm (a := j) (b := i)) rfl rfl, ← this]
    refine sum_congr rfl fun k hk => ?_
    rw [eA i hi k (mem_range.mp hk), flat_ent (fun rx cx => ent X (cx * N + rx)) N N (mem_range.mp hk) hj]
  · rintro ⟨Y, hY⟩
    obtain ⟨X, hX⟩ := hs.total N _ _ lA lB ⟨Y, fun i hi j hj => by
      rw [← hY i hi j hj]
      exact sum_congr rfl fun k hk => by rw [eA i hi k (mem_range.mp hk)]⟩
    obtain ⟨l, -⟩ := hs.sound N _ _ X lA lB hX
    rw [hX, Option.bind_some, mapM_grid (g := fun rx cx => ent X (cx * N + rx)) (fun i hi j hj =>
      rd_ent (by rw [l]; exact idx_lt hj hi)), Option.map_some]
    exact ⟨_, rfl⟩

end NP
