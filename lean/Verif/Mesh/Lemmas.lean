import Verif.Mesh.Spec
import Verif.Common.KernelLemmas
import Mathlib.Tactic.Ring
import Mathlib.Tactic.Linarith
import Mathlib.Data.List.Forall2
import Mathlib.Algebra.BigOperators.Group.List.Basic

/-!
# Lemmas for mixed radix indices
-/

set_option autoImplicit false

namespace NP

/-- The value of a mixed radix tuple. -/
def horner : List Int → List Int → Int
  | d :: ds, x :: xs => x + d * horner ds xs
  | _, _ => 0

theorem runItems_map {ι κ σ : Type _} (f : ι → κ) (step : κ → σ → Option σ) (l : List ι) (s : σ) :
    runItems step (l.map f) s = runItems (fun i => step (f i)) l s := by
  induction l generalizing s with
  | nil => rfl
  | cons i is ih =>
    simp only [List.map_cons, runItems_cons]
    cases step (f i) s with
    | none => rfl
    | some s' => exact ih s'

theorem radixToLinear_eq {ds t : List Int} (hne : ds ≠ []) (hl : ds.length ≤ t.length) :
    radixToLinear ds t = some (horner ds t) := by
  induction ds generalizing t with
  | nil => exact absurd rfl hne
  | cons d ds ih =>
    obtain _ | ⟨x, xs⟩ := t
    · simp at hl
    · cases ds with
      | nil => simp [radixToLinear, horner]
      | cons d' ds =>
        have hl' : (d' :: ds).length ≤ xs.length := by simpa using hl
        have := ih (t := xs) (by simp) hl'
        have hx : (ds.length : Nat) < xs.length := by simp at hl'; omega
        unfold radixToLinear at this ⊢
        rw [if_neg (by simp)] at this ⊢
        simp only [List.length_cons, Nat.add_sub_cancel, rd, List.getElem?_cons_succ] at this ⊢
        rw [List.getElem?_eq_getElem hx] at this ⊢
        simp only [Option.bind_some] at this ⊢
        rw [List.range_succ_eq_map, List.reverse_cons, runItems_append, ← List.map_reverse,
          runItems_map]
        simp only [Nat.succ_eq_add_one, List.getElem?_cons_succ]
        rw [this]
        simp [runItems_cons, horner]
        ring

theorem Spec.InRange.length {ds t : List Int} (h : Spec.InRange ds t) : t.length = ds.length :=
  (List.Forall₂.length_eq h).symm

theorem horner_bounds {ds t : List Int} (h : Spec.InRange ds t) :
    0 ≤ horner ds t ∧ horner ds t < ds.prod := by
  unfold Spec.InRange at h
  induction h with
  | nil => simp [horner]
  | @cons d x ds xs hd _ ih =>
    simp only [horner, List.prod_cons]
    constructor
    · have : 0 ≤ d * horner ds xs := mul_nonneg (by omega) ih.1
      omega
    · have : d * (horner ds xs + 1) ≤ d * ds.prod :=
        mul_le_mul_of_nonneg_left (by omega) (by omega)
      rw [mul_add] at this
      omega

theorem linearToRadix_horner {ds t : List Int} (h : Spec.InRange ds t) :
    linearToRadix ds (horner ds t) = some t := by
  unfold Spec.InRange at h
  induction h with
  | nil => rfl
  | @cons d x ds xs hd hr ih =>
    have hnn : 0 ≤ d * horner ds xs := mul_nonneg (by omega) (horner_bounds hr).1
    unfold linearToRadix
    rw [if_neg (by omega)]
    simp only [horner]
    rw [Int.tdiv_eq_ediv_of_nonneg (by omega), Int.tmod_eq_emod_of_nonneg (by omega),
      Int.add_mul_ediv_left _ _ (by omega), Int.add_mul_emod_self_left,
      Int.ediv_eq_zero_of_lt hd.1 hd.2, Int.emod_eq_of_lt hd.1 hd.2, zero_add, ih]
    rfl

theorem linearToRadix_spec {ds : List Int} (hd : ∀ d ∈ ds, 0 < d) {i : Int} (h0 : 0 ≤ i)
    (hi : i < ds.prod) :
    ∃ t, linearToRadix ds i = some t ∧ Spec.InRange ds t ∧ horner ds t = i := by
  induction ds generalizing i with
  | nil =>
    simp only [List.prod_nil] at hi
    exact ⟨[], rfl, List.Forall₂.nil, by simp only [horner]; omega⟩
  | cons d ds ih =>
    have hdp : 0 < d := hd d (by simp)
    simp only [List.prod_cons] at hi
    obtain ⟨t, h1, h2, h3⟩ := ih (fun e he => hd e (by simp [he])) (i := i.tdiv d)
      (by rw [Int.tdiv_eq_ediv_of_nonneg h0]; exact Int.ediv_nonneg h0 (by omega))
      (by rw [Int.tdiv_eq_ediv_of_nonneg h0]
          exact Int.ediv_lt_of_lt_mul hdp (by rw [mul_comm]; exact hi))
    refine ⟨i.tmod d :: t, ?_, ?_, ?_⟩
    · unfold linearToRadix
      rw [if_neg (by omega), h1]
      rfl
    · refine List.Forall₂.cons ?_ h2
      rw [Int.tmod_eq_emod_of_nonneg h0]
      exact ⟨Int.emod_nonneg _ (by omega), Int.emod_lt_of_pos _ hdp⟩
    · simp only [horner, h3]
      exact Int.tmod_add_mul_tdiv i d

theorem horner_append {ds t t' : List Int} (h : ds.length ≤ t.length) :
    horner ds (t ++ t') = horner ds t := by
  induction ds generalizing t with
  | nil => cases t <;> cases t' <;> rfl
  | cons d ds ih =>
    obtain _ | ⟨x, xs⟩ := t
    · simp at h
    · simp only [List.cons_append, horner]
      rw [ih (by simpa using h)]

section MH

variable {mh : MeshHierarchy}

theorem ncellsDimFine_pos : 0 < mh.ncellsDimFine := by
  unfold MeshHierarchy.ncellsDimFine; positivity

theorem ncellsCoarse_eq : mh.ncellsCoarse = mh.dims.prod := by
  unfold MeshHierarchy.ncellsCoarse
  rw [List.prod_eq_foldl]

theorem ncellsFine_eq : mh.ncellsFine = (List.replicate mh.ndim mh.ncellsDimFine).prod := by
  rw [List.prod_replicate]; rfl

theorem ncellsFine_pos : 0 < mh.ncellsFine := by
  unfold MeshHierarchy.ncellsFine
  have := ncellsDimFine_pos (mh := mh)
  positivity

theorem ndim_pos (h : Spec.ValidMesh mh) : 0 < mh.ndim := List.length_pos_of_ne_nil h.1

theorem replicate_ne (h : Spec.ValidMesh mh) :
    List.replicate mh.ndim mh.ncellsDimFine ≠ [] := by
  have := ndim_pos h
  intro he
  have := congrArg List.length he
  simp at this
  omega

theorem replicate_pos : ∀ d ∈ List.replicate mh.ndim mh.ncellsDimFine, 0 < d := by
  intro d hd
  rw [List.eq_of_mem_replicate hd]
  exact ncellsDimFine_pos

/-- The linear index of a coarse and a fine tuple. -/
theorem tupleToLinearGlobal_eq (h : Spec.ValidMesh mh) {cs fs : List Int}
    (hc : Spec.InRange mh.dims cs)
    (hf : Spec.InRange (List.replicate mh.ndim mh.ncellsDimFine) fs) :
    mh.tupleToLinearGlobal (cs ++ fs) =
      some (horner mh.dims cs * mh.ncellsFine +
        horner (List.replicate mh.ndim mh.ncellsDimFine) fs) := by
  have hcl := hc.length
  have hfl := hf.length
  unfold MeshHierarchy.tupleToLinearGlobal MeshHierarchy.tupleToLinearCoarse
    MeshHierarchy.tupleToLinearFine
  rw [radixToLinear_eq h.1 (by simp; omega), horner_append (by omega),
    show (cs ++ fs).drop mh.ndim = fs by
      rw [List.drop_append_of_le_length (by unfold MeshHierarchy.ndim; omega)]
      unfold MeshHierarchy.ndim
      rw [← hcl, List.drop_length, List.nil_append],
    radixToLinear_eq (replicate_ne h) (by omega)]
  rfl

theorem global_bounds {cs fs : List Int}
    (hc : Spec.InRange mh.dims cs)
    (hf : Spec.InRange (List.replicate mh.ndim mh.ncellsDimFine) fs) :
    0 ≤ horner mh.dims cs * mh.ncellsFine +
        horner (List.replicate mh.ndim mh.ncellsDimFine) fs ∧
    horner mh.dims cs * mh.ncellsFine +
        horner (List.replicate mh.ndim mh.ncellsDimFine) fs < mh.ncellsGlobal := by
  have h1 := horner_bounds hc
  have h2 := horner_bounds hf
  rw [← ncellsFine_eq] at h2
  rw [← ncellsCoarse_eq] at h1
  have hp := ncellsFine_pos (mh := mh)
  unfold MeshHierarchy.ncellsGlobal
  constructor
  · have : 0 ≤ horner mh.dims cs * mh.ncellsFine := mul_nonneg h1.1 (by omega)
    omega
  · have : (horner mh.dims cs + 1) * mh.ncellsFine ≤ mh.ncellsCoarse * mh.ncellsFine :=
      mul_le_mul_of_nonneg_right (by omega) (by omega)
    rw [add_mul] at this
    omega

theorem linearToTupleGlobal_horner {cs fs : List Int}
    (hc : Spec.InRange mh.dims cs)
    (hf : Spec.InRange (List.replicate mh.ndim mh.ncellsDimFine) fs) :
    mh.linearToTupleGlobal (horner mh.dims cs * mh.ncellsFine +
        horner (List.replicate mh.ndim mh.ncellsDimFine) fs) = some (cs ++ fs) := by
  have h1 := horner_bounds hc
  have h2 := horner_bounds hf
  rw [← ncellsFine_eq] at h2
  have hp := ncellsFine_pos (mh := mh)
  have hnn := (global_bounds hc hf).1
  unfold MeshHierarchy.linearToTupleGlobal MeshHierarchy.linearToTupleCoarse
    MeshHierarchy.linearToTupleFine
  rw [if_neg (by omega), Int.tdiv_eq_ediv_of_nonneg hnn, Int.tmod_eq_emod_of_nonneg hnn,
    add_comm, mul_comm, Int.add_mul_ediv_left _ _ (by omega), Int.add_mul_emod_self_left,
    Int.ediv_eq_zero_of_lt h2.1 h2.2, Int.emod_eq_of_lt h2.1 h2.2, zero_add,
    linearToRadix_horner hc, linearToRadix_horner hf]
  rfl

theorem linearToTupleGlobal_spec (h : Spec.ValidMesh mh) {i : Int} (h0 : 0 ≤ i)
    (hi : i < mh.ncellsGlobal) :
    ∃ cs fs, mh.linearToTupleGlobal i = some (cs ++ fs) ∧ Spec.InRange mh.dims cs ∧
      Spec.InRange (List.replicate mh.ndim mh.ncellsDimFine) fs ∧
      horner mh.dims cs * mh.ncellsFine +
        horner (List.replicate mh.ndim mh.ncellsDimFine) fs = i := by
  have hp := ncellsFine_pos (mh := mh)
  obtain ⟨cs, h1, h2, h3⟩ := linearToRadix_spec (ds := mh.dims) h.2 (i := i.tdiv mh.ncellsFine)
    (by rw [Int.tdiv_eq_ediv_of_nonneg h0]; exact Int.ediv_nonneg h0 (by omega))
    (by rw [Int.tdiv_eq_ediv_of_nonneg h0, ← ncellsCoarse_eq]
        exact Int.ediv_lt_of_lt_mul hp hi)
  obtain ⟨fs, h4, h5, h6⟩ := linearToRadix_spec (replicate_pos (mh := mh))
    (i := i.tmod mh.ncellsFine)
    (by rw [Int.tmod_eq_emod_of_nonneg h0]; exact Int.emod_nonneg _ (by omega))
    (by rw [Int.tmod_eq_emod_of_nonneg h0, ← ncellsFine_eq]
        exact Int.emod_lt_of_pos _ hp)
  refine ⟨cs, fs, ?_, h2, h5, ?_⟩
  · unfold MeshHierarchy.linearToTupleGlobal MeshHierarchy.linearToTupleCoarse
      MeshHierarchy.linearToTupleFine
    rw [if_neg (by omega), h1, h4]
    rfl
  · rw [h3, h6, add_comm, mul_comm]
    exact Int.tmod_add_mul_tdiv i mh.ncellsFine

end MH

end NP
