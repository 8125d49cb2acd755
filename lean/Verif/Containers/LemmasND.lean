import Verif.Containers.SpecND
import Verif.Containers.Lemmas
import Verif.Common.KernelLemmas
import Verif.Comm.LemmasExchange
import Mathlib.Data.List.Induction

/-! Lemmas for arrays with several dimensions. -/

set_option autoImplicit false

namespace NP

open Spec

theorem mem_allIdx {shape i : List Int} : i ∈ allIdx shape ↔ InShape shape i := by
  induction shape generalizing i with
  | nil =>
    simp only [allIdx, List.mem_singleton]
    constructor
    · rintro rfl; exact InShape.nil
    · intro h; cases h; rfl
  | cons s ss ih =>
    simp only [allIdx, List.mem_flatMap, List.mem_range, List.mem_map]
    constructor
    · rintro ⟨k, hk, is, his, rfl⟩
      exact InShape.cons (by omega) (by omega) (ih.1 his)
    · intro h
      cases h with
      | @cons _ k _ is h0 h1 h2 =>
        exact ⟨k.toNat, by omega, is, ih.2 h2, by rw [Int.toNat_of_nonneg h0]⟩

theorem shapeProd_nonneg {shape : List Int} (h : ∀ s ∈ shape, 0 ≤ s) : 0 ≤ shapeProd shape := by
  induction shape with
  | nil => simp [shapeProd]
  | cons s ss ih =>
    exact Int.mul_nonneg (h s (by simp)) (ih fun x hx => h x (by simp [hx]))

theorem flatMap_map_range {m n : Nat} :
    (List.range m).flatMap (fun i => (List.range n).map fun k => i * n + k) =
      List.range (m * n) := by
  induction m with
  | zero => simp
  | succ m ih =>
    rw [List.range_succ, List.flatMap_append, ih, Nat.succ_mul, List.range_add]
    simp

/-- The index tuples in lexicographic order have the indices 0, 1, 2, … -/
theorem allIdx_linear {shape : List Int} (h : ∀ s ∈ shape, 0 ≤ s) (acc : Int) :
    (allIdx shape).map (lineariseInner acc shape) =
      (List.range (shapeProd shape).toNat).map fun k : Nat => some (acc * shapeProd shape + k) := by
  induction shape generalizing acc with
  | nil => simp [allIdx, lineariseInner, shapeProd, List.range_succ]
  | cons s ss ih =>
    have hs : 0 ≤ s := h s (by simp)
    have hss : ∀ x ∈ ss, 0 ≤ x := fun x hx => h x (by simp [hx])
    have hP := shapeProd_nonneg hss
    have e1 : (shapeProd (s :: ss)).toNat = s.toNat * (shapeProd ss).toNat := by
      rw [shapeProd, Int.toNat_mul hs hP]
    rw [e1, ← flatMap_map_range, allIdx, List.map_flatMap, List.map_flatMap]
    refine List.flatMap_congr ?_
    intro i _
    rw [List.map_map, List.map_map]
    have : (lineariseInner acc (s :: ss) ∘ fun is : List Int => (i : Int) :: is) =
        lineariseInner (acc * s + i) ss := by
      funext is; rfl
    rw [this, ih hss]
    refine List.map_congr_left ?_
    intro k _
    simp only [Function.comp, shapeProd, Option.some.injEq]
    push_cast
    rw [Int.toNat_of_nonneg hP]
    ring

theorem allIdx_length {shape : List Int} (h : ∀ s ∈ shape, 0 ≤ s) :
    (allIdx shape).length = (shapeProd shape).toNat := by
  have := congrArg List.length (allIdx_linear h 0)
  simpa using this

/-- The position of an index tuple. -/
theorem linear_pos {shape : List Int} (h : ∀ s ∈ shape, 0 ≤ s) {k : Nat} {i : List Int}
    (hk : (allIdx shape)[k]? = some i) : getLinearIndex shape i = some (k : Int) := by
  have := congrArg (fun l => l[k]?) (allIdx_linear h 0)
  simp only [List.getElem?_map, hk, Option.map_some] at this
  have hl := (List.getElem?_eq_some_iff.1 hk).1
  rw [allIdx_length h] at hl
  rw [List.getElem?_range hl] at this
  simp only [Option.map_some, Option.some.injEq] at this
  rw [getLinearIndex, this]
  simp

theorem exists_pos {shape i : List Int} (hi : InShape shape i) :
    ∃ k : Nat, (allIdx shape)[k]? = some i :=
  List.mem_iff_getElem?.1 (mem_allIdx.2 hi)

theorem pos_inj {shape : List Int} (h : ∀ s ∈ shape, 0 ≤ s) {k l : Nat} {i : List Int}
    (hk : (allIdx shape)[k]? = some i) (hl : (allIdx shape)[l]? = some i) : k = l := by
  have := linear_pos h hk
  rw [linear_pos h hl] at this
  have := Option.some.inj this
  omega

/-- The buffer holds the function `f`. -/
structure NDRep {α : Type} (shape : List Int) (f : List Int → α) (a : NDArr α) : Prop where
  same : a.shape = shape
  mem : a.mem = (allIdx shape).map f

variable {α : Type}

theorem ndSize_allIdx {shape : List Int} (hne : shape ≠ []) (h : ∀ s ∈ shape, 0 ≤ s) :
    ndSize shape = some ((allIdx shape).length : Int) := by
  cases shape with
  | nil => exact absurd rfl hne
  | cons s ss =>
    rw [ndSize_eq, allIdx_length h, Int.toNat_of_nonneg (shapeProd_nonneg h)]

theorem fillAll {n : Nat} {f : Nat → List α → Option (List α)} {w : Nat → α} {m : List α}
    (hm : m.length = n) (hf : ∀ i < n, ∀ m, f i m = st m i (w i)) :
    forLoop 0 n f m = some ((List.range n).map w) := by
  obtain ⟨m', h1, h2, h3⟩ := forLoop_invariant (a := 0) (b := n) (step := f) (s := m)
    (fun i m' => m'.length = n ∧ ∀ k < i, m'[k]? = some (w k)) (Nat.zero_le n) (by
      rintro i m' - hi ⟨h1, h2⟩
      refine ⟨m'.set i (w i), by rw [hf i hi, st_eq_some (by omega)], by simpa using h1, ?_⟩
      intro k hk
      rw [List.getElem?_set]
      split
      · subst_vars; simp; omega
      · exact h2 k (by omega)) ⟨hm, by intro k hk; omega⟩
  rw [h1]
  congr 1
  refine List.ext_getElem? ?_
  intro k
  rcases Nat.lt_or_ge k n with hk | hk
  · rw [h3 k hk, List.getElem?_map, List.getElem?_range hk]; rfl
  · rw [List.getElem?_eq_none (by omega), List.getElem?_eq_none (by simpa using hk)]

theorem ndFill_any {shape : List Int} (hne : shape ≠ []) (h : ∀ s ∈ shape, 0 ≤ s) {a : NDArr α}
    (hs : a.shape = shape) (hm : a.mem.length = (allIdx shape).length) (v : α) :
    ∃ a', ndFill a v = some a' ∧ NDRep shape (fun _ => v) a' := by
  unfold ndFill
  rw [hs, ndSize_allIdx hne h, Option.bind_some]
  split
  · rw [fillAll (w := fun _ => v) (by simpa using hm) (fun _ _ _ => rfl), Option.bind_some]
    refine ⟨_, rfl, rfl, ?_⟩
    simp [List.map_const']
  · refine ⟨a, rfl, hs, ?_⟩
    have h0 : (allIdx shape).length = 0 := by omega
    rw [List.length_eq_zero_iff.1 h0, List.map_nil]
    exact List.length_eq_zero_iff.1 (by omega)

theorem ndCreate_rep {shape : List Int} (hne : shape ≠ []) (h : ∀ s ∈ shape, 0 ≤ s) (zero : α)
    (garbage : Nat → α) :
    ∃ a, ndCreate zero shape garbage = some a ∧ NDRep shape (fun _ => zero) a := by
  unfold ndCreate
  rw [ndSize_allIdx hne h, Option.bind_some]
  exact ndFill_any hne h rfl (by simp) zero

theorem ndPtr_pos {mem : List α} {k : Nat} (h : k < mem.length) :
    ndPtr mem (k : Int) = some k := by
  unfold ndPtr
  rw [if_pos (by omega)]
  simp

theorem ndAt_rep {shape : List Int} (h : ∀ s ∈ shape, 0 ≤ s) {f : List Int → α} {a : NDArr α}
    (hr : NDRep shape f a) {i : List Int} (hi : InShape shape i) : ndAt a i = some (f i) := by
  obtain ⟨k, hk⟩ := exists_pos hi
  have hl := (List.getElem?_eq_some_iff.1 hk).1
  unfold ndAt
  rw [hr.same, linear_pos h hk, Option.bind_some, hr.mem, ndPtr_pos (by simpa using hl),
    Option.bind_some, List.getElem?_map, hk]
  rfl

theorem ndGet_rep {shape : List Int} (hne : shape ≠ []) (h : ∀ s ∈ shape, 0 ≤ s)
    {f : List Int → α} {a : NDArr α} (hr : NDRep shape f a) :
    ndGet a = some ((allIdx shape).map f) := by
  unfold ndGet
  rw [hr.same, ndSize_allIdx hne h, Option.bind_some, hr.mem, Int.toNat_natCast]
  generalize hL : (allIdx shape).map f = L
  have : (allIdx shape).length = L.length := by rw [← hL]; simp
  rw [this]
  clear hL this
  induction L using List.reverseRecOn with
  | nil => rfl
  | append_singleton L x ih =>
    rw [List.length_append, List.length_singleton, List.range_succ, List.mapM_append]
    have e : (List.range L.length).mapM (fun i => (L ++ [x])[i]?) =
        (List.range L.length).mapM fun i => L[i]? := by
      rw [mapM_of_forall (f := fun i => (L ++ [x])[i]?) (g := fun i => (L[i]?).getD x) (by
        intro i hi
        have hi := List.mem_range.1 hi
        rw [List.getElem?_append_left hi, List.getElem?_eq_getElem hi]; rfl),
        mapM_of_forall (f := fun i => L[i]?) (g := fun i => (L[i]?).getD x) (by
        intro i hi
        have hi := List.mem_range.1 hi
        rw [List.getElem?_eq_getElem hi]; rfl)]
    rw [e, ih]
    simp

/-- Changing the element of one index tuple. -/
theorem rep_set {shape : List Int} (h : ∀ s ∈ shape, 0 ≤ s) {f g : List Int → α} {k : Nat}
    {i : List Int} (hk : (allIdx shape)[k]? = some i)
    (hg : ∀ j, InShape shape j → j ≠ i → g j = f j) :
    ((allIdx shape).map f).set k (g i) = (allIdx shape).map g := by
  refine List.ext_getElem? ?_
  intro l
  rw [List.getElem?_set]
  split
  · subst_vars
    have hl := (List.getElem?_eq_some_iff.1 hk).1
    rw [List.getElem?_map, hk]
    simp [hl]
  · rename_i hne
    rw [List.getElem?_map, List.getElem?_map]
    cases hl : (allIdx shape)[l]? with
    | none => rfl
    | some j =>
      simp only [Option.map_some, Option.some.injEq]
      refine (hg j (mem_allIdx.1 (List.mem_of_getElem? hl)) ?_).symm
      rintro rfl
      exact hne (pos_inj h hk hl)

theorem ndWrite_rep {shape : List Int} (h : ∀ s ∈ shape, 0 ≤ s) {f : List Int → α} {a : NDArr α}
    (hr : NDRep shape f a) {i : List Int} (hi : InShape shape i) (v : α) :
    ∃ a', ndWrite a i v = some a' ∧ NDRep shape (fun j => if j = i then v else f j) a' := by
  obtain ⟨k, hk⟩ := exists_pos hi
  have hl := (List.getElem?_eq_some_iff.1 hk).1
  unfold ndWrite
  rw [hr.same, linear_pos h hk, Option.bind_some, hr.mem, ndPtr_pos (by simpa using hl),
    Option.bind_some, st_eq_some (by simpa using hl), Option.bind_some]
  refine ⟨_, rfl, rfl, ?_⟩
  have := rep_set (g := fun j => if j = i then v else f j) h hk (f := f) (by
    intro j _ hj; simp [hj])
  simpa using this

theorem lastArg_append {β : Type} (l : List β) (x : β) : lastArg (l ++ [x]) = some x := by
  induction l with
  | nil => rfl
  | cons a l ih =>
    cases l with
    | nil => rfl
    | cons b l => exact ih

theorem inShape_length {shape i : List Int} (h : InShape shape i) : i.length = shape.length := by
  induction h with
  | nil => rfl
  | cons _ _ _ ih => simp [ih]

theorem mapM_index (i : List Int) : (i.map (NDArg.ix (α := α))).mapM NDArg.index = some i := by
  have := mapM_of_forall (f := NDArg.index (α := α))
    (g := fun x => (NDArg.index x).getD 0) (l := i.map (NDArg.ix (α := α))) (by
      intro x hx
      obtain ⟨k, _, rfl⟩ := List.mem_map.1 hx
      rfl)
  rw [this, List.map_map]
  congr 1
  conv => rhs; rw [← List.map_id i]
  rfl

/-- `fetch_add` for a call whose first arguments are the index and whose last is `l`. -/
theorem ndFetchAdd_rep [AddCommMonoid α] {shape : List Int} (h : ∀ s ∈ shape, 0 ≤ s)
    {f : List Int → α} {a : NDArr α} (hr : NDRep shape f a) (cast : Int → α) {i : List Int}
    (hi : InShape shape i) (rest : List (NDArg α)) (l : NDArg α)
    (hl : lastArg (i.map NDArg.ix ++ rest) = some l) :
    ∃ a', ndFetchAdd cast a (i.map NDArg.ix ++ rest) = some (a', f i) ∧
      NDRep shape (fun j => if j = i then f i + l.value cast else f j) a' := by
  obtain ⟨k, hk⟩ := exists_pos hi
  have hkl := (List.getElem?_eq_some_iff.1 hk).1
  have e1 : truncatedArgs a.shape.length (i.map NDArg.ix ++ rest) =
      some (i.map (NDArg.ix (α := α))) := by
    have := inShape_length hi
    unfold truncatedArgs
    rw [hr.same, if_pos (by simp; omega), ← this, List.take_left' (by simp)]
  unfold ndFetchAdd
  rw [e1, Option.bind_some, mapM_index, Option.bind_some, hr.same, linear_pos h hk,
    Option.bind_some, hl, Option.bind_some, hr.mem, ndPtr_pos (by simpa using hkl),
    Option.bind_some, List.getElem?_map, hk, Option.map_some, Option.bind_some,
    st_eq_some (by simpa using hkl), Option.bind_some]
  refine ⟨_, rfl, rfl, ?_⟩
  have := rep_set (g := fun j => if j = i then f i + l.value cast else f j) h hk (f := f) (by
    intro j _ hj; simp [hj])
  simpa using this

/-- Sum of the contributions to an index tuple. -/
def ndSum [AddCommMonoid α] (calls : List (List Int × α)) (i : List Int) : α :=
  ((calls.filter fun c => c.1 = i).map (·.2)).sum

theorem ndFetchAdds_rep [AddCommMonoid α] {shape : List Int} (h : ∀ s ∈ shape, 0 ≤ s)
    (cast : Int → α) (calls : List (List Int × α)) (hc : ∀ c ∈ calls, InShape shape c.1)
    {f : List Int → α} {a : NDArr α} (hr : NDRep shape f a) :
    ∃ a' rs, ndFetchAdds cast (calls.map callArgs) a = some (a', rs) ∧
      NDRep shape (fun i => f i + ndSum calls i) a' ∧ rs.length = calls.length ∧
      ∀ (k : Nat) i v, calls[k]? = some (i, v) →
        rs[k]? = some (f i + ndSum (calls.take k) i) := by
  induction calls generalizing f a with
  | nil =>
    refine ⟨a, [], rfl, ?_, rfl, by simp⟩
    simpa [ndSum] using hr
  | cons c cs ih =>
    obtain ⟨i, v⟩ := c
    obtain ⟨a1, h1, h2⟩ := ndFetchAdd_rep h hr cast (hc (i, v) (by simp)) [NDArg.val v]
      (NDArg.val v) (lastArg_append _ _)
    obtain ⟨a2, rs, h3, h4, h5, h6⟩ := ih (fun c hc' => hc c (by simp [hc'])) h2
    refine ⟨a2, f i :: rs, ?_, ?_, by simp [h5], ?_⟩
    · simp only [List.map_cons, ndFetchAdds]
      rw [show callArgs (i, v) = i.map NDArg.ix ++ [NDArg.val v] from rfl, h1, Option.bind_some]
      simp only
      rw [h3, Option.bind_some]
    · have : (fun j => f j + ndSum ((i, v) :: cs) j) =
          fun j => (if j = i then f i + NDArg.value cast (NDArg.val v) else f j) + ndSum cs j := by
        funext j
        by_cases hj : j = i
        · subst hj
          simp [ndSum, NDArg.value, add_assoc]
        · have : ¬ i = j := fun e => hj e.symm
          simp [ndSum, hj, this]
      rw [this]
      exact h4
    · intro k j w hk
      cases k with
      | zero =>
        simp only [List.getElem?_cons_zero, Option.some.injEq, Prod.mk.injEq] at hk
        obtain ⟨rfl, rfl⟩ := hk
        simp [ndSum]
      | succ k =>
        simp only [List.getElem?_cons_succ] at hk
        rw [List.getElem?_cons_succ, h6 k j w hk]
        congr 1
        by_cases hj : j = i
        · subst hj
          simp [ndSum, NDArg.value, add_assoc]
        · have : ¬ i = j := fun e => hj e.symm
          simp [ndSum, hj, this]

theorem ndSet_rep {shape : List Int} (hne : shape ≠ []) (h : ∀ s ∈ shape, 0 ≤ s)
    {f g : List Int → α} {a : NDArr α} (hr : NDRep shape f a) {data : List α}
    (hd : data = (allIdx shape).map g) : ∃ a', ndSet a data = some a' ∧ NDRep shape g a' := by
  subst hd
  unfold ndSet
  rw [hr.same, ndSize_allIdx hne h, Option.bind_some, if_pos (by simp), Int.toNat_natCast]
  rcases Nat.eq_zero_or_pos (allIdx shape).length with h0 | h0
  · rw [h0]
    refine ⟨⟨shape, a.mem⟩, rfl, rfl, ?_⟩
    · simp only
      rw [hr.mem, List.length_eq_zero_iff.1 h0]; rfl
  · rw [fillAll (w := fun i => g (((allIdx shape)[i]?).getD [])) (by rw [hr.mem]; simp) (by
      intro i hi m
      rw [List.getElem?_map, List.getElem?_eq_getElem hi]; rfl), Option.bind_some]
    refine ⟨_, rfl, rfl, ?_⟩
    refine List.ext_getElem? ?_
    intro k
    simp only [List.getElem?_map]
    rcases Nat.lt_or_ge k (allIdx shape).length with hk | hk
    · rw [List.getElem?_range hk, List.getElem?_eq_getElem hk]; simp [hk]
    · rw [List.getElem?_eq_none (by simpa using hk), List.getElem?_eq_none hk]; rfl

/-- Every vector of the right length is a function of the index tuples. -/
theorem exists_fun {shape : List Int} (h : ∀ s ∈ shape, 0 ≤ s) (f : List Int → α) (data : List α)
    (hl : data.length = (allIdx shape).length) : ∃ g, data = (allIdx shape).map g := by
  classical
  refine ⟨fun i => (data[(allIdx shape).idxOf i]?).getD (f i), ?_⟩
  refine List.ext_getElem? ?_
  intro k
  rw [List.getElem?_map]
  rcases Nat.lt_or_ge k (allIdx shape).length with hk | hk
  · have e := List.getElem?_eq_getElem hk
    rw [e, Option.map_some]
    have hi : (allIdx shape).idxOf (allIdx shape)[k] = k := by
      have hlt := List.idxOf_lt_length_of_mem (List.getElem_mem hk)
      refine pos_inj h ?_ e
      rw [List.getElem?_eq_getElem hlt, List.getElem_idxOf hlt]
    simp only [hi]
    rw [List.getElem?_eq_getElem (by omega)]
    rfl
  · rw [List.getElem?_eq_none (by omega), List.getElem?_eq_none hk]; rfl

end NP
