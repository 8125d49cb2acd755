import Verif.Containers.LemmasND

/-! # C103: arrays with several dimensions are functions of their index tuples -/

set_option autoImplicit false

namespace NP

open Spec

variable {α : Type}

theorem ndOp_rep [AddCommMonoid α] {shape : List Int} (hne : shape ≠ []) (h : ∀ s ∈ shape, 0 ≤ s)
    (cast : Int → α) {f : List Int → α} {a : NDArr α} (hr : NDRep shape f a) (op : NDOp α)
    (hi : NDInside shape op) (hs : NDSized shape op) :
    ∃ a' g, ndOp cast a op = some a' ∧ NDRep shape g a' ∧ NDStep shape f op g := by
  cases op with
  | fill v =>
    obtain ⟨a', h1, h2⟩ := ndFill_any hne h hr.same (by rw [hr.mem]; simp) v
    exact ⟨a', _, h1, h2, fun _ _ => rfl⟩
  | set data =>
    obtain ⟨g, hg⟩ := exists_fun h f data hs
    obtain ⟨a', h1, h2⟩ := ndSet_rep hne h hr hg
    exact ⟨a', g, h1, h2, hg⟩
  | adds calls =>
    obtain ⟨a', rs, h1, h2, -, -⟩ := ndFetchAdds_rep h cast calls hi hr
    refine ⟨a', _, ?_, h2, fun _ _ => rfl⟩
    simp only [ndOp]
    rw [h1]; rfl
  | write idx v =>
    obtain ⟨a', h1, h2⟩ := ndWrite_rep h hr hi v
    exact ⟨a', _, h1, h2, by simp, fun i _ hne => by simp [hne]⟩

theorem ndRun_rep [AddCommMonoid α] {shape : List Int} (hne : shape ≠ []) (h : ∀ s ∈ shape, 0 ≤ s)
    (cast : Int → α) (ops : List (NDOp α)) (hi : ∀ op ∈ ops, NDInside shape op)
    (hs : ∀ op ∈ ops, NDSized shape op) {f : List Int → α} {a : NDArr α}
    (hr : NDRep shape f a) :
    ∃ a' g, ndRun cast ops a = some a' ∧ NDRep shape g a' ∧ NDHistory shape f ops g := by
  induction ops generalizing f a with
  | nil => exact ⟨a, f, rfl, hr, fun _ _ => rfl⟩
  | cons op ops ih =>
    obtain ⟨a1, g1, h1, h2, h3⟩ := ndOp_rep hne h cast hr op (hi op (by simp)) (hs op (by simp))
    obtain ⟨a2, g2, h4, h5, h6⟩ := ih (fun o ho => hi o (by simp [ho]))
      (fun o ho => hs o (by simp [ho])) h2
    refine ⟨a2, g2, ?_, h5, g1, h3, h6⟩
    unfold ndRun at h4 ⊢
    rw [List.foldlM_cons, h1]
    exact h4

/-- **C103** (history).  An array of any shape starts at zero whatever its memory held.
After any history of fills, copies from the host, loops that add (in the order in which
the additions take effect) and assignments in kernels, all inside of the shape, reading at
an index tuple in a kernel gives the value the history says, and the host gets the values
of all index tuples in lexicographic order. -/
theorem C103_history [AddCommMonoid α] {shape : List Int} (hne : shape ≠ [])
    (h : ∀ s ∈ shape, 0 ≤ s) (cast : Int → α) (garbage : Nat → α) (ops : List (NDOp α))
    (hi : ∀ op ∈ ops, NDInside shape op) (hs : ∀ op ∈ ops, NDSized shape op) :
    ∃ a f, (ndCreate 0 shape garbage).bind (ndRun cast ops) = some a ∧
      NDHistory shape (fun _ => 0) ops f ∧ (∀ i, InShape shape i → ndAt a i = some (f i)) ∧
      ndGet a = some ((allIdx shape).map f) := by
  obtain ⟨a0, h1, h2⟩ := ndCreate_rep hne h (0 : α) garbage
  obtain ⟨a, f, h3, h4, h5⟩ := ndRun_rep hne h cast ops hi hs h2
  refine ⟨a, f, ?_, h5, fun i hi => ndAt_rep h h4 hi, ndGet_rep hne h h4⟩
  rw [h1, Option.bind_some, h3]

/-- **C103** (sizes).  The only uses inside of the shape that fail are copies from vectors
that do not have one entry for each index tuple. -/
theorem C103_refused [AddCommMonoid α] {shape : List Int} (hne : shape ≠ [])
    (h : ∀ s ∈ shape, 0 ≤ s) (cast : Int → α) (garbage : Nat → α) (ops : List (NDOp α))
    (hi : ∀ op ∈ ops, NDInside shape op) :
    (ndCreate 0 shape garbage).bind (ndRun cast ops) = none ↔
      ∃ data, NDOp.set data ∈ ops ∧ data.length ≠ (allIdx shape).length := by
  obtain ⟨a0, h1, h2⟩ := ndCreate_rep hne h (0 : α) garbage
  rw [h1, Option.bind_some]
  generalize (fun _ : List Int => (0 : α)) = f at h2
  clear h1
  induction ops generalizing f a0 with
  | nil => simp [ndRun]
  | cons op ops ih =>
    by_cases hs : NDSized shape op
    · obtain ⟨a1, g1, k1, k2, -⟩ := ndOp_rep hne h cast h2 op (hi op (by simp)) hs
      have := ih (fun o ho => hi o (by simp [ho])) a1 g1 k2
      unfold ndRun at this ⊢
      rw [List.foldlM_cons, k1]
      refine Iff.trans this ?_
      constructor
      · rintro ⟨d, hd, hl⟩
        exact ⟨d, by simp [hd], hl⟩
      · rintro ⟨d, hd, hl⟩
        rcases List.mem_cons.1 hd with rfl | hd
        · exact absurd hs hl
        · exact ⟨d, hd, hl⟩
    · cases op with
      | set data =>
        refine ⟨fun _ => ⟨data, by simp, hs⟩, fun _ => ?_⟩
        unfold ndRun
        have e : ndOp cast a0 (NDOp.set data) = none := by
          simp only [ndOp, ndSet]
          rw [h2.same, ndSize_allIdx hne h, Option.bind_some, if_neg]
          intro he
          exact hs (by simp only [NDSized]; omega)
        rw [List.foldlM_cons, e]
        rfl
      | fill v => exact absurd trivial hs
      | adds calls => exact absurd trivial hs
      | write idx v => exact absurd trivial hs

/-- **C103** (returned values).  `fetch_add` returns what the element held: its value
before the loop and all contributions to the same index tuple that took effect earlier. -/
theorem C103_fetched [AddCommMonoid α] {shape : List Int} (hne : shape ≠ [])
    (h : ∀ s ∈ shape, 0 ≤ s) (cast : Int → α) (garbage : Nat → α) (ops : List (NDOp α))
    (hi : ∀ op ∈ ops, NDInside shape op) (a : NDArr α)
    (hrun : (ndCreate 0 shape garbage).bind (ndRun cast ops) = some a)
    (calls : List (List Int × α)) (hc : ∀ c ∈ calls, InShape shape c.1) :
    ∃ a' rs, ndFetchAdds cast (calls.map callArgs) a = some (a', rs) ∧ rs.length = calls.length ∧
      ∀ (k : Nat) i v, calls[k]? = some (i, v) → ∃ x, ndAt a i = some x ∧
        rs[k]? = some (x + (((calls.take k).filter fun c => c.1 = i).map (·.2)).sum) := by
  have hs : ∀ op ∈ ops, NDSized shape op := by
    intro op ho
    by_contra hn
    cases op with
    | set data =>
      have := (C103_refused hne h cast garbage ops hi).2 ⟨data, ho, hn⟩
      rw [hrun] at this
      cases this
    | fill v => exact hn trivial
    | adds calls => exact hn trivial
    | write idx v => exact hn trivial
  obtain ⟨a0, h1, h2⟩ := ndCreate_rep hne h (0 : α) garbage
  obtain ⟨a1, f, h3, h4, h5⟩ := ndRun_rep hne h cast ops hi hs h2
  rw [h1, Option.bind_some, h3] at hrun
  obtain rfl := Option.some.inj hrun
  obtain ⟨a', rs, k1, k2, k3, k4⟩ := ndFetchAdds_rep h cast calls hc h4
  refine ⟨a', rs, k1, k3, ?_⟩
  intro k i v hk
  exact ⟨f i, ndAt_rep h h4 (hc (i, v) (List.mem_of_getElem? hk)), k4 k i v hk⟩

/-- **C103** (any order).  The array after a loop that adds does not depend on the order in
which the additions take effect. -/
theorem C103_any_order [AddCommMonoid α] {shape : List Int} (hne : shape ≠ [])
    (h : ∀ s ∈ shape, 0 ≤ s) (cast : Int → α) (garbage : Nat → α) (ops : List (NDOp α))
    (hi : ∀ op ∈ ops, NDInside shape op) (hs : ∀ op ∈ ops, NDSized shape op)
    (calls order : List (List Int × α)) (hc : ∀ c ∈ calls, InShape shape c.1)
    (hp : order.Perm calls) :
    ∃ a, (ndCreate 0 shape garbage).bind (ndRun cast (ops ++ [NDOp.adds calls])) = some a ∧
      (ndCreate 0 shape garbage).bind (ndRun cast (ops ++ [NDOp.adds order])) = some a := by
  obtain ⟨a0, h1, h2⟩ := ndCreate_rep hne h (0 : α) garbage
  obtain ⟨a1, f, h3, h4, h5⟩ := ndRun_rep hne h cast ops hi hs h2
  obtain ⟨a, rs, k1, k2, -, -⟩ := ndFetchAdds_rep h cast calls hc h4
  obtain ⟨b, rs', l1, l2, -, -⟩ := ndFetchAdds_rep h cast order
    (fun c hc' => hc c (hp.mem_iff.1 hc')) h4
  have hab : a = b := by
    have hsum : ∀ i, ndSum order i = ndSum calls i := by
      intro i
      exact ((hp.filter _).map _).sum_eq
    have e : a.mem = b.mem := by
      rw [k2.mem, l2.mem]
      exact List.map_congr_left fun i _ => by rw [hsum]
    have e' : a.shape = b.shape := by rw [k2.same, l2.same]
    cases a; cases b
    simp only at e e'
    rw [e, e']
  unfold ndRun at h3 ⊢
  refine ⟨a, ?_, ?_⟩
  · rw [h1, Option.bind_some, List.foldlM_append, h3]
    simp [ndOp, k1]
  · rw [h1, Option.bind_some, List.foldlM_append, h3]
    simp [ndOp, l1, hab]

/-- **C103** (a forgotten value).  `fetch_add` does not check the number of its arguments:
without a value it adds the last index, and arguments between the indices and the value
are ignored. -/
theorem C103_unchecked_arguments [AddCommMonoid α] (cast : Int → α) (a : NDArr α) (pre : List Int)
    (k : Int) (extra : List (NDArg α)) (v : α) (hl : (pre ++ [k]).length = a.shape.length) :
    ndFetchAdd cast a ((pre ++ [k]).map NDArg.ix) =
      ndFetchAdd cast a (callArgs (pre ++ [k], cast k)) ∧
    ndFetchAdd cast a ((pre ++ [k]).map NDArg.ix ++ extra ++ [NDArg.val v]) =
      ndFetchAdd cast a (callArgs (pre ++ [k], v)) := by
  have ht : ∀ rest : List (NDArg α), truncatedArgs a.shape.length
      ((pre ++ [k]).map NDArg.ix ++ rest) = some ((pre ++ [k]).map NDArg.ix) := by
    intro rest
    unfold truncatedArgs
    rw [if_pos (by simp at hl ⊢; omega), ← hl, List.take_left' (by simp)]
  have hlast : lastArg ((pre ++ [k]).map (NDArg.ix (α := α))) = some (NDArg.ix k) := by
    rw [List.map_append]
    exact lastArg_append _ _
  constructor
  · have h0 := ht []
    rw [List.append_nil] at h0
    unfold ndFetchAdd callArgs
    simp only
    rw [h0, ht, hlast, lastArg_append]
    rfl
  · unfold ndFetchAdd callArgs
    simp only
    rw [List.append_assoc, ht, ht, ← List.append_assoc, lastArg_append, lastArg_append]

/-! ### Examples -/

namespace Ex

def ndOps : List (NDOp Int) :=
  [.fill 1, .adds [([1, 2], 5), ([0, 0], 7), ([1, 2], -2)], .write [0, 1] 9]

theorem ndOps_inside : ∀ op ∈ ndOps, NDInside [2, 3] op := by
  have h : ∀ i j : Int, 0 ≤ i → i < 2 → 0 ≤ j → j < 3 → InShape [2, 3] [i, j] := by
    intro i j h1 h2 h3 h4
    exact InShape.cons h1 h2 (InShape.cons h3 h4 InShape.nil)
  intro op ho
  simp only [ndOps, List.mem_cons, List.not_mem_nil, or_false] at ho
  rcases ho with rfl | rfl | rfl
  · trivial
  · intro c hc
    simp only [List.mem_cons, List.not_mem_nil, or_false] at hc
    rcases hc with rfl | rfl | rfl <;> exact h _ _ (by decide) (by decide) (by decide) (by decide)
  · exact h _ _ (by decide) (by decide) (by decide) (by decide)

theorem ndOps_sized : ∀ op ∈ ndOps, NDSized [2, 3] op := by
  intro op ho
  simp only [ndOps, List.mem_cons, List.not_mem_nil, or_false] at ho
  rcases ho with rfl | rfl | rfl <;> trivial

example : ∃ a f, (ndCreate 0 [2, 3] (fun k => (k : Int) + 40)).bind (ndRun id ndOps) = some a ∧
    NDHistory [2, 3] (fun _ => 0) ndOps f ∧
    (∀ i, InShape [2, 3] i → ndAt a i = some (f i)) ∧
    ndGet a = some ((allIdx [2, 3]).map f) :=
  C103_history (by simp) (by decide) id _ ndOps ndOps_inside ndOps_sized

example : ((ndCreate 0 [2, 3] (fun k => (k : Int) + 40)).bind (ndRun id ndOps)).bind ndGet =
    some [8, 9, 1, 1, 1, 4] := by decide +kernel

example : allIdx [2, 3] = [[0, 0], [0, 1], [0, 2], [1, 0], [1, 1], [1, 2]] := by decide

example : (ndCreate 0 [2, 3] (fun k => (k : Int))).bind (ndRun id [NDOp.set [1, 2, 3]]) = none :=
  (C103_refused (by simp) (by decide) id _ _ (by simp [NDInside])).2
    ⟨[1, 2, 3], by simp, by decide⟩

/-- The values that three additions return. -/
example : ∃ a' rs, ndFetchAdds id ([([1, 2], 5), ([0, 0], 7), ([1, 2], -2)].map callArgs)
    (⟨[2, 3], [0, 0, 0, 0, 0, 3]⟩ : NDArr Int) = some (a', rs) ∧ rs = [3, 0, 8] :=
  ⟨⟨[2, 3], [7, 0, 0, 0, 0, 6]⟩, [3, 0, 8], by decide +kernel, rfl⟩

/-- Without a value the last index, two, is added. -/
example : ndFetchAdd id (⟨[2, 3], [0, 0, 0, 0, 0, 3]⟩ : NDArr Int) [.ix 1, .ix 2] =
    some (⟨[2, 3], [0, 0, 0, 0, 0, 5]⟩, 3) := by decide +kernel

end Ex

end NP
