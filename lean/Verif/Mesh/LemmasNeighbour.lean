import Verif.Mesh.Lemmas

/-!
# Lemmas for neighbouring cells
-/

set_option autoImplicit false

namespace NP

theorem mem_intRange {a b x : Int} : x ∈ intRange a b ↔ a ≤ x ∧ x < b := by
  unfold intRange
  simp only [List.mem_map, List.mem_range]
  constructor
  · rintro ⟨k, hk, rfl⟩; omega
  · rintro ⟨h1, h2⟩
    exact ⟨(x - a).toNat, by omega, by omega⟩

theorem mem_intSetInsert {x y : Int} {l : List Int} : y ∈ intSetInsert x l ↔ y = x ∨ y ∈ l := by
  induction l with
  | nil => simp [intSetInsert]
  | cons z zs ih =>
    unfold intSetInsert
    split
    · simp
    · split
      · rename_i h; subst h; simp
      · simp only [List.mem_cons, ih]
        constructor
        · rintro (h | h | h) <;> simp [h]
        · rintro (h | h | h) <;> simp [h]

theorem intSetInsert_sorted {x : Int} {l : List Int} (h : l.Pairwise (· < ·)) :
    (intSetInsert x l).Pairwise (· < ·) := by
  induction l with
  | nil => simp [intSetInsert]
  | cons z zs ih =>
    rw [List.pairwise_cons] at h
    unfold intSetInsert
    split
    · rename_i hlt
      refine List.pairwise_cons.mpr ⟨?_, List.pairwise_cons.mpr h⟩
      intro y hy
      rcases List.mem_cons.mp hy with rfl | hy
      · exact hlt
      · exact lt_trans hlt (h.1 y hy)
    · split
      · exact List.pairwise_cons.mpr h
      · refine List.pairwise_cons.mpr ⟨?_, ih h.2⟩
        intro y hy
        rcases mem_intSetInsert.mp hy with rfl | hy
        · omega
        · exact h.1 y hy

/-- The offsets of the loops: every tuple with entries between `-offset` and `offset`. -/
theorem mem_offsetTuples {n : Nat} (hn : n ≤ 3) {offset : Int} {o : List Int} :
    o ∈ offsetTuples n offset ↔ o.length = n ∧ ∀ e ∈ o, -offset ≤ e ∧ e ≤ offset := by
  unfold offsetTuples
  simp only [List.mem_flatMap, List.mem_map]
  have key : ∀ d x, (x ∈ (if d < n then intRange (-offset) (offset + 1) else intRange 0 1) ↔
      (d < n → -offset ≤ x ∧ x ≤ offset) ∧ (¬ d < n → x = 0)) := by
    intro d x
    by_cases h : d < n
    · rw [if_pos h, mem_intRange]; simp [h]; omega
    · rw [if_neg h, mem_intRange]; simp [h]; omega
  simp only [key]
  constructor
  · rintro ⟨o2, h2, o1, h1, o0, h0, rfl⟩
    refine ⟨by simp; omega, ?_⟩
    obtain rfl | rfl | rfl | rfl : n = 0 ∨ n = 1 ∨ n = 2 ∨ n = 3 := by omega
    · simp
    · intro e he; simp at he; subst he; exact h0.1 (by omega)
    · intro e he; simp at he
      rcases he with rfl | rfl
      · exact h0.1 (by omega)
      · exact h1.1 (by omega)
    · intro e he; simp at he
      rcases he with rfl | rfl | rfl
      · exact h0.1 (by omega)
      · exact h1.1 (by omega)
      · exact h2.1 (by omega)
  · rintro ⟨hl, he⟩
    obtain rfl | rfl | rfl | rfl : n = 0 ∨ n = 1 ∨ n = 2 ∨ n = 3 := by omega
    · refine ⟨0, by simp, 0, by simp, 0, by simp, ?_⟩
      rw [List.length_eq_zero_iff] at hl; simp [hl]
    · obtain ⟨a, rfl⟩ := List.length_eq_one_iff.mp hl
      exact ⟨0, by simp, 0, by simp, a, by simpa using he, by simp⟩
    · obtain ⟨a, b, rfl⟩ := List.length_eq_two.mp hl
      simp at he
      exact ⟨0, by simp, b, by simpa using he.2, a, by simpa using he.1, by simp⟩
    · obtain ⟨a, b, c, rfl⟩ := List.length_eq_three.mp hl
      simp at he
      exact ⟨c, by simpa using he.2.2, b, by simpa using he.2.1, a, by simpa using he.1, by simp⟩

/-- Global coordinates of a cell from the coarse and fine indices. -/
def cart (nf : Int) (cs fs : List Int) : List Int := List.zipWith (fun a b => a * nf + b) cs fs

theorem cart_inj {nf : Int} (hnf : 0 < nf) :
    ∀ {ds cs fs cs' fs' : List Int}, Spec.InRange ds cs → Spec.InRange ds cs' →
      Spec.InRange (List.replicate ds.length nf) fs → Spec.InRange (List.replicate ds.length nf) fs' →
      cart nf cs fs = cart nf cs' fs' → cs = cs' ∧ fs = fs' := by
  intro ds
  induction ds with
  | nil =>
    intro cs fs cs' fs' h1 h2 h3 h4 _
    cases h1; cases h2; cases h3; cases h4
    exact ⟨rfl, rfl⟩
  | cons d ds ih =>
    intro cs fs cs' fs' h1 h2 h3 h4 he
    obtain ⟨c, cs, hc, hcs, rfl⟩ := List.forall₂_cons_left_iff.mp h1
    obtain ⟨c', cs', hc', hcs', rfl⟩ := List.forall₂_cons_left_iff.mp h2
    rw [List.length_cons, List.replicate_succ] at h3 h4
    obtain ⟨f, fs, hf, hfs, rfl⟩ := List.forall₂_cons_left_iff.mp h3
    obtain ⟨f', fs', hf', hfs', rfl⟩ := List.forall₂_cons_left_iff.mp h4
    simp only [cart, List.zipWith_cons_cons, List.cons.injEq] at he
    obtain ⟨rfl, rfl⟩ := ih hcs hcs' hfs hfs' he.2
    have e1 : c = c' := by
      have h5 := congrArg (· / nf) he.1
      rw [add_comm (c * nf), add_comm (c' * nf), Int.add_mul_ediv_right _ _ (by omega),
        Int.add_mul_ediv_right _ _ (by omega), Int.ediv_eq_zero_of_lt hf.1 hf.2,
        Int.ediv_eq_zero_of_lt hf'.1 hf'.2] at h5
      omega
    subst e1
    exact ⟨rfl, by rw [show f = f' by omega]⟩

/-- What the loop over the dimensions computes for a cell with coordinates `x` and offsets
`o` that do not exceed the number of cells: whether the offset cell is valid, and its
coarse and fine indices. -/
theorem offsetCell_spec (pbc : Bool) {nf : Int} (hnf : 0 < nf) :
    ∀ {ds x o : List Int}, (∀ d ∈ ds, 0 < d) →
      Spec.InRange (ds.map (· * nf)) x → o.length = ds.length →
      (∀ (d : Nat) (n a : Int), ds[d]? = some n → o[d]? = some a → -a ≤ n * nf) →
      ∃ v cs fs, offsetCell pbc nf ds x o = some (v, cs, fs) ∧ Spec.InRange ds cs ∧
        Spec.InRange (List.replicate ds.length nf) fs ∧
        (v = true ↔ pbc = true ∨ Spec.InRange (ds.map (· * nf)) (List.zipWith (· + ·) x o)) ∧
        cart nf cs fs = List.zipWith (· % ·) (List.zipWith (· + ·) x o) (ds.map (· * nf)) := by
  intro ds
  induction ds with
  | nil =>
    intro x o _ hx ho _
    cases hx
    rw [List.length_nil, List.length_eq_zero_iff] at ho
    subst ho
    exact ⟨true, [], [], rfl, List.Forall₂.nil, List.Forall₂.nil,
      ⟨fun _ => Or.inr List.Forall₂.nil, fun _ => rfl⟩, rfl⟩
  | cons n ds ih =>
    intro x o hpos hx ho hoff
    rw [List.map_cons] at hx
    obtain ⟨a, xs, ha, hxs, rfl⟩ := List.forall₂_cons_left_iff.mp hx
    obtain _ | ⟨b, os⟩ := o
    · simp at ho
    obtain ⟨v, cs, fs, h1, h2, h3, h4, h5⟩ := ih (fun d hd => hpos d (by simp [hd])) hxs
      (by simpa using ho) (fun d => hoff (d + 1))
    have hn : 0 < n := hpos n (by simp)
    have hb := hoff 0 n b rfl rfl
    have hcnt : 0 < n * nf := mul_pos hn hnf
    have hnn : 0 ≤ a + b + n * nf := by omega
    have hm : (a + b + n * nf).tmod (n * nf) = (a + b) % (n * nf) := by
      rw [Int.tmod_eq_emod_of_nonneg hnn, Int.add_emod_right]
    have hm0 : 0 ≤ (a + b) % (n * nf) := Int.emod_nonneg _ (by omega)
    have hm1 : (a + b) % (n * nf) < n * nf := Int.emod_lt_of_pos _ hcnt
    refine ⟨(pbc || (decide (0 ≤ a + b) && decide (a + b < n * nf))) && v,
      ((a + b) % (n * nf)).tdiv nf :: cs, ((a + b) % (n * nf)).tmod nf :: fs, ?_, ?_, ?_, ?_, ?_⟩
    · unfold offsetCell
      simp only
      rw [if_neg (by omega), h1, hm]
      rfl
    · refine List.Forall₂.cons ⟨?_, ?_⟩ h2
      · exact Int.tdiv_nonneg hm0 (by omega)
      · rw [Int.tdiv_eq_ediv_of_nonneg hm0]
        exact Int.ediv_lt_of_lt_mul hnf hm1
    · rw [List.length_cons, List.replicate_succ]
      refine List.Forall₂.cons ?_ h3
      rw [Int.tmod_eq_emod_of_nonneg hm0]
      exact ⟨Int.emod_nonneg _ (by omega), Int.emod_lt_of_pos _ hnf⟩
    · simp only [Bool.and_eq_true, Bool.or_eq_true, decide_eq_true_eq, h4, List.zipWith_cons_cons,
        List.map_cons]
      constructor
      · rintro ⟨h | h, h' | h'⟩
        · exact Or.inl h
        · exact Or.inl h
        · exact Or.inl h'
        · exact Or.inr (List.Forall₂.cons h h')
      · rintro (h | h)
        · exact ⟨Or.inl h, Or.inl h⟩
        · obtain ⟨_, _, h6, h7, h8⟩ := List.forall₂_cons_left_iff.mp h
          simp only [List.cons.injEq] at h8
          obtain ⟨rfl, rfl⟩ := h8
          exact ⟨Or.inr h6, Or.inr h7⟩
    · simp only [cart, List.zipWith_cons_cons, List.map_cons]
      congr 1
      rw [mul_comm]
      have := Int.tmod_add_mul_tdiv ((a + b) % (n * nf)) nf
      omega

theorem cart_inRange {nf : Int} :
    ∀ {ds cs fs : List Int}, Spec.InRange ds cs → Spec.InRange (List.replicate ds.length nf) fs →
      Spec.InRange (ds.map (· * nf)) (cart nf cs fs) := by
  intro ds
  induction ds with
  | nil =>
    intro cs fs h1 h3
    cases h1; cases h3
    exact List.Forall₂.nil
  | cons d ds ih =>
    intro cs fs h1 h3
    obtain ⟨c, cs, hc, hcs, rfl⟩ := List.forall₂_cons_left_iff.mp h1
    rw [List.length_cons, List.replicate_succ] at h3
    obtain ⟨f, fs, hf, hfs, rfl⟩ := List.forall₂_cons_left_iff.mp h3
    simp only [cart, List.zipWith_cons_cons, List.map_cons]
    refine List.Forall₂.cons ⟨?_, ?_⟩ (ih hcs hfs)
    · have : 0 ≤ c * nf := mul_nonneg hc.1 (by omega)
      omega
    · have : (c + 1) * nf ≤ d * nf := mul_le_mul_of_nonneg_right (by omega) (by omega)
      rw [add_mul] at this
      omega

/-- Coordinates in range are those of a cell. -/
theorem exists_cart {nf : Int} (hnf : 0 < nf) :
    ∀ {ds y : List Int}, Spec.InRange (ds.map (· * nf)) y →
      ∃ cs fs, Spec.InRange ds cs ∧ Spec.InRange (List.replicate ds.length nf) fs ∧
        cart nf cs fs = y := by
  intro ds
  induction ds with
  | nil =>
    intro y h
    cases h
    exact ⟨[], [], List.Forall₂.nil, List.Forall₂.nil, rfl⟩
  | cons d ds ih =>
    intro y h
    rw [List.map_cons] at h
    obtain ⟨a, ys, ha, hys, rfl⟩ := List.forall₂_cons_left_iff.mp h
    obtain ⟨cs, fs, h1, h2, h3⟩ := ih hys
    refine ⟨a / nf :: cs, a % nf :: fs, List.Forall₂.cons ⟨?_, ?_⟩ h1, ?_, ?_⟩
    · exact Int.ediv_nonneg ha.1 (by omega)
    · exact Int.ediv_lt_of_lt_mul hnf ha.2
    · rw [List.length_cons, List.replicate_succ]
      exact List.Forall₂.cons ⟨Int.emod_nonneg _ (by omega), Int.emod_lt_of_pos _ hnf⟩ h2
    · simp only [cart, List.zipWith_cons_cons]
      unfold cart at h3
      rw [h3]
      congr 1
      have := Int.emod_add_mul_ediv a nf
      rw [mul_comm]
      omega

end NP

namespace NP

variable {mh : MeshHierarchy}

theorem dims_length : (List.replicate mh.dims.length mh.ncellsDimFine) =
    List.replicate mh.ndim mh.ncellsDimFine := rfl

theorem isCellAt_unique (h : Spec.ValidMesh mh) {x : List Int} {c c' : Int}
    (h1 : Spec.IsCellAt mh x c) (h2 : Spec.IsCellAt mh x c') : c = c' := by
  obtain ⟨cs, fs, a1, a2, a3, a4⟩ := h1
  obtain ⟨cs', fs', b1, b2, b3, b4⟩ := h2
  obtain ⟨rfl, rfl⟩ := cart_inj ncellsDimFine_pos a1 b1 a2 b2 (a4.symm.trans b4)
  rw [a3] at b3
  exact Option.some.inj b3

theorem isCellAt_unique' (h : Spec.ValidMesh mh) {x x' : List Int} {c : Int}
    (h1 : Spec.IsCellAt mh x c) (h2 : Spec.IsCellAt mh x' c) : x = x' := by
  obtain ⟨cs, fs, a1, a2, a3, a4⟩ := h1
  obtain ⟨cs', fs', b1, b2, b3, b4⟩ := h2
  rw [tupleToLinearGlobal_eq h a1 a2] at a3
  rw [tupleToLinearGlobal_eq h b1 b2] at b3
  have e1 := linearToTupleGlobal_horner a1 a2
  have e2 := linearToTupleGlobal_horner b1 b2
  rw [Option.some.inj a3] at e1
  rw [Option.some.inj b3, e1] at e2
  have e3 := Option.some.inj e2
  obtain ⟨rfl, rfl⟩ := List.append_inj e3 (by rw [a1.length, b1.length])
  rw [a4, b4]

theorem isCellAt_inRange {x : List Int} {c : Int}
    (h1 : Spec.IsCellAt mh x c) : Spec.InRange (mh.dims.map (· * mh.ncellsDimFine)) x := by
  obtain ⟨cs, fs, a1, a2, a3, a4⟩ := h1
  rw [a4]
  exact cart_inRange a1 a2

theorem isCellAt_exists (h : Spec.ValidMesh mh) {x : List Int}
    (hx : Spec.InRange (mh.dims.map (· * mh.ncellsDimFine)) x) : ∃ c, Spec.IsCellAt mh x c := by
  obtain ⟨cs, fs, h1, h2, h3⟩ := exists_cart ncellsDimFine_pos hx
  exact ⟨_, cs, fs, h1, h2, tupleToLinearGlobal_eq h h1 h2, h3.symm⟩

theorem isCellAt_of_range (h : Spec.ValidMesh mh) {c : Int} (h0 : 0 ≤ c)
    (hc : c < mh.ncellsGlobal) : ∃ x, Spec.IsCellAt mh x c ∧
      ∃ t, mh.linearToTupleGlobal c = some t ∧ x = List.zipWith
        (fun c f => c * mh.ncellsDimFine + f) (t.take mh.ndim) (t.drop mh.ndim) := by
  obtain ⟨cs, fs, h1, h2, h3, h4⟩ := linearToTupleGlobal_spec h h0 hc
  refine ⟨_, ⟨cs, fs, h2, h3, by rw [tupleToLinearGlobal_eq h h2 h3, h4], rfl⟩, _, h1, ?_⟩
  have hl : cs.length = mh.ndim := h2.length
  rw [List.take_append_of_le_length (by omega), List.drop_append_of_le_length (by omega), ← hl,
    List.take_length, List.drop_length, List.nil_append]

theorem forall₂_get {α β : Type} {R : α → β → Prop} {l : List α} {m : List β}
    (h : List.Forall₂ R l m) {i : Nat} {a : α} {b : β} (ha : l[i]? = some a)
    (hb : m[i]? = some b) : R a b := by
  obtain ⟨h1, rfl⟩ := List.getElem?_eq_some_iff.mp ha
  obtain ⟨h2, rfl⟩ := List.getElem?_eq_some_iff.mp hb
  exact h.get h1 h2

/-- One offset. -/
theorem neighbourStep_spec (h : Spec.ValidMesh mh) {cell offset : Int} {pbc : Bool}
    (hoff : ∀ d ∈ mh.dims, offset ≤ d * mh.ncellsDimFine)
    {x o : List Int} (hx : Spec.IsCellAt mh x cell) (ho : o.length = mh.ndim)
    (hoo : ∀ e ∈ o, -offset ≤ e ∧ e ≤ offset) (out : List Int) :
    ∃ out', neighbourStep mh cell pbc x o out = some out' ∧
      (out.Pairwise (· < ·) → out'.Pairwise (· < ·)) ∧
      ∀ c, c ∈ out' ↔ c ∈ out ∨ (c ≠ cell ∧ ∃ y, Spec.IsCellAt mh y c ∧
        (pbc = true ∨ y = List.zipWith (· + ·) x o) ∧
        y = List.zipWith (· % ·) (List.zipWith (· + ·) x o)
          (mh.dims.map (· * mh.ncellsDimFine))) := by
  have hxr := isCellAt_inRange hx
  obtain ⟨v, cs, fs, h1, h2, h3, h4, h5⟩ := offsetCell_spec pbc (ncellsDimFine_pos (mh := mh))
    (ds := mh.dims) (x := x) (o := o) h.2 hxr ho (by
      intro d n a hn ha
      have := hoo a (List.mem_of_getElem? ha)
      have := hoff n (List.mem_of_getElem? hn)
      omega)
  have hlin := tupleToLinearGlobal_eq h h2 h3
  have hb := global_bounds h2 h3
  have hat : Spec.IsCellAt mh (cart mh.ncellsDimFine cs fs) _ := ⟨cs, fs, h2, h3, hlin, rfl⟩
  generalize hlv : horner mh.dims cs * mh.ncellsFine +
    horner (List.replicate mh.ndim mh.ncellsDimFine) fs = lin at hlin hb hat
  rw [h5] at hat
  -- the coordinates are unchanged by the wrapping exactly if they are in range
  have hiff : (Spec.InRange (mh.dims.map (· * mh.ncellsDimFine)) (List.zipWith (· + ·) x o)) ↔
      List.zipWith (· % ·) (List.zipWith (· + ·) x o) (mh.dims.map (· * mh.ncellsDimFine)) =
        List.zipWith (· + ·) x o := by
    constructor
    · intro hr
      unfold Spec.InRange at hr
      generalize List.zipWith (· + ·) x o = z at hr
      generalize mh.dims.map (· * mh.ncellsDimFine) = ns at hr
      induction hr with
      | nil => rfl
      | cons hd _ ih =>
        rw [List.zipWith_cons_cons, ih, Int.emod_eq_of_lt hd.1 hd.2]
    · intro he
      rw [← he]
      exact isCellAt_inRange hat
  refine ⟨if v ∧ lin ≠ cell then intSetInsert lin out else out, ?_, ?_, ?_⟩
  · unfold neighbourStep
    rw [h1, Option.bind_some]
    simp only
    rw [hlin, Option.bind_some, if_pos ⟨hb.2, by omega⟩]
  · intro hs
    split
    · exact intSetInsert_sorted hs
    · exact hs
  · intro c
    have hmem : (∃ y, Spec.IsCellAt mh y c ∧ (pbc = true ∨ y = List.zipWith (· + ·) x o) ∧
        y = List.zipWith (· % ·) (List.zipWith (· + ·) x o)
          (mh.dims.map (· * mh.ncellsDimFine))) ↔ v = true ∧ c = lin := by
      constructor
      · rintro ⟨y, hy1, hy2, rfl⟩
        refine ⟨h4.mpr (hy2.imp id hiff.mpr), isCellAt_unique h hy1 hat⟩
      · rintro ⟨hv, rfl⟩
        exact ⟨_, hat, (h4.mp hv).imp id hiff.mp, rfl⟩
    rw [hmem]
    by_cases hc : v = true ∧ lin ≠ cell
    · rw [if_pos hc, mem_intSetInsert]
      constructor
      · rintro (rfl | hm)
        · exact Or.inr ⟨hc.2, hc.1, rfl⟩
        · exact Or.inl hm
      · rintro (hm | ⟨-, -, rfl⟩)
        · exact Or.inr hm
        · exact Or.inl rfl
    · rw [if_neg hc]
      constructor
      · exact Or.inl
      · rintro (hm | ⟨h6, h7, rfl⟩)
        · exact hm
        · exact absurd ⟨h7, h6⟩ hc

/-- The cells whose coordinates differ by some offset tuple are the near cells. -/
theorem near_iff {offset : Int} {pbc : Bool} {x y : List Int}
    (hx : Spec.InRange (mh.dims.map (· * mh.ncellsDimFine)) x)
    (hy : Spec.InRange (mh.dims.map (· * mh.ncellsDimFine)) y) :
    (∃ o : List Int, o.length = mh.ndim ∧ (∀ e ∈ o, -offset ≤ e ∧ e ≤ offset) ∧
      (pbc = true ∨ y = List.zipWith (· + ·) x o) ∧
      y = List.zipWith (· % ·) (List.zipWith (· + ·) x o) (mh.dims.map (· * mh.ncellsDimFine))) ↔
    Spec.NearCell mh pbc offset x y := by
  have hxl : x.length = mh.ndim := by have := hx.length; simpa [MeshHierarchy.ndim] using this
  have hyl : y.length = mh.ndim := by have := hy.length; simpa [MeshHierarchy.ndim] using this
  constructor
  · rintro ⟨o, ho, hoo, hp, hw⟩ d n a b hn ha hb
    have hd : d < o.length := by
      rw [ho, ← hxl]; exact (List.getElem?_eq_some_iff.mp ha).1
    have hod : o[d]? = some o[d] := List.getElem?_eq_getElem hd
    refine ⟨o[d], (hoo _ (List.getElem_mem hd)).1, (hoo _ (List.getElem_mem hd)).2, ?_⟩
    have hb' : b = (a + o[d]) % (n * mh.ncellsDimFine) := by
      have := congrArg (·[d]?) hw
      simp only [hb, List.getElem?_zipWith, ha, hod, List.getElem?_map, hn, Option.map_some] at this
      exact Option.some.inj this
    cases pbc with
    | true =>
      simp only [if_true]
      rw [hb', Int.sub_emod, Int.emod_emod, ← Int.sub_emod]
      simp
    | false =>
      rcases hp with hp | hp
      · cases hp
      · have := congrArg (·[d]?) hp
        simp only [hb, List.getElem?_zipWith, ha, hod] at this
        simpa using this
  · intro hnear
    have hch : ∀ d : Fin mh.ndim, ∃ o : Int, -offset ≤ o ∧ o ≤ offset ∧
        ∀ (n a b : Int), mh.dims[d.val]? = some n → x[d.val]? = some a → y[d.val]? = some b →
          if pbc then (b - (a + o)) % (n * mh.ncellsDimFine) = 0 else b = a + o := by
      intro d
      have h1 : d.val < mh.dims.length := d.isLt
      have h2 : d.val < x.length := by rw [hxl]; exact d.isLt
      have h3 : d.val < y.length := by rw [hyl]; exact d.isLt
      obtain ⟨o, ho1, ho2, ho3⟩ := hnear d.val _ _ _ (List.getElem?_eq_getElem h1)
        (List.getElem?_eq_getElem h2) (List.getElem?_eq_getElem h3)
      refine ⟨o, ho1, ho2, ?_⟩
      intro n a b hn ha hb
      rw [List.getElem?_eq_getElem h1] at hn
      rw [List.getElem?_eq_getElem h2] at ha
      rw [List.getElem?_eq_getElem h3] at hb
      obtain rfl := Option.some.inj hn
      obtain rfl := Option.some.inj ha
      obtain rfl := Option.some.inj hb
      exact ho3
    choose f hf1 hf2 hf3 using hch
    have hwrap : ∀ (d : Nat) (n a b : Int) (hd : d < mh.ndim), mh.dims[d]? = some n →
        x[d]? = some a → y[d]? = some b → b = (a + f ⟨d, hd⟩) % (n * mh.ncellsDimFine) := by
      intro d n a b hd hn ha hb
      have hr : 0 ≤ b ∧ b < n * mh.ncellsDimFine :=
        forall₂_get hy (by rw [List.getElem?_map, hn]; rfl) hb
      have := hf3 ⟨d, hd⟩ n a b hn ha hb
      cases pbc with
      | true =>
        simp only [if_true] at this
        exact (Int.emod_eq_of_lt hr.1 hr.2).symm.trans
          (Int.emod_eq_emod_iff_emod_sub_eq_zero.mpr this)
      | false =>
        simp only [Bool.false_eq_true, if_false] at this
        rw [← this]
        exact (Int.emod_eq_of_lt hr.1 hr.2).symm
    refine ⟨List.ofFn f, by simp, ?_, ?_, ?_⟩
    · intro e he
      obtain ⟨d, rfl⟩ := List.mem_ofFn.mp he
      exact ⟨hf1 d, hf2 d⟩
    · cases hpb : pbc with
      | true => exact Or.inl rfl
      | false =>
        right
        apply List.ext_getElem?
        intro d
        by_cases hd : d < mh.ndim
        · have h1 : d < mh.dims.length := hd
          have h2 : d < x.length := by rw [hxl]; exact hd
          have h3 : d < y.length := by rw [hyl]; exact hd
          have := hf3 ⟨d, hd⟩ _ _ _ (List.getElem?_eq_getElem h1) (List.getElem?_eq_getElem h2)
            (List.getElem?_eq_getElem h3)
          rw [hpb] at this
          simp only [Bool.false_eq_true, if_false] at this
          rw [List.getElem?_zipWith, List.getElem?_eq_getElem h2, List.getElem?_eq_getElem h3,
            List.getElem?_eq_getElem (by simpa using hd), this]
          simp
        · rw [List.getElem?_eq_none (by omega), List.getElem?_eq_none (by simp; omega)]
    · apply List.ext_getElem?
      intro d
      by_cases hd : d < mh.ndim
      · have h1 : d < mh.dims.length := hd
        have h2 : d < x.length := by rw [hxl]; exact hd
        have h3 : d < y.length := by rw [hyl]; exact hd
        have := hwrap d _ _ _ hd (List.getElem?_eq_getElem h1) (List.getElem?_eq_getElem h2)
          (List.getElem?_eq_getElem h3)
        rw [List.getElem?_zipWith, List.getElem?_zipWith, List.getElem?_eq_getElem h2,
          List.getElem?_eq_getElem h3, List.getElem?_eq_getElem (by simpa using hd),
          List.getElem?_map, List.getElem?_eq_getElem h1, this]
        simp
      · rw [List.getElem?_eq_none (by omega), List.getElem?_eq_none (by
          simp only [List.length_zipWith, List.length_map]; omega)]

theorem neighbourCells1_spec (h : Spec.ValidMesh mh) (h3 : mh.ndim ≤ 3) {cell offset : Int}
    {pbc : Bool} (h0 : 0 ≤ cell) (hc : cell < mh.ncellsGlobal)
    (hoff : ∀ d ∈ mh.dims, offset ≤ d * mh.ncellsDimFine)
    (out : List Int) (hs : out.Pairwise (· < ·)) :
    ∃ x out', Spec.IsCellAt mh x cell ∧ neighbourCells1 mh cell offset pbc out = some out' ∧
      out'.Pairwise (· < ·) ∧
      ∀ c, c ∈ out' ↔ c ∈ out ∨ (c ≠ cell ∧ ∃ y, Spec.IsCellAt mh y c ∧
        Spec.NearCell mh pbc offset x y) := by
  obtain ⟨x, hx, t, ht, hxt⟩ := isCellAt_of_range h h0 hc
  have hxr := isCellAt_inRange hx
  obtain ⟨out', h1, h2, h4⟩ := runItems_invariant (step := neighbourStep mh cell pbc x)
    (items := offsetTuples mh.ndim offset) (s := out)
    (P := fun pre out' => out'.Pairwise (· < ·) ∧
      ∀ c, c ∈ out' ↔ c ∈ out ∨ (c ≠ cell ∧ ∃ y, Spec.IsCellAt mh y c ∧ ∃ o ∈ pre,
        (pbc = true ∨ y = List.zipWith (· + ·) x o) ∧
        y = List.zipWith (· % ·) (List.zipWith (· + ·) x o)
          (mh.dims.map (· * mh.ncellsDimFine)))) (by
      rintro pre o post s heq ⟨hs1, hs2⟩
      have ho := (mem_offsetTuples h3).mp (show o ∈ offsetTuples mh.ndim offset by
        rw [heq]; simp)
      obtain ⟨s', ha, hb, hc'⟩ := neighbourStep_spec h hoff hx ho.1 ho.2 s (pbc := pbc)
      refine ⟨s', ha, hb hs1, ?_⟩
      intro c
      rw [hc', hs2]
      constructor
      · rintro ((hm | ⟨h5, y, h6, o', h7, h8⟩) | ⟨h5, y, h6, h7⟩)
        · exact Or.inl hm
        · exact Or.inr ⟨h5, y, h6, o', by simp [h7], h8⟩
        · exact Or.inr ⟨h5, y, h6, o, by simp, h7⟩
      · rintro (hm | ⟨h5, y, h6, o', h7, h8⟩)
        · exact Or.inl (Or.inl hm)
        · rcases List.mem_append.mp h7 with h7 | h7
          · exact Or.inl (Or.inr ⟨h5, y, h6, o', h7, h8⟩)
          · rw [List.mem_singleton] at h7
            subst h7
            exact Or.inr ⟨h5, y, h6, h8⟩)
    ⟨hs, by simp⟩
  refine ⟨x, out', hx, ?_, h2, ?_⟩
  · unfold neighbourCells1
    rw [if_neg (by omega), ht, Option.bind_some]
    simp only
    rw [← hxt]
    exact h1
  · intro c
    rw [h4]
    refine or_congr Iff.rfl (and_congr_right fun _ => ?_)
    refine exists_congr fun y => and_congr_right fun hy => ?_
    rw [← near_iff hxr (isCellAt_inRange hy)]
    refine exists_congr fun o => ?_
    rw [mem_offsetTuples h3]
    tauto

end NP
