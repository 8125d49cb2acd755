import Verif.Mesh.LemmasClaim
import Verif.Mesh.LemmasNeighbour

/-!
# Mesh hierarchy: C33 (indexing), C34 (claims), C35 (neighbouring cells)
-/

set_option autoImplicit false

namespace NP

/-- **C33** coarse indices. -/
theorem C33_coarse (mh : MeshHierarchy) (h : Spec.ValidMesh mh) :
    Spec.IndexBijection (Spec.InRange mh.dims) mh.dims.prod mh.tupleToLinearCoarse
      mh.linearToTupleCoarse := by
  constructor
  · intro t ht
    have hb := horner_bounds ht
    exact ⟨_, radixToLinear_eq h.1 (by rw [ht.length]), hb.1, hb.2, linearToRadix_horner ht⟩
  · intro i h0 hi
    obtain ⟨t, h1, h2, h3⟩ := linearToRadix_spec h.2 h0 hi
    exact ⟨t, h1, h2, by rw [← h3]; exact radixToLinear_eq h.1 (by rw [h2.length])⟩

/-- **C33** fine indices. There are `(2 ^ order) ^ ndim` fine cells in a coarse cell. -/
theorem C33_fine (mh : MeshHierarchy) (h : Spec.ValidMesh mh) :
    Spec.IndexBijection (Spec.InRange (List.replicate mh.dims.length (2 ^ mh.order)))
      ((2 ^ mh.order) ^ mh.dims.length) mh.tupleToLinearFine mh.linearToTupleFine := by
  have hpr : ((2 : Int) ^ mh.order) ^ mh.dims.length =
      (List.replicate mh.ndim mh.ncellsDimFine).prod := by rw [← ncellsFine_eq]; rfl
  rw [hpr]
  constructor
  · intro t ht
    have hb := horner_bounds ht
    exact ⟨_, radixToLinear_eq (replicate_ne h) (by rw [ht.length]; exact le_refl _), hb.1, hb.2,
      linearToRadix_horner ht⟩
  · intro i h0 hi
    obtain ⟨t, h1, h2, h3⟩ := linearToRadix_spec (replicate_pos (mh := mh)) h0 hi
    exact ⟨t, h1, h2, by
      rw [← h3]; exact radixToLinear_eq (replicate_ne h) (by rw [h2.length])⟩

/-- **C33** global indices: `ndim` coarse indices followed by `ndim` fine indices. -/
theorem C33_global (mh : MeshHierarchy) (h : Spec.ValidMesh mh) :
    Spec.IndexBijection
      (Spec.InRange (mh.dims ++ List.replicate mh.dims.length (2 ^ mh.order)))
      (mh.dims.prod * (2 ^ mh.order) ^ mh.dims.length)
      mh.tupleToLinearGlobal mh.linearToTupleGlobal := by
  have hN : mh.dims.prod * (2 ^ mh.order) ^ mh.dims.length = mh.ncellsGlobal := by
    unfold MeshHierarchy.ncellsGlobal
    rw [ncellsCoarse_eq]; rfl
  rw [hN]
  constructor
  · intro t ht
    obtain ⟨cs, fs, hc, hf, rfl⟩ : ∃ cs fs, Spec.InRange mh.dims cs ∧
        Spec.InRange (List.replicate mh.ndim mh.ncellsDimFine) fs ∧ t = cs ++ fs := by
      have ht' := List.Forall₂.flip ht
      have h1 := List.forall₂_take_append _ _ _ ht'
      have h2 := List.forall₂_drop_append _ _ _ ht'
      exact ⟨_, _, h1.flip, h2.flip, (List.take_append_drop _ _).symm⟩
    have hb := global_bounds hc hf
    exact ⟨_, tupleToLinearGlobal_eq h hc hf, hb.1, hb.2, linearToTupleGlobal_horner hc hf⟩
  · intro i h0 hi
    obtain ⟨cs, fs, h1, h2, h3, h4⟩ := linearToTupleGlobal_spec h h0 hi
    exact ⟨cs ++ fs, h1, List.rel_append h2 h3, by rw [tupleToLinearGlobal_eq h h2 h3, h4]⟩

/-- The hypothesis of C33-C35 is what the constructor checks. -/
theorem C33_constructor (dims : List Int) (order : Int) (mh : MeshHierarchy) :
    MeshHierarchy.create dims order = some mh ↔
      Spec.ValidMesh mh ∧ mh.dims = dims ∧ (mh.order : Int) = order := by
  unfold MeshHierarchy.create Spec.ValidMesh
  constructor
  · intro hc
    split at hc
    · rename_i h
      obtain rfl := Option.some.inj hc
      exact ⟨⟨List.ne_nil_of_length_pos h.1, h.2.1⟩, rfl, by simp; omega⟩
    · cases hc
  · rintro ⟨⟨h1, h2⟩, rfl, rfl⟩
    rw [if_pos ⟨List.length_pos_of_ne_nil h1, h2, by omega⟩]
    rfl

example : Spec.ValidMesh ⟨[3, 2], 1⟩ := ⟨by simp, by simp⟩
example : (⟨[3, 2], 1⟩ : MeshHierarchy).tupleToLinearGlobal [2, 1, 1, 0] = some 21 := by decide
example : (⟨[3, 2], 1⟩ : MeshHierarchy).linearToTupleGlobal 21 = some [2, 1, 1, 0] := by decide

/-- **C34** Whatever the windows held before, for every node layout, every order of the
concurrent writes and every order of the claims: `claim_initialise`, the claims and
`claim_finalise` complete; every rank then reads the same owner for every cell, namely the
highest rank among those with the largest weight, and the negative `mask` for a cell that
nobody claimed; and the epoch can be repeated. -/
theorem C34_owner (s0 : Nat → Sched) (s1 : Sched) (layout : NodeLayout) (ncells : Nat)
    (claims : List Claim) (w : ClaimState) (hv : Spec.ValidLayout layout)
    (hst : ∀ r ∈ layout.flatten, w.stackOf r = []) (hl : w.maps.length = layout.length)
    (hm : ∀ m ∈ w.maps, m.length = ncells)
    (hc : ∀ e ∈ claims, Spec.ValidClaim layout ncells e) :
    ∃ w', claimEpoch s0 s1 layout ncells claims w = some w' ∧
      (∀ c : Int, 0 ≤ c → c < ncells → (∃ e ∈ claims, e.cell = c) →
        ∃ o : Nat, Spec.IsOwner claims c o ∧
          ∀ r ∈ layout.flatten, getOwner layout w' r c = some (o : Int)) ∧
      (∀ c : Int, 0 ≤ c → c < ncells → (∀ e ∈ claims, e.cell ≠ c) →
        ∀ r ∈ layout.flatten, getOwner layout w' r c = some (-2147483648)) ∧
      (∀ r ∈ layout.flatten, w'.stackOf r = []) ∧ w'.maps.length = layout.length ∧
      (∀ m ∈ w'.maps, m.length = ncells) := by
  obtain ⟨w1, h1, h2, h3⟩ := claims_spec (w := { w with
      maps := List.replicate layout.length (List.replicate ncells mhMask) }) hc hst
      accumulated_init
  obtain ⟨row, h4, h5, h6⟩ := claimFinalise_spec (s := s1) hv hc h2 h3
  have hown : ∀ r ∈ layout.flatten, ∀ c : Int, 0 ≤ c → getOwner layout {
        maps := List.replicate layout.length row
        stackOf := fun r => if r ∈ layout.flatten then [] else w1.stackOf r } r c =
      row[c.toNat]? := by
    intro r hr c h0
    obtain ⟨k, hk, hk'⟩ := nodeOf_eq hr
    unfold getOwner index
    simp only [hk, Option.bind_some, rd]
    rw [List.getElem?_replicate, if_pos hk', Option.bind_some, if_pos h0, Option.bind_some]
  refine ⟨{
      maps := List.replicate layout.length row
      stackOf := fun r => if r ∈ layout.flatten then [] else w1.stackOf r },
    ?_, ?_, ?_, ?_, ?_, ?_⟩
  · unfold claimEpoch
    rw [claimInitialise_spec hv hst hl hm, Option.bind_some, h1, Option.bind_some, h4]
  · intro c h0 hc' hex
    obtain ⟨v, hv1, -, hv2⟩ := h6 c.toNat (by omega)
    rw [Int.toNat_of_nonneg h0] at hv2
    obtain ⟨o, rfl, ho⟩ := hv2 hex
    exact ⟨o, ho, fun r hr => by rw [hown r hr c h0, hv1]⟩
  · intro c h0 hc' hno r hr
    obtain ⟨v, hv1, hv2, -⟩ := h6 c.toNat (by omega)
    rw [Int.toNat_of_nonneg h0] at hv2
    rw [hown r hr c h0, hv1, hv2 hno]
    rfl
  · intro r hr
    simp only [if_pos hr]
  · simp
  · intro m hm'
    rw [List.eq_of_mem_replicate hm']
    exact h5

/-- The owner is unique: `IsOwner` determines the rank. -/
theorem C34_owner_unique (claims : List Claim) (c : Int) (r r' : Nat)
    (h : Spec.IsOwner claims c r) (h' : Spec.IsOwner claims c r') : r = r' := by
  obtain ⟨e, he, rfl, hc, hm⟩ := h
  obtain ⟨e', he', rfl, hc', hm'⟩ := h'
  have h1 := hm e' he' hc'
  have h2 := hm' e he hc
  have h3 := h1.2 (by omega)
  have h4 := h2.2 (by omega)
  omega

/-- **C34** The owners do not depend on the node layout, on the order of the claims or on
the previous contents. -/
theorem C34_independent (s0 s0' : Nat → Sched) (s1 s1' : Sched) (layout layout' : NodeLayout)
    (ncells : Nat) (claims claims' : List Claim) (w w' : ClaimState)
    (hv : Spec.ValidLayout layout) (hv' : Spec.ValidLayout layout')
    (hst : ∀ r ∈ layout.flatten, w.stackOf r = []) (hl : w.maps.length = layout.length)
    (hm : ∀ m ∈ w.maps, m.length = ncells)
    (hst' : ∀ r ∈ layout'.flatten, w'.stackOf r = []) (hl' : w'.maps.length = layout'.length)
    (hm' : ∀ m ∈ w'.maps, m.length = ncells)
    (hc : ∀ e ∈ claims, Spec.ValidClaim layout ncells e)
    (hranks : layout'.flatten.Perm layout.flatten) (hperm : claims'.Perm claims) :
    ∃ a b, claimEpoch s0 s1 layout ncells claims w = some a ∧
      claimEpoch s0' s1' layout' ncells claims' w' = some b ∧
      ∀ r ∈ layout.flatten, ∀ c : Int, 0 ≤ c → c < ncells →
        getOwner layout a r c = getOwner layout' b r c := by
  obtain ⟨a, ha, ha1, ha2, -⟩ := C34_owner s0 s1 layout ncells claims w hv hst hl hm hc
  obtain ⟨b, hb, hb1, hb2, -⟩ := C34_owner s0' s1' layout' ncells claims' w' hv' hst' hl' hm'
    (fun e he => by
      have := hc e (hperm.subset he)
      exact ⟨hranks.mem_iff.mpr this.1, this.2⟩)
  refine ⟨a, b, ha, hb, ?_⟩
  intro r hr c h0 hcc
  have hr' := hranks.mem_iff.mpr hr
  by_cases hex : ∃ e ∈ claims, e.cell = c
  · obtain ⟨o, ho1, ho2⟩ := ha1 c h0 hcc hex
    obtain ⟨e, he, hec⟩ := hex
    obtain ⟨o', ho1', ho2'⟩ := hb1 c h0 hcc ⟨e, hperm.mem_iff.mpr he, hec⟩
    have : Spec.IsOwner claims c o' := by
      obtain ⟨e, he, h1, h2, h3⟩ := ho1'
      exact ⟨e, hperm.subset he, h1, h2, fun e' he' => h3 e' (hperm.mem_iff.mpr he')⟩
    rw [ho2 r hr, ho2' r hr', C34_owner_unique claims c o o' ho1 this]
  · have hno : ∀ e ∈ claims, e.cell ≠ c := fun e he hec => hex ⟨e, he, hec⟩
    rw [ha2 c h0 hcc hno r hr, hb2 c h0 hcc (fun e he => hno e (hperm.subset he)) r hr']

/-- **C34** A claim with a weight that is not positive, or too large, is rejected. -/
theorem C34_bad_weight (layout : NodeLayout) (e : Claim) (w : ClaimState)
    (h : e.weight ≤ 0 ∨ 2147483647 ≤ e.weight) : claimCell layout e w = none := by
  unfold claimCell
  rw [if_neg (by unfold mhMask; omega)]

namespace Ex

/-- Two nodes with three ranks. -/
def claimLayout : NodeLayout := [[0, 2], [1]]

/-- Claims on two of three cells, with a tie on cell 1. -/
def claimList : List Claim := [⟨0, 1, 5⟩, ⟨2, 1, 7⟩, ⟨1, 1, 7⟩, ⟨1, 0, 1⟩]

example : Spec.ValidLayout claimLayout := ⟨by decide, by decide, by decide⟩

example : ∀ e ∈ claimList, Spec.ValidClaim claimLayout 3 e := by
  unfold Spec.ValidClaim; decide

example : ((claimEpoch (fun _ => Sched.inOrder) Sched.reversed claimLayout 3 claimList
    ⟨[[7, 7, 7], [0, 1, 2]], fun _ => []⟩).bind fun w => some w.maps) =
    some [[1, 2, -2147483648], [1, 2, -2147483648]] := by decide

end Ex

/-- **C35** for one cell, if the offset does not exceed the number of fine cells in any
dimension: the cells added to the set are exactly the other cells that are at most
`offset` cells away in each dimension (across the periodic boundary if requested). -/
theorem C35_single_cell_partial (mh : MeshHierarchy) (h : Spec.ValidMesh mh)
    (h3 : mh.dims.length ≤ 3) (cell offset : Int) (pbc : Bool) (h0 : 0 ≤ cell)
    (hc : cell < mh.ncellsGlobal) (hoff : ∀ d ∈ mh.dims, offset ≤ d * 2 ^ mh.order)
    (out : List Int) (hs : out.Pairwise (· < ·)) :
    ∃ x out', Spec.IsCellAt mh x cell ∧ neighbourCells1 mh cell offset pbc out = some out' ∧
      out'.Pairwise (· < ·) ∧
      ∀ c, c ∈ out' ↔ c ∈ out ∨ (c ≠ cell ∧ ∃ y, Spec.IsCellAt mh y c ∧
        Spec.NearCell mh pbc offset x y) :=
  neighbourCells1_spec h h3 h0 hc hoff out hs

/-- **C35** Every index in range is the cell at exactly one coordinate tuple, and every
coordinate tuple inside the mesh is that of exactly one cell. So `IsCellAt` names cells
by their coordinates. -/
theorem C35_coordinates (mh : MeshHierarchy) (h : Spec.ValidMesh mh) :
    (∀ c, 0 ≤ c → c < mh.ncellsGlobal → ∃! x, Spec.IsCellAt mh x c) ∧
    (∀ x, Spec.InRange (mh.dims.map (· * 2 ^ mh.order)) x → ∃! c, Spec.IsCellAt mh x c) := by
  constructor
  · intro c h0 hc
    obtain ⟨x, hx, -⟩ := isCellAt_of_range h h0 hc
    exact ⟨x, hx, fun y hy => isCellAt_unique' h hy hx⟩
  · intro x hx
    obtain ⟨c, hc⟩ := isCellAt_exists h hx
    exact ⟨c, hc, fun c' hc' => isCellAt_unique h hc' hc⟩

/-- **C35** for vectors of cells: the result lists, each once and in ascending order, the
cells passed, the extra cells and the cells at most `offset` away from a passed cell. -/
theorem C35_neighbours_partial (mh : MeshHierarchy) (h : Spec.ValidMesh mh)
    (h3 : mh.dims.length ≤ 3) (cells extra : List Int) (offset : Int) (pbc : Bool)
    (hcells : ∀ c ∈ cells, 0 ≤ c ∧ c < mh.ncellsGlobal)
    (hoff : ∀ d ∈ mh.dims, offset ≤ d * 2 ^ mh.order) :
    ∃ out, neighbourCells mh cells extra offset pbc = some out ∧ out.Pairwise (· < ·) ∧
      ∀ c, c ∈ out ↔ c ∈ cells ∨ c ∈ extra ∨
        ∃ c0 ∈ cells, ∃ x y, Spec.IsCellAt mh x c0 ∧ Spec.IsCellAt mh y c ∧
          Spec.NearCell mh pbc offset x y := by
  obtain ⟨set0, hset0, hs0, hm0⟩ : ∃ set0,
      (cells ++ extra).foldl (fun s c => intSetInsert c s) [] = set0 ∧ set0.Pairwise (· < ·) ∧
      ∀ c, c ∈ set0 ↔ c ∈ cells ∨ c ∈ extra := by
    have : ∀ (l s : List Int), s.Pairwise (· < ·) →
        (l.foldl (fun s c => intSetInsert c s) s).Pairwise (· < ·) ∧
        ∀ c, c ∈ l.foldl (fun s c => intSetInsert c s) s ↔ c ∈ s ∨ c ∈ l := by
      intro l
      induction l with
      | nil => intro s hs; exact ⟨hs, by simp⟩
      | cons a l ih =>
        intro s hs
        obtain ⟨h1, h2⟩ := ih _ (intSetInsert_sorted (x := a) hs)
        refine ⟨h1, fun c => ?_⟩
        rw [List.foldl_cons, h2, mem_intSetInsert, List.mem_cons]
        tauto
    obtain ⟨h1, h2⟩ := this (cells ++ extra) [] List.Pairwise.nil
    exact ⟨_, rfl, h1, fun c => by rw [h2]; simp⟩
  obtain ⟨out, h1, h2, h4⟩ := runItems_invariant
    (step := fun c s => neighbourCells1 mh c offset pbc s) (items := cells) (s := set0)
    (P := fun pre out => out.Pairwise (· < ·) ∧ ∀ c, c ∈ out ↔ c ∈ set0 ∨
      ∃ c0 ∈ pre, c ≠ c0 ∧ ∃ x y, Spec.IsCellAt mh x c0 ∧ Spec.IsCellAt mh y c ∧
          Spec.NearCell mh pbc offset x y) (by
      rintro pre c0 post s heq ⟨hs1, hs2⟩
      have hc0 := hcells c0 (by rw [heq]; simp)
      obtain ⟨x, s', hx, ha, hb, hc⟩ := neighbourCells1_spec h h3 hc0.1 hc0.2 hoff s hs1
        (pbc := pbc)
      refine ⟨s', ha, hb, fun c => ?_⟩
      rw [hc, hs2]
      constructor
      · rintro ((hm | ⟨c1, hc1, h5⟩) | ⟨h5, y, hy, hn⟩)
        · exact Or.inl hm
        · exact Or.inr ⟨c1, by simp [hc1], h5⟩
        · exact Or.inr ⟨c0, by simp, h5, x, y, hx, hy, hn⟩
      · rintro (hm | ⟨c1, hc1, h5, x', y, hx', hy, hn⟩)
        · exact Or.inl (Or.inl hm)
        · rcases List.mem_append.mp hc1 with hc1 | hc1
          · exact Or.inl (Or.inr ⟨c1, hc1, h5, x', y, hx', hy, hn⟩)
          · rw [List.mem_singleton] at hc1
            subst hc1
            obtain rfl := isCellAt_unique' h hx hx'
            exact Or.inr ⟨h5, y, hy, hn⟩)
    ⟨hs0, by simp⟩
  refine ⟨out, ?_, h2, fun c => ?_⟩
  · unfold neighbourCells
    simp only
    rw [hset0]
    exact h1
  · rw [h4, hm0]
    constructor
    · rintro ((hm | hm) | ⟨c0, hc0, -, h5⟩)
      · exact Or.inl hm
      · exact Or.inr (Or.inl hm)
      · exact Or.inr (Or.inr ⟨c0, hc0, h5⟩)
    · rintro (hm | hm | ⟨c0, hc0, h5⟩)
      · exact Or.inl (Or.inl hm)
      · exact Or.inl (Or.inr hm)
      · by_cases he : c = c0
        · subst he; exact Or.inl (Or.inl hc0)
        · exact Or.inr ⟨c0, hc0, he, h5⟩

/-- The bound on the offset is needed: with a larger offset the truncating remainder
is negative and the function stops with an assertion, although every cell index involved is
valid, with and without periodic wrapping. -/
theorem C35_large_offset_fails :
    neighbourCells ⟨[1], 1⟩ [0] [] 3 true = none ∧
    neighbourCells ⟨[1], 1⟩ [0] [] 3 false = none := by decide

/-- Worse, in two dimensions the negative remainder can be combined with the index of the
other dimension into the index of a wrong cell: on a periodic mesh of 2 by 9 cells, the cells
within 3 of cell 8, which is at (0, 4), are listed with cell 1, which is at (1, 0), four
cells away. -/
theorem C35_large_offset_wrong_cell :
    (∃ out, neighbourCells ⟨[2, 9], 0⟩ [8] [] 3 true = some out ∧ 1 ∈ out) ∧
    Spec.IsCellAt ⟨[2, 9], 0⟩ [0, 4] 8 ∧ Spec.IsCellAt ⟨[2, 9], 0⟩ [1, 0] 1 ∧
    ¬ Spec.NearCell ⟨[2, 9], 0⟩ true 3 [0, 4] [1, 0] := by
  refine ⟨⟨[1, 2, 3, 4, 5, 6, 7, 8, 9, 10, 11, 12, 13, 14, 15], by decide, by decide⟩, ?_, ?_, ?_⟩
  · exact ⟨[0, 4], [0, 0], by simp [Spec.InRange], by
      simp [Spec.InRange, MeshHierarchy.ndim, MeshHierarchy.ncellsDimFine, List.replicate_succ],
      by decide, by decide⟩
  · exact ⟨[1, 0], [0, 0], by simp [Spec.InRange], by
      simp [Spec.InRange, MeshHierarchy.ndim, MeshHierarchy.ncellsDimFine, List.replicate_succ],
      by decide, by decide⟩
  · intro hn
    obtain ⟨o, h1, h2, h3⟩ := hn 1 9 4 0 rfl rfl rfl
    simp only [MeshHierarchy.ncellsDimFine, pow_zero, mul_one, if_true] at h3
    omega

example : neighbourCells ⟨[2, 2], 1⟩ [5] [100] 1 true =
    some [0, 2, 4, 5, 6, 7, 10, 14, 15, 100] := by decide
example : neighbourCells ⟨[2, 2], 1⟩ [0] [] 1 false = some [0, 1, 2, 3] := by decide

end NP
