import Verif.Mesh.SpecGrid
import Verif.Mesh.LemmasNeighbour
import Mathlib.Tactic.Linarith
import Mathlib.Algebra.BigOperators.Group.List.Basic
import Mathlib.Algebra.Order.BigOperators.Ring.List

/-!
# C42: the grid of ranks
-/

set_option autoImplicit false

namespace NP

theorem insertDesc_perm {x : Int} {l : List Int} : (insertDesc x l).Perm (x :: l) := by
  induction l with
  | nil => exact List.Perm.refl _
  | cons y l ih =>
    unfold insertDesc
    split
    · exact List.Perm.refl _
    · exact (List.Perm.cons y ih).trans (List.Perm.swap x y l)

theorem insertDesc_sorted {x : Int} {l : List Int} (h : l.Pairwise (· ≥ ·)) :
    (insertDesc x l).Pairwise (· ≥ ·) := by
  induction l with
  | nil => simp [insertDesc]
  | cons y l ih =>
    rw [List.pairwise_cons] at h
    unfold insertDesc
    split
    · rename_i hlt
      rw [List.pairwise_cons, List.pairwise_cons]
      refine ⟨?_, h⟩
      intro z hz
      rcases List.mem_cons.mp hz with rfl | hz
      · omega
      · have := h.1 z hz; omega
    · rename_i hlt
      rw [List.pairwise_cons]
      refine ⟨?_, ih h.2⟩
      intro z hz
      rcases List.mem_cons.mp (insertDesc_perm.mem_iff.mp hz) with rfl | hz
      · omega
      · exact h.1 z hz

theorem sortDesc_perm {l : List Int} : (sortDesc l).Perm l := by
  induction l with
  | nil => exact List.Perm.refl _
  | cons x l ih => exact insertDesc_perm.trans (List.Perm.cons x ih)

theorem sortDesc_sorted {l : List Int} : (sortDesc l).Pairwise (· ≥ ·) := by
  induction l with
  | nil => exact List.Pairwise.nil
  | cons x l ih => exact insertDesc_sorted ih

/-- Writing `vs` at the places `is`, a permutation of all the places. -/
theorem scatter_spec {is : List Nat} {vs : List Int} {n : Nat} (hp : is.Perm (List.range n))
    (hv : vs.length = n) :
    ∃ out, forLoop 0 n (fun d out => (rd is d).bind fun i => (rd vs d).bind fun v => st out i v)
        (List.replicate n 0) = some out ∧ out.length = n ∧
      (∀ (d i : Nat) (v : Int), is[d]? = some i → vs[d]? = some v → out[i]? = some v) ∧
      out.Perm vs := by
  have hlen : is.length = n := by rw [hp.length_eq, List.length_range]
  have hnd : is.Nodup := hp.nodup_iff.mpr List.nodup_range
  have hlt : ∀ d i : Nat, is[d]? = some i → i < n := by
    intro d i h
    exact List.mem_range.mp (hp.mem_iff.mp (List.mem_of_getElem? h))
  obtain ⟨out, h1, h2, h3⟩ := forLoop_invariant (a := 0) (b := n)
    (step := fun d out => (rd is d).bind fun i => (rd vs d).bind fun v => st out i v)
    (s := List.replicate n 0)
    (P := fun k out => out.length = n ∧ ∀ (d i : Nat) (v : Int), d < k → is[d]? = some i → vs[d]? = some v →
      out[i]? = some v) (by omega)
    (by
      rintro k out - hk ⟨p1, p2⟩
      have hi := List.getElem?_eq_getElem (l := is) (i := k) (by omega)
      have hvk := List.getElem?_eq_getElem (l := vs) (i := k) (by omega)
      have hik := hlt k _ hi
      refine ⟨out.set is[k] vs[k], ?_, by simpa using p1, ?_⟩
      · simp only [rd]
        rw [hi, Option.bind_some, hvk, Option.bind_some, st_eq_some (by omega)]
      · intro d i v hd h h'
        by_cases hdk : d = k
        · subst hdk
          rw [hi] at h
          rw [hvk] at h'
          obtain rfl := Option.some.inj h
          obtain rfl := Option.some.inj h'
          rw [List.getElem?_set_self (by omega)]
        · have hne : is[k] ≠ i := by
            intro e
            subst e
            exact hdk ((List.getElem?_inj (by omega) hnd).mp (h.trans hi.symm))
          rw [List.getElem?_set_ne hne]
          exact p2 d i v (by omega) h h')
    ⟨by simp, by intro d i v h; omega⟩
  refine ⟨out, h1, h2, fun d i v hd hv' => h3 d i v ?_ hd hv', ?_⟩
  · have := (List.getElem?_eq_some_iff.mp hd).1; omega
  · -- the values in the order of the places
    have e1 : is.map (fun i => (out[i]?).getD 0) = vs := by
      apply List.ext_getElem?
      intro d
      rw [List.getElem?_map]
      by_cases hd : d < n
      · have hi := List.getElem?_eq_getElem (l := is) (i := d) (by omega)
        have hvd := List.getElem?_eq_getElem (l := vs) (i := d) (by omega)
        rw [hi, hvd]
        simp only [Option.map_some]
        rw [h3 d _ _ hd hi hvd]
        rfl
      · rw [List.getElem?_eq_none (by omega), List.getElem?_eq_none (by omega)]
        rfl
    have e2 : (List.range n).map (fun i => (out[i]?).getD 0) = out := by
      apply List.ext_getElem?
      intro i
      rw [List.getElem?_map]
      by_cases hi : i < n
      · rw [List.getElem?_range hi, List.getElem?_eq_getElem (show i < out.length by omega)]
        simp [List.getElem?_eq_getElem (show i < out.length by omega)]
      · rw [List.getElem?_eq_none (by simpa using hi), List.getElem?_eq_none (by omega)]
        rfl
    rw [← e1]
    conv_lhs => rw [← e2]
    exact (hp.map _).symm

theorem reordered_spec {e : GridEnv} (he : Spec.ValidGridEnv e) {dims counts : List Int}
    (hl : dims.length = counts.length) :
    ∃ out, e.reordered counts.length dims counts = some out ∧ out.Perm dims ∧
      ∀ (i j : Nat) (ci cj oi oj : Int), counts[i]? = some ci → counts[j]? = some cj →
        out[i]? = some oi → out[j]? = some oj → ci < cj → oi ≤ oj := by
  have hsl : (sortDesc dims).length = counts.length := by rw [sortDesc_perm.length_eq, hl]
  obtain ⟨out, h1, h2, h3, h4⟩ := scatter_spec (he.sort_perm counts) hsl
  refine ⟨out, h1, h4.trans sortDesc_perm, ?_⟩
  intro i j ci cj oi oj hci hcj hoi hoj hlt
  have hi : i < counts.length := (List.getElem?_eq_some_iff.mp hci).1
  have hj : j < counts.length := (List.getElem?_eq_some_iff.mp hcj).1
  have hal : (e.argsort counts).length = counts.length := by
    rw [(he.sort_perm counts).length_eq, List.length_range]
  obtain ⟨di, hdi, rfl⟩ := List.getElem_of_mem
    ((he.sort_perm counts).mem_iff.mpr (List.mem_range.mpr hi))
  obtain ⟨dj, hdj, rfl⟩ := List.getElem_of_mem
    ((he.sort_perm counts).mem_iff.mpr (List.mem_range.mpr hj))
  have hvi := List.getElem?_eq_getElem (l := sortDesc dims) (i := di) (by omega)
  have hvj := List.getElem?_eq_getElem (l := sortDesc dims) (i := dj) (by omega)
  rw [h3 di _ _ (List.getElem?_eq_getElem hdi) hvi] at hoi
  rw [h3 dj _ _ (List.getElem?_eq_getElem hdj) hvj] at hoj
  obtain rfl := Option.some.inj hoi
  obtain rfl := Option.some.inj hoj
  rcases Nat.lt_trichotomy di dj with h | h | h
  · have := (List.pairwise_iff_getElem.mp (he.sort_desc counts)) di dj hdi hdj h ci cj hci hcj
    omega
  · subst h
    rw [hci] at hcj
  · exact (List.pairwise_iff_getElem.mp sortDesc_sorted) dj di (by omega) (by omega) h

theorem perm_prod {l l' : List Int} (h : l.Perm l') : l.prod = l'.prod := h.prod_eq

theorem validDecomp_iff {size : Int} {counts grid : List Int} (hl : grid.length = counts.length) :
    validDecomp size counts grid = true ↔
      grid.prod = size ∧ List.Forall₂ (fun g c => g ≤ c) grid counts := by
  unfold validDecomp
  rw [Bool.and_eq_true, decide_eq_true_eq]
  refine and_congr_right fun hpr => ?_
  clear hpr
  induction grid generalizing counts with
  | nil =>
    have : counts = [] := List.length_eq_zero_iff.mp (by simpa using hl.symm)
    subst this
    simp
  | cons g grid ih =>
    match counts, hl with
    | c :: counts, hl =>
      simp only [List.zipWith_cons_cons, List.all_cons, Bool.and_eq_true, id_eq,
        decide_eq_true_eq, List.forall₂_cons]
      rw [ih (by simpa using hl)]
      constructor <;> rintro ⟨a, b⟩ <;> exact ⟨by omega, b⟩

/-- What the loop over the dimensions finds. -/
theorem lowerLoop_spec {size : Int} {counts : List Int} (hs : 0 < size) (hc : ∀ c ∈ counts, 0 < c) :
    ∃ s known red, lowerLoop size counts = some (s, known, red) ∧ 0 < s ∧
      known.length = counts.length ∧ (∀ k ∈ known, k = -1 ∨ 0 < k) ∧
      red.length = known.countP (fun k => decide (k < 1)) ∧ red.length ≤ counts.length ∧
      s * (known.filter fun k => decide (¬ k < 1)).prod = size ∧
      (red.length = 0 → known = counts) ∧ (red.length = counts.length → s = size) := by
  induction counts generalizing size with
  | nil => exact ⟨size, [], [], rfl, hs, rfl, by simp, by simp, by simp, by simp, by simp, by simp⟩
  | cons c counts ih =>
    have hcp := hc c (by simp)
    unfold lowerLoop
    rw [if_neg (by omega)]
    by_cases hd : size.tmod c = 0
    · rw [if_pos hd]
      have hdiv : c * size.tdiv c = size := Int.mul_tdiv_cancel' (Int.dvd_of_tmod_eq_zero hd)
      have hs' : 0 < size.tdiv c := by
        by_contra h
        have : c * size.tdiv c ≤ 0 := mul_nonpos_of_nonneg_of_nonpos (by omega) (by omega)
        omega
      obtain ⟨s, known, red, h1, h2, h3, h4, h5, h6, h7, h8, h9⟩ :=
        ih hs' (fun x hx => hc x (by simp [hx]))
      refine ⟨s, c :: known, red, by rw [h1]; rfl, h2, by simp [h3], ?_, ?_, by simp; omega, ?_, ?_, ?_⟩
      · intro k hk
        rcases List.mem_cons.mp hk with rfl | hk
        · exact Or.inr hcp
        · exact h4 k hk
      · rw [List.countP_cons_of_neg (by simp; omega), h5]
      · rw [List.filter_cons_of_pos (by simp; omega), List.prod_cons, ← hdiv, ← h7]
        ring
      · intro h; rw [h8 h]
      · intro h; simp at h; omega
    · rw [if_neg hd]
      obtain ⟨s, known, red, h1, h2, h3, h4, h5, h6, h7, h8, h9⟩ :=
        ih hs (fun x hx => hc x (by simp [hx]))
      refine ⟨s, -1 :: known, c :: red, by rw [h1]; rfl, h2, by simp [h3], ?_, ?_, by simp; omega,
        ?_, by simp, ?_⟩
      · intro k hk
        rcases List.mem_cons.mp hk with rfl | hk
        · exact Or.inl rfl
        · exact h4 k hk
      · rw [List.countP_cons_of_pos (by simp), List.length_cons, h5]
      · rw [List.filter_cons_of_neg (by simp)]; exact h7
      · intro h; exact h9 (by simpa using h)

theorem fillKnown_spec {known tmp : List Int}
    (hl : tmp.length = known.countP (fun k => decide (k < 1))) :
    ∃ out, fillKnown known tmp = some out ∧ out.length = known.length ∧
      out.prod = tmp.prod * (known.filter fun k => decide (¬ k < 1)).prod := by
  induction known generalizing tmp with
  | nil =>
    have : tmp = [] := List.length_eq_zero_iff.mp (by simpa using hl)
    subst this
    exact ⟨[], rfl, rfl, by simp⟩
  | cons k known ih =>
    by_cases hk : k < 1
    · rw [List.countP_cons_of_pos (by simpa using hk)] at hl
      match tmp, hl with
      | t :: tmp, hl =>
        obtain ⟨out, h1, h2, h3⟩ := ih (tmp := tmp) (by simpa using hl)
        refine ⟨t :: out, ?_, by simp [h2], ?_⟩
        · rw [fillKnown, if_pos hk, List.head?_cons, Option.bind_some, List.tail_cons, h1]; rfl
        · rw [List.filter_cons_of_neg (by simpa using hk), List.prod_cons, List.prod_cons, h3]
          ring
    · rw [List.countP_cons_of_neg (by simpa using hk)] at hl
      obtain ⟨out, h1, h2, h3⟩ := ih hl
      refine ⟨k :: out, ?_, by simp [h2], ?_⟩
      · rw [fillKnown, if_neg hk, h1]; rfl
      · rw [List.filter_cons_of_pos (by simpa using hk), List.prod_cons, List.prod_cons, h3]
        ring

theorem maxElement_spec {l : List Int} (h : l ≠ []) :
    ∃ i x, maxElement l = some i ∧ l[i]? = some x ∧ ∀ y ∈ l, y ≤ x := by
  induction l with
  | nil => exact absurd rfl h
  | cons a l ih =>
    cases l with
    | nil => exact ⟨0, a, rfl, rfl, by simp⟩
    | cons b l =>
      obtain ⟨i, x, h1, h2, h3⟩ := ih (by simp)
      rw [maxElement, h1]
      simp only [h2, Option.getD_some]
      split
      · rename_i hx
        refine ⟨i + 1, x, rfl, by simpa using h2, ?_⟩
        intro y hy
        rcases List.mem_cons.mp hy with rfl | hy
        · omega
        · exact h3 y hy
      · rename_i hx
        refine ⟨0, a, rfl, rfl, ?_⟩
        intro y hy
        rcases List.mem_cons.mp hy with rfl | hy
        · exact le_refl _
        · have := h3 y hy; omega

theorem prod_set_ones {n i : Nat} {x : Int} (h : i < n) :
    ((List.replicate n (1 : Int)).set i x).prod = x := by
  induction n generalizing i with
  | zero => omega
  | succ n ih =>
    rw [List.replicate_succ]
    cases i with
    | zero => simp
    | succ i => simp [ih (show i < n by omega)]

/-- **C42** `get_reordered_cart_decomp` rearranges the given dimensions, so it keeps their
product, and gives dimensions with more cells no fewer ranks. -/
theorem C42_reordered (e : GridEnv) (he : Spec.ValidGridEnv e) (dims counts : List Int)
    (hl : dims.length = counts.length) :
    ∃ out, e.reordered counts.length dims counts = some out ∧ out.Perm dims ∧
      out.prod = dims.prod ∧
      ∀ (i j : Nat) (ci cj oi oj : Int), counts[i]? = some ci → counts[j]? = some cj →
        out[i]? = some oi → out[j]? = some oj → ci < cj → oi ≤ oj := by
  obtain ⟨out, h1, h2, h3⟩ := reordered_spec he hl
  exact ⟨out, h1, h2, h2.prod_eq, h3⟩

/-- **C42** If any arrangement of the given dimensions fits into the cell counts then the one
that `get_reordered_cart_decomp` returns does. -/
theorem C42_reordered_optimal (e : GridEnv) (he : Spec.ValidGridEnv e) (dims counts p : List Int)
    (hp : p.Perm dims) (hfit : List.Forall₂ (fun g c => g ≤ c) p counts) :
    ∃ out, e.reordered counts.length dims counts = some out ∧
      List.Forall₂ (fun g c => g ≤ c) out counts := by
  have hl : dims.length = counts.length := by rw [← hp.length_eq, hfit.length_eq]
  obtain ⟨out, h1, h2, h3⟩ := reordered_spec he hl
  have hol : out.length = counts.length := by rw [h2.length_eq, hl]
  refine ⟨out, h1, ?_⟩
  rw [List.forall₂_iff_get]
  refine ⟨hol, ?_⟩
  intro i hi hi'
  by_contra hlt
  simp only [List.get_eq_getElem, not_le] at hlt
  -- count the entries which are at least `out[i]`
  have c1 : ∀ {a b : List Int} (v : Int), List.Forall₂ (fun g c => v ≤ g → v ≤ c) a b →
      a.countP (fun x => decide (v ≤ x)) ≤ b.countP (fun x => decide (v ≤ x)) := by
    intro a b v h
    induction h with
    | nil => simp
    | @cons g c gs cs hgc _ ih =>
      by_cases hg : v ≤ g
      · rw [List.countP_cons_of_pos (by simpa using hg),
          List.countP_cons_of_pos (by simpa using hgc hg)]
        omega
      · rw [List.countP_cons_of_neg (by simpa using hg), List.countP_cons]
        omega
  have k1 := c1 out[i] (hfit.imp fun g c h hv => le_trans hv h)
  have k2 : p.countP (fun x => decide (out[i] ≤ x)) = out.countP (fun x => decide (out[i] ≤ x)) :=
    (hp.trans h2.symm).countP_eq _
  -- entries of `counts` which are at least `out[i]` have at least `out[i]`
  have c2 : List.Forall₂ (fun c g => out[i] ≤ c → out[i] ≤ g) counts out := by
    rw [List.forall₂_iff_get]
    refine ⟨hol.symm, ?_⟩
    intro j hj hj' hv
    simp only [List.get_eq_getElem] at hv ⊢
    exact h3 i j _ _ _ _ (List.getElem?_eq_getElem hi') (List.getElem?_eq_getElem hj)
      (List.getElem?_eq_getElem hi) (List.getElem?_eq_getElem hj') (by omega)
  -- strictly more of them
  have c3 : ∀ {a b : List Int} (v : Int), List.Forall₂ (fun g c => v ≤ g → v ≤ c) a b →
      ∀ (k : Nat) (x y : Int), a[k]? = some x → b[k]? = some y → ¬ v ≤ x → v ≤ y →
      a.countP (fun x => decide (v ≤ x)) < b.countP (fun x => decide (v ≤ x)) := by
    intro a b v h
    induction h with
    | nil => intro k x y h; simp at h
    | @cons g c gs cs hgc hrest ih =>
      intro k x y hx hy hnx hvy
      have hrest' := c1 v hrest
      cases k with
      | zero =>
        simp only [List.getElem?_cons_zero, Option.some.injEq] at hx hy
        subst hx hy
        rw [List.countP_cons_of_neg (by simpa using hnx), List.countP_cons_of_pos (by simpa using hvy)]
        omega
      | succ k =>
        have := ih k x y (by simpa using hx) (by simpa using hy) hnx hvy
        by_cases hg : v ≤ g
        · rw [List.countP_cons_of_pos (by simpa using hg),
            List.countP_cons_of_pos (by simpa using hgc hg)]
          omega
        · rw [List.countP_cons_of_neg (by simpa using hg), List.countP_cons]
          omega
  have k3 := c3 out[i] c2 i _ _ (List.getElem?_eq_getElem hi') (List.getElem?_eq_getElem hi)
    (by omega) (le_refl _)
  omega

/-- **C42** `get_lower_dimension_cart_decomp` gives a grid with `size` ranks, unless the product
of all cell counts is a proper divisor of `size`, when it returns the cell counts (and there are
more ranks than cells, so that no grid would do). -/
theorem C42_lower (e : GridEnv) (he : Spec.ValidGridEnv e) (size : Int) (counts : List Int)
    (hs : 0 < size) (hc : ∀ c ∈ counts, 0 < c) :
    ∃ out, e.lower size counts.length counts = some out ∧ out.length = counts.length ∧
      (out.prod = size ∨ (out = counts ∧ ∃ k, 1 < k ∧ size = k * counts.prod)) := by
  obtain ⟨s, known, red, h1, h2, h3, h4, h5, h6, h7, h8, h9⟩ := lowerLoop_spec hs hc
  unfold GridEnv.lower
  rw [h1, Option.bind_some]
  simp only
  by_cases hr : red.length = 0
  · rw [if_pos hr]
    refine ⟨known, rfl, h3, ?_⟩
    have hk := h8 hr
    have hfil : known.filter (fun k => decide (¬ k < 1)) = known := by
      rw [List.filter_eq_self]
      intro k hk'
      rw [hk] at hk'
      have := hc k hk'
      simp; omega
    rw [hfil] at h7
    by_cases h1s : s = 1
    · left; rw [← h7, h1s, one_mul]
    · right; exact ⟨hk, s, by omega, by rw [← h7, hk]⟩
  · rw [if_neg hr]
    have hred : 0 < red.length := by omega
    have hcd : ∀ sz n, 0 < sz → 0 < n → (e.cartDims sz n).length = n ∧ (e.cartDims sz n).prod = sz := by
      intro sz n hsz hn
      unfold GridEnv.cartDims
      rw [if_pos hn]
      exact ⟨he.dims_length sz n hsz hn, he.dims_prod sz n hsz hn⟩
    by_cases hn : red.length = counts.length
    · rw [if_neg (by simpa using hn)]
      obtain ⟨d1, d2⟩ := hcd size counts.length hs (by omega)
      obtain ⟨out, o1, o2, -⟩ := reordered_spec he d1
      exact ⟨out, o1, by rw [o2.length_eq, d1], Or.inl (by rw [o2.prod_eq, d2])⟩
    · rw [if_pos hn]
      obtain ⟨d1, d2⟩ := hcd s red.length h2 hred
      obtain ⟨tmp, o1, o2, -⟩ := reordered_spec he d1
      rw [o1, Option.bind_some]
      obtain ⟨out, f1, f2, f3⟩ := fillKnown_spec (known := known) (tmp := tmp)
        (by rw [o2.length_eq, d1, h5])
      refine ⟨out, f1, by rw [f2, h3], Or.inl ?_⟩
      rw [f3, o2.prod_eq, d2, h7]

/-- **C42** `get_single_dimension_cart_decomp` gives all ranks to the dimension with most
cells: a grid with `size` ranks, which is valid if any dimension has as many cells as there are
ranks. -/
theorem C42_single (size : Int) (counts : List Int) (hs : 0 < size) (hne : counts ≠ [])
    (hc : ∀ c ∈ counts, 0 < c) :
    ∃ out, singleDim size counts.length counts = some out ∧ out.length = counts.length ∧
      out.prod = size ∧ ((∃ c ∈ counts, size ≤ c) → Spec.ValidGrid size counts out) := by
  obtain ⟨i, x, h1, h2, h3⟩ := maxElement_spec hne
  have hi : i < counts.length := (List.getElem?_eq_some_iff.mp h2).1
  have hprod := prod_set_ones (x := size) hi
  refine ⟨(List.replicate counts.length 1).set i size, ?_, by simp, hprod, ?_⟩
  · unfold singleDim
    rw [h1, Option.bind_some, st_eq_some (by simpa using hi)]
  · rintro ⟨c, hcm, hle⟩
    refine ⟨hprod, ?_⟩
    rw [List.forall₂_iff_get]
    refine ⟨by simp, ?_⟩
    intro j hj hj'
    simp only [List.get_eq_getElem, List.getElem_set, List.getElem_replicate]
    have hcj := hc _ (List.getElem_mem hj')
    split
    · rename_i he
      subst he
      rw [List.getElem?_eq_getElem hi] at h2
      obtain rfl := Option.some.inj h2
      have := h3 c hcm
      omega
    · omega

/-- **C42** Whenever the constructor of the Cartesian mesh accepts a grid, the grid has as many
ranks as the communicator and no dimension has more ranks than cells. This includes the grid of
a Cartesian communicator that was passed. -/
theorem C42_accepted (e : GridEnv) (parent : Option (List Int)) (size : Int) (counts g : List Int)
    (hs : 0 < size) (hpar : ∀ p, parent = some p → p.length = counts.length ∧ ∀ x ∈ p, 0 < x)
    (he : Spec.ValidGridEnv e) (hc : ∀ c ∈ counts, 0 < c) (hne : counts ≠ [])
    (h : e.choose parent size counts.length counts = some g) : Spec.ValidGrid size counts g := by
  have hnpos : 0 < counts.length := List.length_pos_of_ne_nil hne
  -- the length and the entries of all candidates
  have hall : ∀ g, g.length = counts.length → (∀ x ∈ g, 0 < x) → validDecomp size counts g = true →
      Spec.ValidGrid size counts g := by
    intro g hl hpos hv
    obtain ⟨v1, v2⟩ := (validDecomp_iff hl).mp hv
    refine ⟨v1, ?_⟩
    rw [List.forall₂_iff_get] at v2 ⊢
    exact ⟨v2.1, fun i h h' => ⟨hpos _ (List.get_mem _ _), v2.2 i h h'⟩⟩
  have hd1 := he.dims_length size counts.length hs hnpos
  have hcd : e.cartDims size counts.length = e.dimsCreate size counts.length := by
    unfold GridEnv.cartDims; rw [if_pos hnpos]
  unfold GridEnv.choose at h
  cases parent with
  | some p =>
    obtain ⟨p1, p2⟩ := hpar p rfl
    simp only [Option.bind_some] at h
    split at h
    · rename_i hv
      obtain rfl := Option.some.inj h
      exact hall p p1 p2 hv
    · cases h
  | none =>
    simp only at h
    obtain ⟨g0, q1, q2, -⟩ := reordered_spec he (dims := e.cartDims size counts.length)
      (counts := counts) (by rw [hcd, hd1])
    rw [q1, Option.bind_some] at h
    have hg0 : g0.length = counts.length ∧ ∀ x ∈ g0, 0 < x := by
      refine ⟨by rw [q2.length_eq, hcd, hd1], fun x hx => ?_⟩
      have := q2.mem_iff.mp hx
      rw [hcd] at this
      exact he.dims_pos size counts.length hs hnpos x this
    -- the entries of the second candidate
    obtain ⟨gl, l1, l2, -⟩ := C42_lower e he size counts hs hc
    have hgl : ∀ x ∈ gl, 0 < x := by
      obtain ⟨s, known, red, a1, a2, a3, a4, a5, a6, a7, a8, a9⟩ := lowerLoop_spec hs hc
      unfold GridEnv.lower at l1
      rw [a1, Option.bind_some] at l1
      simp only at l1
      split at l1
      · rename_i hr
        obtain rfl := Option.some.inj l1
        rw [a8 hr]; exact hc
      · rename_i hr
        split at l1
        · obtain ⟨tmp, t1, t2, -⟩ := reordered_spec he (dims := e.cartDims s red.length)
            (counts := red) (by
              unfold GridEnv.cartDims
              rw [if_pos (by omega), he.dims_length s red.length a2 (by omega)])
          rw [t1, Option.bind_some] at l1
          have htp : ∀ x ∈ tmp, 0 < x := by
            intro x hx
            have := t2.mem_iff.mp hx
            unfold GridEnv.cartDims at this
            rw [if_pos (by omega)] at this
            exact he.dims_pos s red.length a2 (by omega) x this
          clear * - l1 htp
          induction known generalizing tmp gl with
          | nil =>
            rw [fillKnown] at l1
            obtain rfl := Option.some.inj l1
            simp
          | cons k known ih =>
            rw [fillKnown] at l1
            split at l1
            · match tmp, l1, htp with
              | t :: tmp, l1, htp =>
                rw [List.head?_cons, Option.bind_some, List.tail_cons] at l1
                obtain ⟨r, r1, r2⟩ := Option.bind_eq_some_iff.mp l1
                obtain rfl := Option.some.inj r2
                intro x hx
                rcases List.mem_cons.mp hx with rfl | hx
                · exact htp x (by simp)
                · exact ih r tmp r1 (fun y hy => htp y (by simp [hy])) x hx
            · obtain ⟨r, r1, r2⟩ := Option.bind_eq_some_iff.mp l1
              obtain rfl := Option.some.inj r2
              intro x hx
              rcases List.mem_cons.mp hx with rfl | hx
              · omega
              · exact ih r tmp r1 htp x hx
        · obtain ⟨out, o1, o2, -⟩ := reordered_spec he (dims := e.cartDims size counts.length)
            (counts := counts) (by rw [hcd, hd1])
          rw [o1] at l1
          obtain rfl := Option.some.inj l1
          intro x hx
          have := o2.mem_iff.mp hx
          rw [hcd] at this
          exact he.dims_pos size counts.length hs hnpos x this
    obtain ⟨gs, s1, s2, s3, -⟩ := C42_single size counts hs hne hc
    have hgs : ∀ x ∈ gs, 0 < x := by
      unfold singleDim at s1
      obtain ⟨i, -, hi⟩ := Option.bind_eq_some_iff.mp s1
      unfold st at hi
      split at hi
      · obtain rfl := Option.some.inj hi
        intro x hx
        rcases List.mem_or_eq_of_mem_set hx with hx | rfl
        · rw [List.eq_of_mem_replicate hx]; omega
        · exact hs
      · cases hi
    rw [l1, s1] at h
    have key : ∀ g1, g1.length = counts.length → (∀ x ∈ g1, 0 < x) →
        ((if validDecomp size counts g1 then some g1 else some gs).bind fun g =>
          if validDecomp size counts g then some g else none) = some g →
        Spec.ValidGrid size counts g := by
      intro g1 u1 u2 u3
      by_cases hv : validDecomp size counts g1 = true
      · rw [if_pos hv, Option.bind_some, if_pos hv] at u3
        obtain rfl := Option.some.inj u3
        exact hall g1 u1 u2 hv
      · rw [if_neg hv, Option.bind_some] at u3
        split at u3
        · rename_i hv'
          obtain rfl := Option.some.inj u3
          exact hall gs s2 hgs hv'
        · cases u3
    by_cases hv : validDecomp size counts g0 = true
    · rw [if_pos hv, Option.bind_some] at h
      exact key g0 hg0.1 hg0.2 h
    · rw [if_neg hv, Option.bind_some] at h
      exact key gl l2 hgl h

/-- **C42** The search is not complete: for 36 ranks and 5 by 13 cells the grid of 3 by 12 ranks
is valid, but if `MPI_Dims_create` gives 6 by 6 the constructor fails. -/
theorem C42_search_incomplete (e : GridEnv) (he : Spec.ValidGridEnv e)
    (h : e.dimsCreate 36 2 = [6, 6]) :
    Spec.ValidGrid 36 [5, 13] [3, 12] ∧ e.choose none 36 2 [5, 13] = none := by
  constructor
  · exact ⟨by decide, List.Forall₂.cons (by decide) (List.Forall₂.cons (by decide) List.Forall₂.nil)⟩
  · have hr : e.reordered 2 [6, 6] [5, 13] = some [6, 6] := by
      obtain ⟨out, o1, o2, -⟩ := reordered_spec he (dims := [6, 6]) (counts := [5, 13]) rfl
      have : out = [6, 6] := by
        have hm : ∀ x ∈ out, x = 6 := fun x hx => by have := o2.mem_iff.mp hx; simpa using this
        match out, o2.length_eq, hm with
        | [a, b], _, hm => rw [hm a (by simp), hm b (by simp)]
      rw [this] at o1
      exact o1
    have hd : e.cartDims 36 2 = [6, 6] := by unfold GridEnv.cartDims; rw [if_pos (by omega), h]
    have hl : lowerLoop 36 [5, 13] = some (36, [-1, -1], [5, 13]) := by decide
    have hlow : e.lower 36 2 [5, 13] = some [6, 6] := by
      unfold GridEnv.lower
      rw [hl, Option.bind_some, hd]
      simpa using hr
    unfold GridEnv.choose
    simp only
    rw [hd, hr, Option.bind_some, hlow]
    decide

namespace Ex

/-- All ranks in the first dimension; indices sorted by insertion. -/
def argInsert (l : List Int) (i : Nat) : List Nat → List Nat
  | [] => [i]
  | j :: js => if (l[j]?).getD 0 < (l[i]?).getD 0 then i :: j :: js else j :: argInsert l i js

/-- An environment. -/
def gridEnv : GridEnv := ⟨fun size n => (List.replicate n 1).set 0 size,
  fun l => (List.range l.length).foldr (argInsert l) []⟩

theorem argInsert_perm (l : List Int) (i : Nat) (js : List Nat) :
    (argInsert l i js).Perm (i :: js) := by
  induction js with
  | nil => exact List.Perm.refl _
  | cons j js ih =>
    unfold argInsert
    split
    · exact List.Perm.refl _
    · exact (List.Perm.cons j ih).trans (List.Perm.swap i j js)

theorem argInsert_sorted (l : List Int) (i : Nat) (js : List Nat)
    (h : js.Pairwise fun a b => (l[b]?).getD 0 ≤ (l[a]?).getD 0) :
    (argInsert l i js).Pairwise fun a b => (l[b]?).getD 0 ≤ (l[a]?).getD 0 := by
  induction js with
  | nil => simp [argInsert]
  | cons j js ih =>
    rw [List.pairwise_cons] at h
    unfold argInsert
    split
    · rename_i hlt
      rw [List.pairwise_cons, List.pairwise_cons]
      refine ⟨?_, h⟩
      intro z hz
      rcases List.mem_cons.mp hz with rfl | hz
      · omega
      · have := h.1 z hz; omega
    · rename_i hlt
      rw [List.pairwise_cons]
      refine ⟨?_, ih h.2⟩
      intro z hz
      rcases List.mem_cons.mp ((argInsert_perm l i js).mem_iff.mp hz) with rfl | hz
      · omega
      · exact h.1 z hz

example : Spec.ValidGridEnv gridEnv := by
  refine ⟨?_, ?_, ?_, ?_, ?_⟩
  · intro size n _ _; simp [gridEnv]
  · intro size n _ hn; exact prod_set_ones hn
  · intro size n hs _ x hx
    rcases List.mem_or_eq_of_mem_set hx with hx | rfl
    · rw [List.eq_of_mem_replicate hx]; omega
    · exact hs
  · intro l
    show ((List.range l.length).foldr (argInsert l) []).Perm (List.range l.length)
    generalize List.range l.length = is
    induction is with
    | nil => exact List.Perm.refl _
    | cons i is ih => exact (argInsert_perm l i _).trans (List.Perm.cons i ih)
  · intro l
    have hs : ((List.range l.length).foldr (argInsert l) []).Pairwise
        fun a b => (l[b]?).getD 0 ≤ (l[a]?).getD 0 := by
      generalize List.range l.length = is
      induction is with
      | nil => exact List.Pairwise.nil
      | cons i is ih => exact argInsert_sorted l i _ ih
    refine hs.imp ?_
    intro a b hab x y hx hy
    rw [hx, hy] at hab
    exact hab

-- six ranks, 4 by 6 cells: all in the dimension with six cells
example : gridEnv.choose none 6 2 [4, 6] = some [1, 6] := by decide
-- twelve ranks, 4 by 6 cells: the first dimension is divided completely
example : gridEnv.choose none 12 2 [4, 6] = some [4, 3] := by decide

end Ex

end NP
