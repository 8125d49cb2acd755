import Verif.Basics.LemmasSeg
import Verif.Basics.LemmasPow
import Mathlib.Algebra.Group.Int.Defs

/-!
# Property theorems: C01 - C06
-/

set_option autoImplicit false

namespace NP

/-- **C01** For `n > 0` units the ranges of `get_decomp_1d` are defined and cut
`[0, N)` in `n` consecutive pieces whose sizes differ by at most one; every item is
in exactly one of them. -/
theorem C01_decomp_balanced_partition (n N : Nat) (hn : 0 < n) :
    ∃ r : Nat → Nat × Nat, (∀ i, i < n → getDecomp1d n N i = some (r i)) ∧
      Spec.BalancedPartition n N r := by
  refine ⟨fun i => (dstart n N i, dstart n N (i + 1)), fun i _ => getDecomp1d_eq hn, ?_⟩
  constructor
  · exact dstart_zero n N
  · show dstart n N (n - 1 + 1) = N
    rw [show n - 1 + 1 = n by omega]; exact dstart_top N hn
  · intro i _; rfl
  · intro i _; exact dstart_mono (by omega)
  · intro w hw
    obtain ⟨i, h1, h2, h3⟩ := dstart_exists (n := n) (N := N) (m := n) (w := w)
      (by rw [dstart_top N hn]; exact hw)
    exact ⟨i, h1, h2, h3, fun j _ ha hb => (dstart_unique h2 h3 ha hb).symm⟩
  · intro i j _ _
    simp only [dstart_succ]
    split <;> split <;> omega

/-- The hypothesis of C01 is met, with unequal pieces: 7 items over 3 units. -/
example : getDecomp1d 3 7 0 = some (0, 3) ∧ getDecomp1d 3 7 1 = some (3, 5) ∧
    getDecomp1d 3 7 2 = some (5, 7) := by decide

/-- **C01**, failure case: zero units is a division by zero. -/
theorem C01_zero_units (N i : Nat) : getDecomp1d 0 N i = none := rfl

/-- **C02** For every `w < N` the inverse is defined (no division by zero) and is
the unit whose range contains `w`. -/
theorem C02_inverse_finds_owner (n N w : Nat) (hn : 0 < n) (hw : w < N) :
    ∃ i lo hi, getDecomp1dInverse n N w = some i ∧ i < n ∧
      getDecomp1d n N i = some (lo, hi) ∧ lo ≤ w ∧ w < hi := by
  obtain ⟨i, h1, h2, h3, h4⟩ := getDecomp1dInverse_spec hn hw
  exact ⟨i, _, _, h1, h2, getDecomp1d_eq hn, h3, h4⟩

/-- **C02**, both directions: a unit is returned exactly for the items of its range. -/
theorem C02_inverse_iff (n N w i : Nat) (hn : 0 < n) (hw : w < N) :
    getDecomp1dInverse n N w = some i ↔
      ∃ lo hi, i < n ∧ getDecomp1d n N i = some (lo, hi) ∧ lo ≤ w ∧ w < hi := by
  obtain ⟨j, h1, h2, h3, h4⟩ := getDecomp1dInverse_spec hn hw
  constructor
  · intro h
    rw [h1] at h
    obtain rfl := Option.some.inj h
    exact ⟨_, _, h2, getDecomp1d_eq hn, h3, h4⟩
  · rintro ⟨lo, hi, -, hd, ha, hb⟩
    rw [getDecomp1d_eq hn] at hd
    simp only [Option.some.injEq, Prod.mk.injEq] at hd
    obtain ⟨rfl, rfl⟩ := hd
    rw [h1, dstart_unique h3 h4 ha hb]

/-- Non trivial instance of C02 (item in the "large" and in the "small" part). -/
example : getDecomp1dInverse 3 7 2 = some 0 ∧ getDecomp1dInverse 3 7 6 = some 2 ∧
    getDecomp1dInverse 5 3 2 = some 2 := by decide

/-- The bound `w < N` of C02 is needed: with fewer items than units the inverse
divides by zero for `w ≥ N`. -/
theorem C02_out_of_range_divides_by_zero : getDecomp1dInverse 5 3 3 = none := by decide

section Scan

variable {α : Type} [AddCommMonoid α]

/-- **C03**, multi block scan with an auxiliary array: for every order in which the
blocks and work items of the three kernels run, every local size, compute unit
count and size, the first `N` entries of the result are the exclusive prefix sums
and the other entries are unchanged. -/
theorem C03_exclusive_scan (s0 s1 s2 : Sched) (L C N : Nat) (hL : 0 < L)
    (aux src dst : List α) (hsrc : N ≤ src.length) (hdst : N ≤ dst.length)
    (haux : ∀ n, scanAuxSize L C N = some n → n ≤ aux.length) :
    ∃ d, jointExclusiveScanAux s0 s1 s2 L C N aux src dst = some d ∧
      d.length = dst.length ∧ Spec.HoldsExclusiveSums src d 0 N ∧
      (∀ k, N ≤ k → d[k]? = dst[k]?) := by
  obtain ⟨d, e, hl, h1, h2⟩ := jointExclusiveScanAux_spec s0 s1 s2 hL aux src dst hsrc hdst haux
  refine ⟨d, e, hl, ?_, h2⟩
  intro i hi
  rw [Nat.zero_add, h1 i hi, List.drop_zero]

/-- **C03**, single work group scan. -/
theorem C03_exclusive_scan_group (L N : Nat) (hL : 0 < L)
    (src dst : List α) (hsrc : N ≤ src.length) (hdst : N ≤ dst.length) :
    ∃ d, jointExclusiveScanGroup L N src dst = some d ∧
      d.length = dst.length ∧ Spec.HoldsExclusiveSums src d 0 N ∧
      (∀ k, N ≤ k → d[k]? = dst[k]?) := by
  obtain ⟨d, e, hl, h1, h2⟩ := jointExclusiveScanGroup_spec hL src dst hsrc hdst
  refine ⟨d, e, hl, ?_, h2⟩
  intro i hi
  rw [Nat.zero_add, h1 i hi, List.drop_zero]

/-- **C03**, blocking variant that allocates its own (uninitialised) auxiliary
array. -/
theorem C03_exclusive_scan_blocking (s0 s1 s2 : Sched) (L C N : Nat) (hL : 0 < L)
    (fresh : Fresh α) (src dst : List α) (hsrc : N ≤ src.length) (hdst : N ≤ dst.length) :
    ∃ d, jointExclusiveScanBlocking s0 s1 s2 L C N fresh src dst = some d ∧
      d.length = dst.length ∧ Spec.HoldsExclusiveSums src d 0 N ∧
      (∀ k, N ≤ k → d[k]? = dst[k]?) := by
  unfold jointExclusiveScanBlocking
  obtain ⟨nb, hnb, -⟩ := scanNumBlocks_spec (C := C) (N := N) hL
  rw [hnb]
  simp only [Option.bind_some]
  by_cases h : nb < 2
  · rw [if_pos h]; exact C03_exclusive_scan_group L N hL src dst hsrc hdst
  · rw [if_neg h]
    have hs : scanAuxSize L C N = some (2 * nb) := by simp [scanAuxSize, hnb]
    rw [hs]
    simp only [Option.bind_some]
    refine C03_exclusive_scan s0 s1 s2 L C N hL _ src dst hsrc hdst ?_
    intro n hn
    rw [hs] at hn
    obtain rfl := Option.some.inj hn
    exact Nat.le_of_eq (fresh _).2.symm

/-- Concrete instance of C03 with three blocks of different sizes, run in reverse
order. -/
example : jointExclusiveScanAux (α := Int) Sched.reversed Sched.reversed Sched.reversed 2 3 7
    [9, 9, 9, 9, 9, 9] [1, 2, 3, 4, 5, 6, 7] [0, 0, 0, 0, 0, 0, 0, 8]
    = some [0, 1, 3, 6, 10, 15, 21, 8] := by decide

/-- **C04**, exclusive scans of segments, any order of the segments. -/
theorem C04_exclusive_scan_n (s : Sched) (L N : Nat) (hL : 0 < L)
    (sizes offsets : List Nat) (o n : Nat → Nat)
    (hsizes : ∀ a, a < N → sizes[a]? = some (n a))
    (hoffsets : ∀ a, a < N → offsets[a]? = some (o a))
    (src dst : List α) (hlen : src.length = dst.length)
    (hseg : Spec.DisjointSegments N o n dst.length) :
    ∃ d, jointExclusiveScanN s L N sizes offsets src dst = some d ∧
      d.length = dst.length ∧
      (∀ a, a < N → Spec.HoldsExclusiveSums src d (o a) (n a)) ∧
      (∀ k, (∀ a, a < N → ¬ (o a ≤ k ∧ k < o a + n a)) → d[k]? = dst[k]?) := by
  unfold jointExclusiveScanN
  by_cases hN : N = 0
  · subst hN; exact ⟨dst, by simp⟩
  rw [if_neg hN, if_neg (by omega)]
  exact segments_spec _ (fun a i => ((src.drop (o a)).take i).sum) dst _ (s.perm _) hseg
    (fun a ha t ht => exScanNStep_spec (hsizes a ha) (hoffsets a ha)
      (by have := hseg.inside a ha; omega) (by have := hseg.inside a ha; omega))

/-- **C04**, exclusive scans of `N` consecutive segments of fixed size `M`. -/
theorem C04_exclusive_scan_nm (s : Sched) (L N M : Nat) (hL : 0 < L)
    (src dst : List α) (hlen : src.length = dst.length) (hseg : N * M ≤ dst.length) :
    ∃ d, jointExclusiveScanNM s L N M src dst = some d ∧
      d.length = dst.length ∧
      (∀ a, a < N → Spec.HoldsExclusiveSums src d (M * a) M) ∧
      (∀ k, N * M ≤ k → d[k]? = dst[k]?) := by
  unfold jointExclusiveScanNM
  by_cases hN : N = 0
  · subst hN; exact ⟨dst, by simp⟩
  rw [if_neg hN, if_neg (by omega)]
  have hin : ∀ a, a < N → M * a + M ≤ N * M := by
    intro a ha
    have : M * (a + 1) ≤ M * N := Nat.mul_le_mul_left M ha
    have e : M * (a + 1) = M * a + M := by ring
    have e' : M * N = N * M := Nat.mul_comm _ _
    omega
  obtain ⟨d, e, hl, h1, h2⟩ := segments_spec (N := N) (o := fun a => M * a) (n := fun _ => M)
    (exScanNMStep M src) (fun a i => ((src.drop (M * a)).take i).sum) dst _ (s.perm (List.range N))
    (by
      constructor
      · intro a ha; have := hin a ha; omega
      · rintro a b - - hab k ⟨h1, h2, h3, h4⟩
        rcases Nat.lt_or_gt_of_ne hab with h | h
        · have : M * (a + 1) ≤ M * b := Nat.mul_le_mul_left M h
          have e : M * (a + 1) = M * a + M := by ring
          omega
        · have : M * (b + 1) ≤ M * a := Nat.mul_le_mul_left M h
          have e : M * (b + 1) = M * b + M := by ring
          omega)
    (by
      intro a ha t ht
      have := hin a ha
      unfold exScanNMStep
      by_cases hM : M > 0
      · simp only [if_pos hM]
        obtain ⟨d, e, hl, ha, hb⟩ := scanThenZero_spec (src := src) (dst := t) (first := M * a)
          (last := M * a + M) (M * a) (by omega) (by omega) (by omega)
        refine ⟨d, e, hl, ?_, ?_⟩
        · intro i hi; exact ha i (by omega)
        · intro k hk; exact hb k (by omega)
      · simp only [if_neg hM]
        exact ⟨t, rfl, rfl, fun i hi => by omega, fun _ _ => rfl⟩)
  refine ⟨d, e, hl, h1, ?_⟩
  intro k hk
  apply h2
  rintro a ha ⟨h3, h4⟩
  have := hin a ha; omega

/-- **C04**, inclusive scans of segments. -/
theorem C04_inclusive_scan_n (s : Sched) (L N : Nat) (hL : 0 < L)
    (sizes offsets : List Nat) (o n : Nat → Nat)
    (hsizes : ∀ a, a < N → sizes[a]? = some (n a))
    (hoffsets : ∀ a, a < N → offsets[a]? = some (o a))
    (src dst : List α) (hlen : src.length = dst.length)
    (hseg : Spec.DisjointSegments N o n dst.length) :
    ∃ d, jointInclusiveScanN s L N sizes offsets src dst = some d ∧
      d.length = dst.length ∧
      (∀ a, a < N → Spec.HoldsInclusiveSums src d (o a) (n a)) ∧
      (∀ k, (∀ a, a < N → ¬ (o a ≤ k ∧ k < o a + n a)) → d[k]? = dst[k]?) := by
  unfold jointInclusiveScanN
  by_cases hN : N = 0
  · subst hN; exact ⟨dst, by simp⟩
  rw [if_neg hN, if_neg (by omega)]
  exact segments_spec _ (fun a i => ((src.drop (o a)).take (i + 1)).sum) dst _ (s.perm _) hseg
    (fun a ha t ht => incScanNStep_spec (hsizes a ha) (hoffsets a ha)
      (by have := hseg.inside a ha; omega) (by have := hseg.inside a ha; omega))

/-- **C04**, exclusive scans with segment totals. -/
theorem C04_exclusive_scan_n_sum (s0 s1 : Sched) (L N : Nat) (hL : 0 < L)
    (sizes offsets : List Nat) (o n : Nat → Nat)
    (hsizes : ∀ a, a < N → sizes[a]? = some (n a))
    (hoffsets : ∀ a, a < N → offsets[a]? = some (o a))
    (src dst sums : List α) (hlen : src.length = dst.length) (hsums : N ≤ sums.length)
    (hseg : Spec.DisjointSegments N o n dst.length) :
    ∃ d t, jointExclusiveScanNSum s0 s1 L N sizes offsets src dst sums = some (d, t) ∧
      d.length = dst.length ∧
      (∀ a, a < N → Spec.HoldsExclusiveSums src d (o a) (n a)) ∧
      (∀ k, (∀ a, a < N → ¬ (o a ≤ k ∧ k < o a + n a)) → d[k]? = dst[k]?) ∧
      t.length = sums.length ∧
      (∀ a, a < N → t[a]? = some (((src.drop (o a)).take (n a)).sum)) ∧
      (∀ k, N ≤ k → t[k]? = sums[k]?) := by
  unfold jointExclusiveScanNSum
  by_cases hN : N = 0
  · subst hN; exact ⟨dst, sums, by simp⟩
  rw [if_neg hN]
  obtain ⟨d, e, hl, h1, h2⟩ := C04_exclusive_scan_n s0 L N hL sizes offsets o n hsizes hoffsets
    src dst hlen hseg
  rw [e]
  simp only [Option.bind_some]
  obtain ⟨t, e', hl', h3, h4⟩ := segments_spec (N := N) (o := fun a => a) (n := fun _ => 1)
    (scanSumStep sizes offsets src d) (fun a _ => ((src.drop (o a)).take (n a)).sum) sums _
    (s1.perm (List.range N))
    ⟨fun a ha => by omega, fun a b _ _ hab k => by omega⟩
    (by
      intro a ha u hu
      have hin := hseg.inside a ha
      refine ⟨u.set a ((src.drop (o a)).take (n a)).sum, ?_, by simp, ?_, ?_⟩
      · unfold scanSumStep
        simp only [rd, hsizes a ha, hoffsets a ha, Option.bind_some]
        by_cases h0 : n a = 0
        · simp only [h0, if_true, List.take_zero, List.sum_nil]
          exact st_eq_some (by omega)
        · rw [if_neg h0]
          have hv := h1 a ha (n a - 1) (by omega)
          rw [show o a + n a - 1 = o a + (n a - 1) by omega, hv,
            List.getElem?_eq_getElem (by omega)]
          simp only [Option.bind_some]
          have : src[o a + (n a - 1)] + ((src.drop (o a)).take (n a - 1)).sum
              = ((src.drop (o a)).take (n a)).sum := by
            obtain ⟨m, hm⟩ : ∃ m, n a = m + 1 := ⟨n a - 1, by omega⟩
            simp only [hm, Nat.add_sub_cancel]
            rw [List.take_add_one, List.sum_append, List.getElem?_drop,
              List.getElem?_eq_getElem (by omega), add_comm]
            simp
          rw [this]
          exact st_eq_some (by omega)
      · intro i hi
        have : i = 0 := by omega
        subst this
        exact List.getElem?_set_self (by omega)
      · intro k hk
        exact List.getElem?_set_ne (by omega))
  rw [e']
  refine ⟨d, t, rfl, hl, h1, h2, hl', ?_, ?_⟩
  · intro a ha
    simpa using h3 a ha 0 (by omega)
  · intro k hk
    apply h4
    omega

/-- Concrete instance of the C04 hypotheses: three segments, one of them empty, not
in order of their offsets, with a gap. -/
example : jointExclusiveScanNSum (α := Int) Sched.inOrder Sched.reversed 4 3 [2, 0, 3] [4, 9, 0]
    [1, 2, 3, 50, 5, 6, 60] [7, 7, 7, 7, 7, 7, 7] [8, 8, 8]
    = some ([0, 1, 3, 7, 0, 5, 7], [11, 0, 6]) := by decide

end Scan

/-- **C05** For every matrix with at least two rows and two columns and every tile
size, in every order of the work items, the result is the transpose and nothing
else is written.  `_partial`: the claim for matrices with one row or one column is
false, see `C05_degenerate_not_transposed`. -/
theorem C05_transpose_partial {α : Type} [Zero α] (s0 s1 : Sched) (sqrtL rows cols : Nat)
    (hL : 0 < sqrtL) (hsmall : sqrtL < 2 ^ 31) (hr : 1 < rows) (hc : 1 < cols)
    (garbage : Nat → Nat → Fresh α) (src dst : List α)
    (hsrc : rows * cols ≤ src.length) (hdst : cols * rows ≤ dst.length) :
    ∃ d, matrixTranspose s0 s1 sqrtL rows cols garbage src dst = some d ∧
      d.length = dst.length ∧ Spec.IsTranspose rows cols src d ∧
      (∀ k, cols * rows ≤ k → d[k]? = dst[k]?) := by
  have hp : ∀ m, 1 < m → ∃ l, getPrevPowerOfTwo (min m sqrtL) = some l ∧ 0 < l := by
    intro m hm
    have hpos : 0 < min m sqrtL := by omega
    unfold getPrevPowerOfTwo log2Int oneShl
    rw [if_neg (by omega)]
    simp only [Option.bind_some]
    have hlt := log2_lt (b := 31) hpos (by omega)
    rw [if_pos hlt]
    exact ⟨_, rfl, by omega⟩
  obtain ⟨lsr, hlsr, hlsr0⟩ := hp rows hr
  obtain ⟨lsc, hlsc, hlsc0⟩ := hp cols hc
  unfold matrixTranspose
  rw [if_neg (by omega), hlsr, hlsc]
  simp only [Option.bind_some, getNextMultiple, if_neg (show ¬ lsr = 0 by omega),
    if_neg (show ¬ lsc = 0 by omega), Nat.mul_div_cancel _ hlsr0, Nat.mul_div_cancel _ hlsc0]
  have hread := fun gr gc => transposeRead_all (rows := rows) (cols := cols) (lsr := lsr)
    (lsc := lsc) src gr gc hsrc (garbage gr gc (lsr * lsc)).1 (garbage gr gc (lsr * lsc)).2 _
    (s0.perm (pairs lsr lsc))
  have hcov : ∀ m l, 0 < l → m ≤ (m + (l - 1)) / l * l := by
    intro m l hl
    have h1 := Nat.lt_div_mul_add (a := m + (l - 1)) (b := l) hl
    omega
  rw [if_pos]
  · refine transposeWrite_all hlsr0 hlsc0 (hcov rows lsr hlsr0) (hcov cols lsc hlsc0) src dst
      hsrc hdst _ ?_ ?_ _ (s1.perm _)
    · intro gr gc _ _
      obtain ⟨m, e, hl, -⟩ := hread gr gc
      rw [e]; exact hl
    · intro gr gc _ _ a b ha hb h1 h2
      obtain ⟨m, e, -, h⟩ := hread gr gc
      rw [e]; exact h a b ha hb h1 h2
  · intro g _
    obtain ⟨m, e, -⟩ := hread g.1 g.2
    rw [e]; rfl

/-- Concrete instance of C05: a 3 x 2 matrix with 2 x 2 tiles. -/
example : matrixTranspose (α := Int) Sched.reversed Sched.reversed 2 3 2
    (fun _ _ n => ⟨List.replicate n 99, by simp⟩) [1, 2, 3, 4, 5, 6] [0, 0, 0, 0, 0, 0, 7]
    = some [1, 3, 5, 2, 4, 6, 7] := by decide

/-- **C05**, negative: for a matrix with a single row nothing is written, so the
result is not the transpose (which is the source itself) whenever the destination
held anything else. -/
theorem C05_degenerate_not_transposed :
    ∃ (src dst : List Int), src.length = 1 * 3 ∧ dst.length = 3 * 1 ∧
      ∀ (s0 s1 : Sched) sqrtL garbage, ∃ d,
        matrixTranspose s0 s1 sqrtL 1 3 garbage src dst = some d ∧
          ¬ Spec.IsTranspose 1 3 src d := by
  refine ⟨[1, 2, 3], [0, 0, 0], rfl, rfl, ?_⟩
  intro s0 s1 sqrtL garbage
  refine ⟨[0, 0, 0], by simp [matrixTranspose], ?_⟩
  intro h
  have := h 0 0 (by decide) (by decide)
  simp at this

/-- **C06** `get_next_multiple(L, m)` is the least multiple of `m` that is at least `L`. -/
theorem C06_next_multiple (L m : Nat) (hm : 0 < m) :
    ∃ x, getNextMultiple L m = some x ∧ Spec.IsLeastNat (fun y => L ≤ y ∧ m ∣ y) x := by
  refine ⟨(L + (m - 1)) / m * m, by simp [getNextMultiple]; omega, ⟨?_, Nat.dvd_mul_left _ _⟩, ?_⟩
  · have h1 := Nat.lt_div_mul_add (a := L + (m - 1)) (b := m) hm
    omega
  · rintro y ⟨hy, k, rfl⟩
    rw [Nat.mul_comm]
    apply Nat.mul_le_mul_left
    rw [Nat.div_le_iff_le_mul_add_pred hm]
    omega

/-- **C06** `div_round_up(a, b)` is the least `k` with `k * b ≥ a`. -/
theorem C06_div_round_up (a b : Nat) (hb : 0 < b) :
    ∃ x, divRoundUp a b = some x ∧ Spec.IsLeastNat (fun k => a ≤ k * b) x := by
  refine ⟨_, divRoundUp_eq hb, ?_, ?_⟩
  · have h1 := Nat.lt_div_mul_add (a := a + (b - 1)) (b := b) hb
    show a ≤ _
    omega
  · intro k hk
    rw [Nat.div_le_iff_le_mul_add_pred hb, Nat.mul_comm]
    omega

/-- **C06** `get_prev_power_of_two(N)` is the largest power of two that is at most `N`. -/
theorem C06_prev_power_of_two (N : Nat) (h0 : 0 < N) (h1 : N < 2 ^ 31) :
    ∃ x, getPrevPowerOfTwo N = some x ∧
      Spec.IsGreatestNat (fun y => Spec.IsPow2 y ∧ y ≤ N) x := by
  have hlt := log2_lt h0 h1
  refine ⟨2 ^ N.log2, ?_, ⟨⟨_, rfl⟩, pow_log2_le h0⟩, ?_⟩
  · unfold getPrevPowerOfTwo log2Int oneShl
    rw [if_neg (by omega)]
    simp only [Option.bind_some, if_pos hlt, Option.some.injEq]
    exact Nat.max_eq_left Nat.one_le_two_pow
  · rintro y ⟨⟨k, rfl⟩, hy⟩
    apply Nat.pow_le_pow_right (by omega)
    have := lt_pow_log2 N
    have : (2 : Nat) ^ k < 2 ^ (N.log2 + 1) := by omega
    have := (Nat.pow_lt_pow_iff_right (by omega : 1 < 2)).1 this
    omega

/-- **C06** `get_min_power_of_two(N, max)` is the least power of two that is greater
than `N` and at least 4, capped at `max`. -/
theorem C06_min_power_of_two (N maxSize : Nat) (h0 : 0 < N) (h1 : N < 2 ^ 30) :
    ∃ x, getMinPowerOfTwo N maxSize = some (min x maxSize) ∧
      Spec.IsLeastNat (fun y => Spec.IsPow2 y ∧ N < y ∧ 4 ≤ y) x := by
  have hlt := log2_lt h0 h1
  have e4 : (4 : Nat) = 2 ^ 2 := by norm_num
  refine ⟨max (2 ^ (N.log2 + 1)) 4, ?_, ⟨?_, ?_, by omega⟩, ?_⟩
  · unfold getMinPowerOfTwo log2Int oneShl
    rw [if_neg (by omega)]
    simp only [Option.bind_some, if_pos (show N.log2 + 1 < 31 by omega)]
  · rcases Nat.le_total (2 ^ (N.log2 + 1)) 4 with h | h
    · rw [Nat.max_eq_right h]; exact ⟨2, e4⟩
    · rw [Nat.max_eq_left h]; exact ⟨_, rfl⟩
  · have := lt_pow_log2 N
    omega
  · rintro y ⟨⟨k, rfl⟩, hy1, hy2⟩
    have hk : N.log2 < k := log2_lt h0 hy1
    have : (2 : Nat) ^ (N.log2 + 1) ≤ 2 ^ k := Nat.pow_le_pow_right (by omega) hk
    omega

/-- **C06** `is_power_of_two` agrees with the definition. -/
theorem C06_is_power_of_two (n : Nat) : isPowerOfTwo n = true ↔ Spec.IsPow2 n :=
  isPowerOfTwo_iff n

/-- The domains of the C06 theorems are not empty and their bounds are needed:
`get_min_power_of_two(0, ·)` and `get_prev_power_of_two(0)` have undefined
behaviour. -/
theorem C06_zero_undefined : getMinPowerOfTwo 0 256 = none ∧ getPrevPowerOfTwo 0 = none := by
  decide

example : getNextMultiple 7 4 = some 8 ∧ divRoundUp 7 4 = some 2 ∧
    getPrevPowerOfTwo 7 = some 4 ∧ getMinPowerOfTwo 7 256 = some 8 ∧
    getMinPowerOfTwo 8 256 = some 16 ∧ isPowerOfTwo 8 = true ∧ isPowerOfTwo 12 = false := by
  decide

end NP
