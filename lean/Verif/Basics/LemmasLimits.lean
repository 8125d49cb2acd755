import Verif.Basics.SpecLimits
import Verif.Common.KernelLemmas
import Mathlib.Algebra.Order.BigOperators.Group.List
import Mathlib.Algebra.Order.Group.Abs
import Mathlib.Tactic.NormNum
import Mathlib.Tactic.Linarith
import Mathlib.Tactic.Positivity

/-! # Lemmas: limits of the device and the check of its atomics -/

set_option autoImplicit false

namespace NP
open NP.Spec

/-- A loop that stops at the first failure decides whether a condition holds everywhere. -/
theorem forLoop_decide {n : Nat} {f : Nat → Bool → Option Bool} {C : Nat → Prop} [DecidablePred C]
    (h1 : ∀ i < n, f i true = some (decide (C i))) (h2 : ∀ i < n, f i false = some false) :
    ∃ b, forLoop 0 n f true = some b ∧ (b = true ↔ ∀ i < n, C i) := by
  obtain ⟨b, b1, b2⟩ := forLoop_invariant (a := 0) (b := n) (step := f) (s := true)
    (fun i b => b = true ↔ ∀ k < i, C k) (Nat.zero_le _) (by
      rintro i b - hi hb
      cases b with
      | true =>
        refine ⟨_, h1 i hi, ?_⟩
        rw [decide_eq_true_eq]
        constructor
        · intro h k hk
          by_cases hki : k = i
          · subst hki; exact h
          · exact hb.mp rfl k (by omega)
        · intro h; exact h i (by omega)
      | false =>
        refine ⟨_, h2 i hi, ?_⟩
        constructor
        · intro h; cases h
        · intro h; exact absurd (hb.mpr fun k hk => h k (by omega)) (by simp)) (by simp)
  exact ⟨b, b1, b2⟩

theorem validateGlobal_ok {limit range : List Nat} (hl : limit.length = range.length) :
    ∃ b, validateGlobal limit range = some b ∧
      (b = true ↔ ∀ d : Nat, ∀ m g, limit[d]? = some m → range[d]? = some g → m ≠ 0 → g ≤ m) := by
  obtain ⟨b, b1, b2⟩ := forLoop_decide (n := range.length)
    (f := fun dx ok => if ok then (rd limit dx).bind fun m => (rd range dx).bind fun g =>
      some (if m ≠ 0 then decide (g ≤ m) else true) else some false)
    (C := fun d => (limit[d]?).getD 0 ≠ 0 → (range[d]?).getD 0 ≤ (limit[d]?).getD 0) (by
      intro i hi
      have e1 : limit[i]? = some (limit[i]'(by omega)) := List.getElem?_eq_getElem _
      have e2 : range[i]? = some range[i] := List.getElem?_eq_getElem hi
      simp only [if_true, rd, e1, e2, Option.bind_some, Option.getD_some]
      by_cases h : limit[i]'(by omega) = 0 <;> simp [h]) (by intro i hi; simp)
  refine ⟨b, b1, b2.trans ⟨?_, ?_⟩⟩
  · intro h d m g hm hg h0
    obtain ⟨hd, -⟩ := List.getElem?_eq_some_iff.mp hg
    have := h d hd
    rw [hm, hg] at this
    exact this h0
  · intro h d hd
    have := h d _ _ (List.getElem?_eq_getElem (show d < limit.length by omega)) (List.getElem?_eq_getElem hd)
    rw [List.getElem?_eq_getElem (show d < limit.length by omega), List.getElem?_eq_getElem hd]
    exact this

theorem prod_pos_of_ne {l : List Nat} (h : ∀ m ∈ l, m ≠ 0) : 0 < l.prod := by
  induction l with
  | nil => simp
  | cons x l ih =>
    rw [List.prod_cons]
    exact Nat.mul_pos (Nat.pos_of_ne_zero (h x (by simp))) (ih fun m hm => h m (by simp [hm]))

theorem ediv_zero_iff_lt {q s : Int} (hq : 0 ≤ q) (hs : 0 < s) : q / s = 0 ↔ q < s := by
  constructor
  · intro h
    have h1 := Int.emod_add_mul_ediv q s
    have h2 := Int.emod_lt_of_pos q hs
    rw [h, Int.mul_zero] at h1
    omega
  · exact Int.ediv_eq_zero_of_lt hq

theorem validateLocal_ok {items range : List Nat} {wg : Nat} (hl : items.length = range.length)
    (h0 : ∀ m ∈ items, m ≠ 0) (hp : items.prod < 2 ^ 64) :
    ∃ b, validateLocal items wg range = some b ∧
      (b = true ↔ (∀ d : Nat, ∀ m l, items[d]? = some m → range[d]? = some l → m ≠ 0 → l ≤ m) ∧ range.prod ≤ wg) := by
  obtain ⟨s, s1, s2, s3⟩ := forLoop_invariant (a := 0) (b := range.length)
    (step := fun dx (s : Bool × Nat) => if s.1 then (rd items dx).bind fun m => (rd range dx).bind fun l =>
      some (if m ≠ 0 then decide (l ≤ m) else true, s.2 * l % 2 ^ 64) else some s) (s := (true, 1))
    (fun i s => (s.1 = true ↔ ∀ d < i, ∀ m l, items[d]? = some m → range[d]? = some l → l ≤ m) ∧
      (s.1 = true → s.2 = (range.take i).prod ∧ (range.take i).prod ≤ (items.take i).prod)) (Nat.zero_le _) (by
      rintro i ⟨b, t⟩ - hi ⟨q1, q2⟩
      cases b with
      | false =>
        refine ⟨_, rfl, ?_, by simp⟩
        constructor
        · intro h; cases h
        · intro h; exact absurd (q1.mpr fun d hd => h d (by omega)) (by simp)
      | true =>
        have hi' : i < items.length := by omega
        have e1 : items[i]? = some items[i] := List.getElem?_eq_getElem hi'
        have e2 : range[i]? = some range[i] := List.getElem?_eq_getElem hi
        have hm : items[i] ≠ 0 := h0 _ (List.getElem_mem hi')
        obtain ⟨r1, r2⟩ := q2 rfl
        simp only at r1
        refine ⟨(decide (range[i] ≤ items[i]), t * range[i] % 2 ^ 64), ?_, ?_, ?_⟩
        · simp only [if_true, rd]
          rw [e1, e2]
          simp [hm]
        · simp only [decide_eq_true_eq]
          constructor
          · intro h d hd m l g1 g2
            by_cases hdi : d = i
            · subst hdi
              rw [e1, Option.some.injEq] at g1
              rw [e2, Option.some.injEq] at g2
              omega
            · exact q1.mp rfl d (by omega) m l g1 g2
          · intro h; exact h i (by omega) _ _ e1 e2
        · simp only [decide_eq_true_eq]
          intro h
          have hle : (range.take (i + 1)).prod ≤ (items.take (i + 1)).prod := by
            rw [List.take_add_one, List.take_add_one, e1, e2, List.prod_append, List.prod_append]
            simpa using Nat.mul_le_mul r2 h
          have hpr : (range.take (i + 1)).prod = t * range[i] := by
            rw [List.take_add_one, e2, List.prod_append, r1]; simp
          have hdiv : (items.take (i + 1)).prod ≤ items.prod := by
            have hpos : 0 < (items.drop (i + 1)).prod :=
              prod_pos_of_ne fun m hm => h0 m (List.mem_of_mem_drop hm)
            conv_rhs => rw [← List.take_append_drop (i + 1) items, List.prod_append]
            exact Nat.le_mul_of_pos_right _ hpos
          refine ⟨?_, hle⟩
          rw [hpr, Nat.mod_eq_of_lt]
          rw [hpr] at hle
          omega) ⟨by simp, by simp⟩
  refine ⟨s.1 && decide (s.2 ≤ wg), by unfold validateLocal; rw [s1]; rfl, ?_⟩
  rw [Bool.and_eq_true, decide_eq_true_eq]
  rw [List.take_length] at s3
  constructor
  · rintro ⟨h1, h2⟩
    refine ⟨fun d m l hm hl' _ => ?_, ?_⟩
    · obtain ⟨hd, -⟩ := List.getElem?_eq_some_iff.mp hl'
      exact s2.mp h1 d hd m l hm hl'
    · rw [(s3 h1).1] at h2; exact h2
  · rintro ⟨h1, h2⟩
    have h : s.1 = true := s2.mpr fun d hd m l hm hl' => h1 d m l hm hl' (h0 m (List.mem_of_getElem? hm))
    exact ⟨h, by rw [(s3 h).1]; exact h2⟩

theorem toLongLong_small {n : Nat} (h : n < 2 ^ 63) : toLongLong n = n := by
  unfold toLongLong; rw [if_pos h]

theorem foldl_perm_add {T : Type} [AddCommMonoid T] {l l' : List T} (h : l.Perm l') (s : T) :
    l.foldl (· + ·) s = l'.foldl (· + ·) s :=
  h.foldl_eq' (fun x _ y _ z => by
    change z + x + y = z + y + x
    rw [add_right_comm]) s

theorem foldl_perm_min {T : Type} [LinearOrder T] {l l' : List T} (h : l.Perm l') (s : T) :
    l.foldl min s = l'.foldl min s := h.foldl_eq' (fun x _ y _ z => min_right_comm z x y) s

theorem foldl_perm_max {T : Type} [LinearOrder T] {l l' : List T} (h : l.Perm l') (s : T) :
    l.foldl max s = l'.foldl max s := h.foldl_eq' (fun x _ y _ z => max_right_comm z x y) s

theorem testAddInt_iff (c t : Int) : testAddInt c t = true ↔ c = t ∨ |c - t| < |c| := by
  unfold testAddInt
  simp only [Bool.or_eq_true, decide_eq_true_eq]
  have small : ∀ n : Int, 0 ≤ n → ((n : ℚ) < 1 / 10 ^ 8 ↔ n = 0) := by
    intro n hn
    constructor
    · intro h
      by_contra hne
      have h1 : (1 : ℤ) ≤ n := by omega
      have h2 : (1 : ℚ) ≤ n := by exact_mod_cast h1
      norm_num at h
      linarith
    · rintro rfl; norm_num
  have habs : 0 ≤ |c - t| := abs_nonneg _
  rw [small _ habs, abs_eq_zero, sub_eq_zero]
  by_cases hc : |c| > 0
  · rw [if_pos hc, Int.tdiv_eq_ediv_of_nonneg habs, small _ (Int.ediv_nonneg habs (by omega)),
      ediv_zero_iff_lt habs hc, or_comm]
  · rw [if_neg hc, small _ habs, abs_eq_zero, sub_eq_zero, or_self]
    constructor
    · exact .inl
    · rintro (h | h)
      · exact h
      · omega

theorem testAddReal_iff (c t : ℚ) : testAddReal c t = true ↔ |c - t| < 1 / 10 ^ 8 * max 1 |c| := by
  unfold testAddReal
  simp only [Bool.or_eq_true, decide_eq_true_eq]
  have e : (0 : ℚ) < 1 / 10 ^ 8 := by norm_num
  rw [mul_max_of_nonneg _ _ e.le, lt_max_iff, mul_one]
  by_cases hc : |c| > 0
  · rw [if_pos hc, div_lt_iff₀ hc, or_comm]
  · have h0 : |c| = 0 := le_antisymm (not_lt.mp hc) (abs_nonneg _)
    rw [if_neg hc, h0, mul_zero, or_self]
    constructor
    · exact .inl
    · rintro (h | h)
      · exact h
      · exact absurd h (not_lt.mpr (abs_nonneg _))

theorem runChecks_soft (l : List Bool) (b : Bool) :
    runItems (fun r success => if !false || (success && r) then some (success && r) else none) l b =
      some (b && l.all id) := by
  induction l generalizing b with
  | nil => simp
  | cons r l ih =>
    rw [runItems_cons]
    simp only [Bool.not_false, Bool.true_or, if_true, Option.bind_some] at ih ⊢
    rw [ih]
    simp [Bool.and_assoc]

theorem runChecks_fatal (l : List Bool) :
    runItems (fun r success => if !true || (success && r) then some (success && r) else none) l true =
      if l.all id then some true else none := by
  induction l with
  | nil => simp
  | cons r l ih =>
    rw [runItems_cons]
    cases r with
    | true =>
      simp only [Bool.not_true, Bool.false_or, Bool.and_self, if_true, Option.bind_some] at ih ⊢
      rw [ih]
      simp
    | false => simp

end NP
