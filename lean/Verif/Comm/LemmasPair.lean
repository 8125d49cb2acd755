import Verif.Comm.ModelPair
import Mathlib.Data.Int.CardIntervalMod

/-!
# Lemmas: communicators of nodes
-/

set_option autoImplicit false

namespace NP

/-- The members of a group that satisfies `p` are numbered in order. -/
theorem filter_rank_range (p : Nat → Bool) (P : Nat) :
    ((List.range P).filter p).map (fun r => ((List.range r).filter p).length) =
      List.range ((List.range P).filter p).length := by
  induction P with
  | zero => rfl
  | succ P ih =>
    rw [List.range_succ, List.filter_append, List.map_append, ih, List.length_append]
    cases h : p P with
    | false => simp [h]
    | true => simp [h, List.range_succ]

theorem mpiSplit_group (P : Nat) (colour : Nat → Option Nat) (c : Nat) :
    ((List.range P).filter fun q => colour q = some c).map (mpiSplit P colour) =
      (List.range ((List.range P).filter fun q => colour q = some c).length).map fun k =>
        some (k, ((List.range P).filter fun q => colour q = some c).length) := by
  rw [← filter_rank_range (fun q => decide (colour q = some c)) P, List.map_map]
  refine List.map_congr_left fun r hr => ?_
  have hc : colour r = some c := by simpa using (List.mem_filter.mp hr).2
  simp [mpiSplit, hc]

theorem colourInter_eq (P : Nat) (node : Nat → Nat) (r : Nat) :
    colourInter P node r = if ∀ q < r, node q ≠ node r then some 1 else none := by
  unfold colourInter mpiSplit
  simp only [Option.map_some, List.length_eq_zero_iff, List.filter_eq_nil_iff, List.mem_range, decide_eq_true_eq,
    Option.some.injEq, ne_eq]

theorem count_range_mod (n d s : Nat) (hd : d < n) :
    ((List.range s).filter fun k => k % n = d).length = s / n + if d < s % n then 1 else 0 := by
  have h := Nat.count_modEq_card s (r := n) (by omega) d
  rw [Nat.mod_eq_of_lt hd] at h
  rw [← h]
  clear h
  induction s with
  | zero => rfl
  | succ s ih =>
    rw [List.range_succ, List.filter_append, List.length_append, ih, Nat.count_succ]
    congr 1
    simp only [Nat.ModEq, Nat.mod_eq_of_lt hd]
    by_cases hs : s % n = d <;> simp [hs]

theorem deviceIndex_unset (localRank : Int) (c : CommPairRank) (n : Nat) (hlr : localRank < 0) (hn : n ≠ 0) :
    deviceIndex localRank .unset .unset .unset c n = some (c.rankIntra % n) := by
  have h0 : ¬ ((c.rankIntra : Int) < 0) := by omega
  have ht : (c.rankIntra : Int).tmod n = ((c.rankIntra % n : Nat) : Int) := by
    rw [Int.tmod_eq_emod_of_nonneg (by omega)]
    rfl
  simp only [deviceIndex, hlr, if_true, getLocalMpiRank, h0, if_false, Option.bind_some, hn, ht]
  rw [if_neg (by omega), Int.toNat_natCast]

end NP
