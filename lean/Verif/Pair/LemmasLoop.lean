import Verif.Pair.SpecLoop
import Verif.Comm.LemmasExchange
import Mathlib.Data.List.Perm.Basic
import Mathlib.Data.List.Nodup
import Mathlib.Data.List.Basic

/-! # Lemmas about pair loops -/

set_option autoImplicit false

namespace NP

open Spec

/-! ## Interleavings -/

theorem Interleave.perm {α : Type} {gs : List (List α)} {t : List α} (h : Interleave gs t) :
    t.Perm gs.flatten := by
  induction h with
  | done h =>
    rw [List.flatten_eq_nil_iff.2 h]
  | @step l₁ l₂ g t x _ ih =>
    refine (ih.cons x).trans ?_
    simp only [List.flatten_append, List.flatten_cons, List.cons_append]
    exact List.perm_middle.symm

theorem Interleave.pairwise {α : Type} {R : α → α → Prop} {gs : List (List α)} {t : List α}
    (h : Interleave gs t) (h1 : ∀ g ∈ gs, g.Pairwise R)
    (h2 : gs.Pairwise fun g g' => ∀ x ∈ g, ∀ y ∈ g', R x y ∧ R y x) : t.Pairwise R := by
  induction h with
  | done _ => exact List.Pairwise.nil
  | @step l₁ l₂ g t x ht ih =>
    rw [List.pairwise_append, List.pairwise_cons] at h2
    obtain ⟨a1, ⟨a2, a3⟩, a4⟩ := h2
    have hxg := h1 (x :: g) (by simp)
    rw [List.pairwise_cons] at hxg
    rw [List.pairwise_cons]
    refine ⟨?_, ih ?_ ?_⟩
    · intro y hy
      rw [ht.perm.mem_iff, List.flatten_append, List.mem_append, List.flatten_cons,
        List.mem_append] at hy
      rcases hy with hy | hy | hy
      · obtain ⟨g', hg', hyg⟩ := List.mem_flatten.1 hy
        exact (a4 g' hg' (x :: g) (by simp) y hyg x (by simp)).2
      · exact hxg.1 y hy
      · obtain ⟨g', hg', hyg⟩ := List.mem_flatten.1 hy
        exact (a2 g' hg' x (by simp) y hyg).1
    · intro g' hg'
      rw [List.mem_append, List.mem_cons] at hg'
      rcases hg' with hg' | rfl | hg'
      · exact h1 g' (by simp [hg'])
      · exact hxg.2
      · exact h1 g' (by simp [hg'])
    · rw [List.pairwise_append, List.pairwise_cons]
      refine ⟨a1, ⟨fun g' hg' z hz y hy => a2 g' hg' z (by simp [hz]) y hy, a3⟩, ?_⟩
      intro g' hg' b hb z hz y hy
      rw [List.mem_cons] at hb
      rcases hb with rfl | hb
      · exact a4 g' hg' (x :: b) (by simp) z hz y (by simp [hy])
      · exact a4 g' hg' b (by simp [hb]) z hz y hy

theorem interleave_flatten {α : Type} (gs : List (List α)) : Interleave gs gs.flatten := by
  have key : ∀ (gs : List (List α)) (pre : List (List α)), (∀ g ∈ pre, g = []) →
      Interleave (pre ++ gs) gs.flatten := by
    intro gs
    induction gs with
    | nil =>
      intro pre hpre
      exact Interleave.done (by simpa using hpre)
    | cons g gs ih =>
      intro pre hpre
      induction g with
      | nil =>
        have := ih (pre ++ [[]]) (by
          intro g hg
          rw [List.mem_append, List.mem_singleton] at hg
          rcases hg with hg | hg
          · exact hpre g hg
          · exact hg)
        simpa using this
      | cons x g ihg => exact Interleave.step ihg
  simpa using key gs [] (by simp)

/-! ## Lists -/

theorem flatMap_zipIdx {β γ : Type} {l : List β} {f : β × Nat → List γ} {g : Nat → List γ}
    (h : ∀ (i : Nat) (x : β), l[i]? = some x → f (x, i) = g i) :
    l.zipIdx.flatMap f = (List.range l.length).flatMap g := by
  have h1 : List.range l.length = l.zipIdx.map Prod.snd := by
    rw [List.zipIdx_map_snd, List.range_eq_range']
  rw [h1, List.flatMap_map]
  apply List.flatMap_congr
  rintro ⟨x, i⟩ hx
  exact h i x (List.mem_zipIdx_iff_getElem?.1 hx)

theorem map_zipIdx {β γ : Type} {l : List β} {f : β × Nat → γ} {g : Nat → γ}
    (h : ∀ (i : Nat) (x : β), l[i]? = some x → f (x, i) = g i) :
    l.zipIdx.map f = (List.range l.length).map g := by
  have h1 : List.range l.length = l.zipIdx.map Prod.snd := by
    rw [List.zipIdx_map_snd, List.range_eq_range']
  rw [h1, List.map_map]
  apply List.map_congr_left
  rintro ⟨x, i⟩ hx
  exact h i x (List.mem_zipIdx_iff_getElem?.1 hx)

theorem flatMap_swap {β γ δ : Type} (l : List β) (m : List γ) (f : β → γ → List δ) :
    (l.flatMap fun a => m.flatMap fun b => f a b).Perm
      (m.flatMap fun b => l.flatMap fun a => f a b) := by
  induction l with
  | nil => simp
  | cons a l ih =>
    simp only [List.flatMap_cons]
    refine (ih.append_left _).trans ?_
    exact List.flatMap_append_perm m (f a) (fun b => l.flatMap fun a => f a b)

/-- The work items of a group visit every position exactly once. -/
theorem strided_lanes (n ls : Nat) (h : 0 < ls) :
    ((List.range ls).flatMap fun lane => strided lane n ls).Perm (List.range n) := by
  rw [List.perm_ext_iff_of_nodup _ List.nodup_range]
  · intro x
    rw [List.mem_flatMap, List.mem_range]
    constructor
    · rintro ⟨lane, _, hx⟩
      exact ((mem_strided h).1 hx).2.1
    · intro hx
      refine ⟨x % ls, List.mem_range.2 (Nat.mod_lt _ h), (mem_strided h).2 ⟨Nat.mod_le _ _, hx, ?_⟩⟩
      have := Nat.div_add_mod x ls
      rw [show x - x % ls = ls * (x / ls) by omega, Nat.mul_mod_right]
  · apply nodup_flatMap_range
    · intro s _; exact strided_nodup _ _ _
    · intro s t hs ht hst x hx hx'
      rw [mem_strided h] at hx hx'
      apply hst
      have h1 : x % ls = s := by
        have e : x = s + (x - s) := by omega
        rw [e, Nat.add_mod, hx.2.2, Nat.add_zero, Nat.mod_mod, Nat.mod_eq_of_lt hs]
      have h2 : x % ls = t := by
        have e : x = t + (x - t) := by omega
        rw [e, Nat.add_mod, hx'.2.2, Nat.add_zero, Nat.mod_mod, Nat.mod_eq_of_lt ht]
      omega

theorem le_foldl_max (l : List Int) (s : Int) :
    s ≤ l.foldl max s ∧ ∀ x ∈ l, x ≤ l.foldl max s := by
  induction l generalizing s with
  | nil => simp
  | cons a l ih =>
    obtain ⟨h1, h2⟩ := ih (max s a)
    rw [List.foldl_cons]
    refine ⟨by omega, ?_⟩
    intro x hx
    rw [List.mem_cons] at hx
    rcases hx with rfl | hx
    · omega
    · exact h2 x hx

theorem le_foldl_max_nat (l : List Nat) (s : Nat) :
    s ≤ l.foldl max s ∧ ∀ x ∈ l, x ≤ l.foldl max s := by
  induction l generalizing s with
  | nil => simp
  | cons a l ih =>
    obtain ⟨h1, h2⟩ := ih (max s a)
    rw [List.foldl_cons]
    refine ⟨by omega, ?_⟩
    intro x hx
    rw [List.mem_cons] at hx
    rcases hx with rfl | hx
    · omega
    · exact h2 x hx

theorem length_listOffsets (s : Int) (ns : List Int) : (listOffsets s ns).length = ns.length := by
  induction ns generalizing s with
  | nil => rfl
  | cons n ns ih => simp [listOffsets, ih]

/-- The offset of a list is the number of pairs in the lists before it. -/
theorem getElem?_listOffsets (s : Int) (ns : List Int) (i : Nat) (h : i < ns.length) :
    (listOffsets s ns)[i]? = some (s + (ns.take i).sum) := by
  induction ns generalizing s i with
  | nil => simp at h
  | cons n ns ih =>
    cases i with
    | zero => simp [listOffsets]
    | succ i =>
      rw [listOffsets, List.getElem?_cons_succ, ih _ _ (by simpa using h)]
      simp [Int.add_assoc]

theorem sum_take_add_le {ns : List Nat} {i j : Nat} {n : Nat} (hij : i < j)
    (hi : ns[i]? = some n) : (ns.take i).sum + n ≤ (ns.take j).sum := by
  induction ns generalizing i j with
  | nil => simp at hi
  | cons a ns ih =>
    cases j with
    | zero => omega
    | succ j =>
      cases i with
      | zero =>
        simp only [List.getElem?_cons_zero, Option.some.injEq] at hi
        simp [hi]
      | succ i =>
        rw [List.getElem?_cons_succ] at hi
        have := ih (by omega : i < j) hi
        simp only [List.take_succ_cons, List.sum_cons]
        omega

theorem mem_pairGroups {start stop n : Nat} {g : Nat × Nat} :
    g ∈ pairGroups start stop n ↔ start ≤ g.1 ∧ g.1 < stop ∧ g.2 < n := by
  unfold pairGroups
  rw [List.mem_flatMap]
  constructor
  · rintro ⟨c, hc, hg⟩
    obtain ⟨l, hl, rfl⟩ := List.mem_map.1 hg
    rw [List.mem_range'_1] at hc
    rw [List.mem_range] at hl
    exact ⟨hc.1, by dsimp only; omega, hl⟩
  · rintro ⟨h1, h2, h3⟩
    exact ⟨g.1, by rw [List.mem_range'_1]; omega, List.mem_map.2 ⟨g.2, List.mem_range.2 h3, rfl⟩⟩

theorem nodup_pairGroups (start stop n : Nat) : (pairGroups start stop n).Nodup := by
  unfold pairGroups
  rw [List.nodup_flatMap]
  constructor
  · intro c _
    exact List.nodup_range.map (fun a b h => (Prod.mk.inj h).2)
  · have hnd : (List.range' start (stop - start)).Pairwise (· ≠ ·) := List.nodup_range'
    refine hnd.imp ?_
    intro a b hab x hx hx'
    obtain ⟨l, _, rfl⟩ := List.mem_map.1 hx
    obtain ⟨l', _, h⟩ := List.mem_map.1 hx'
    exact hab (Prod.mk.inj h).1.symm

end NP
