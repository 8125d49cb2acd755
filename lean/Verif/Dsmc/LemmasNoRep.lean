import Verif.Dsmc.SpecNoRep
import Verif.Dsmc.LemmasPartition
import Verif.Pair.LemmasPush

/-! Helper lemmas for the sampling without replacement. -/

set_option autoImplicit false

namespace NP

open Spec

/-- Removing an element by overwriting it with the last one. -/
theorem swap_out_perm {l : List Nat} {n i x y : Nat} (hn : n + 1 ≤ l.length) (hi : i ≤ n)
    (hx : l[i]? = some x) (hy : l[n]? = some y) :
    (x :: (l.set i y).take n).Perm (l.take (n + 1)) := by
  induction l generalizing n i with
  | nil => simp at hn
  | cons z zs ih =>
    cases n with
    | zero =>
      obtain rfl : i = 0 := by omega
      simp at hx hy
      simp [hx]
    | succ n =>
      simp only [List.length_cons] at hn
      rw [List.getElem?_cons_succ] at hy
      cases i with
      | zero =>
        simp at hx
        subst hx
        rw [List.set_cons_zero, List.take_succ_cons, List.take_succ_cons]
        refine List.Perm.cons _ ?_
        rw [List.take_succ, hy]
        exact (List.perm_append_singleton y (zs.take n)).symm
      | succ i =>
        rw [List.getElem?_cons_succ] at hx
        rw [List.set_cons_succ, List.take_succ_cons, List.take_succ_cons]
        exact (List.Perm.swap _ _ _).trans (List.Perm.cons _ (ih (by omega) (by omega) hx hy))

/-- A pool from which the indices `out` of `0, ..., N - 1` have been taken. -/
structure PoolOk (N : Nat) (n : Int) (idx out : List Nat) : Prop where
  len : (n : Int).toNat ≤ idx.length
  nonneg : 0 ≤ n
  perm : (out ++ idx.take n.toNat).Perm (List.range N)

theorem PoolOk.count {N : Nat} {n : Int} {idx out : List Nat} (h : PoolOk N n idx out) :
    (out.length : Int) + n = N := by
  have := h.perm.length_eq
  simp only [List.length_append, List.length_take, List.length_range] at this
  have := h.len
  have := h.nonneg
  omega

theorem sampleIndex_spec {α : Type} (conv : α → Int → Int) (u : α) {N : Nat} {n : Int}
    {idx out : List Nat} (h : PoolOk N n idx out) (hlt : out.length < N) :
    ∃ x idx', sampleIndex conv u n idx = some (x, n - 1, idx') ∧ x < N ∧
      PoolOk N (n - 1) idx' (out ++ [x]) := by
  have hc := h.count
  have hlen := h.len
  obtain ⟨m, hm⟩ : ∃ m : Nat, n = (m + 1 : Nat) := ⟨(n - 1).toNat, by omega⟩
  subst hm
  obtain ⟨i, hi, hile⟩ : ∃ i : Nat, min (((m + 1 : Nat) : Int) - 1) (max 0 (conv u ((m + 1 : Nat) : Int))) = i ∧
      i ≤ m := by
    refine ⟨(min (((m + 1 : Nat) : Int) - 1) (max 0 (conv u ((m + 1 : Nat) : Int)))).toNat, ?_, ?_⟩ <;> omega
  simp only [Int.toNat_natCast] at hlen
  have hx := List.getElem?_eq_getElem (l := idx) (i := i) (by omega)
  have hy := List.getElem?_eq_getElem (l := idx) (i := m) (by omega)
  have h1 : index (i : Int) = some i := by simp [index]
  have h2 : ((m + 1 : Nat) : Int) - 1 = (m : Int) := by omega
  have h3 : index (m : Int) = some m := by simp [index]
  refine ⟨idx[i], idx.set i idx[m], ?_, ?_, ?_⟩
  · unfold sampleIndex
    simp only [rd]
    rw [hi, h1, Option.bind_some, hx, Option.bind_some, h2, h3, Option.bind_some, hy,
      Option.bind_some, st_eq_some (by omega), Option.bind_some]
  · have hmem : idx[i] ∈ out ++ idx.take (m + 1) :=
      List.mem_append_right _ (List.mem_of_getElem? (i := i) (by
        rw [List.getElem?_take_of_lt (by omega)]; exact hx))
    have := (h.perm.mem_iff).1 (by simpa using hmem)
    exact List.mem_range.1 this
  · refine ⟨by rw [h2]; simp; omega, by omega, ?_⟩
    rw [h2, Int.toNat_natCast, List.append_assoc]
    refine List.Perm.trans ?_ h.perm
    refine List.Perm.append_left _ ?_
    exact swap_out_perm hlen hile hx hy

theorem initIndices_spec {N : Nat} {idx : List Nat} (h : N ≤ idx.length) :
    ∃ idx', initIndices (N : Int) idx = some idx' ∧ PoolOk N N idx' [] := by
  obtain ⟨m, h1, h2, h3⟩ := forLoop_invariant (a := 0) (b := N) (step := fun i m => st m i i)
    (s := idx) (fun i m => m.length = idx.length ∧ ∀ k, k < i → m[k]? = some k) (Nat.zero_le _)
    (by
      rintro i m - hi ⟨a1, a2⟩
      refine ⟨m.set i i, st_eq_some (by omega), by simpa using a1, ?_⟩
      intro k hk
      by_cases hik : i = k
      · subst hik; rw [List.getElem?_set_self (by omega)]
      · rw [List.getElem?_set_ne hik]; exact a2 k (by omega))
    ⟨rfl, by omega⟩
  refine ⟨m, by unfold initIndices; rw [Int.toNat_natCast]; exact h1, by simp; omega, by omega, ?_⟩
  rw [Int.toNat_natCast, List.nil_append]
  have : m.take N = List.range N := by
    apply List.ext_getElem?
    intro k
    by_cases hk : k < N
    · rw [List.getElem?_take_of_lt hk, h3 k hk, List.getElem?_range hk]
    · rw [List.getElem?_eq_none (by simp; omega), List.getElem?_eq_none (by simp; omega)]
  rw [this]

/-- The state of the pools after the index pairs `ps` have been sampled. -/
def PoolsOk (same : Bool) (NA NB : Nat) (p : Pools) (ps : List (Nat × Nat)) : Prop :=
  if same then PoolOk NA p.na p.ia (ps.flatMap fun x => [x.1, x.2])
  else PoolOk NA p.na p.ia (ps.map Prod.fst) ∧ PoolOk NB p.nb p.ib (ps.map Prod.snd)

/-- There are enough particles for `k` pairs. -/
def Enough (same : Bool) (NA NB k : Nat) : Prop := if same then 2 * k ≤ NA else k ≤ NA ∧ k ≤ NB

theorem samplePair_spec {α : Type} (conv : α → Int → Int) (same : Bool) (ua ub : α) {NA NB : Nat}
    (hab : same = true → NA = NB) {p : Pools} {ps : List (Nat × Nat)} (h : PoolsOk same NA NB p ps)
    (he : Enough same NA NB (ps.length + 1)) :
    ∃ i j p', samplePair conv same ua ub p = some (i, j, p') ∧ i < NA ∧ j < NB ∧
      PoolsOk same NA NB p' (ps ++ [(i, j)]) := by
  cases same with
  | true =>
    simp only [PoolsOk, Enough, if_true] at h he
    have hl : (ps.flatMap fun x => [x.1, x.2]).length = 2 * ps.length := by
      clear h he
      induction ps with
      | nil => rfl
      | cons x xs ih => simp [ih]; omega
    obtain ⟨i, ia, a1, a2, a3⟩ := sampleIndex_spec conv ua h (by omega)
    obtain ⟨j, ib, b1, b2, b3⟩ := sampleIndex_spec conv ub a3 (by simp only [List.length_append, hl, List.length_singleton]; omega)
    refine ⟨i, j, { p with na := p.na - 1 - 1, ia := ib }, ?_, a2, by rw [← hab rfl]; exact b2, ?_⟩
    · unfold samplePair
      rw [a1, Option.bind_some, if_pos rfl]
      dsimp only
      rw [b1]; rfl
    · simp only [PoolsOk, if_true]
      simpa [List.append_assoc] using b3
  | false =>
    simp only [PoolsOk, Enough, Bool.false_eq_true, if_false] at h he
    obtain ⟨i, ia, a1, a2, a3⟩ := sampleIndex_spec conv ua h.1 (by simp; omega)
    obtain ⟨j, ib, b1, b2, b3⟩ := sampleIndex_spec conv ub h.2 (by simp; omega)
    refine ⟨i, j, ⟨p.na - 1, p.nb - 1, ia, ib⟩, ?_, a2, b2, ?_⟩
    · unfold samplePair
      rw [a1, Option.bind_some, if_neg (by simp), b1]; rfl
    · simp only [PoolsOk, Bool.false_eq_true, if_false]
      exact ⟨by simpa using a3, by simpa using b3⟩

theorem flatMap_pair_perm (ps : List (Nat × Nat)) :
    (ps.flatMap fun x => [x.1, x.2]).Perm (ps.map Prod.fst ++ ps.map Prod.snd) := by
  induction ps with
  | nil => exact List.Perm.nil
  | cons x xs ih =>
    simp only [List.flatMap_cons, List.map_cons, List.cons_append, List.nil_append]
    refine List.Perm.cons _ ?_
    exact (List.Perm.cons _ ih).trans List.perm_middle.symm

/-- Indices that have been sampled are different. -/
theorem PoolsOk.distinct {same : Bool} {NA NB : Nat} {p : Pools} {ps : List (Nat × Nat)}
    (h : PoolsOk same NA NB p ps) : (ps.map Prod.fst).Nodup ∧ (ps.map Prod.snd).Nodup ∧
      (same = true → (ps.map Prod.fst ++ ps.map Prod.snd).Nodup) := by
  have key : ∀ {N n idx out}, PoolOk N n idx out → out.Nodup := by
    intro N n idx out h
    exact (List.nodup_append.1 ((h.perm.nodup_iff).2 List.nodup_range)).1
  cases same with
  | true =>
    simp only [PoolsOk, if_true] at h
    have := ((flatMap_pair_perm ps).nodup_iff).1 (key h)
    exact ⟨(List.nodup_append.1 this).1, (List.nodup_append.1 this).2.1, fun _ => this⟩
  | false =>
    simp only [PoolsOk, Bool.false_eq_true, if_false] at h
    exact ⟨key h.1, key h.2, by simp⟩

/-- One work item of the sampling kernel. -/
theorem noRepItem_spec {α : Type} (conv : α → Int → Int) {part : CollPart} {x : NoRepArgs α}
    (loc : Fresh Nat) {c q n k offMesh offCell : Nat} {EA EB : List Nat} {m : Mem}
    (hn : x.numColl[c]? = some n) (hq : q < n)
    (hA : CellEntries part c q x.la EA) (hB : CellEntries part c q x.lb EB)
    (hAB : x.la = x.lb → EA = EB)
    (hAo : EA.length ≤ part.maxOcc.toNat) (hBo : EB.length ≤ part.maxOcc.toNat)
    (hk : x.counts[c * x.maxCC + q]? = some k) (hes : x.es[c]? = some offMesh)
    (hce : x.countsEs[c * x.maxCC + q]? = some offCell)
    (hsum : offMesh + offCell + k ≤ x.numPairs) (hsam : x.samples.length = 2 * x.numPairs)
    (hen : Enough (x.la = x.lb) EA.length EB.length k)
    (hmem : ∀ j r, j < 2 → r < offCell + k → (m ⟨0, c, j, r⟩).isSome = true) :
    ∃ m' : Mem, ∃ ps : List (Nat × Nat), noRepItem conv part x loc (c, q) m = some m' ∧ ps.length = k ∧
      (∀ y ∈ ps, y.1 < EA.length ∧ y.2 < EB.length) ∧
      (ps.map Prod.fst).Nodup ∧ (ps.map Prod.snd).Nodup ∧
      (x.la = x.lb → (ps.map Prod.fst ++ ps.map Prod.snd).Nodup) ∧
      (∀ (r i j : Nat), ps[r]? = some (i, j) →
        m' ⟨0, c, 0, offCell + r⟩ = (EA[i]?).map Nat.cast ∧
        m' ⟨0, c, 1, offCell + r⟩ = (EB[j]?).map Nat.cast) ∧
      (∀ key : Key, (∀ j r, r < k → key ≠ ⟨0, c, j, offCell + r⟩) → m' key = m key) ∧
      (∀ key, (m key).isSome = true → (m' key).isSome = true) := by
  have hloc : (loc part.maxOcc.toNat).1.length = part.maxOcc.toNat := (loc _).2
  obtain ⟨ia, i1, i2⟩ := initIndices_spec (N := EA.length) (idx := (loc part.maxOcc.toNat).1)
    (by omega)
  obtain ⟨ib, j1, j2⟩ := initIndices_spec (N := EB.length) (idx := (loc part.maxOcc.toNat).1)
    (by omega)
  set ib' := if x.la = x.lb then (loc part.maxOcc.toNat).1 else ib with hib'
  have hbind : (if x.la = x.lb then some (loc part.maxOcc.toNat).1
      else initIndices (EB.length : Int) (loc part.maxOcc.toNat).1) = some ib' := by
    simp only [hib']
    split
    · rfl
    · exact j1
  obtain ⟨⟨p, m'⟩, h1, ps, h2, h3, h4, h5, h6, h7⟩ := forLoop_invariant (a := 0) (b := k)
    (step := noRepPair conv part x c q offCell offMesh) (s := (⟨EA.length, EB.length, ia, ib'⟩, m))
    (fun i s => ∃ ps : List (Nat × Nat), ps.length = i ∧
      PoolsOk (x.la = x.lb) EA.length EB.length s.1 ps ∧
      (∀ y ∈ ps, y.1 < EA.length ∧ y.2 < EB.length) ∧
      (∀ (r i j : Nat), ps[r]? = some (i, j) →
        s.2 ⟨0, c, 0, offCell + r⟩ = (EA[i]?).map Nat.cast ∧
        s.2 ⟨0, c, 1, offCell + r⟩ = (EB[j]?).map Nat.cast) ∧
      (∀ key : Key, (∀ j r, r < i → key ≠ ⟨0, c, j, offCell + r⟩) → s.2 key = m key) ∧
      (∀ key, (m key).isSome = true → (s.2 key).isSome = true)) (Nat.zero_le _)
    (by
      rintro pairx ⟨p, m1⟩ - hlt ⟨ps, a1, a2, a3, a4, a5, a6⟩
      dsimp only at a2 a4 a5 a6
      obtain ⟨ua, hua⟩ : ∃ u, x.samples[pairx + offCell + offMesh]? = some u :=
        ⟨_, List.getElem?_eq_getElem (by omega)⟩
      obtain ⟨ub, hub⟩ : ∃ u, x.samples[pairx + offCell + offMesh + x.numPairs]? = some u :=
        ⟨_, List.getElem?_eq_getElem (by omega)⟩
      obtain ⟨i, j, p', b1, b2, b3, b4⟩ := samplePair_spec conv (x.la = x.lb) ua ub
        (by intro h; rw [hAB (by simpa using h)]) a2 (by
          unfold Enough at hen ⊢
          rw [a1]
          split at hen
          · rename_i h; rw [if_pos h]; omega
          · rename_i h; rw [if_neg h]; omega)
      have hla := hA.2 i b2
      have hlb := hB.2 j b3
      rw [List.getElem?_eq_getElem b2] at hla
      rw [List.getElem?_eq_getElem b3] at hlb
      have hs1 := a6 ⟨0, c, 0, offCell + pairx⟩ (hmem 0 _ (by omega) (by omega))
      have hs2 := a6 ⟨0, c, 1, offCell + pairx⟩ (hmem 1 _ (by omega) (by omega))
      refine ⟨(p', fun k' => if k' = ⟨0, c, 1, offCell + pairx⟩ then some ((EB[j] : Nat) : Int) else
        if k' = ⟨0, c, 0, offCell + pairx⟩ then some ((EA[i] : Nat) : Int) else m1 k'), ?_,
        ps ++ [(i, j)], by simp [a1], b4, ?_, ?_, ?_, ?_⟩
      · unfold noRepPair
        dsimp only
        simp only [rd]
        rw [hua, Option.bind_some, hub, Option.bind_some, b1, Option.bind_some]
        dsimp only
        rw [hla, Option.bind_some, hlb, Option.bind_some, mst_eq_some hs1, Option.bind_some,
          mst_eq_some (by simpa using hs2), Option.bind_some]
      · intro y hy
        rcases List.mem_append.1 hy with h | h
        · exact a3 y h
        · rw [List.mem_singleton.1 h]; exact ⟨b2, b3⟩
      · intro r i' j' hr
        dsimp only
        by_cases hrl : r < ps.length
        · rw [List.getElem?_append_left hrl] at hr
          obtain ⟨c1, c2⟩ := a4 r i' j' hr
          rw [if_neg (by simp), if_neg (by simp; omega), if_neg (by simp; omega), if_neg (by simp)]
          exact ⟨c1, c2⟩
        · have : r = ps.length := by
            have := (List.getElem?_eq_some_iff.1 hr).1
            simp at this
            omega
          subst this
          rw [List.getElem?_append_right (Nat.le_refl _), Nat.sub_self] at hr
          simp only [List.getElem?_cons_zero, Option.some.injEq, Prod.mk.injEq] at hr
          obtain ⟨rfl, rfl⟩ := hr
          rw [a1, if_neg (by simp), if_pos rfl, if_pos rfl, List.getElem?_eq_getElem b2,
            List.getElem?_eq_getElem b3]
          exact ⟨rfl, rfl⟩
      · intro key hkey
        dsimp only
        rw [if_neg (hkey 1 pairx (by omega)), if_neg (hkey 0 pairx (by omega))]
        exact a5 key (fun j r hr => hkey j r (by omega))
      · intro key hkey
        dsimp only
        split
        · rfl
        · split
          · rfl
          · exact a6 key hkey)
    ⟨[], rfl, by
      by_cases hs : x.la = x.lb
      · simp only [PoolsOk, hs, decide_true, if_true]; exact i2
      · simp only [PoolsOk, hs, decide_false, Bool.false_eq_true, if_false, hib']
        exact ⟨i2, j2⟩, by simp, by simp, by simp, by simp⟩
  obtain ⟨d1, d2, d3⟩ := h3.distinct
  refine ⟨m', ps, ?_, h2, h4, d1, d2, by simpa using d3, h5, h6, h7⟩
  unfold noRepItem
  simp only [rd]
  rw [hn, Option.bind_some, if_pos hq, hA.1, Option.bind_some, hB.1, Option.bind_some, i1,
    Option.bind_some, hbind, Option.bind_some, hk, Option.bind_some, hes, Option.bind_some, hce,
    Option.bind_some, h1]
  rfl

end NP
