import Verif.Basics.Lemmas
import Mathlib.Data.List.Nodup

/-! Helper lemmas: blocked and segmented scans. -/

set_option autoImplicit false

namespace NP

section Scan

variable {α : Type} [AddCommMonoid α]

theorem scanBlocks_spec {nb N : Nat} (src dst : List α) (order : List Nat)
    (hp : order.Perm (List.range nb)) (hnb : 0 < nb) (hN : nb ≤ N) (h1 : N ≤ src.length)
    (h2 : N ≤ dst.length) :
    ∃ d, runItems (scanBlockStep nb N src) order dst = some d ∧ d.length = dst.length ∧
      (∀ b, b < nb → ∀ k, dstart nb N b ≤ k → k < dstart nb N (b + 1) →
        d[k]? = some ((src.drop (dstart nb N b)).take (k - dstart nb N b)).sum) ∧
      (∀ k, N ≤ k → d[k]? = dst[k]?) := by
  have hmem : ∀ b, b ∈ order ↔ b < nb := fun b => by rw [hp.mem_iff, List.mem_range]
  obtain ⟨d, e, hl, ha, hb⟩ := runItems_region (step := scanBlockStep nb N src)
    (items := order) (m := dst)
    (fun b k => dstart nb N b ≤ k ∧ k < dstart nb N (b + 1))
    (fun b k => ((src.drop (dstart nb N b)).take (k - dstart nb N b)).sum)
    (by
      intro b hb s hs
      have hb' := (hmem b).1 hb
      have hle : dstart nb N (b + 1) ≤ N := by
        have := dstart_mono (n := nb) (N := N) (show b + 1 ≤ nb by omega)
        rwa [dstart_top N hnb] at this
      have hlt := dstart_lt_succ (i := b) hnb hN
      obtain ⟨d, e, hl, ha, hb⟩ := scanThenZero_spec (src := src) (dst := s)
        (dstart nb N b) hlt (by omega) (by omega)
      refine ⟨d, ?_, hl, ?_, ?_⟩
      · unfold scanBlockStep
        rw [getDecomp1d_eq hnb]
        exact e
      · rintro k ⟨hk1, hk2⟩
        have := ha (k - dstart nb N b) (by omega)
        rwa [show dstart nb N b + (k - dstart nb N b) = k by omega] at this
      · intro k hk
        exact hb k (by omega))
    (by
      rintro i hi j hj k ⟨a1, a2⟩ ⟨b1, b2⟩
      have := dstart_unique a1 a2 b1 b2
      subst this; rfl)
  refine ⟨d, e, hl, ?_, ?_⟩
  · intro b hb' k hk1 hk2
    exact ha b ((hmem b).2 hb') k ⟨hk1, hk2⟩
  · intro k hk
    apply hb
    rintro b hb' ⟨c1, c2⟩
    have hle : dstart nb N (b + 1) ≤ N := by
      have := dstart_mono (n := nb) (N := N) (show b + 1 ≤ nb from (hmem b).1 hb')
      rwa [dstart_top N hnb] at this
    omega

theorem scanTotals_spec {nb N : Nat} (src dst aux : List α) (order : List Nat)
    (hp : order.Perm (List.range nb)) (hnb : 0 < nb) (hN : nb ≤ N) (h1 : N ≤ src.length)
    (h3 : nb ≤ aux.length)
    (hd : ∀ b, b < nb → ∀ k, dstart nb N b ≤ k → k < dstart nb N (b + 1) →
        dst[k]? = some ((src.drop (dstart nb N b)).take (k - dstart nb N b)).sum) :
    ∃ a, runItems (scanTotalStep nb N src dst) order aux = some a ∧ a.length = aux.length ∧
      (∀ b, b < nb → a[b]? = some ((src.drop (dstart nb N b)).take
        (dstart nb N (b + 1) - dstart nb N b)).sum) := by
  have hmem : ∀ b, b ∈ order ↔ b < nb := fun b => by rw [hp.mem_iff, List.mem_range]
  obtain ⟨a, e, hl, ha, -⟩ := runItems_region (step := scanTotalStep nb N src dst)
    (items := order) (m := aux) (fun b k => k = b)
    (fun b _ => ((src.drop (dstart nb N b)).take (dstart nb N (b + 1) - dstart nb N b)).sum)
    (by
      intro b hb s hs
      have hb' := (hmem b).1 hb
      have hle : dstart nb N (b + 1) ≤ N := by
        have := dstart_mono (n := nb) (N := N) (show b + 1 ≤ nb by omega)
        rwa [dstart_top N hnb] at this
      have hlt := dstart_lt_succ (i := b) hnb hN
      have hdv := hd b hb' (dstart nb N (b + 1) - 1) (by omega) (by omega)
      have hsv : src[dstart nb N (b + 1) - 1]? = some src[dstart nb N (b + 1) - 1] :=
        List.getElem?_eq_getElem (by omega)
      have hsum : ((src.drop (dstart nb N b)).take
            (dstart nb N (b + 1) - 1 - dstart nb N b)).sum + src[dstart nb N (b + 1) - 1]
          = ((src.drop (dstart nb N b)).take (dstart nb N (b + 1) - dstart nb N b)).sum := by
        obtain ⟨t, ht⟩ : ∃ t, dstart nb N (b + 1) = dstart nb N b + t + 1 :=
          ⟨dstart nb N (b + 1) - dstart nb N b - 1, by omega⟩
        simp only [ht]
        rw [show dstart nb N b + t + 1 - dstart nb N b = t + 1 by omega,
          show dstart nb N b + t + 1 - 1 - dstart nb N b = t by omega,
          List.take_add_one, List.sum_append, List.getElem?_drop]
        congr 1
        rw [List.getElem?_eq_getElem (by omega)]
        simp
      refine ⟨s.set b ((src.drop (dstart nb N b)).take
        (dstart nb N (b + 1) - dstart nb N b)).sum, ?_, by simp, ?_, ?_⟩
      · unfold scanTotalStep
        rw [getDecomp1d_eq hnb]
        simp only [Option.bind_some, rd]
        rw [if_neg (by omega), hdv, hsv]
        simp only [Option.bind_some]
        rw [hsum]
        exact st_eq_some (by omega)
      · rintro k rfl
        exact List.getElem?_set_self (by omega)
      · intro k hk
        exact List.getElem?_set_ne (Ne.symm hk))
    (by rintro i - j - k rfl rfl; rfl)
  exact ⟨a, e, hl, fun b hb => ha b ((hmem b).2 hb) b rfl⟩

theorem totals_sum {nb N : Nat} (src aux : List α)
    (ha : ∀ b, b < nb → aux[b]? = some ((src.drop (dstart nb N b)).take
        (dstart nb N (b + 1) - dstart nb N b)).sum) (b : Nat) (hb : b ≤ nb) :
    (aux.take b).sum = (src.take (dstart nb N b)).sum := by
  induction b with
  | zero => simp [dstart_zero]
  | succ b ih =>
    rw [List.take_add_one, ha b (by omega), List.sum_append, ih (by omega)]
    simp only [Option.toList_some, List.sum_cons, List.sum_nil, add_zero]
    exact sum_take_add (dstart_mono (by omega))

theorem mem_scanShiftItems {L nb N : Nat} (hL : 0 < L) (hnb : 0 < nb) (b k : Nat) :
    (b, k) ∈ scanShiftItems L nb N ↔
      0 < b ∧ b < nb ∧ dstart nb N b ≤ k ∧ k < dstart nb N (b + 1) := by
  unfold scanShiftItems
  simp only [List.mem_flatMap, List.mem_range, getDecomp1d_eq hnb, List.mem_map, mem_strided hL,
    Prod.mk.injEq]
  constructor
  · rintro ⟨g, hg, l, hl, x, ⟨h1, h2, h3⟩, h4, h5⟩
    subst h4; subst h5
    exact ⟨by omega, by omega, by omega, h2⟩
  · rintro ⟨h1, h2, h3, h4⟩
    refine ⟨b - 1, by omega, (k - dstart nb N b) % L, Nat.mod_lt _ hL, k, ⟨?_, ?_, ?_⟩,
      by omega, rfl⟩
    · rw [show b - 1 + 1 = b by omega]
      have := Nat.mod_le (k - dstart nb N b) L
      omega
    · rw [show b - 1 + 1 = b by omega]; exact h4
    · rw [show b - 1 + 1 = b by omega]
      rw [Nat.add_comm, Nat.sub_add_eq]
      exact Nat.sub_mod_eq_zero_of_mod_eq (by simp)

theorem nodup_scanShiftItems {L nb N : Nat} (hL : 0 < L) (hnb : 0 < nb) :
    ((scanShiftItems L nb N).map Prod.snd).Nodup := by
  have hnd : (scanShiftItems L nb N).Nodup := by
    unfold scanShiftItems
    rw [List.nodup_flatMap]
    refine ⟨?_, ?_⟩
    · intro g hg
      rw [List.nodup_flatMap]
      refine ⟨?_, ?_⟩
      · intro l hl
        rw [getDecomp1d_eq hnb]
        exact (strided_nodup _ _ _).map (fun a b h => by simpa using h)
      · refine List.Pairwise.imp_of_mem ?_ (List.nodup_range (n := L))
        intro l l' hl hl' hne x hx hx'
        simp only [getDecomp1d_eq hnb, List.mem_map, mem_strided hL, List.mem_range] at hx hx' hl hl'
        obtain ⟨y, ⟨a1, a2, a3⟩, rfl⟩ := hx
        obtain ⟨y', ⟨b1, b2, b3⟩, he⟩ := hx'
        simp only [Prod.mk.injEq, true_and] at he
        subst he
        apply hne
        generalize dstart nb N (g + 1) = s at *
        have e1 : (y' - s) % L = l := by
          have : y' - s = (y' - (l + s)) + l := by omega
          rw [this, Nat.add_mod, a3, Nat.zero_add, Nat.mod_mod, Nat.mod_eq_of_lt hl]
        have e2 : (y' - s) % L = l' := by
          have : y' - s = (y' - (l' + s)) + l' := by omega
          rw [this, Nat.add_mod, b3, Nat.zero_add, Nat.mod_mod, Nat.mod_eq_of_lt hl']
        omega
    · refine List.Pairwise.imp_of_mem ?_ (List.nodup_range (n := nb - 1))
      intro g g' hg hg' hne x hx hx'
      simp only [List.mem_flatMap, getDecomp1d_eq hnb, List.mem_map] at hx hx'
      obtain ⟨l, hl, y, -, rfl⟩ := hx
      obtain ⟨l', hl', y', -, he⟩ := hx'
      simp only [Prod.mk.injEq] at he
      omega
  refine List.Nodup.map_on ?_ hnd
  rintro ⟨b, k⟩ h1 ⟨b', k'⟩ h2 heq
  simp only at heq
  subst heq
  rw [mem_scanShiftItems hL hnb] at h1 h2
  have := dstart_unique h1.2.2.1 h1.2.2.2 h2.2.2.1 h2.2.2.2
  subst this; rfl

theorem scanShift_spec {L nb N : Nat} (hL : 0 < L) (hnb : 0 < nb) (src dst aux : List α)
    (order : List (Nat × Nat)) (hp : order.Perm (scanShiftItems L nb N))
    (hd : ∀ b, b < nb → ∀ k, dstart nb N b ≤ k → k < dstart nb N (b + 1) →
        dst[k]? = some ((src.drop (dstart nb N b)).take (k - dstart nb N b)).sum)
    (ha : ∀ b, b < nb → aux[nb + b]? = some (src.take (dstart nb N b)).sum) :
    ∃ d, runItems (scanShiftStep nb aux) order dst = some d ∧ d.length = dst.length ∧
      (∀ k, k < N → d[k]? = some (src.take k).sum) ∧
      (∀ k, N ≤ k → d[k]? = dst[k]?) := by
  have hdef : ∀ it ∈ scanShiftItems L nb N, ∃ v v', dst[it.2]? = some v ∧
      ((aux[nb + it.1]?).bind fun shift => some (v + shift)) = some v' := by
    rintro ⟨b, k⟩ hit
    rw [mem_scanShiftItems hL hnb] at hit
    refine ⟨_, ((src.drop (dstart nb N b)).take (k - dstart nb N b)).sum +
      (src.take (dstart nb N b)).sum, hd b hit.2.1 k hit.2.2.1 hit.2.2.2, ?_⟩
    simp only [ha b hit.2.1, Option.bind_some]
  obtain ⟨d, e, hl, h3, h4⟩ := runItems_rmw_perm (loc := Prod.snd)
    (f := fun it v => (aux[nb + it.1]?).bind fun shift => some (v + shift))
    hp (nodup_scanShiftItems hL hnb) hdef
  have hstep : (scanShiftStep nb aux) = rmw Prod.snd
      (fun it v => (aux[nb + it.1]?).bind fun shift => some (v + shift)) := by
    funext it m
    unfold scanShiftStep rmw
    cases h : aux[nb + it.1]? with
    | none => cases m[it.2]? <;> simp [rd, h]
    | some v => simp [rd, h]
  rw [hstep]
  refine ⟨d, e, hl, ?_, ?_⟩
  · intro k hk
    obtain ⟨b, hb, hb1, hb2⟩ := dstart_exists (n := nb) (N := N) (m := nb) (w := k)
      (by rw [dstart_top N hnb]; exact hk)
    by_cases h0 : b = 0
    · subst h0
      rw [h4, hd 0 hb k hb1 hb2]
      · simp [dstart_zero]
      · simp only [List.mem_map, not_exists, not_and]
        rintro ⟨b', k'⟩ hm rfl
        rw [mem_scanShiftItems hL hnb] at hm
        have := dstart_unique hb1 hb2 hm.2.2.1 hm.2.2.2
        omega
    · have hm : (b, k) ∈ scanShiftItems L nb N := by
        rw [mem_scanShiftItems hL hnb]; exact ⟨by omega, hb, hb1, hb2⟩
      have := h3 _ hm
      simp only [hd b hb k hb1 hb2, ha b hb, Option.bind_some] at this
      rw [this, add_comm, sum_take_add hb1]
  · intro k hk
    apply h4
    simp only [List.mem_map, not_exists, not_and]
    rintro ⟨b', k'⟩ hm rfl
    rw [mem_scanShiftItems hL hnb] at hm
    have := dstart_mono (n := nb) (N := N) (show b' + 1 ≤ nb by omega)
    rw [dstart_top N hnb] at this
    simp only at hk
    omega

theorem jointExclusiveScanGroup_spec {L N : Nat} (hL : 0 < L) (src dst : List α)
    (h1 : N ≤ src.length) (h2 : N ≤ dst.length) :
    ∃ d, jointExclusiveScanGroup L N src dst = some d ∧ d.length = dst.length ∧
      (∀ k, k < N → d[k]? = some (src.take k).sum) ∧
      (∀ k, N ≤ k → d[k]? = dst[k]?) := by
  unfold jointExclusiveScanGroup
  by_cases hN : N = 0
  · subst hN; exact ⟨dst, by simp⟩
  · rw [if_neg hN, if_neg (by omega)]
    obtain ⟨d, e, hl, ha, hb⟩ := scanThenZero_spec (src := src) (dst := dst)
      (first := 0) (last := N) 0 (by omega) h1 (by omega)
    refine ⟨d, e, hl, ?_, ?_⟩
    · intro k hk
      have := ha k (by omega)
      simpa using this
    · intro k hk
      exact hb k (by omega)

theorem scanNumBlocks_spec {L C N : Nat} (hL : 0 < L) :
    ∃ nb, scanNumBlocks L C N = some nb ∧ nb ≤ N := by
  unfold scanNumBlocks
  rw [divRoundUp_eq hL]
  refine ⟨_, rfl, ?_⟩
  apply Nat.le_trans (Nat.min_le_left _ _)
  rw [Nat.div_le_iff_le_mul_add_pred hL]
  have : N ≤ L * N := Nat.le_mul_of_pos_left N hL
  omega

theorem jointExclusiveScanAux_spec (s0 s1 s2 : Sched) {L C N : Nat} (hL : 0 < L)
    (aux src dst : List α) (h1 : N ≤ src.length) (h2 : N ≤ dst.length)
    (h3 : ∀ n, scanAuxSize L C N = some n → n ≤ aux.length) :
    ∃ d, jointExclusiveScanAux s0 s1 s2 L C N aux src dst = some d ∧ d.length = dst.length ∧
      (∀ k, k < N → d[k]? = some (src.take k).sum) ∧
      (∀ k, N ≤ k → d[k]? = dst[k]?) := by
  unfold jointExclusiveScanAux
  by_cases hN : N = 0
  · subst hN; exact ⟨dst, by simp⟩
  rw [if_neg hN]
  obtain ⟨nb, hnb, hnbN⟩ := scanNumBlocks_spec (C := C) (N := N) hL
  have h3' : 2 * nb ≤ aux.length := h3 _ (by simp [scanAuxSize, hnb])
  rw [hnb]
  simp only [Option.bind_some]
  by_cases hlt : nb < 2
  · rw [if_pos hlt]
    exact jointExclusiveScanGroup_spec hL src dst h1 h2
  rw [if_neg hlt]
  obtain ⟨d0, e0, l0, a0, b0⟩ := scanBlocks_spec src dst _ (s0.perm (List.range nb))
    (by omega) hnbN h1 h2
  rw [e0]
  simp only [Option.bind_some]
  obtain ⟨x1, e1, l1, a1⟩ := scanTotals_spec src d0 aux _ (s1.perm (List.range nb))
    (by omega) hnbN h1 (by omega) a0
  rw [e1]
  simp only [Option.bind_some]
  obtain ⟨x2, e2, l2, a2, -⟩ := scanThenZero_spec (src := x1) (dst := x1) (first := 0)
    (last := nb) nb (by omega) (by omega) (by omega)
  rw [← Option.bind_assoc, e2]
  simp only [Option.bind_some]
  obtain ⟨d3, e3, l3, a3, b3⟩ := scanShift_spec (L := L) (N := N) (nb := nb) hL (by omega) src d0
    x2 _ (s2.perm _) a0 (by
      intro b hb
      rw [a2 b (by omega)]
      rw [List.drop_zero, totals_sum src x1 a1 b (by omega)])
  refine ⟨d3, e3, by omega, a3, ?_⟩
  intro k hk
  rw [b3 k hk, b0 k hk]

end Scan

end NP
