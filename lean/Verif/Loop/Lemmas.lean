import Verif.Loop.Model
import Verif.Loop.Spec
import Verif.Basics.Props

/-! Helper lemmas for the loop area. -/

set_option autoImplicit false

namespace NP

open Spec

theorem forLoop_invariant' {σ : Type _} {a b : Nat} {step : Nat → σ → Option σ} {s : σ}
    (P : Nat → σ → Prop)
    (hstep : ∀ i s, a ≤ i → i < b → P i s → ∃ s', step i s = some s' ∧ P (i + 1) s')
    (h0 : P a s) : ∃ s', forLoop a b step s = some s' ∧ P (max a b) s' := by
  rcases Nat.le_total a b with h | h
  · rw [Nat.max_eq_right h]; exact forLoop_invariant P h hstep h0
  · rw [Nat.max_eq_left h]
    refine ⟨s, ?_, h0⟩
    unfold forLoop
    rw [show b - a = 0 by omega]; rfl

/-- The count of cell `c`, for cells that exist. -/
theorem exists_count {npart : List Nat} {c : Nat} (h : c < npart.length) :
    ∃ n, npart[c]? = some n := ⟨npart[c], List.getElem?_eq_getElem h⟩

theorem occupiedRange_spec {npart : List Nat} {cs ce : Nat} (hce : ce ≤ npart.length) :
    ∃ r, occupiedRange npart cs ce = some r ∧
      (∀ c n, cs ≤ c → c < ce → npart[c]? = some n → n ≠ 0 → r.1 ≤ c ∧ c < r.2) ∧
      (r.2 ≤ r.1 ∨ (cs ≤ r.1 ∧ r.1 < r.2 ∧ r.2 ≤ ce)) := by
  have key := forLoop_invariant' (a := cs) (b := ce) (s := (npart.length, 0))
    (step := fun c s => (rd npart c).bind fun occ =>
      if occ ≠ 0 then some (min s.1 c, max s.2 (c + 1)) else some s)
    (fun i r => (∀ c n, cs ≤ c → c < i → npart[c]? = some n → n ≠ 0 → r.1 ≤ c ∧ c < r.2) ∧
      ((r = (npart.length, 0)) ∨ (cs ≤ r.1 ∧ r.1 < r.2 ∧ r.2 ≤ i))) ?_ ?_
  · obtain ⟨r, h1, h2, h3⟩ := key
    refine ⟨r, h1, ?_, ?_⟩
    · intro c n a b; exact h2 c n a (by omega)
    · rcases h3 with h3 | h3
      · left; rw [h3]; omega
      · rcases Nat.le_total cs ce with h | h
        · right; omega
        · exfalso; omega
  · intro i r hi1 hi2 ⟨ha, hb⟩
    obtain ⟨n, hn⟩ := exists_count (npart := npart) (c := i) (by omega)
    simp only [rd, hn, Option.bind_some]
    by_cases h0 : n = 0
    · subst h0
      refine ⟨r, by simp, ?_, ?_⟩
      · intro c m h1 h2 h3 h4
        rcases Nat.lt_succ_iff_lt_or_eq.1 h2 with h | h
        · exact ha c m h1 h h3 h4
        · subst h; rw [hn] at h3; simp at h3; omega
      · rcases hb with hb | hb
        · left; exact hb
        · right; omega
    · refine ⟨(min r.1 i, max r.2 (i + 1)), by simp [h0], ?_, ?_⟩
      · intro c m h1 h2 h3 h4
        simp only
        rcases Nat.lt_succ_iff_lt_or_eq.1 h2 with h | h
        · have := ha c m h1 h h3 h4; omega
        · omega
      · right
        simp only
        rcases hb with hb | hb
        · subst hb; simp only; omega
        · omega
  · refine ⟨?_, Or.inl rfl⟩
    intro c n h1 h2; omega

theorem minMaxOccupancy_spec {npart : List Nat} {s e : Nat} (he : e ≤ npart.length)
    (hb : ∀ n ∈ npart, n < 2 ^ 31) :
    ∃ mm, minMaxOccupancy npart s e = some mm ∧ 1 ≤ mm.2 ∧ mm.2 < 2 ^ 31 ∧
      (∀ c n, s ≤ c → c < e → npart[c]? = some n → mm.1 ≤ n ∧ n ≤ mm.2) := by
  have key := forLoop_invariant' (a := s) (b := e) (s := (sizeMax, 1))
    (step := fun c s => (rd npart c).bind fun occ => some (min s.1 occ, max s.2 occ))
    (fun i mm => 1 ≤ mm.2 ∧ mm.2 < 2 ^ 31 ∧
      (∀ c n, s ≤ c → c < i → npart[c]? = some n → mm.1 ≤ n ∧ n ≤ mm.2)) ?_ ?_
  · obtain ⟨r, h1, h2, h3, h4⟩ := key
    exact ⟨r, h1, h2, h3, fun c n a b => h4 c n a (by omega)⟩
  · intro i mm hi1 hi2 ⟨ha, hb', hc⟩
    obtain ⟨n, hn⟩ := exists_count (npart := npart) (c := i) (by omega)
    have hn31 := hb n (List.mem_of_getElem? hn)
    refine ⟨(min mm.1 n, max mm.2 n), by simp [rd, hn], ?_, ?_, ?_⟩
    · simp only; omega
    · simp only; omega
    · intro c m h1 h2 h3
      simp only
      rcases Nat.lt_succ_iff_lt_or_eq.1 h2 with h | h
      · have := hc c m h1 h h3; omega
      · subst h; rw [hn] at h3; simp at h3; omega
  · refine ⟨by decide, by decide, ?_⟩
    intro c n h1 h2; omega

theorem maxOcc_spec {npart : List Nat} {s e : Nat} (he : e ≤ npart.length) :
    ∃ m, forLoop s e (fun c s => (rd npart c).bind fun occ => some (max s occ)) 0 = some m ∧
      (∀ c n, s ≤ c → c < e → npart[c]? = some n → n ≤ m) ∧
      (m = 0 ∨ ∃ c, s ≤ c ∧ c < e ∧ npart[c]? = some m) := by
  have key := forLoop_invariant' (a := s) (b := e) (s := (0 : Nat))
    (step := fun c s => (rd npart c).bind fun occ => some (max s occ))
    (fun i m => (∀ c n, s ≤ c → c < i → npart[c]? = some n → n ≤ m) ∧
      (m = 0 ∨ ∃ c, s ≤ c ∧ c < i ∧ npart[c]? = some m)) ?_ ?_
  · obtain ⟨r, h1, h2, h3⟩ := key
    refine ⟨r, h1, fun c n a b => h2 c n a (by omega), ?_⟩
    rcases h3 with h3 | ⟨c, h3, h4, h5⟩
    · exact Or.inl h3
    · rcases Nat.le_total s e with h | h
      · exact Or.inr ⟨c, h3, by omega, h5⟩
      · omega
  · intro i m hi1 hi2 ⟨ha, hb⟩
    obtain ⟨n, hn⟩ := exists_count (npart := npart) (c := i) (by omega)
    refine ⟨max m n, by simp [rd, hn], ?_, ?_⟩
    · intro c k h1 h2 h3
      rcases Nat.lt_succ_iff_lt_or_eq.1 h2 with h | h
      · have := ha c k h1 h h3; omega
      · subst h; rw [hn] at h3; simp at h3; omega
    · rcases Nat.le_total m n with h | h
      · rw [Nat.max_eq_right h]; exact Or.inr ⟨i, hi1, by omega, hn⟩
      · rw [Nat.max_eq_left h]
        rcases hb with hb | ⟨c, hb1, hb2, hb3⟩
        · exact Or.inl hb
        · exact Or.inr ⟨c, hb1, by omega, hb3⟩
  · exact ⟨fun c n h1 h2 => by omega, Or.inl rfl⟩

theorem getPrevPowerOfTwo_pos {N : Nat} (h0 : 0 < N) (h1 : N < 2 ^ 31) :
    ∃ p, getPrevPowerOfTwo N = some p ∧ 0 < p ∧ p ≤ N := by
  obtain ⟨x, hx, ⟨⟨k, hk⟩, hle⟩, _⟩ := C06_prev_power_of_two N h0 h1
  exact ⟨x, hx, by subst hk; exact Nat.two_pow_pos k, hle⟩

theorem loopGlobalSize_spec {N L : Nat} (hL : 0 < L) :
    ∃ g, loopGlobalSize N L = some g ∧ g % L = 0 ∧ N ≤ g := by
  refine ⟨_, by unfold loopGlobalSize; rw [if_neg (by omega)], Nat.mul_mod_left _ _, ?_⟩
  have h := Nat.div_add_mod N L
  have hm := Nat.mod_lt N hL
  rw [Nat.add_mul, Nat.mul_comm (N / L)]
  split <;> omega

/-- What a block covers: rows `[offsetLayer * stride, (offsetLayer + globalLayers) * stride)`
of its cells, as far as they are particles. -/
def BlockCovers (npart : List Nat) (b : LoopBlock) (l : List (Nat × Nat)) : Prop :=
  VisitsExactlyOnce l (fun c k => b.offsetCell ≤ c ∧ c < b.offsetCell + b.globalCells ∧
    b.offsetLayer * b.stride ≤ k ∧ k < (b.offsetLayer + b.globalLayers) * b.stride ∧
    IsParticle npart c k)

/-- Well formedness of a block. -/
def BlockOk (npart : List Nat) (b : LoopBlock) : Prop :=
  0 < b.localSize ∧ b.globalLayers % b.localSize = 0 ∧
  b.offsetCell + b.globalCells ≤ npart.length ∧
  (b.check = false → ∀ c n, b.offsetCell ≤ c → c < b.offsetCell + b.globalCells →
    npart[c]? = some n → (b.offsetLayer + b.globalLayers) * b.stride ≤ n)

theorem blockVisits_covers {npart : List Nat} {b : LoopBlock} (hb : BlockOk npart b)
    (hs : b.stride = 1) : ∃ l, blockVisits npart b = some l ∧ BlockCovers npart b l := by
  obtain ⟨h1, h2, h3, h4⟩ := hb
  let g : Nat × Nat → List (Nat × Nat) := fun it =>
    if b.check = true ∧ ¬ it.2 + b.offsetLayer < npart.getD (it.1 + b.offsetCell) 0 then []
    else [(it.1 + b.offsetCell, it.2 + b.offsetLayer)]
  have hg : ∀ it ∈ pairs b.globalCells b.globalLayers, itemVisit npart b it = some (g it) := by
    intro it hit
    rw [mem_pairs] at hit
    obtain ⟨n, hn⟩ := exists_count (npart := npart) (c := it.1 + b.offsetCell) (by omega)
    unfold itemVisit workItemRequired
    simp only [g, List.getD_eq_getElem?_getD, hn, Option.getD_some, rd, Option.bind_some]
    by_cases hc : b.check = true
    · by_cases hl : it.2 + b.offsetLayer < n
      · simp [hc, hl]
      · simp [hc, hl]
    · simp [hc]
  refine ⟨(pairs b.globalCells b.globalLayers).flatMap g, ?_, ?_, ?_⟩
  · unfold blockVisits blockItems
    rw [if_neg (by omega)]
    exact collectM_eq_flatMap hg
  · rw [List.nodup_flatMap]
    constructor
    · intro it _
      simp only [g]; split <;> simp
    · refine List.Pairwise.imp_of_mem ?_ (pairs_nodup b.globalCells b.globalLayers)
      intro x y _ _ hne z hzx hzy
      apply hne
      simp only [g] at hzx hzy
      split at hzx
      · simp at hzx
      split at hzy
      · simp at hzy
      simp only [List.mem_singleton] at hzx hzy
      rw [hzx] at hzy
      simp only [Prod.mk.injEq] at hzy
      ext <;> omega
  · intro c k
    simp only [List.mem_flatMap, hs, Nat.mul_one]
    constructor
    · rintro ⟨it, hit, hm⟩
      rw [mem_pairs] at hit
      obtain ⟨n, hn⟩ := exists_count (npart := npart) (c := it.1 + b.offsetCell) (by omega)
      simp only [g, List.getD_eq_getElem?_getD, hn, Option.getD_some] at hm
      split at hm
      · simp at hm
      · rename_i hc
        simp only [List.mem_singleton, Prod.mk.injEq] at hm
        obtain ⟨rfl, rfl⟩ := hm
        refine ⟨by omega, by omega, by omega, by omega, n, hn, ?_⟩
        by_cases hck : b.check = true
        · by_contra hh
          exact hc ⟨hck, hh⟩
        · have := h4 (by simpa using hck) _ n (by omega) (by omega) hn
          rw [hs] at this; omega
    · rintro ⟨ha, hb', hc, hd, n, hn, hk⟩
      refine ⟨(c - b.offsetCell, k - b.offsetLayer), ?_, ?_⟩
      · rw [mem_pairs]; simp only; omega
      · have e1 : c - b.offsetCell + b.offsetCell = c := by omega
        have e2 : k - b.offsetLayer + b.offsetLayer = k := by omega
        simp only [g, e1, e2, List.getD_eq_getElem?_getD, hn, Option.getD_some]
        simp [hk]

theorem interlace_lt {G L S g s : Nat} (hL : 0 < L) (hG : G % L = 0) (hg : g < G) (hs : s < S) :
    ((g / L) * S + s) * L + g % L < G * S := by
  have h1 : g / L < G / L := by
    rw [Nat.div_lt_iff_lt_mul hL, Nat.div_mul_cancel (Nat.dvd_of_mod_eq_zero hG)]; exact hg
  have h2 := flat_lt h1 hs
  have h3 := flat_lt h2 (Nat.mod_lt g hL)
  have e : G / L * S * L = G * S := by
    rw [Nat.mul_right_comm, Nat.div_mul_cancel (Nat.dvd_of_mod_eq_zero hG)]
  omega

theorem interlace_inj {L S g s g' s' : Nat} (hL : 0 < L) (hs : s < S) (hs' : s' < S)
    (h : ((g / L) * S + s) * L + g % L = ((g' / L) * S + s') * L + g' % L) :
    g = g' ∧ s = s' := by
  obtain ⟨h1, h2⟩ := flat_inj (Nat.mod_lt g hL) (Nat.mod_lt g' hL) h
  obtain ⟨h3, h4⟩ := flat_inj hs hs' h1
  refine ⟨?_, h4⟩
  rw [← Nat.div_add_mod g L, ← Nat.div_add_mod g' L, h3, h2]

theorem interlace_surj {G L S k : Nat} (hL : 0 < L) (hG : G % L = 0) (hk : k < G * S) :
    ∃ g s, g < G ∧ s < S ∧ ((g / L) * S + s) * L + g % L = k := by
  have hS : 0 < S := by
    rcases Nat.eq_zero_or_pos S with h | h
    · subst h; simp at hk
    · exact h
  have hk2 : k / L / S < G / L := by
    rw [Nat.div_lt_iff_lt_mul hS, Nat.div_lt_iff_lt_mul hL, Nat.mul_right_comm,
      Nat.div_mul_cancel (Nat.dvd_of_mod_eq_zero hG)]
    exact hk
  have hr := Nat.mod_lt k hL
  refine ⟨k / L / S * L + k % L, k / L % S, ?_, Nat.mod_lt _ hS, ?_⟩
  · have := flat_lt hk2 hr
    rw [Nat.div_mul_cancel (Nat.dvd_of_mod_eq_zero hG)] at this
    exact this
  · have e1 : (k / L / S * L + k % L) / L = k / L / S := by
      rw [Nat.mul_comm, Nat.mul_add_div hL, Nat.div_eq_of_lt hr, Nat.add_zero]
    have e2 : (k / L / S * L + k % L) % L = k % L := by
      rw [Nat.mul_comm, Nat.mul_add_mod, Nat.mod_eq_of_lt hr]
    rw [e1, e2]
    have e3 : k / L / S * S + k / L % S = k / L := by
      rw [Nat.mul_comm]; exact Nat.div_add_mod _ _
    rw [e3, Nat.mul_comm]
    exact Nat.div_add_mod _ _

theorem interlace_layer (o S g L s : Nat) :
    o * S + (g / L) * S * L + s * L + g % L = o * S + (((g / L) * S + s) * L + g % L) := by
  ring

theorem blockVisitsStrided_covers {npart : List Nat} {b : LoopBlock} (hb : BlockOk npart b) :
    ∃ l, blockVisitsStrided npart b = some l ∧ BlockCovers npart b l := by
  obtain ⟨h1, h2, h3, h4⟩ := hb
  let lay : Nat → Nat → Nat := fun g s =>
    b.offsetLayer * b.stride + (((g / b.localSize) * b.stride + s) * b.localSize
      + g % b.localSize)
  let gg : Nat × Nat → Nat → List (Nat × Nat) := fun it s =>
    if lay it.2 s < npart.getD (it.1 + b.offsetCell) 0
    then [(it.1 + b.offsetCell, lay it.2 s)] else []
  have hgg : ∀ it ∈ pairs b.globalCells b.globalLayers,
      itemVisitStrided npart b it = some ((List.range b.stride).flatMap (gg it)) := by
    intro it hit
    rw [mem_pairs] at hit
    obtain ⟨n, hn⟩ := exists_count (npart := npart) (c := it.1 + b.offsetCell) (by omega)
    unfold itemVisitStrided
    apply collectM_eq_flatMap
    intro s _
    simp only [gg, lay, interlace_layer, workItemRequired, rd, hn, Option.bind_some,
      List.getD_eq_getElem?_getD, Option.getD_some, decide_eq_true_eq]
  refine ⟨(pairs b.globalCells b.globalLayers).flatMap
    (fun it => (List.range b.stride).flatMap (gg it)), ?_, ?_, ?_⟩
  · unfold blockVisitsStrided blockItems
    rw [if_neg (by omega)]
    exact collectM_eq_flatMap hgg
  · rw [List.nodup_flatMap]
    constructor
    · intro it _
      rw [List.nodup_flatMap]
      constructor
      · intro s _
        simp only [gg]; split <;> simp
      · refine List.Pairwise.imp_of_mem ?_ (List.nodup_range (n := b.stride))
        intro x y hx hy hne z hzx hzy
        apply hne
        simp only [gg] at hzx hzy
        split at hzx
        · split at hzy
          · simp only [List.mem_singleton] at hzx hzy
            rw [hzx] at hzy
            simp only [Prod.mk.injEq, true_and, lay] at hzy
            exact (interlace_inj (g := it.2) (g' := it.2) h1 (List.mem_range.1 hx)
              (List.mem_range.1 hy) (by omega)).2
          · simp at hzy
        · simp at hzx
    · refine List.Pairwise.imp_of_mem ?_ (pairs_nodup b.globalCells b.globalLayers)
      intro x y _ _ hne z hzx hzy
      apply hne
      simp only [List.mem_flatMap, List.mem_range, gg] at hzx hzy
      obtain ⟨sx, hsx, hzx⟩ := hzx
      obtain ⟨sy, hsy, hzy⟩ := hzy
      split at hzx
      · split at hzy
        · simp only [List.mem_singleton] at hzx hzy
          rw [hzx] at hzy
          simp only [Prod.mk.injEq, lay] at hzy
          have := (interlace_inj (g := x.2) (g' := y.2) h1 hsx hsy (by omega)).1
          ext <;> omega
        · simp at hzy
      · simp at hzx
  · intro c k
    simp only [List.mem_flatMap, List.mem_range]
    constructor
    · rintro ⟨it, hit, s, hs, hm⟩
      rw [mem_pairs] at hit
      obtain ⟨n, hn⟩ := exists_count (npart := npart) (c := it.1 + b.offsetCell) (by omega)
      simp only [gg, List.getD_eq_getElem?_getD, hn, Option.getD_some] at hm
      split at hm
      · rename_i hlt
        simp only [List.mem_singleton, Prod.mk.injEq] at hm
        obtain ⟨rfl, rfl⟩ := hm
        have := interlace_lt h1 h2 hit.2 hs
        refine ⟨by omega, by omega, by simp only [lay]; omega, ?_, n, hn, hlt⟩
        rw [Nat.add_mul]; simp only [lay]; omega
      · simp at hm
    · rintro ⟨ha, hb', hc, hd, n, hn, hk⟩
      rw [Nat.add_mul] at hd
      obtain ⟨g, s, hg, hs, e⟩ := interlace_surj (S := b.stride) h1 h2
        (show k - b.offsetLayer * b.stride < b.globalLayers * b.stride by omega)
      refine ⟨(c - b.offsetCell, g), ?_, s, hs, ?_⟩
      · rw [mem_pairs]; simp only; omega
      · have e1 : c - b.offsetCell + b.offsetCell = c := by omega
        have e2 : lay g s = k := by simp only [lay]; omega
        simp only [gg, e1, e2, List.getD_eq_getElem?_getD, hn, Option.getD_some]
        simp [hk]

/-- The blocks of an iteration set split its particles. -/
structure BlocksCover (npart : List Nat) (cs ce stride : Nat) (bs : List LoopBlock) : Prop where
  ok : ∀ b ∈ bs, BlockOk npart b
  stride_eq : ∀ b ∈ bs, b.stride = stride
  unique : bs.Pairwise (fun b b' => ∀ c k,
    b.offsetCell ≤ c → c < b.offsetCell + b.globalCells →
    b'.offsetCell ≤ c → c < b'.offsetCell + b'.globalCells →
    b.offsetLayer * b.stride ≤ k → k < (b.offsetLayer + b.globalLayers) * b.stride →
    b'.offsetLayer * b'.stride ≤ k → k < (b'.offsetLayer + b'.globalLayers) * b'.stride → False)
  inside : ∀ b ∈ bs, ∀ c, b.offsetCell ≤ c → c < b.offsetCell + b.globalCells → cs ≤ c ∧ c < ce
  total : ∀ c k, cs ≤ c → c < ce → IsParticle npart c k →
    ∃ b ∈ bs, b.offsetCell ≤ c ∧ c < b.offsetCell + b.globalCells ∧
      b.offsetLayer * b.stride ≤ k ∧ k < (b.offsetLayer + b.globalLayers) * b.stride

theorem collect_covers {npart : List Nat} {cs ce stride : Nat} {bs : List LoopBlock}
    (h : BlocksCover npart cs ce stride bs) {visit : LoopBlock → Option (List (Nat × Nat))}
    (hv : ∀ b ∈ bs, ∃ l, visit b = some l ∧ BlockCovers npart b l) :
    ∃ l, collectM visit bs = some l ∧
      VisitsExactlyOnce l (fun c k => cs ≤ c ∧ c < ce ∧ IsParticle npart c k) := by
  classical
  let g : LoopBlock → List (Nat × Nat) := fun b => (visit b).getD []
  have hg : ∀ b ∈ bs, visit b = some (g b) ∧ BlockCovers npart b (g b) := by
    intro b hb
    obtain ⟨l, h1, h2⟩ := hv b hb
    simp only [g, h1, Option.getD_some]
    exact ⟨trivial, h2⟩
  refine ⟨bs.flatMap g, collectM_eq_flatMap (fun b hb => (hg b hb).1), ?_, ?_⟩
  · rw [List.nodup_flatMap]
    refine ⟨fun b hb => (hg b hb).2.1, ?_⟩
    refine List.Pairwise.imp_of_mem ?_ h.unique
    intro b b' hb hb' hu z hz hz'
    obtain ⟨c, k⟩ := z
    have h1 := ((hg b hb).2.2 c k).1 hz
    have h2 := ((hg b' hb').2.2 c k).1 hz'
    exact hu c k h1.1 h1.2.1 h2.1 h2.2.1 h1.2.2.1 h1.2.2.2.1 h2.2.2.1 h2.2.2.2.1
  · intro c k
    simp only [List.mem_flatMap]
    constructor
    · rintro ⟨b, hb, hm⟩
      have h1 := ((hg b hb).2.2 c k).1 hm
      have h2 := h.inside b hb c h1.1 h1.2.1
      exact ⟨h2.1, h2.2, h1.2.2.2.2⟩
    · rintro ⟨h1, h2, h3⟩
      obtain ⟨b, hb, a1, a2, a3, a4⟩ := h.total c k h1 h2 h3
      exact ⟨b, hb, ((hg b hb).2.2 c k).2 ⟨a1, a2, a3, a4, h3⟩⟩

/-- What the blocks of one bin of the peel loop satisfy. -/
def PeelSpec (npart : List Nat) (sv nb m L S b R : Nat) (bl : List LoopBlock) : Prop :=
  (∀ x ∈ bl, BlockOk npart x ∧ x.stride = S ∧ x.localSize = L ∧ x.offsetLayer * S = m ∧
    x.offsetCell = sv + dstart nb R b ∧
    x.offsetCell + x.globalCells = sv + dstart nb R (b + 1)) ∧
  (bl.length ≤ 1) ∧
  (∀ c k, sv + dstart nb R b ≤ c → c < sv + dstart nb R (b + 1) → m ≤ k →
    IsParticle npart c k → ∃ x ∈ bl, k < (x.offsetLayer + x.globalLayers) * S)

theorem peelBlock_spec {npart : List Nat} {sv nb m L S b R : Nat} (hL : 0 < L) (hS : 0 < S)
    (hnb : 0 < nb) (hR : nb ≤ R) (hb : b < nb) (hlen : sv + R ≤ npart.length) (hm : L * S ∣ m)
    (hmin : ∀ c n, sv ≤ c → c < sv + R → npart[c]? = some n → m ≤ n) :
    ∃ bl, peelBlock npart sv R nb m L S b = some bl ∧ PeelSpec npart sv nb m L S b R bl := by
  have htop : dstart nb R (b + 1) ≤ R := by
    have := dstart_mono (n := nb) (N := R) (show b + 1 ≤ nb by omega)
    rw [dstart_top R hnb] at this; exact this
  have hlt := dstart_lt_succ (i := b) hnb hR
  have hmS : S ∣ m := Nat.dvd_trans (Nat.dvd_mul_left S L) hm
  obtain ⟨M, hM1, hM2, hM3⟩ := maxOcc_spec (npart := npart) (s := dstart nb R b + sv)
    (e := dstart nb R (b + 1) + sv) (by omega)
  have hMm : m ≤ M := by
    obtain ⟨n, hn⟩ := exists_count (npart := npart) (c := dstart nb R b + sv) (by omega)
    have h1 := hM2 _ n (Nat.le_refl _) (by omega) hn
    have h2 := hmin _ n (by omega) (by omega) hn
    omega
  unfold peelBlock
  rw [getDecomp1d_eq hnb]
  simp only [Option.bind_some]
  unfold binMaxOcc
  rw [hM1]
  simp only [Option.bind_some]
  rw [if_neg (by omega)]
  by_cases hr : M - m > 0
  · rw [if_pos hr]
    obtain ⟨x, hx1, ⟨hx2, hx3⟩, _⟩ := C06_next_multiple (M - m) S hS
    obtain ⟨g, hg1, hg2, hg3⟩ := loopGlobalSize_spec (N := x / S) hL
    rw [hx1]
    simp only [Option.bind_some, hg1]
    refine ⟨_, rfl, ?_, by simp, ?_⟩
    · intro y hy
      simp only [List.mem_singleton] at hy
      subst hy
      refine ⟨⟨hL, hg2, ?_, by simp⟩, rfl, rfl, ?_, ?_, ?_⟩
      · simp only; omega
      · simp only; exact Nat.div_mul_cancel hmS
      · simp only; omega
      · simp only; omega
    · intro c k h1 h2 h3 ⟨n, hn, hk⟩
      refine ⟨_, List.mem_singleton.2 rfl, ?_⟩
      simp only
      have hnM := hM2 c n (by omega) (by omega) hn
      rw [Nat.add_mul, Nat.div_mul_cancel hmS]
      have : x / S * S ≤ g * S := Nat.mul_le_mul_right S hg3
      rw [Nat.div_mul_cancel hx3] at this
      omega
  · rw [if_neg hr]
    refine ⟨[], rfl, by simp, by simp, ?_⟩
    intro c k h1 h2 h3 ⟨n, hn, hk⟩
    have hnM := hM2 c n (by omega) (by omega) hn
    omega

theorem getGeneric_covers {lmem : Nat} {npart : List Nat} {cs ce nbin ls nbytes S : Nat}
    {ls' : Nat} (hls : loopLocalSize lmem ls nbytes S = some ls') (hls' : 0 < ls')
    (hS : 0 < S) (hnbin : 0 < nbin) (hce : ce ≤ npart.length) (hb : ∀ n ∈ npart, n < 2 ^ 31) :
    ∃ bs, getGeneric lmem npart cs ce nbin ls nbytes S = some bs ∧
      BlocksCover npart cs ce S bs ∧ ∀ b ∈ bs, b.localSize ≤ ls' := by
  unfold getGeneric
  rw [hls]
  simp only [Option.bind_some]
  rw [if_neg (by omega)]
  obtain ⟨r, hr1, hr2, hr3⟩ := occupiedRange_spec (npart := npart) (cs := cs) (ce := ce) hce
  rw [hr1]
  simp only [Option.bind_some]
  have hrl : r.1 < r.2 → r.2 ≤ npart.length := by omega
  obtain ⟨mm, hmm1, hmm2, hmm3, hmm4⟩ : ∃ mm, minMaxOccupancy npart r.1 r.2 = some mm ∧
      1 ≤ mm.2 ∧ mm.2 < 2 ^ 31 ∧
      (∀ c n, r.1 ≤ c → c < r.2 → npart[c]? = some n → mm.1 ≤ n ∧ n ≤ mm.2) := by
    by_cases h : r.1 < r.2
    · exact minMaxOccupancy_spec (hrl h) hb
    · refine ⟨(sizeMax, 1), ?_, by decide, by decide, fun c n a b => by omega⟩
      unfold minMaxOccupancy forLoop
      rw [show r.2 - r.1 = 0 by omega]; rfl
  rw [hmm1]
  obtain ⟨pp, hpp1, hpp2, _⟩ := getPrevPowerOfTwo_pos (show 0 < mm.2 by omega) hmm3
  simp only [Option.bind_some, hpp1]
  generalize hLd : (if 2 * pp < ls' then 2 * pp else ls') = L
  have hL : 0 < L := by subst hLd; split <;> omega
  have hL' : L ≤ ls' := by subst hLd; split <;> omega
  by_cases hemp : r.2 ≤ r.1
  · rw [if_pos hemp]
    refine ⟨[], rfl, ⟨by simp, by simp, by simp, by simp, ?_⟩, by simp⟩
    intro c k h1 h2 ⟨n, hn, hk⟩
    have := hr2 c n h1 h2 hn (by omega)
    omega
  · rw [if_neg hemp]
    have hLS : 0 < L * S := Nat.mul_pos hL hS
    rw [if_neg (by omega)]
    generalize hmd : mm.1 / (L * S) * (L * S) = m
    have hm1 : L * S ∣ m := by subst hmd; exact Nat.dvd_mul_left _ _
    have hm2 : m ≤ mm.1 := by subst hmd; exact Nat.div_mul_le_self _ _
    have hmS : S ∣ m := Nat.dvd_trans (Nat.dvd_mul_left S L) hm1
    have hmL : m / S % L = 0 := by
      obtain ⟨q, rfl⟩ := hm1
      rw [Nat.mul_right_comm, Nat.mul_div_cancel _ hS, Nat.mul_mod_right]
    have hr := hrl (by omega)
    generalize hRd : r.2 - r.1 = R
    generalize hnbd : min nbin R = nb
    have hnb : 0 < nb := by omega
    have hnbR : nb ≤ R := by omega
    have hmin : ∀ c n, r.1 ≤ c → c < r.1 + R → npart[c]? = some n → m ≤ n := by
      intro c n h1 h2 h3
      have := hmm4 c n h1 (by omega) h3
      omega
    have hpeel : ∀ b ∈ List.range nb, ∃ bl, peelBlock npart r.1 R nb m L S b = some bl ∧
        PeelSpec npart r.1 nb m L S b R bl :=
      fun b hb => peelBlock_spec hL hS hnb hnbR (List.mem_range.1 hb) (by omega) hm1 hmin
    let g : Nat → List LoopBlock := fun b => (peelBlock npart r.1 R nb m L S b).getD []
    have hg : ∀ b ∈ List.range nb, peelBlock npart r.1 R nb m L S b = some (g b) := by
      intro b hb
      obtain ⟨bl, h1, _⟩ := hpeel b hb
      simp only [g, h1, Option.getD_some]
    have hgs : ∀ b, b < nb → PeelSpec npart r.1 nb m L S b R (g b) := fun b hb => by
      obtain ⟨bl, h1, h2⟩ := hpeel b (List.mem_range.2 hb)
      have : g b = bl := by simp only [g, h1, Option.getD_some]
      rw [← this] at h2
      exact h2
    rw [collectM_eq_flatMap hg]
    simp only [Option.bind_some]
    refine ⟨_, rfl, ⟨?_, ?_, ?_, ?_, ?_⟩, ?_⟩
    · intro b hb
      simp only [List.mem_append, List.mem_flatMap, List.mem_range] at hb
      rcases hb with hb | ⟨i, hi, hb⟩
      · split at hb
        · simp only [List.mem_singleton] at hb
          subst hb
          refine ⟨hL, hmL, by simp only; omega, ?_⟩
          intro _ c n h1 h2 h3
          simp only [Nat.zero_add, Nat.div_mul_cancel hmS]
          exact hmin c n h1 h2 h3
        · simp at hb
      · exact ((hgs i hi).1 b hb).1
    · intro b hb
      simp only [List.mem_append, List.mem_flatMap, List.mem_range] at hb
      rcases hb with hb | ⟨i, hi, hb⟩
      · split at hb
        · simp only [List.mem_singleton] at hb
          subst hb; rfl
        · simp at hb
      · exact ((hgs i hi).1 b hb).2.1
    · rw [List.pairwise_append]
      refine ⟨by split <;> simp, ?_, ?_⟩
      · rw [List.pairwise_flatMap]
        constructor
        · intro i hi
          have h1 := (hgs i (List.mem_range.1 hi)).2.1
          match hgi : g i, h1 with
          | [], _ => simp
          | [x], _ => simp
        · refine List.Pairwise.imp_of_mem ?_ (List.nodup_range (n := nb))
          intro i j hi hj hne x hx y hy c k a1 a2 a3 a4 _ _ _ _
          apply hne
          have e1 := (hgs i (List.mem_range.1 hi)).1 x hx
          have e2 := (hgs j (List.mem_range.1 hj)).1 y hy
          obtain ⟨_, _, _, _, e1a, e1b⟩ := e1
          obtain ⟨_, _, _, _, e2a, e2b⟩ := e2
          exact dstart_unique (w := c - r.1) (n := nb) (N := R) (by omega) (by omega) (by omega)
            (by omega)
      · intro x hx y hy c k _ _ _ _ _ b2 b3 _
        simp only [List.mem_flatMap, List.mem_range] at hy
        obtain ⟨i, hi, hy⟩ := hy
        obtain ⟨_, f1, _, f2, _⟩ := (hgs i hi).1 y hy
        rw [f1, f2] at b3
        split at hx
        · simp only [List.mem_singleton] at hx
          subst hx
          simp only [Nat.zero_add, Nat.div_mul_cancel hmS] at b2
          omega
        · simp at hx
    · intro b hb c h1 h2
      simp only [List.mem_append, List.mem_flatMap, List.mem_range] at hb
      rcases hb with hb | ⟨i, hi, hb⟩
      · split at hb
        · simp only [List.mem_singleton] at hb
          subst hb
          simp only at h1 h2
          omega
        · simp at hb
      · obtain ⟨_, _, _, _, e1, e2⟩ := (hgs i hi).1 b hb
        have htop : dstart nb R (i + 1) ≤ R := by
          have := dstart_mono (n := nb) (N := R) (show i + 1 ≤ nb by omega)
          rw [dstart_top R hnb] at this; exact this
        omega
    · intro c k h1 h2 hp
      obtain ⟨n, hn, hk⟩ := hp
      have hin := hr2 c n h1 h2 hn (by omega)
      by_cases hkm : k < m
      · refine ⟨⟨r.1, 0, S, false, L, R, m / S⟩, ?_, hin.1, by simp only; omega,
          by simp, ?_⟩
        · rw [if_pos (by omega)]; simp
        · simp only [Nat.zero_add, Nat.div_mul_cancel hmS]; exact hkm
      · obtain ⟨i, hi1, hi2, hi3⟩ := dstart_exists (n := nb) (N := R) (w := c - r.1) (m := nb)
          (by rw [dstart_top R hnb]; omega)
        obtain ⟨x, hx1, hx2⟩ := (hgs i hi1).2.2 c k (by omega) (by omega) (by omega) ⟨n, hn, hk⟩
        obtain ⟨_, e0, _, e3, e1, e2⟩ := (hgs i hi1).1 x hx1
        refine ⟨x, ?_, by omega, by omega, ?_, ?_⟩
        · simp only [List.mem_append, List.mem_flatMap, List.mem_range]
          exact Or.inr ⟨i, hi1, hx1⟩
        · rw [e0]; omega
        · rw [e0]; exact hx2
    · intro b hb
      simp only [List.mem_append, List.mem_flatMap, List.mem_range] at hb
      rcases hb with hb | ⟨i, hi, hb⟩
      · split at hb
        · simp only [List.mem_singleton] at hb
          subst hb; exact hL'
        · simp at hb
      · rw [((hgs i hi).1 b hb).2.2.1]; exact hL'

theorem loopLocalSize_zero {lmem ls S : Nat} (h0 : 0 < ls) (h1 : ls < 2 ^ 31) :
    ∃ ls', loopLocalSize lmem ls 0 S = some ls' ∧ 0 < ls' ∧ ls' ≤ ls := by
  obtain ⟨p, hp1, hp2, hp3⟩ := getPrevPowerOfTwo_pos h0 h1
  refine ⟨min p ls, ?_, by omega, by omega⟩
  unfold loopLocalSize
  simp [hp1]

end NP
