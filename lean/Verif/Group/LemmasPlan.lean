import Verif.Group.LemmasMem
import Verif.Common.Count
import Verif.Basics.Props
import Mathlib.Data.List.Perm.Subperm

/-! What the compression kernels compute, and what the copy kernel then does. -/

set_option autoImplicit false

namespace NP

open Spec

section Put

variable {ι α : Type}

/-- A kernel step that stores at most one value. -/
def putStep (dst : ι → Option Nat) (v : ι → α) (i : ι) (a : List α) : Option (List α) :=
  match dst i with
  | none => some a
  | some d => st a d (v i)

theorem runItems_putStep {items : List ι} {m : List α} (dst : ι → Option Nat) (v : ι → α)
    (hagree : ∀ i ∈ items, ∀ j ∈ items, ∀ d, dst i = some d → dst j = some d → v i = v j)
    (hin : ∀ i ∈ items, ∀ d, dst i = some d → d < m.length) :
    ∃ m', runItems (putStep dst v) items m = some m' ∧ m'.length = m.length ∧
      (∀ i ∈ items, ∀ d, dst i = some d → m'[d]? = some (v i)) ∧
      (∀ k, (∀ i ∈ items, dst i ≠ some k) → m'[k]? = m[k]?) :=
  runItems_put dst v (fun _ _ _ _ => rfl) hagree hin

/-- Kernel with one item per index that stores a value at that index. -/
theorem runItems_fill {step : Nat → List α → Option (List α)} {items : List Nat} {n : Nat}
    {m : List α} (hp : items.Perm (List.range n)) (hn : n ≤ m.length) (v : Nat → α)
    (hstep : ∀ i, i < n → ∀ a : List α, a.length = m.length → step i a = st a i (v i)) :
    ∃ m', runItems step items m = some m' ∧ m'.length = m.length ∧
      (∀ i, i < n → m'[i]? = some (v i)) ∧ (∀ k, n ≤ k → m'[k]? = m[k]?) := by
  have hmem : ∀ i, i ∈ items ↔ i < n := fun i => by rw [hp.mem_iff, List.mem_range]
  obtain ⟨m', h1, h2, h3, h4⟩ := runItems_put (step := step) (items := items) (m := m)
    (fun i => some i) v (fun i hi a ha => hstep i ((hmem i).1 hi) a ha)
    (by intro i _ j _ d h h'; simp only [Option.some.injEq] at h h'; rw [h, h'])
    (by intro i hi d h; simp only [Option.some.injEq] at h; have := (hmem i).1 hi; omega)
  refine ⟨m', h1, h2, fun i hi => h3 i ((hmem i).2 hi) i rfl, fun k hk => h4 k ?_⟩
  intro i hi h
  simp only [Option.some.injEq] at h
  have := (hmem i).1 hi; omega

end Put

theorem before_inj {npart : List Nat} {c k c' k' : Nat} (h : IsParticle npart c k)
    (h' : IsParticle npart c' k') (he : before npart c + k = before npart c' + k') :
    c = c' ∧ k = k' := by
  rcases Nat.lt_trichotomy c c' with hc | hc | hc
  · have := before_le h hc; omega
  · subst hc; omega
  · have := before_le h' hc; omega

theorem allVisits_covers {e : Env} (hE : EnvOk e) {npart : List Nat}
    (hb : ∀ n ∈ npart, n < 2 ^ 31) :
    ∃ l, allVisits e npart = some l ∧ VisitsExactlyOnce l (IsParticle npart) := by
  obtain ⟨ls', hls, hls1, _⟩ := loopLocalSize_zero (lmem := e.loop.localMemSize) (S := 1)
    hE.localSize_pos hE.localSize_int
  obtain ⟨bs, h1, h2, _⟩ := getGeneric_covers (cs := 0) (ce := npart.length) hls hls1
    Nat.one_pos hE.nbin_pos (Nat.le_refl _) hb
  unfold allVisits getAllCells
  rw [h1]
  simp only [Option.bind_some]
  obtain ⟨l, h3, h4⟩ := collect_covers h2
    (visit := fun b => blockVisits npart { b with check := true }) (by
      intro b hb
      obtain ⟨k1, k2, k3, k4⟩ := h2.ok b hb
      exact blockVisits_covers (b := { b with check := true }) ⟨k1, k2, k3, by simp⟩
        (h2.stride_eq b hb))
  refine ⟨l, h3, h4.1, fun c k => ?_⟩
  rw [h4.2]
  constructor
  · exact fun h => h.2.2
  · exact fun h => ⟨Nat.zero_le _, lt_length_of_isParticle h, h⟩

/-- What a plan must satisfy for the particles with `R c k = false` to be kept: the
first `n` entries of the arrays pair the rows below the new count that are to be
overwritten one to one with the rows above it that are to be kept. -/
structure PlanOk (ncell : Nat) (o : Nat → Nat) (R : Nat → Nat → Bool) (p : Plan)
    (fc flo fln : Nat → Nat) : Prop where
  new_len : p.npartNew.length = ncell
  new : ∀ c, c < ncell → p.npartNew[c]? = some (o c - cnt (R c) (o c))
  cells : ∀ i, i < p.n → p.cells[i]? = some (fc i : Int)
  old : ∀ i, i < p.n → p.layersOld[i]? = some (flo i : Int)
  newl : ∀ i, i < p.n → p.layersNew[i]? = some (fln i : Int)
  cell_lt : ∀ i, i < p.n → fc i < ncell
  keep : ∀ i, i < p.n → R (fc i) (flo i) = false ∧ flo i < o (fc i) ∧
    o (fc i) - cnt (R (fc i)) (o (fc i)) ≤ flo i
  hole : ∀ i, i < p.n → R (fc i) (fln i) = true ∧
    fln i < o (fc i) - cnt (R (fc i)) (o (fc i))
  inj_old : ∀ i j, i < p.n → j < p.n → fc i = fc j → flo i = flo j → i = j
  inj_new : ∀ i j, i < p.n → j < p.n → fc i = fc j → fln i = fln j → i = j
  surj_old : ∀ c k, c < ncell → k < o c → o c - cnt (R c) (o c) ≤ k → R c k = false →
    ∃ i, i < p.n ∧ fc i = c ∧ flo i = k
  surj_new : ∀ c k, c < ncell → k < o c - cnt (R c) (o c) → R c k = true →
    ∃ i, i < p.n ∧ fc i = c ∧ fln i = k

/-- A plan gives every new row the old row whose particle it holds, and the old rows used
are those that are kept. -/
theorem PlanOk.exists_src {ncell : Nat} {o : Nat → Nat} {R : Nat → Nat → Bool} {p : Plan}
    {fc flo fln : Nat → Nat} (h : PlanOk ncell o R p fc flo fln) :
    ∃ src : Nat → Nat → Nat,
      (∀ c k, R c k = false → src c k = k) ∧
      (∀ i, i < p.n → src (fc i) (fln i) = flo i) ∧
      (∀ c, c < ncell → ((List.range (o c - cnt (R c) (o c))).map (src c)).Perm
        ((List.range (o c)).filter (fun k => !R c k))) := by
  classical
  let src : Nat → Nat → Nat := fun c k =>
    if hx : ∃ i, i < p.n ∧ fc i = c ∧ fln i = k then flo hx.choose else k
  have h1 : ∀ c k, R c k = false → src c k = k := by
    intro c k hR
    simp only [src]
    rw [dif_neg]
    rintro ⟨i, hi, rfl, rfl⟩
    have := (h.hole i hi).1
    rw [hR] at this; simp at this
  have h2 : ∀ i, i < p.n → src (fc i) (fln i) = flo i := by
    intro i hi
    have hx : ∃ j, j < p.n ∧ fc j = fc i ∧ fln j = fln i := ⟨i, hi, rfl, rfl⟩
    simp only [src]
    rw [dif_pos hx]
    have hc := hx.choose_spec
    rw [h.inj_new _ i hc.1 hi hc.2.1 hc.2.2]
  refine ⟨src, h1, h2, fun c hc => ?_⟩
  have hcase : ∀ k, k < o c - cnt (R c) (o c) → R c k = true →
      ∃ i, i < p.n ∧ fc i = c ∧ fln i = k ∧ src c k = flo i := by
    intro k hk hR
    obtain ⟨i, hi, rfl, rfl⟩ := h.surj_new c k hc hk hR
    exact ⟨i, hi, rfl, rfl, h2 i hi⟩
  rw [List.perm_ext_iff_of_nodup]
  · intro x
    simp only [List.mem_map, List.mem_range, List.mem_filter, Bool.not_eq_eq_eq_not, Bool.not_true]
    constructor
    · rintro ⟨k, hk, rfl⟩
      cases hR : R c k with
      | false => rw [h1 c k hR]; exact ⟨by omega, hR⟩
      | true =>
        obtain ⟨i, hi, rfl, rfl, hs⟩ := hcase k hk hR
        rw [hs]
        exact ⟨(h.keep i hi).2.1, (h.keep i hi).1⟩
    · rintro ⟨hx, hR⟩
      by_cases hlt : x < o c - cnt (R c) (o c)
      · exact ⟨x, hlt, h1 c x hR⟩
      · obtain ⟨i, hi, rfl, rfl⟩ := h.surj_old c x hc hx (by omega) hR
        exact ⟨fln i, (h.hole i hi).2, h2 i hi⟩
  · refine List.Nodup.map_on ?_ List.nodup_range
    intro a ha b hb hab
    rw [List.mem_range] at ha hb
    cases hRa : R c a with
    | false =>
      rw [h1 c a hRa] at hab
      cases hRb : R c b with
      | false => rw [h1 c b hRb] at hab; exact hab
      | true =>
        obtain ⟨i, hi, hc', _, hs⟩ := hcase b hb hRb
        have := (h.keep i hi).2.2
        rw [hc'] at this; omega
    | true =>
      obtain ⟨i, hi, hci, hli, hs⟩ := hcase a ha hRa
      have hk := (h.keep i hi).2.2
      rw [hci] at hk
      cases hRb : R c b with
      | false => rw [h1 c b hRb] at hab; omega
      | true =>
        obtain ⟨j, hj, hcj, hlj, hs'⟩ := hcase b hb hRb
        have : i = j := h.inj_old i j hi hj (by rw [hci, hcj]) (by rw [← hs, ← hs', hab])
        rw [← hli, ← hlj, this]
  · exact List.nodup_range.filter _

theorem mem_compItems {dats : List Dat} {n : Nat} {it : (Nat × Nat) × Nat} :
    it ∈ compItems dats n ↔ it.1 ∈ flatComps dats ∧ it.2 < n := by
  unfold compItems
  simp only [List.mem_flatMap, List.mem_map, List.mem_range]
  constructor
  · rintro ⟨sj, h1, i, h2, rfl⟩; exact ⟨h1, h2⟩
  · rintro ⟨h1, h2⟩; exact ⟨it.1, h1, it.2, h2, rfl⟩

/-- The copy kernels: every new row holds the values of its source row. -/
theorem compressStep_spec {ncell : Nat} {o : Nat → Nat} {R : Nat → Nat → Bool} {p : Plan}
    {fc flo fln : Nat → Nat} (h : PlanOk ncell o R p fc flo fln) {dats : List Dat} {m : Mem}
    {items : List ((Nat × Nat) × Nat)} (hp : items.Perm (compItems dats p.n))
    (hmem : ∀ sj ∈ flatComps dats, ∀ c k, c < ncell → k < o c →
      (m ⟨sj.1, c, sj.2, k⟩).isSome = true) :
    ∃ (m' : Mem) (src : Nat → Nat → Nat), runItems (compressStep p) items m = some m' ∧
      (∀ sj ∈ flatComps dats, ∀ c k, c < ncell → k < o c - cnt (R c) (o c) →
        m' ⟨sj.1, c, sj.2, k⟩ = m ⟨sj.1, c, sj.2, src c k⟩) ∧
      (∀ c, c < ncell → ((List.range (o c - cnt (R c) (o c))).map (src c)).Perm
        ((List.range (o c)).filter (fun k => !R c k))) ∧
      (∀ k, (m k).isSome = true → (m' k).isSome = true) := by
  obtain ⟨src, hs1, hs2, hs3⟩ := h.exists_src
  have hitem : ∀ it, it ∈ items ↔ it.1 ∈ flatComps dats ∧ it.2 < p.n := fun it => by
    rw [hp.mem_iff, mem_compItems]
  let dst : (Nat × Nat) × Nat → Option Key := fun it =>
    some ⟨it.1.1, fc it.2, it.1.2, fln it.2⟩
  let val : (Nat × Nat) × Nat → Int := fun it =>
    (m ⟨it.1.1, fc it.2, it.1.2, flo it.2⟩).getD 0
  have key := runItems_mem (step := compressStep p) (items := items) (m := m) dst val ?_ ?_ ?_
  · obtain ⟨m', k1, k2, k3⟩ := key
    refine ⟨m', src, k1, ?_, hs3, ?_⟩
    · intro sj hsj c k hc hk
      cases hR : R c k with
      | false =>
        rw [hs1 c k hR]
        apply k3
        rintro it hit he
        simp only [dst, Option.some.injEq, Key.mk.injEq] at he
        have := (h.hole it.2 ((hitem it).1 hit).2).1
        rw [he.2.1, he.2.2.2, hR] at this
        simp at this
      | true =>
        obtain ⟨i, hi, rfl, rfl⟩ := h.surj_new c k hc hk hR
        rw [k2 (sj, i) ((hitem _).2 ⟨hsj, hi⟩) _ rfl, hs2 i hi]
        have hkeep := h.keep i hi
        have := hmem sj hsj (fc i) (flo i) hc hkeep.2.1
        simp only [val]
        obtain ⟨v, hv⟩ := Option.isSome_iff_exists.1 this
        rw [hv]; rfl
    · intro k hk
      by_cases hx : ∃ it ∈ items, dst it = some k
      · obtain ⟨it, hit, hd⟩ := hx
        rw [k2 it hit k hd]; rfl
      · rw [k3 k (fun it hit hd => hx ⟨it, hit, hd⟩)]; exact hk
  · intro it hit m' hm'
    obtain ⟨hsj, hi⟩ := (hitem it).1 hit
    have hkeep := h.keep it.2 hi
    have hsome := hmem it.1 hsj (fc it.2) (flo it.2) (h.cell_lt it.2 hi) hkeep.2.1
    have hread : m' ⟨it.1.1, fc it.2, it.1.2, flo it.2⟩ = m ⟨it.1.1, fc it.2, it.1.2, flo it.2⟩ := by
      apply hm'
      intro it' hit' he
      simp only [dst, Option.some.injEq, Key.mk.injEq] at he
      have h1 := (h.hole it'.2 ((hitem it').1 hit').2).1
      rw [he.2.1, he.2.2.2, hkeep.1] at h1
      simp at h1
    obtain ⟨v, hv⟩ := Option.isSome_iff_exists.1 hsome
    unfold compressStep
    simp only [rd, h.cells it.2 hi, h.old it.2 hi, h.newl it.2 hi, Option.bind_some]
    rw [if_pos (by omega)]
    simp only [index]
    rw [if_pos (by omega), if_pos (by omega)]
    simp only [Option.bind_some, Int.toNat_natCast, hread, hv, dst, val, Option.getD_some]
  · intro it hit it' hit' d h1 h2
    simp only [dst, Option.some.injEq] at h1 h2
    rw [← h2, Key.mk.injEq] at h1
    have : it.2 = it'.2 := h.inj_new _ _ ((hitem it).1 hit).2 ((hitem it').1 hit').2 h1.2.1 h1.2.2.2
    simp only [val]
    rw [this, h1.1, h1.2.2.1]
  · intro it hit d hd
    simp only [dst, Option.some.injEq] at hd
    obtain ⟨hsj, hi⟩ := (hitem it).1 hit
    rw [← hd]
    have := h.hole it.2 hi
    exact hmem it.1 hsj _ _ (h.cell_lt it.2 hi) (by omega)

end NP
