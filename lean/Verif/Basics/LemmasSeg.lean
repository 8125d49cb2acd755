import Verif.Basics.LemmasScan

/-! Helper lemmas: segmented scans and the tiled transpose. -/

set_option autoImplicit false

namespace NP

section Seg

variable {α : Type} [AddCommMonoid α]

omit [AddCommMonoid α] in
/-- Generic segmented kernel: item `a` writes `val a i` to `o a + i`, `i < n a`. -/
theorem segments_spec {N : Nat} {o n : Nat → Nat} (step : Nat → List α → Option (List α))
    (val : Nat → Nat → α) (dst : List α) (order : List Nat)
    (hp : order.Perm (List.range N)) (hseg : Spec.DisjointSegments N o n dst.length)
    (hstep : ∀ a, a < N → ∀ s : List α, s.length = dst.length →
      ∃ s', step a s = some s' ∧ s'.length = s.length ∧
        (∀ i, i < n a → s'[o a + i]? = some (val a i)) ∧
        (∀ k, ¬ (o a ≤ k ∧ k < o a + n a) → s'[k]? = s[k]?)) :
    ∃ d, runItems step order dst = some d ∧ d.length = dst.length ∧
      (∀ a, a < N → ∀ i, i < n a → d[o a + i]? = some (val a i)) ∧
      (∀ k, (∀ a, a < N → ¬ (o a ≤ k ∧ k < o a + n a)) → d[k]? = dst[k]?) := by
  have hmem : ∀ b, b ∈ order ↔ b < N := fun b => by rw [hp.mem_iff, List.mem_range]
  obtain ⟨d, e, hl, ha, hb⟩ := runItems_region (step := step) (items := order) (m := dst)
    (fun a k => o a ≤ k ∧ k < o a + n a) (fun a k => val a (k - o a))
    (by
      intro a ham s hs
      obtain ⟨s', e, hl, h1, h2⟩ := hstep a ((hmem a).1 ham) s hs
      refine ⟨s', e, hl, ?_, h2⟩
      rintro k ⟨hk1, hk2⟩
      have := h1 (k - o a) (by omega)
      rwa [show o a + (k - o a) = k by omega] at this)
    (by
      rintro i hi j hj k ⟨a1, a2⟩ ⟨b1, b2⟩
      by_cases hij : i = j
      · subst hij; rfl
      · exact absurd ⟨a1, a2, b1, b2⟩
          (hseg.disjoint i j ((hmem i).1 hi) ((hmem j).1 hj) hij k))
  refine ⟨d, e, hl, ?_, ?_⟩
  · intro a han i hi
    have := ha a ((hmem a).2 han) (o a + i) ⟨by omega, by omega⟩
    rwa [Nat.add_sub_cancel_left] at this
  · intro k hk
    exact hb k (fun a ham => hk a ((hmem a).1 ham))

theorem exScanNStep_spec {sizes offsets : List Nat} {src s : List α} {a : Nat} {o n : Nat → Nat}
    (hsz : sizes[a]? = some (n a)) (hof : offsets[a]? = some (o a))
    (h1 : o a + n a ≤ src.length) (h2 : o a + n a ≤ s.length) :
    ∃ s', exScanNStep sizes offsets src a s = some s' ∧ s'.length = s.length ∧
        (∀ i, i < n a → s'[o a + i]? = some ((src.drop (o a)).take i).sum) ∧
        (∀ k, ¬ (o a ≤ k ∧ k < o a + n a) → s'[k]? = s[k]?) := by
  unfold exScanNStep
  simp only [rd, hsz, hof, Option.bind_some]
  by_cases hn : n a > 0
  · rw [if_pos hn]
    obtain ⟨d, e, hl, ha, hb⟩ := scanThenZero_spec (src := src) (dst := s) (first := o a)
      (last := o a + n a) (o a) (by omega) h1 (by omega)
    refine ⟨d, e, hl, ?_, ?_⟩
    · intro i hi; exact ha i (by omega)
    · intro k hk; exact hb k (by omega)
  · rw [if_neg hn]
    exact ⟨s, rfl, rfl, fun i hi => by omega, fun _ _ => rfl⟩

theorem incScanNStep_spec {sizes offsets : List Nat} {src s : List α} {a : Nat} {o n : Nat → Nat}
    (hsz : sizes[a]? = some (n a)) (hof : offsets[a]? = some (o a))
    (h1 : o a + n a ≤ src.length) (h2 : o a + n a ≤ s.length) :
    ∃ s', incScanNStep sizes offsets src a s = some s' ∧ s'.length = s.length ∧
        (∀ i, i < n a → s'[o a + i]? = some ((src.drop (o a)).take (i + 1)).sum) ∧
        (∀ k, ¬ (o a ≤ k ∧ k < o a + n a) → s'[k]? = s[k]?) := by
  unfold incScanNStep
  simp only [rd, hsz, hof, Option.bind_some]
  by_cases hn : n a > 0
  · rw [if_pos hn]
    obtain ⟨d, e, hl, ha, hb⟩ := syclInclusiveScan_spec (src := src) (dst := s) (first := o a)
      (last := o a + n a) (out := o a) (by omega) h1 (by omega)
    refine ⟨d, e, hl, ?_, ?_⟩
    · intro i hi; exact ha i (by omega)
    · intro k hk; exact hb k (by omega)
  · rw [if_neg hn]
    exact ⟨s, rfl, rfl, fun i hi => by omega, fun _ _ => rfl⟩

end Seg

section Transpose

variable {α : Type}

theorem mem_pairs {n m : Nat} {p : Nat × Nat} : p ∈ pairs n m ↔ p.1 < n ∧ p.2 < m := by
  unfold pairs
  simp only [List.mem_flatMap, List.mem_range, List.mem_map]
  constructor
  · rintro ⟨a, ha, b, hb, rfl⟩; exact ⟨ha, hb⟩
  · rintro ⟨h1, h2⟩; exact ⟨p.1, h1, p.2, h2, rfl⟩

theorem pairs_nodup (n m : Nat) : (pairs n m).Nodup := by
  unfold pairs
  rw [List.nodup_flatMap]
  refine ⟨fun i _ => List.nodup_range.map (fun a b h => by simpa using h), ?_⟩
  refine List.Pairwise.imp_of_mem ?_ (List.nodup_range (n := n))
  intro a b _ _ hne x hx hx'
  simp only [List.mem_map] at hx hx'
  obtain ⟨_, _, rfl⟩ := hx
  obtain ⟨_, _, he⟩ := hx'
  simp only [Prod.mk.injEq] at he
  exact hne he.1.symm

theorem flat_inj {w a b a' b' : Nat} (hb : b < w) (hb' : b' < w)
    (h : a * w + b = a' * w + b') : a = a' ∧ b = b' := by
  have h1 : (a * w + b) / w = a := by
    rw [Nat.mul_comm, Nat.mul_add_div (by omega), Nat.div_eq_of_lt hb, Nat.add_zero]
  have h2 : (a' * w + b') / w = a' := by
    rw [Nat.mul_comm, Nat.mul_add_div (by omega), Nat.div_eq_of_lt hb', Nat.add_zero]
  have : a = a' := by rw [← h1, ← h2, h]
  subst this
  exact ⟨rfl, by omega⟩

theorem flat_lt {n w a b : Nat} (ha : a < n) (hb : b < w) : a * w + b < n * w := by
  have : (a + 1) * w ≤ n * w := Nat.mul_le_mul_right w ha
  have e : (a + 1) * w = a * w + w := by ring
  omega

theorem transposeRead_all [Zero α] {rows cols lsr lsc : Nat} (src : List α) (gr gc : Nat)
    (hsrc : rows * cols ≤ src.length) (lmem : List α) (hl : lmem.length = lsr * lsc)
    (order : List (Nat × Nat)) (hp : order.Perm (pairs lsr lsc)) :
    ∃ m, runItems (transposeRead rows cols lsr lsc src gr gc) order lmem = some m ∧
      m.length = lsr * lsc ∧
      ∀ a b, a < lsr → b < lsc → gr * lsr + a < rows → gc * lsc + b < cols →
        m[a * lsc + b]? = src[(gr * lsr + a) * cols + (gc * lsc + b)]? := by
  obtain ⟨m, e, hl', h1, -⟩ := runItems_region
    (step := transposeRead rows cols lsr lsc src gr gc) (items := order) (m := lmem)
    (fun it k => k = it.1 * lsc + it.2)
    (fun it _ => if gr * lsr + it.1 < rows ∧ gc * lsc + it.2 < cols then
      (src[(gr * lsr + it.1) * cols + (gc * lsc + it.2)]?).getD 0 else 0)
    (by
      rintro ⟨a, b⟩ hit s hs
      rw [hp.mem_iff, mem_pairs] at hit
      have hlt := flat_lt hit.1 hit.2
      simp only at hlt hit
      unfold transposeRead
      simp only
      by_cases hv : gr * lsr + a < rows ∧ gc * lsc + b < cols
      · have h3 := flat_lt hv.1 hv.2
        simp only [if_pos hv, rd]
        rw [List.getElem?_eq_getElem (by omega)]
        refine ⟨_, st_eq_some (by omega), by simp, ?_, ?_⟩
        · rintro k rfl; rw [List.getElem?_set_self (by omega)]; rfl
        · intro k hk; exact List.getElem?_set_ne (Ne.symm hk)
      · simp only [if_neg hv]
        refine ⟨_, st_eq_some (by omega), by simp, ?_, ?_⟩
        · rintro k rfl; rw [List.getElem?_set_self (by omega)]
        · intro k hk; exact List.getElem?_set_ne (Ne.symm hk))
    (by
      rintro ⟨a, b⟩ hi ⟨a', b'⟩ hj k hk hk'
      rw [hp.mem_iff, mem_pairs] at hi hj
      simp only at hk hk' hi hj
      obtain ⟨rfl, rfl⟩ := flat_inj hi.2 hj.2 (hk.symm.trans hk')
      rfl)
  refine ⟨m, e, by omega, ?_⟩
  intro a b ha hb hr hc
  have := h1 (a, b) (hp.mem_iff.2 (mem_pairs.2 ⟨ha, hb⟩)) _ rfl
  simp only [hr, hc, and_self, if_true] at this
  rw [this]
  have h3 := flat_lt hr hc
  rw [List.getElem?_eq_getElem (by omega)]
  rfl

theorem mem_transposeItems {ngr ngc lsr lsc : Nat} {it : TItem} :
    it ∈ transposeItems ngr ngc lsr lsc ↔
      it.gr < ngr ∧ it.gc < ngc ∧ it.lr < lsr ∧ it.lc < lsc := by
  unfold transposeItems
  simp only [List.mem_flatMap, List.mem_map, mem_pairs]
  constructor
  · rintro ⟨g, ⟨h1, h2⟩, l, ⟨h3, h4⟩, rfl⟩; exact ⟨h1, h2, h3, h4⟩
  · rintro ⟨h1, h2, h3, h4⟩
    exact ⟨(it.gr, it.gc), ⟨h1, h2⟩, (it.lr, it.lc), ⟨h3, h4⟩, rfl⟩

theorem transposeWrite_all {rows cols lsr lsc ngr ngc : Nat} (hlsr : 0 < lsr) (hlsc : 0 < lsc)
    (hr : rows ≤ ngr * lsr) (hc : cols ≤ ngc * lsc)
    (src dst : List α) (hsrc : rows * cols ≤ src.length) (hdst : cols * rows ≤ dst.length)
    (lmem : Nat → Nat → List α)
    (hlen : ∀ gr gc, gr < ngr → gc < ngc → (lmem gr gc).length = lsr * lsc)
    (hlm : ∀ gr gc, gr < ngr → gc < ngc → ∀ a b, a < lsr → b < lsc →
      gr * lsr + a < rows → gc * lsc + b < cols →
        (lmem gr gc)[a * lsc + b]? = src[(gr * lsr + a) * cols + (gc * lsc + b)]?)
    (order : List TItem) (hp : order.Perm (transposeItems ngr ngc lsr lsc)) :
    ∃ d, runItems (transposeWrite rows cols lsr lsc lmem) order dst = some d ∧
      d.length = dst.length ∧ Spec.IsTranspose rows cols src d ∧
      (∀ k, cols * rows ≤ k → d[k]? = dst[k]?) := by
  by_cases hne : rows * cols = 0
  · -- nothing can be valid
    have hno : ∀ wr wc, ¬ (wr < cols ∧ wc < rows) := by
      rintro wr wc ⟨h1, h2⟩
      have := Nat.mul_pos (show 0 < rows by omega) (show 0 < cols by omega)
      omega
    obtain ⟨d, e, hd⟩ := runItems_invariant (step := transposeWrite rows cols lsr lsc lmem)
      (items := order) (s := dst) (P := fun _ s => s = dst) (by
        rintro pre it post s hs rfl
        have hit : it ∈ transposeItems ngr ngc lsr lsc := by
          rw [← hp.mem_iff, hs]; simp
        rw [mem_transposeItems] at hit
        refine ⟨s, ?_, rfl⟩
        unfold transposeWrite
        have hlin := flat_lt hit.2.2.1 hit.2.2.2
        have hw : (it.lr * lsc + it.lc) / lsr < lsc := by
          apply Nat.div_lt_of_lt_mul; exact hlin
        have hm : (it.lr * lsc + it.lc) % lsr < lsr := Nat.mod_lt _ hlsr
        have h3 := flat_lt hm hw
        simp only [rd]
        rw [List.getElem?_eq_getElem (by rw [hlen _ _ hit.1 hit.2.1]; exact h3)]
        simp only [Option.bind_some]
        rw [if_neg (hno _ _)]) rfl
    subst hd
    refine ⟨d, e, rfl, ?_, fun _ _ => rfl⟩
    intro r c h1 h2
    exact absurd ⟨h2, h1⟩ (hno c r)
  have hpos : 0 < src.length := by omega
  let x0 : α := src[0]
  let wr : TItem → Nat := fun it => it.gc * lsc + (it.lr * lsc + it.lc) / lsr
  let wc : TItem → Nat := fun it => it.gr * lsr + (it.lr * lsc + it.lc) % lsr
  obtain ⟨d, e, hl, h1, h2⟩ := runItems_region
    (step := transposeWrite rows cols lsr lsc lmem) (items := order) (m := dst)
    (fun it k => wr it < cols ∧ wc it < rows ∧ k = wr it * rows + wc it)
    (fun it _ => (src[wc it * cols + wr it]?).getD x0)
    (by
      intro it hit s hs
      rw [hp.mem_iff, mem_transposeItems] at hit
      have hlin := flat_lt hit.2.2.1 hit.2.2.2
      have hw : (it.lr * lsc + it.lc) / lsr < lsc := by
        apply Nat.div_lt_of_lt_mul; exact hlin
      have hm : (it.lr * lsc + it.lc) % lsr < lsr := Nat.mod_lt _ hlsr
      have h3 := flat_lt hm hw
      unfold transposeWrite
      simp only [rd]
      by_cases hv : wr it < cols ∧ wc it < rows
      · have h4 := flat_lt hv.1 hv.2
        have h5 := flat_lt hv.2 hv.1
        rw [hlm it.gr it.gc hit.1 hit.2.1 _ _ hm hw hv.2 hv.1]
        rw [List.getElem?_eq_getElem (by exact (show wc it * cols + wr it < src.length by omega))]
        simp only [Option.bind_some]
        rw [if_pos hv]
        refine ⟨_, st_eq_some (by exact (show wr it * rows + wc it < s.length by omega)),
          by simp, ?_, ?_⟩
        · rintro k ⟨-, -, rfl⟩
          rw [List.getElem?_set_self (by exact (show wr it * rows + wc it < s.length by omega))]
          rfl
        · intro k hk
          apply List.getElem?_set_ne
          intro hk'
          exact hk ⟨hv.1, hv.2, hk'.symm⟩
      · rw [List.getElem?_eq_getElem (by rw [hlen _ _ hit.1 hit.2.1]; exact h3)]
        simp only [Option.bind_some]
        rw [if_neg hv]
        refine ⟨s, rfl, rfl, ?_, fun _ _ => rfl⟩
        rintro k ⟨a, b, -⟩; exact absurd ⟨a, b⟩ hv)
    (by
      rintro i hi j hj k ⟨a1, a2, a3⟩ ⟨b1, b2, b3⟩
      obtain ⟨c1, c2⟩ := flat_inj a2 b2 (a3.symm.trans b3)
      simp only [c1, c2])
  refine ⟨d, e, hl, ?_, ?_⟩
  · intro r c hrr hcc
    -- the item that writes entry (c, r)
    let lin := (c % lsc) * lsr + r % lsr
    have hlin : lin < lsc * lsr := flat_lt (Nat.mod_lt _ hlsc) (Nat.mod_lt _ hlsr)
    let it : TItem := ⟨r / lsr, c / lsc, lin / lsc, lin % lsc⟩
    have hit : it ∈ order := by
      rw [hp.mem_iff, mem_transposeItems]
      refine ⟨?_, ?_, ?_, Nat.mod_lt _ hlsc⟩
      · apply Nat.div_lt_of_lt_mul; rw [Nat.mul_comm]; omega
      · apply Nat.div_lt_of_lt_mul; rw [Nat.mul_comm]; omega
      · apply Nat.div_lt_of_lt_mul; exact hlin
    have hlin' : it.lr * lsc + it.lc = lin := by
      show lin / lsc * lsc + lin % lsc = lin
      rw [Nat.mul_comm]; exact Nat.div_add_mod lin lsc
    have hwr : wr it = c := by
      show c / lsc * lsc + (it.lr * lsc + it.lc) / lsr = c
      rw [hlin']
      show c / lsc * lsc + ((c % lsc) * lsr + r % lsr) / lsr = c
      rw [Nat.mul_comm (c % lsc), Nat.mul_add_div hlsr, Nat.div_eq_of_lt (Nat.mod_lt _ hlsr),
        Nat.add_zero, Nat.mul_comm]
      exact Nat.div_add_mod c lsc
    have hwc : wc it = r := by
      show r / lsr * lsr + (it.lr * lsc + it.lc) % lsr = r
      rw [hlin']
      show r / lsr * lsr + ((c % lsc) * lsr + r % lsr) % lsr = r
      rw [Nat.mul_comm (c % lsc), Nat.mul_add_mod, Nat.mod_mod, Nat.mul_comm]
      exact Nat.div_add_mod r lsr
    have := h1 it hit (c * rows + r) ⟨by omega, by omega, by rw [hwr, hwc]⟩
    rw [this, hwr, hwc]
    have h5 := flat_lt hrr hcc
    rw [List.getElem?_eq_getElem (by omega)]
    rfl
  · intro k hk
    apply h2
    rintro it - ⟨a1, a2, rfl⟩
    have := flat_lt a1 a2
    omega

end Transpose

end NP
