import Verif.Dsmc.LemmasNtc2
import Verif.Dsmc.LemmasNoRep2
import Verif.Sub.LemmasBuilt

/-! Lemmas for the NTC sampler: cells and the whole of `sample`. -/

set_option autoImplicit false

namespace NP

open Spec

theorem runItems_frames {ι σ : Type} {step : ι → σ → Option σ} {items : List ι} (I : σ → Prop)
    (Q : ι → σ → Prop) (F : ι → σ → σ → Prop) (hnd : items.Nodup)
    (hstep : ∀ i ∈ items, ∀ s, I s → ∃ s', step i s = some s' ∧ I s' ∧ Q i s' ∧ F i s s')
    (hQ : ∀ i ∈ items, ∀ j ∈ items, i ≠ j → ∀ s s', F j s s' → Q i s → Q i s') {s : σ} (hs : I s) :
    ∃ s', runItems step items s = some s' ∧ I s' ∧ ∀ i ∈ items, Q i s' := by
  obtain ⟨s', h1, h2, h3⟩ := runItems_invariant (step := step) (items := items) (s := s)
    (P := fun pre s => I s ∧ ∀ i ∈ pre, Q i s)
    (by
      rintro pre i post s he ⟨a1, a2⟩
      have hi : i ∈ items := by rw [he]; simp
      obtain ⟨s', b1, b2, b3, b4⟩ := hstep i hi s a1
      refine ⟨s', b1, b2, ?_⟩
      intro j hj
      rcases List.mem_append.1 hj with kj | kj
      · have hj' : j ∈ items := by rw [he]; simp [kj]
        refine hQ j hj' i hi ?_ s s' b4 (a2 j kj)
        rintro rfl
        rw [he] at hnd
        exact (List.nodup_append.1 hnd).2.2 j kj j (by simp) rfl
      · rw [List.mem_singleton.1 kj]; exact b3) ⟨hs, by simp⟩
  exact ⟨s', h1, h2, h3⟩

theorem lt_divRoundUp {n bs b : Nat} (hbs : 0 < bs) : b < (n + (bs - 1)) / bs ↔ b * bs < n := by
  rw [← Nat.succ_le_iff, Nat.le_div_iff_mul_le hbs, Nat.succ_mul]
  omega

/-- All blocks of a cell are sampled. -/
def CellDone (pk : Nat → Nat × Nat) (es num n bs cc cell : Nat) (m : NtcMem) : Prop :=
  ∀ b, b * bs < n → ∃ W, BlockDone pk es num n bs cc cell b W m

/-- What a cell leaves unchanged. -/
structure CellFrame (es num n cc cell : Nat) (m m' : NtcMem) : Prop where
  listLen : m'.list.length = m.list.length
  wavesLen : m'.waves.length = m.waves.length
  maxWave : m.maxWave ≤ m'.maxWave
  list : ∀ k, (∀ px, px < n → k ≠ es + px ∧ k ≠ num + (es + px) ∧
    k ≠ num * 2 + (es + px)) → m'.list[k]? = m.list[k]?
  waves : ∀ k, (∀ b, k ≠ b * cc + cell) → m'.waves[k]? = m.waves[k]?

theorem BlockDone.keep {pk : Nat → Nat × Nat} {es num n bs cc cell b : Nat} {W : Nat → Nat}
    {m m' : NtcMem} (h : BlockDone pk es num n bs cc cell b W m)
    (h1 : ∀ px, InBlk bs n b px → m'.list[es + px]? = m.list[es + px]? ∧
      m'.list[num + (es + px)]? = m.list[num + (es + px)]? ∧
      m'.list[num * 2 + (es + px)]? = m.list[num * 2 + (es + px)]?)
    (h2 : m'.waves[b * cc + cell]? = m.waves[b * cc + cell]?) (h3 : m.maxWave ≤ m'.maxWave) :
    BlockDone pk es num n bs cc cell b W m' := by
  obtain ⟨a1, ⟨nw, a2, a3, a4⟩, a5⟩ := h
  refine ⟨?_, ⟨nw, h2.trans a2, by omega, a4⟩, a5⟩
  intro px hpx
  obtain ⟨b1, b2, b3⟩ := h1 px hpx
  rw [b1, b2, b3]
  exact a1 px hpx

/-- The work group of one cell. -/
theorem ntcCell_spec {α : Type} (e : NtcEnv) {conv : α → Int → Int} {x : NtcArgs α}
    {cell es n np maxNpart maxBlocks : Nat} {pk : Nat → Nat × Nat}
    (hnpart : x.npart[cell]? = some np) (hcount : x.counts[cell]? = some n)
    (hesg : x.es[cell]? = some es)
    (hpk : ∀ px, px < n → ntcPick conv x cell px = some (pk px))
    (hnp : ∀ px, px < n → (pk px).1 < np ∧ (pk px).2 < np) (hes : es + n ≤ x.num)
    (hbs : 0 < x.blockSize) (hmax : np ≤ maxNpart) (hcell : cell < x.cellCount)
    (hblocks : ∀ b, b * x.blockSize < n → b < maxBlocks)
    {m : NtcMem} (hlist : x.num * 3 ≤ m.list.length) (hw : maxBlocks * x.cellCount ≤ m.waves.length) :
    ∃ m', ntcCell e conv x maxNpart cell m = some m' ∧
      CellDone pk es x.num n x.blockSize x.cellCount cell m' ∧
      CellFrame es x.num n x.cellCount cell m m' ∧ m'.maxWave ≤ max m.maxWave x.blockSize := by
  obtain ⟨flags, f1⟩ : ∃ flags, stRange (e.freshN maxNpart).1 0 (List.replicate np 0) = some flags :=
    ⟨_, stRange_eq_some (by rw [(e.freshN maxNpart).2, List.length_replicate]; omega)⟩
  have f2 := getElem?_of_stRange f1
  have f3 := (length_of_stRange f1).1
  rw [(e.freshN maxNpart).2] at f3
  have hclear : ∀ p, p < np → flags[p]? = some 0 := by
    intro p hp
    rw [f2, if_pos ⟨Nat.zero_le _, by rw [List.length_replicate]; omega⟩, Nat.sub_zero,
      List.getElem?_replicate, if_pos hp]
  obtain ⟨s, a1, a2, a3, a5, a4⟩ := forLoop_invariant (a := 0) (b := (n + (x.blockSize - 1)) / x.blockSize)
    (step := fun block s => if e.cpu then ntcCpuBlock conv x cell es n block s
      else ntcGpuBlock conv x (e.blocks cell block) cell es n block s)
    (s := ⟨flags, 0, ⟨m.list, m.waves, 0⟩⟩)
    (fun b s => FlagsClear np s ∧ CellFrame es x.num n x.cellCount cell ⟨m.list, m.waves, 0⟩ s.mem ∧
      s.mem.maxWave ≤ x.blockSize ∧ ∀ b', b' < b → ∃ W, BlockDone pk es x.num n x.blockSize x.cellCount cell b' W s.mem)
    (Nat.zero_le _)
    (by
      rintro b s - hb ⟨b1, b2, b0, b3⟩
      rw [lt_divRoundUp hbs] at hb
      have hbm := hblocks b hb
      have hwl : b * x.cellCount + cell < s.mem.waves.length := by
        have h1 : s.mem.waves.length = m.waves.length := b2.wavesLen
        have h2 : (b + 1) * x.cellCount ≤ maxBlocks * x.cellCount := Nat.mul_le_mul_right _ hbm
        rw [Nat.succ_mul] at h2
        omega
      have hll : x.num * 3 ≤ s.mem.list.length := by
        have h1 : s.mem.list.length = m.list.length := b2.listLen
        omega
      obtain ⟨s', c1, c2, c3, c4⟩ : ∃ s', (if e.cpu then ntcCpuBlock conv x cell es n b s
          else ntcGpuBlock conv x (e.blocks cell b) cell es n b s) = some s' ∧ FlagsClear np s' ∧
          (∃ W, BlockDone pk es x.num n x.blockSize x.cellCount cell b W s'.mem) ∧
          BlkFrame es x.num n x.blockSize x.cellCount cell b s.mem s'.mem := by
        cases e.cpu with
        | true => exact cpuBlock_spec hpk hnp hes b1 hll hwl
        | false => exact gpuBlock_spec (e.blocks cell b) hpk hnp hes hbs hb b1 hll hwl
      refine ⟨s', c1, c2, ⟨c4.listLen.trans b2.listLen, c4.wavesLen.trans b2.wavesLen,
        Nat.zero_le _, ?_, ?_⟩, by have := c4.maxWaveLe; omega, ?_⟩
      · intro k hk
        rw [c4.list k fun px hpx => hk px (Nat.lt_of_lt_of_le hpx.2 (Nat.min_le_right _ _))]
        exact b2.list k hk
      · intro k hk
        rw [c4.waves k (hk b)]
        exact b2.waves k hk
      · intro b' hb'
        by_cases hbb : b' = b
        · rw [hbb]; exact c3
        · obtain ⟨W, hW⟩ := b3 b' (by omega)
          refine ⟨W, hW.keep ?_ ?_ c4.maxWave⟩
          · intro px hpx
            have hpn : px < n := Nat.lt_of_lt_of_le hpx.2 (Nat.min_le_right _ _)
            have hne : ∀ py, InBlk x.blockSize n b py → py ≠ px ∧ py < n := by
              intro py hpy
              have hle : (b' + 1) * x.blockSize ≤ b * x.blockSize := Nat.mul_le_mul_right _ (by omega)
              rw [Nat.succ_mul] at hle
              have h1 : px < b' * x.blockSize + x.blockSize :=
                Nat.lt_of_lt_of_le hpx.2 (Nat.min_le_left _ _)
              have h2 := hpy.1
              exact ⟨by omega, Nat.lt_of_lt_of_le hpy.2 (Nat.min_le_right _ _)⟩
            refine ⟨c4.list _ ?_, c4.list _ ?_, c4.list _ ?_⟩ <;>
              (intro py hpy; obtain ⟨h1, h2⟩ := hne py hpy; omega)
          · refine c4.waves _ ?_
            intro h
            have : b' * x.cellCount = b * x.cellCount := by omega
            exact hbb (Nat.eq_of_mul_eq_mul_right (by omega) this))
    ⟨⟨by dsimp only; omega, hclear, rfl⟩, ⟨rfl, rfl, Nat.le_refl _, fun _ _ => rfl, fun _ _ => rfl⟩,
      Nat.zero_le _, by intro b' h; omega⟩
  refine ⟨⟨s.mem.list, s.mem.waves, max m.maxWave s.mem.maxWave⟩, ?_, ?_, ⟨a3.listLen, a3.wavesLen,
    Nat.le_max_left _ _, a3.list, a3.waves⟩, by dsimp only; omega⟩
  · unfold ntcCell
    simp only [rd]
    rw [hnpart, Option.bind_some, hcount, Option.bind_some, hesg, Option.bind_some, f1,
      Option.bind_some, divRoundUp_eq hbs, Option.bind_some, a1, Option.bind_some]
  · intro b hb
    obtain ⟨W, hW⟩ := a4 b ((lt_divRoundUp hbs).2 hb)
    exact ⟨W, hW.keep (fun _ _ => ⟨rfl, rfl, rfl⟩) rfl (Nat.le_max_right _ _)⟩

/-- The layers of a pair. -/
theorem ntcPick_spec {α : Type} {conv : α → Int → Int} (hconv : ∀ u n, 0 ≤ n → 0 ≤ conv u n)
    {x : NtcArgs α} {sA sB : Selection} (hA : x.A = .sub sA) (hB : x.B = .sub sB)
    {LA LB : List (List Nat)} (fA : ParentFacts x.npart x.A LA) (fB : ParentFacts x.npart x.B LB)
    (hab : x.aIsB = true → sA = sB) {cell px es : Nat} {ra rb : List Nat}
    (hra : LA[cell]? = some ra) (hrb : LB[cell]? = some rb) (hnd : ra.Nodup)
    (hes : x.es[cell]? = some es) (hpx : es + px < x.num) (hsamples : x.samples.length = 2 * x.num)
    (h1 : 1 ≤ ra.length) (h2 : 1 ≤ rb.length) (h3 : x.aIsB = true → 2 ≤ ra.length) :
    ∃ p, ntcPick conv x cell px = some p ∧ p.1 ∈ ra ∧ p.2 ∈ rb ∧ (x.aIsB = true → p.1 ≠ p.2) := by
  obtain ⟨ua, hua⟩ : ∃ u, x.samples[es + px]? = some u := ⟨_, List.getElem?_eq_getElem (by omega)⟩
  obtain ⟨ub, hub⟩ : ∃ u, x.samples[x.num + (es + px)]? = some u :=
    ⟨_, List.getElem?_eq_getElem (by omega)⟩
  have hca : (x.A.dCounts x.npart)[cell]? = some ra.length := by
    rw [fA.dCounts, lens, List.getElem?_map, hra]; rfl
  have hcb : (x.B.dCounts x.npart)[cell]? = some rb.length := by
    rw [fB.dCounts, lens, List.getElem?_map, hrb]; rfl
  have layA : ∀ k (hk : k < ra.length), x.A.mapLayer cell k = some ra[k] := by
    intro k hk
    have := fA.layer cell ra k hra hk
    rw [hA] at this ⊢
    rw [List.getElem?_eq_getElem hk] at this
    exact this
  have layB : ∀ k (hk : k < rb.length), x.B.mapLayer cell k = some rb[k] := by
    intro k hk
    have := fB.layer cell rb k hrb hk
    rw [hB] at this ⊢
    rw [List.getElem?_eq_getElem hk] at this
    exact this
  have key : ∀ (i j : Int), 0 ≤ i → i < ra.length → 0 ≤ j → j < rb.length →
      (x.aIsB = true → i ≠ j) → ∃ p : Nat × Nat, ((index i).bind fun i => (index j).bind fun j =>
        (x.A.mapLayer cell i).bind fun i3 => (x.B.mapLayer cell j).bind fun j3 => some (i3, j3)) = some p ∧
        p.1 ∈ ra ∧ p.2 ∈ rb ∧ (x.aIsB = true → p.1 ≠ p.2) := by
    intro i j hi0 hi1 hj0 hj1 hne
    have k1 : i.toNat < ra.length := by omega
    have k2 : j.toNat < rb.length := by omega
    refine ⟨(ra[i.toNat], rb[j.toNat]), ?_, List.getElem_mem _, List.getElem_mem _, ?_⟩
    · unfold index
      rw [if_pos hi0, if_pos hj0, Option.bind_some, Option.bind_some, layA _ k1, Option.bind_some,
        layB _ k2, Option.bind_some]
    · intro hab'
      have hAB : x.A = x.B := by rw [hA, hB, hab hab']
      have hrr : some ra[i.toNat] = x.A.mapLayer cell i.toNat := (layA _ k1).symm
      have hsame : ra.length = rb.length := by
        rw [← hAB] at hcb
        exact Option.some.inj (hca.symm.trans hcb)
      have k3 : j.toNat < ra.length := by omega
      have hjj : ra[j.toNat] = rb[j.toNat] := by
        have e1 := layA _ k3
        have e2 := layB _ k2
        rw [← hAB, e1] at e2
        exact Option.some.inj e2
      dsimp only
      rw [← hjj]
      intro he
      have := (List.Nodup.getElem_inj_iff hnd).1 he
      exact hne hab' (by omega)
  unfold ntcPick
  simp only [rd]
  rw [hca, Option.bind_some, hcb, Option.bind_some, hes, Option.bind_some, hua, Option.bind_some, hub,
    Option.bind_some]
  cases hq : x.aIsB with
  | false =>
    simp only [Bool.false_eq_true, if_false, Option.bind_some]
    have c1 := hconv ua ra.length (by omega)
    have c2 := hconv ub rb.length (by omega)
    have := key (min (conv ua ra.length) ((ra.length : Int) - 1))
      (min (conv ub rb.length) ((rb.length : Int) - 1)) (by omega) (by omega) (by omega) (by omega)
      (by rw [hq]; intro h; exact Bool.noConfusion h)
    rw [hq] at this
    simpa only [Bool.false_eq_true] using this
  | true =>
    have h2' := h3 hq
    have hAB : x.A = x.B := by rw [hA, hB, hab hq]
    have hsame : ra.length = rb.length := by
      rw [← hAB] at hcb
      exact Option.some.inj (hca.symm.trans hcb)
    simp only [if_true]
    rw [if_neg (by omega), Option.bind_some]
    have c1 := hconv ua ra.length (by omega)
    have c2 := hconv ub (ra.length - 1) (by omega)
    rw [hq] at key
    set i1 := min (conv ua ra.length) ((ra.length : Int) - 1) with hi1
    set j1 := min (conv ub ((ra.length : Int) - 1)) ((ra.length : Int) - 1 - 1) with hj1
    have hi0 : 0 ≤ i1 ∧ i1 ≤ (ra.length : Int) - 1 := by omega
    have hj0 : 0 ≤ j1 ∧ j1 ≤ (ra.length : Int) - 2 := by omega
    have hmod : Int.tmod (i1 + 1 + j1) (ra.length : Int) =
        if i1 + 1 + j1 < ra.length then i1 + 1 + j1 else i1 + 1 + j1 - ra.length := by
      rw [Int.tmod_eq_emod_of_nonneg (by omega)]
      by_cases hlt : i1 + 1 + j1 < ra.length
      · rw [if_pos hlt, Int.emod_eq_of_lt (by omega) hlt]
      · rw [if_neg hlt, ← Int.sub_emod_right, Int.emod_eq_of_lt (by omega) (by omega)]
    rw [hmod]
    simp only [true_imp_iff]
    simp only [true_imp_iff] at key
    refine key i1 (if i1 + 1 + j1 < ra.length then i1 + 1 + j1 else i1 + 1 + j1 - ra.length) (by omega)
      (by omega) ?_ ?_ ?_
    · split <;> omega
    · split <;> omega
    · split <;> omega

/-- The host loop. -/
theorem ntcHost_spec {npart : List Nat} {A B : Parent} {aIsB : Bool} {counts : List Nat}
    {blockSize ncell : Nat} {LA LB : List (List Nat)} (hbs : 0 < blockSize)
    (hlen : counts.length = ncell) (hla : LA.length = ncell) (hlb : LB.length = ncell)
    (fA : ParentFacts npart A LA) (fB : ParentFacts npart B LB)
    (hok : ∀ (c n : Nat) (ra rb : List Nat), counts[c]? = some n → LA[c]? = some ra →
      LB[c]? = some rb → if aIsB then ra.length ≥ 2 ∨ n = 0
        else (ra.length ≥ 1 ∨ n = 0) ∧ (rb.length ≥ 1 ∨ n = 0)) :
    ∃ h : List Nat × Nat × Nat,
      forLoop 0 ncell (ntcHost npart A B aIsB counts blockSize) ([], 0, 0) = some h ∧
      (∀ c, c < ncell → h.1[c]? = some (counts.take c).sum) ∧ h.2.1 = counts.sum ∧
      ∀ (c n : Nat), counts[c]? = some n → ∀ b, b * blockSize < n → b < h.2.2 := by
  obtain ⟨h, h1, h2, h3, h4, h5⟩ := forLoop_invariant (a := 0) (b := ncell)
    (step := ntcHost npart A B aIsB counts blockSize) (s := ([], 0, 0))
    (fun cx h => h.1.length = cx ∧ (∀ c, c < cx → h.1[c]? = some (counts.take c).sum) ∧
      h.2.1 = (counts.take cx).sum ∧
      ∀ (c n : Nat), c < cx → counts[c]? = some n → ∀ b, b * blockSize < n → b < h.2.2) (Nat.zero_le _)
    (by
      rintro cx ⟨es, ex, mb⟩ - hcx ⟨a1, a2, a3, a4⟩
      dsimp only at a1 a2 a3 a4
      have hn : counts[cx]? = some counts[cx] := List.getElem?_eq_getElem (by omega)
      have hra : LA[cx]? = some LA[cx] := List.getElem?_eq_getElem (by omega)
      have hrb : LB[cx]? = some LB[cx] := List.getElem?_eq_getElem (by omega)
      obtain ⟨k, k1, ⟨k2, q, rfl⟩, -⟩ := C06_next_multiple counts[cx] blockSize hbs
      refine ⟨(es ++ [ex], ex + counts[cx], max mb (blockSize * q / blockSize)), ?_,
        by simp [a1], ?_, ?_, ?_⟩
      · unfold ntcHost
        simp only [rd]
        rw [hn, Option.bind_some, fA.counts, lens, List.getElem?_map, hra, Option.map_some,
          Option.bind_some, fB.counts, lens, List.getElem?_map, hrb, Option.map_some, Option.bind_some,
          if_pos (hok cx _ _ _ hn hra hrb), k1, Option.bind_some]
      · intro c hc
        dsimp only
        by_cases hcc : c = cx
        · rw [hcc, List.getElem?_append_right (by omega), a1, Nat.sub_self, a3]; rfl
        · rw [List.getElem?_append_left (by omega)]
          exact a2 c (by omega)
      · dsimp only
        rw [takeSum_succ hn, a3]
      · intro c n hc hcn b hb
        dsimp only
        by_cases hcc : c = cx
        · subst hcc
          obtain rfl := Option.some.inj (hn.symm.trans hcn)
          rw [Nat.mul_div_cancel_left _ hbs]
          have : b * blockSize < q * blockSize := by
            rw [Nat.mul_comm q]; omega
          have := Nat.lt_of_mul_lt_mul_right this
          omega
        · have := a4 c n (by omega) hcn b hb
          omega)
    ⟨rfl, by intro c h; omega, by simp, by intro c _ h; omega⟩
  refine ⟨h, h1, h3, ?_, ?_⟩
  · rw [h4, ← hlen, List.take_length]
  · intro c n hcn
    exact h5 c n (by rw [← hlen]; exact (List.getElem?_eq_some_iff.1 hcn).1) hcn

end NP
