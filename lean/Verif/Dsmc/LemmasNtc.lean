import Verif.Dsmc.SpecNtc
import Verif.Common.Atomic
import Verif.Comm.LemmasExchange

/-! Lemmas for the NTC sampler: one block of pairs. -/

set_option autoImplicit false

namespace NP

open Spec

/-! ## Waves are assigned greedily -/

/-- The pairs in `D` have waves `W`, and `fl` is the next wave of every particle below `np`. -/
structure Greedy (np : Nat) (pick : Nat → Nat × Nat) (D : Nat → Prop) (W fl : Nat → Nat) : Prop where
  above : ∀ l, D l → W l < fl (pick l).1 ∧ W l < fl (pick l).2
  free : ∀ l l', D l → D l' → l ≠ l' → SharesParticle (pick l) (pick l') → W l ≠ W l'
  needed : ∀ l w, D l → W l = w + 1 → ∃ l', D l' ∧ W l' = w ∧ SharesParticle (pick l) (pick l')
  below : ∀ p f, p < np → fl p = f + 1 → ∃ l, D l ∧ W l = f ∧ (p = (pick l).1 ∨ p = (pick l).2)

theorem Greedy.step {np : Nat} {pick : Nat → Nat × Nat} {D : Nat → Prop} {W fl : Nat → Nat}
    (h : Greedy np pick D W fl) {l : Nat} (hl : ¬ D l) (h1 : (pick l).1 < np)
    (h2 : (pick l).2 < np) {fl' : Nat → Nat}
    (hfl : ∀ p, fl' p = if p = (pick l).1 ∨ p = (pick l).2
      then max (fl (pick l).1) (fl (pick l).2) + 1 else fl p) :
    Greedy np pick (fun x => D x ∨ x = l)
      (fun x => if x = l then max (fl (pick l).1) (fl (pick l).2) else W x) fl' := by
  set w := max (fl (pick l).1) (fl (pick l).2) with hw
  have hne : ∀ x, D x → x ≠ l := fun x hx he => hl (he ▸ hx)
  have hmono : ∀ p, fl p ≤ fl' p := by
    intro p
    rw [hfl]
    split
    · rename_i hp
      rcases hp with rfl | rfl <;> omega
    · exact Nat.le_refl _
  have hlt : ∀ x, D x → SharesParticle (pick x) (pick l) → W x < w := by
    intro x hx hs
    obtain ⟨a1, a2⟩ := h.above x hx
    rcases hs with hs | hs | hs | hs
    · rw [hs] at a1; omega
    · rw [hs] at a1; omega
    · rw [hs] at a2; omega
    · rw [hs] at a2; omega
  refine ⟨?_, ?_, ?_, ?_⟩
  · rintro x (hx | rfl)
    · obtain ⟨a1, a2⟩ := h.above x hx
      rw [if_neg (hne x hx)]
      have := hmono (pick x).1
      have := hmono (pick x).2
      omega
    · rw [if_pos rfl, hfl, hfl, if_pos (Or.inl rfl), if_pos (Or.inr rfl)]
      omega
  · rintro x y (hx | rfl) (hy | rfl) hxy hs
    · rw [if_neg (hne x hx), if_neg (hne y hy)]
      exact h.free x y hx hy hxy hs
    · rw [if_neg hxy, if_pos rfl]
      have := hlt x hx hs
      omega
    · rw [if_pos rfl, if_neg (hne y hy)]
      have := hlt y hy (by
        rcases hs with hs | hs | hs | hs
        · exact Or.inl hs.symm
        · exact Or.inr (Or.inr (Or.inl hs.symm))
        · exact Or.inr (Or.inl hs.symm)
        · exact Or.inr (Or.inr (Or.inr hs.symm)))
      omega
    · exact absurd rfl hxy
  · rintro x v (hx | rfl) hv
    · rw [if_neg (hne x hx)] at hv
      obtain ⟨y, y1, y2, y3⟩ := h.needed x v hx hv
      exact ⟨y, Or.inl y1, by rw [if_neg (hne y y1)]; exact y2, y3⟩
    · rw [if_pos rfl] at hv
      have : fl (pick x).1 = v + 1 ∨ fl (pick x).2 = v + 1 := by omega
      rcases this with hf | hf
      · obtain ⟨y, y1, y2, y3⟩ := h.below _ v h1 hf
        refine ⟨y, Or.inl y1, by rw [if_neg (hne y y1)]; exact y2, ?_⟩
        rcases y3 with y3 | y3
        · exact Or.inl y3
        · exact Or.inr (Or.inl y3)
      · obtain ⟨y, y1, y2, y3⟩ := h.below _ v h2 hf
        refine ⟨y, Or.inl y1, by rw [if_neg (hne y y1)]; exact y2, ?_⟩
        rcases y3 with y3 | y3
        · exact Or.inr (Or.inr (Or.inl y3))
        · exact Or.inr (Or.inr (Or.inr y3))
  · intro p f hp hf
    rw [hfl] at hf
    by_cases hc : p = (pick l).1 ∨ p = (pick l).2
    · rw [if_pos hc] at hf
      exact ⟨l, Or.inr rfl, by rw [if_pos rfl]; omega, hc⟩
    · rw [if_neg hc] at hf
      obtain ⟨y, y1, y2, y3⟩ := h.below p f hp hf
      exact ⟨y, Or.inl y1, by rw [if_neg (hne y y1)]; exact y2, y3⟩

/-- Two stores of the same value. -/
theorem ntcSt2_spec {f : List Nat} {i j v : Nat} (hi : i < f.length) (hj : j < f.length) :
    ∃ f', ((st f i v).bind fun f => st f j v) = some f' ∧ f'.length = f.length ∧
      ∀ p, f'[p]? = if p = i ∨ p = j then some v else f[p]? := by
  refine ⟨(f.set i v).set j v, ?_, by simp, ?_⟩
  · rw [st_eq_some hi, Option.bind_some, st_eq_some (by simpa using hj)]
  · intro p
    by_cases h2 : p = j
    · subst h2
      rw [if_pos (Or.inr rfl), List.getElem?_set_self (by simpa using hj)]
    · rw [List.getElem?_set_ne (Ne.symm h2)]
      by_cases h1 : p = i
      · subst h1
        rw [if_pos (Or.inl rfl), List.getElem?_set_self hi]
      · rw [List.getElem?_set_ne (Ne.symm h1), if_neg (by simp [h1, h2])]

/-- The flags as a function. -/
def flagOf (f : List Nat) (p : Nat) : Nat := f.getD p 0

theorem flagOf_eq {f : List Nat} {p v : Nat} (h : f[p]? = some v) : flagOf f p = v := by
  unfold flagOf
  rw [List.getD_eq_getElem?_getD, h]; rfl

theorem get_flagOf {f : List Nat} {p : Nat} (h : p < f.length) : f[p]? = some (flagOf f p) := by
  rw [flagOf_eq (List.getElem?_eq_getElem h), List.getElem?_eq_getElem h]

theorem flagOf_st2 {f f' : List Nat} {i j v : Nat}
    (h : ∀ p, f'[p]? = if p = i ∨ p = j then some v else f[p]?) (p : Nat) :
    flagOf f' p = if p = i ∨ p = j then v else flagOf f p := by
  unfold flagOf
  rw [List.getD_eq_getElem?_getD, h p]
  split
  · rfl
  · rw [List.getD_eq_getElem?_getD]

/-! ## The result of a block -/

/-- Position `px` is in block `b` of `n` pairs. -/
def InBlk (bs n b px : Nat) : Prop := b * bs ≤ px ∧ px < min (b * bs + bs) n

/-- Block `b` of a cell was sampled with waves `W`. -/
def BlockDone (pk : Nat → Nat × Nat) (es num n bs cc cell b : Nat) (W : Nat → Nat) (m : NtcMem) :
    Prop :=
  (∀ px, InBlk bs n b px → m.list[es + px]? = some ((pk px).1 : Int) ∧
    m.list[num + (es + px)]? = some ((pk px).2 : Int) ∧
    m.list[num * 2 + (es + px)]? = some (W px : Int)) ∧
  (∃ nw, m.waves[b * cc + cell]? = some nw ∧ nw ≤ m.maxWave ∧ (∀ px, InBlk bs n b px → W px < nw) ∧
    (0 < bs → b * bs < n → ∃ px, InBlk bs n b px ∧ W px + 1 = nw)) ∧
  (∀ l l', InBlk bs n b l → InBlk bs n b l' → l ≠ l' → SharesParticle (pk l) (pk l') →
    W l ≠ W l') ∧
  (∀ l w, InBlk bs n b l → W l = w + 1 → ∃ l', InBlk bs n b l' ∧ W l' = w ∧
    SharesParticle (pk l) (pk l'))

/-- What a block leaves unchanged. -/
structure BlkFrame (es num n bs cc cell b : Nat) (m m' : NtcMem) : Prop where
  listLen : m'.list.length = m.list.length
  wavesLen : m'.waves.length = m.waves.length
  maxWave : m.maxWave ≤ m'.maxWave
  maxWaveLe : m'.maxWave ≤ max m.maxWave bs
  list : ∀ k, (∀ px, InBlk bs n b px → k ≠ es + px ∧ k ≠ num + (es + px) ∧
    k ≠ num * 2 + (es + px)) → m'.list[k]? = m.list[k]?
  waves : ∀ k, k ≠ b * cc + cell → m'.waves[k]? = m.waves[k]?

/-- If each wave but the first needs the wave before, then there are at most as many waves as pairs
in a block. -/
theorem wave_lt_block {bs n b : Nat} {W : Nat → Nat}
    (h : ∀ l w, InBlk bs n b l → W l = w + 1 → ∃ l', InBlk bs n b l' ∧ W l' = w) {l : Nat}
    (hl : InBlk bs n b l) : W l < bs := by
  have key : ∀ d, ∀ l, InBlk bs n b l → ∀ w, W l = w + d → ∃ l', InBlk bs n b l' ∧ W l' = w := by
    intro d
    induction d with
    | zero => intro l hl w hw; exact ⟨l, hl, hw⟩
    | succ d ih =>
      intro l hl w hw
      obtain ⟨l', h1, h2⟩ := h l (w + d) hl (by omega)
      exact ih l' h1 w h2
  have hsub : List.range (W l + 1) ⊆ (List.range' (b * bs) bs).map W := by
    intro w hw
    obtain ⟨l', h1, h2⟩ := key (W l - w) l hl w (by have := List.mem_range.1 hw; omega)
    refine List.mem_map.2 ⟨l', List.mem_range'_1.2 ⟨h1.1, ?_⟩, h2⟩
    have := h1.2
    omega
  have := (List.nodup_range.subperm hsub).length_le
  simp only [List.length_range, List.length_map, List.length_range'] at this
  omega

/-- The state of the work group between two blocks. -/
def FlagsClear (np : Nat) (s : NtcGroup) : Prop :=
  np ≤ s.flags.length ∧ (∀ p, p < np → s.flags[p]? = some 0) ∧ s.cnt = 0

theorem ntcSt3_spec {m : List Int} {o n : Nat} {a b c : Int} (ho : o < n)
    (hm : n * 3 ≤ m.length) :
    ∃ m', ((st m o a).bind fun m => (st m (n * 1 + o) b).bind fun m => st m (n * 2 + o) c) = some m' ∧
      m'.length = m.length ∧ m'[o]? = some a ∧ m'[n + o]? = some b ∧ m'[n * 2 + o]? = some c ∧
      ∀ k, k ≠ o → k ≠ n + o → k ≠ n * 2 + o → m'[k]? = m[k]? := by
  refine ⟨((m.set o a).set (n * 1 + o) b).set (n * 2 + o) c, ?_, by simp, ?_, ?_, ?_, ?_⟩
  · rw [st_eq_some (by omega), Option.bind_some, st_eq_some (by simp; omega), Option.bind_some,
      st_eq_some (by simp; omega)]
  · rw [List.getElem?_set_ne (by omega), List.getElem?_set_ne (by omega),
      List.getElem?_set_self (by omega)]
  · rw [List.getElem?_set_ne (by omega), Nat.mul_one, List.getElem?_set_self (by simp; omega)]
  · rw [List.getElem?_set_self (by simp; omega)]
  · intro k h1 h2 h3
    rw [List.getElem?_set_ne (by omega), List.getElem?_set_ne (by omega),
      List.getElem?_set_ne (by omega)]

/-- One block on a CPU. -/
theorem cpuBlock_spec {α : Type} {conv : α → Int → Int} {x : NtcArgs α} {cell es n np b : Nat}
    {pk : Nat → Nat × Nat} (hpk : ∀ px, px < n → ntcPick conv x cell px = some (pk px))
    (hnp : ∀ px, px < n → (pk px).1 < np ∧ (pk px).2 < np) (hes : es + n ≤ x.num)
    {s : NtcGroup} (hs : FlagsClear np s) (hlist : x.num * 3 ≤ s.mem.list.length)
    (hw : b * x.cellCount + cell < s.mem.waves.length) :
    ∃ s', ntcCpuBlock conv x cell es n b s = some s' ∧ FlagsClear np s' ∧
      (∃ W, BlockDone pk es x.num n x.blockSize x.cellCount cell b W s'.mem) ∧
      BlkFrame es x.num n x.blockSize x.cellCount cell b s.mem s'.mem := by
  obtain ⟨hs1, hs2, hs3⟩ := hs
  set start := b * x.blockSize with hstart
  set stop := min (start + x.blockSize) n with hstop
  by_cases hle : start ≤ stop
  case neg =>
    -- the block is empty
    have h0 : ∀ px, ¬ InBlk x.blockSize n b px := by
      intro px h
      have h1 : start ≤ px := h.1
      have h2 : px < stop := h.2
      omega
    have hz : ∀ {σ : Type} (step : Nat → σ → Option σ) (t : σ), forLoop start stop step t = some t := by
      intro σ step t
      unfold forLoop
      rw [show stop - start = 0 by omega]; rfl
    refine ⟨⟨s.flags, s.cnt, ⟨s.mem.list, s.mem.waves.set (b * x.cellCount + cell) 0, s.mem.maxWave⟩⟩,
      ?_, ⟨hs1, hs2, hs3⟩, ⟨fun _ => 0, fun px h => absurd h (h0 px), ⟨0, ?_, Nat.zero_le _,
        fun px h => absurd h (h0 px), fun _ h => by omega⟩, fun l _ h => absurd h (h0 l),
        fun l _ h => absurd h (h0 l)⟩,
      rfl, by simp, Nat.le_refl _, Nat.le_max_left _ _, fun _ _ => rfl, ?_⟩
    · unfold ntcCpuBlock
      dsimp only
      rw [hz, Option.bind_some, st_eq_some hw, Option.bind_some, hz, Option.bind_some]
    · dsimp only
      rw [List.getElem?_set_self hw]
    · intro k hk
      dsimp only
      rw [List.getElem?_set_ne (Ne.symm hk)]
  case pos =>
  obtain ⟨⟨fl, ls, mw, inner⟩, a1, W, a2, a3, a4, a5, a6, a7, a8, a9, a10, a11⟩ := forLoop_invariant (a := start)
    (b := stop) (step := ntcCpuPair conv x cell es) (s := (s.flags, s.mem.list, s.mem.maxWave, 0))
    (fun px t => ∃ W, Greedy np pk (fun l => start ≤ l ∧ l < px) W (flagOf t.1) ∧
      t.1.length = s.flags.length ∧ t.2.1.length = s.mem.list.length ∧
      (∀ l, start ≤ l → l < px → t.2.1[es + l]? = some ((pk l).1 : Int) ∧
        t.2.1[x.num + (es + l)]? = some ((pk l).2 : Int) ∧
        t.2.1[x.num * 2 + (es + l)]? = some (W l : Int)) ∧
      (∀ k, (∀ l, start ≤ l → l < px → k ≠ es + l ∧ k ≠ x.num + (es + l) ∧
        k ≠ x.num * 2 + (es + l)) → t.2.1[k]? = s.mem.list[k]?) ∧
      (∀ l, start ≤ l → l < px → W l < t.2.2.2) ∧ t.2.2.2 ≤ t.2.2.1 ∧ s.mem.maxWave ≤ t.2.2.1 ∧
      t.2.2.1 ≤ max s.mem.maxWave t.2.2.2 ∧
      ((px = start ∧ t.2.2.2 = 0) ∨ ∃ l, start ≤ l ∧ l < px ∧ W l + 1 = t.2.2.2))
    hle
    (by
      rintro px ⟨fl, ls, mw, inner⟩ h1 h2 ⟨W, b1, b2, b3, b4, b5, b6, b7, b8, b9, b10⟩
      dsimp only at b1 b2 b3 b4 b5 b6 b7 b8 b9 b10
      have hpn : px < n := by omega
      obtain ⟨q1, q2⟩ := hnp px hpn
      have hi := get_flagOf (f := fl) (p := (pk px).1) (by omega)
      have hj := get_flagOf (f := fl) (p := (pk px).2) (by omega)
      set w := max (flagOf fl (pk px).1) (flagOf fl (pk px).2) with hwd
      obtain ⟨fl', f1, f2, f3⟩ := ntcSt2_spec (f := fl) (i := (pk px).1) (j := (pk px).2) (v := w + 1)
        (by omega) (by omega)
      obtain ⟨ls', l1, l2, l3, l4, l5, l6⟩ := ntcSt3_spec (m := ls) (o := es + px) (n := x.num)
        (a := ((pk px).1 : Int)) (b := ((pk px).2 : Int)) (c := (w : Int)) (by omega) (by omega)
      refine ⟨(fl', ls', max (w + 1) mw, max (w + 1) inner), ?_,
        fun y => if y = px then w else W y, ?_, by dsimp only; omega, by dsimp only; omega, ?_, ?_,
        ?_, ?_, ?_, ?_, ?_⟩
      · unfold ntcCpuPair
        simp only [rd]
        rw [hpk px hpn, Option.bind_some, hi, Option.bind_some, hj, Option.bind_some]
        obtain ⟨g, g1, g2⟩ := Option.bind_eq_some_iff.1 f1
        rw [← hwd, g1, Option.bind_some, g2, Option.bind_some]
        obtain ⟨g, g1, l1⟩ := Option.bind_eq_some_iff.1 l1
        obtain ⟨g', g2, l1⟩ := Option.bind_eq_some_iff.1 l1
        rw [g1, Option.bind_some, g2, Option.bind_some, l1, Option.bind_some]
      · dsimp only
        have := b1.step (l := px) (by omega) q1 q2 (fl' := flagOf fl') (flagOf_st2 f3)
        have he : (fun y => start ≤ y ∧ y < px + 1) = fun y => (start ≤ y ∧ y < px) ∨ y = px := by
          funext y
          refine propext ⟨fun h => ?_, fun h => ?_⟩ <;> omega
        rw [he]
        exact this
      · intro l m1 m2
        dsimp only
        by_cases hlp : l = px
        · subst hlp
          rw [if_pos rfl]
          exact ⟨l3, l4, l5⟩
        · rw [if_neg hlp]
          obtain ⟨c1, c2, c3⟩ := b4 l m1 (by omega)
          have hln : l < n := by omega
          rw [l6 _ (by omega) (by omega) (by omega), l6 _ (by omega) (by omega) (by omega),
            l6 _ (by omega) (by omega) (by omega)]
          exact ⟨c1, c2, c3⟩
      · intro k hk
        dsimp only
        obtain ⟨c1, c2, c3⟩ := hk px h1 (by omega)
        rw [l6 k c1 c2 c3]
        exact b5 k (fun l m1 m2 => hk l m1 (by omega))
      · intro l m1 m2
        dsimp only
        by_cases hlp : l = px
        · rw [if_pos hlp]; omega
        · rw [if_neg hlp]
          have := b6 l m1 (by omega)
          omega
      · clear b10; dsimp only; omega
      · clear b10; dsimp only; omega
      · clear b10; dsimp only; omega
      · dsimp only
        right
        by_cases hwi : inner ≤ w + 1
        · exact ⟨px, h1, by omega, by rw [if_pos rfl]; omega⟩
        · rcases b10 with ⟨-, h0⟩ | ⟨l, l1, l2, l3⟩
          · omega
          · exact ⟨l, l1, by omega, by rw [if_neg (by omega)]; omega⟩)
    ⟨fun _ => 0, ⟨by intro l h; omega, by intro l _ h; omega, by intro l _ h; omega, by
        intro p f hp hf
        dsimp only at hf
        rw [flagOf_eq (hs2 p hp)] at hf
        omega⟩, rfl, rfl, by intro l h1 h2; omega, fun _ _ => rfl, by intro l h1 h2; omega,
      Nat.zero_le _, Nat.le_refl _, Nat.le_max_left _ _, Or.inl ⟨rfl, rfl⟩⟩
  dsimp only at a2 a3 a4 a5 a6 a7 a8 a9 a10 a11
  -- the flags are reset
  obtain ⟨fl2, r1, r2, r3, r4⟩ := forLoop_invariant (a := start) (b := stop)
    (step := ntcCpuReset x es ls) (s := fl)
    (fun px t => t.length = fl.length ∧
      (∀ l, start ≤ l → l < px → t[(pk l).1]? = some 0 ∧ t[(pk l).2]? = some 0) ∧
      (∀ p, t[p]? = some 0 ∨ t[p]? = fl[p]?)) hle
    (by
      rintro px t h1 h2 ⟨b1, b2, b3⟩
      have hpn : px < n := by omega
      obtain ⟨q1, q2⟩ := hnp px hpn
      obtain ⟨t', f1, f2, f3⟩ := ntcSt2_spec (f := t) (i := (pk px).1) (j := (pk px).2) (v := 0)
        (by omega) (by omega)
      obtain ⟨c1, c2, -⟩ := a5 px h1 h2
      refine ⟨t', ?_, by omega, ?_, ?_⟩
      · unfold ntcCpuReset
        simp only [rd]
        rw [c1, Option.bind_some, Nat.mul_one, c2, Option.bind_some,
          show index ((pk px).1 : Int) = some (pk px).1 by simp [index], Option.bind_some,
          show index ((pk px).2 : Int) = some (pk px).2 by simp [index], Option.bind_some]
        exact f1
      · intro l m1 m2
        rw [f3, f3]
        by_cases hlp : l = px
        · subst hlp
          rw [if_pos (Or.inl rfl), if_pos (Or.inr rfl)]
          exact ⟨rfl, rfl⟩
        · obtain ⟨e1, e2⟩ := b2 l m1 (by omega)
          constructor
          · split
            · rfl
            · exact e1
          · split
            · rfl
            · exact e2
      · intro p
        rw [f3]
        split
        · exact Or.inl rfl
        · exact b3 p)
    ⟨rfl, by intro l h1 h2; omega, fun p => Or.inr rfl⟩
  refine ⟨⟨fl2, s.cnt, ⟨ls, s.mem.waves.set (b * x.cellCount + cell) inner, mw⟩⟩, ?_,
    ⟨by dsimp only; omega, ?_, hs3⟩, ⟨W, ?_, ⟨inner, ?_, ?_, ?_, ?_⟩, ?_, ?_⟩, a4, by simp, a9, ?_, ?_, ?_⟩
  · unfold ntcCpuBlock
    dsimp only
    rw [← hstart, ← hstop, a1, Option.bind_some]
    dsimp only
    rw [st_eq_some hw, Option.bind_some, r1, Option.bind_some]
  · intro p hp
    dsimp only
    rcases r4 p with h | h
    · exact h
    · cases hf : flagOf fl p with
      | zero => rw [h, get_flagOf (by omega), hf]
      | succ f =>
        obtain ⟨l, ⟨l1, l2⟩, -, l3⟩ := a2.below p f hp hf
        obtain ⟨e1, e2⟩ := r3 l l1 l2
        rcases l3 with l3 | l3
        · rw [l3]; exact e1
        · rw [l3]; exact e2
  · intro px h
    exact a5 px h.1 h.2
  · dsimp only
    rw [List.getElem?_set_self hw]
  · exact a8
  · intro px h
    exact a7 px h.1 h.2
  · intro g1 g2
    rcases a11 with ⟨h, -⟩ | ⟨l, l1, l2, l3⟩
    · omega
    · exact ⟨l, ⟨l1, l2⟩, l3⟩
  · intro l l' h h' hne hsh
    exact a2.free l l' h h' hne hsh
  · intro l w h hlw
    exact a2.needed l w h hlw
  · dsimp only
    rcases a11 with ⟨-, h⟩ | ⟨l, l1, l2, l3⟩
    · omega
    · have := wave_lt_block (bs := x.blockSize) (n := n) (b := b) (W := W) (fun l w h hlw => by
        obtain ⟨l', g1, g2, -⟩ := a2.needed l w h hlw
        exact ⟨l', g1, g2⟩) ⟨l1, l2⟩
      omega
  · intro k hk
    exact a6 k (fun l h1 h2 => hk l ⟨h1, h2⟩)
  · intro k hk
    dsimp only
    rw [List.getElem?_set_ne (Ne.symm hk)]

end NP
