import Verif.Pair.SpecCheck
import Verif.Pair.PropsBlock
import Verif.Basics.Lemmas
import Verif.Group.LemmasCounts
import Verif.Comm.LemmasExchange

/-! # Lemmas: checks of lists of blocks -/

set_option autoImplicit false

namespace NP

open Spec

/-! ## Lists -/

theorem sum_zero_iff (l : List Nat) : l.sum = 0 ↔ ∀ x ∈ l, x = 0 := by
  induction l with
  | nil => simp
  | cons a l ih => simp [ih]

theorem kernelAssert_zero {p : Prop} [Decidable p] : kernelAssert p = 0 ↔ p := by
  unfold kernelAssert; split <;> simp [*]

theorem foldl_seen {ι : Type} (p : ι → Prop) [DecidablePred p] (w : ι → Int) (l : List ι) (m0 : Int) :
    let r := l.foldl (fun m x => if p x then max (w x) m else m) m0
    (r = m0 ∨ ∃ x ∈ l, p x ∧ w x = r) ∧ m0 ≤ r ∧ ∀ x ∈ l, p x → w x ≤ r := by
  induction l generalizing m0 with
  | nil => simp
  | cons a l ih =>
    dsimp only [List.foldl_cons]
    by_cases ha : p a
    · rw [if_pos ha]
      obtain ⟨h1, h2, h3⟩ := ih (max (w a) m0)
      refine ⟨?_, by omega, ?_⟩
      · rcases h1 with h1 | ⟨x, hx, hp, hw⟩
        · by_cases hm : w a ≤ m0
          · left; rw [h1]; omega
          · right; exact ⟨a, List.mem_cons_self, ha, by rw [h1]; omega⟩
        · right; exact ⟨x, List.mem_cons_of_mem _ hx, hp, hw⟩
      · intro x hx hp
        rcases List.mem_cons.1 hx with rfl | hx
        · omega
        · exact h3 x hx hp
    · rw [if_neg ha]
      obtain ⟨h1, h2, h3⟩ := ih m0
      refine ⟨?_, h2, ?_⟩
      · rcases h1 with h1 | ⟨x, hx, hp, hw⟩
        · exact .inl h1
        · right; exact ⟨x, List.mem_cons_of_mem _ hx, hp, hw⟩
      · intro x hx hp
        rcases List.mem_cons.1 hx with rfl | hx
        · exact absurd hp ha
        · exact h3 x hx hp

theorem conflictLoop_cons (x : LanePair) (l : List LanePair) : conflictLoop (x :: l) =
    if x.w > -1 then ((l.map (conflictErrors x)).sum + (conflictLoop l).1,
      1 + (conflictLoop l).2) else conflictLoop l := rfl

theorem conflictLoop_fst (l : List LanePair) :
    (conflictLoop l).1 = 0 ↔ l.Pairwise fun x y => x.w > -1 → conflictErrors x y = 0 := by
  induction l with
  | nil => simp [conflictLoop]
  | cons x l ih =>
    rw [List.pairwise_cons, ← ih]
    rw [conflictLoop_cons]
    by_cases h : x.w > -1
    · rw [if_pos h]
      simp only [Nat.add_eq_zero_iff, sum_zero_iff, List.mem_map, forall_exists_index,
        and_imp, forall_apply_eq_imp_iff₂, h, true_imp_iff]
    · rw [if_neg h]
      simp only [h, false_imp_iff, implies_true, true_and]

theorem conflictLoop_snd (l : List LanePair) :
    (conflictLoop l).2 = l.countP fun x => decide (x.w > -1) := by
  induction l with
  | nil => rfl
  | cons x l ih =>
    rw [conflictLoop_cons]
    by_cases h : x.w > -1
    · rw [if_pos h, List.countP_cons_of_pos (by simpa using h), ← ih]
      exact Nat.add_comm _ _
    · rw [if_neg h, List.countP_cons_of_neg (by simpa using h), ← ih]

theorem conflictErrors_zero {x y : LanePair} : conflictErrors x y = 0 ↔
    (x.w = y.w → x.i ≠ y.i ∧ x.j ≠ y.j ∧ x.i ≠ y.j ∧ x.j ≠ y.i) := by
  unfold conflictErrors
  by_cases h : x.w = y.w
  · rw [if_pos h]
    simp only [Nat.add_eq_zero_iff, kernelAssert_zero, h, true_imp_iff]
    tauto
  · rw [if_neg h]
    simp only [h, false_imp_iff]

theorem laneErrors_zero {mw nw n pos : Nat} {x : LanePair} : laneErrors mw nw n pos x = 0 ↔
    x.i ≠ x.j ∧ (pos < n → 0 ≤ x.w ∧ x.w < mw ∧ x.w < nw) := by
  unfold laneErrors
  by_cases h : pos < n
  · rw [if_pos h]
    simp only [Nat.add_eq_zero_iff, kernelAssert_zero, h, true_imp_iff]
    tauto
  · rw [if_neg h]
    simp only [Nat.add_zero, kernelAssert_zero, h, false_imp_iff, and_true]

theorem countP_range_lt (bs m : Nat) :
    (List.range bs).countP (fun k => decide (k < m)) = min bs m := by
  induction bs with
  | zero => simp
  | succ b ih =>
    rw [List.range_succ, List.countP_append, ih]
    by_cases h : b < m
    · rw [List.countP_cons_of_pos (by simpa using h)]; simp; omega
    · rw [List.countP_cons_of_neg (by simpa using h)]; simp; omega

/-! ## One block -/

/-- The pairs `base`, ... of a block pass all checks. -/
structure BlockGood (mw nw n base bs : Nat) (g : Nat → LanePair) : Prop where
  each : ∀ pos, base ≤ pos → pos < base + bs → pos < n →
    (g pos).i ≠ (g pos).j ∧ 0 ≤ (g pos).w ∧ (g pos).w < mw ∧ (g pos).w < nw
  last : ∃ pos, base ≤ pos ∧ pos < base + bs ∧ pos < n ∧ (g pos).w + 1 = nw
  apart : ∀ pos pos', base ≤ pos → pos < pos' → pos' < base + bs → pos' < n →
    (g pos).w = (g pos').w → (g pos).i ≠ (g pos').i ∧ (g pos).j ≠ (g pos').j ∧
      (g pos).i ≠ (g pos').j ∧ (g pos).j ≠ (g pos').i

/-- A pair as it was read. -/
def laneOf (r : Int × Int × Int × Nat) : LanePair := ⟨r.1, r.2.1, r.2.2.1⟩

theorem validateBlock_eq {v : BlockView} {cell n block nw : Nat} {g : Nat → LanePair}
    (hnw : v.waveCounts[block * v.cellCount + cell]? = some nw)
    (hbase : block * v.blockSize < n) (hbs : 0 < v.blockSize)
    (hg : ∀ pos, block * v.blockSize ≤ pos → pos < block * v.blockSize + v.blockSize → pos < n →
      (v.read cell pos).map laneOf = some (g pos)) :
    ∃ e cnt, v.validateBlock cell n block = some (e, cnt) ∧
      (e = 0 ↔ BlockGood v.maxWaveCount nw n (block * v.blockSize) v.blockSize g) ∧
      ((∀ pos, block * v.blockSize ≤ pos → pos < block * v.blockSize + v.blockSize → pos < n →
        0 ≤ (g pos).w) → cnt = min v.blockSize (n - block * v.blockSize)) := by
  generalize hb : block * v.blockSize = base at *
  let f : Nat → LanePair := fun lane => if base + lane < n then g (base + lane) else ⟨-2, -3, -4⟩
  have hm : ((List.range v.blockSize).mapM fun lane => v.lanePair cell n (base + lane)) =
      some ((List.range v.blockSize).map f) := by
    refine mapM_of_forall fun lane hl => ?_
    have hl := List.mem_range.1 hl
    unfold BlockView.lanePair
    by_cases h : base + lane < n
    · rw [if_pos h]
      have := hg (base + lane) (by omega) (by omega) h
      cases hr : v.read cell (base + lane) with
      | none => rw [hr] at this; simp at this
      | some r =>
        rw [hr] at this
        simp only [Option.map_some, Option.some.injEq] at this
        simp only [Option.bind_some, f, if_pos h, ← this]
        rfl
    · rw [if_neg h]; simp only [f, if_neg h]
  have hz : ∀ x ∈ ((List.range v.blockSize).map f).zipIdx, x.2 < v.blockSize ∧ x.1 = f x.2 := by
    intro x hx
    obtain ⟨a, k⟩ := x
    have := List.mem_zipIdx_iff_getElem?.1 hx
    simp only [List.getElem?_map, Option.map_eq_some_iff] at this
    obtain ⟨b, h1, rfl⟩ := this
    have h2 := List.getElem?_eq_some_iff.1 h1
    obtain ⟨h3, h4⟩ := h2
    simp at h3 h4
    subst h4
    exact ⟨h3, rfl⟩
  have hz' : ∀ k < v.blockSize, (f k, k) ∈ ((List.range v.blockSize).map f).zipIdx := by
    intro k hk
    refine List.mem_zipIdx_iff_getElem?.2 ?_
    simp [List.getElem?_map, List.getElem?_range hk]
  unfold BlockView.validateBlock
  rw [hb]
  simp only [rd, hnw, Option.bind_some, hm]
  refine ⟨_, _, rfl, ?_, ?_⟩
  · obtain ⟨s1, s2, s3⟩ := foldl_seen (fun x : LanePair × Nat => base + x.2 < n)
      (fun x => x.1.w) ((List.range v.blockSize).map f).zipIdx 0
    rw [Nat.add_eq_zero_iff, Nat.add_eq_zero_iff, sum_zero_iff, kernelAssert_zero, conflictLoop_fst,
      List.pairwise_map]
    generalize hs : ((List.range v.blockSize).map f).zipIdx.foldl
      (fun m x => if base + x.2 < n then max x.1.w m else m) (0 : Int) = seen at *
    have e1 : (∀ x ∈ ((List.range v.blockSize).map f).zipIdx.map
          (fun x => laneErrors v.maxWaveCount nw n (base + x.2) x.1), x = 0) ↔
        ∀ pos, base ≤ pos → pos < base + v.blockSize → pos < n →
          (g pos).i ≠ (g pos).j ∧ 0 ≤ (g pos).w ∧ (g pos).w < v.maxWaveCount ∧ (g pos).w < nw := by
      constructor
      · intro h pos h1 h2 h3
        have := h _ (List.mem_map.2 ⟨_, hz' (pos - base) (by omega), rfl⟩)
        simp only [laneErrors_zero, f] at this
        rw [if_pos (by omega), show base + (pos - base) = pos by omega] at this
        exact ⟨this.1, this.2 h3⟩
      · intro h y hy
        obtain ⟨x, hx, rfl⟩ := List.mem_map.1 hy
        obtain ⟨h1, h2⟩ := hz x hx
        rw [laneErrors_zero, h2]
        simp only [f]
        by_cases h3 : base + x.2 < n
        · rw [if_pos h3]
          obtain ⟨h4, h5⟩ := h (base + x.2) (by omega) (by omega) h3
          exact ⟨h4, fun _ => h5⟩
        · rw [if_neg h3]
          exact ⟨by decide, fun h => absurd h h3⟩
    have e3 : ((List.range v.blockSize).Pairwise fun a b =>
          (f a).w > -1 → conflictErrors (f a) (f b) = 0) ↔
        ∀ a b, a < b → b < v.blockSize → (f a).w > -1 → conflictErrors (f a) (f b) = 0 := by
      rw [List.pairwise_iff_getElem]
      simp only [List.length_range, List.getElem_range]
      constructor
      · intro h a b h1 h2; exact h a b (by omega) h2 h1
      · intro h a b _ h2 h1; exact h a b h1 h2
    rw [e1, e3]
    constructor
    · rintro ⟨⟨h1, h2⟩, h3⟩
      refine ⟨h1, ?_, ?_⟩
      · rcases s1 with s1 | ⟨x, hx, hp, hw⟩
        · obtain ⟨-, g2, -, -⟩ := h1 base (by omega) (by omega) hbase
          have := s3 _ (hz' 0 hbs) (by simpa using hbase)
          simp only [f, Nat.add_zero, if_pos hbase] at this
          exact ⟨base, by omega, by omega, hbase, by omega⟩
        · obtain ⟨hx1, hx2⟩ := hz x hx
          refine ⟨base + x.2, by omega, by omega, hp, ?_⟩
          rw [hx2] at hw
          simp only [f, if_pos hp] at hw
          omega
      · intro pos pos' p1 p2 p3 p4 hw
        have h := h3 (pos - base) (pos' - base) (by omega) (by omega)
        simp only [f] at h
        rw [if_pos (by omega), if_pos (by omega), show base + (pos - base) = pos by omega,
          show base + (pos' - base) = pos' by omega] at h
        have h5 := (h1 pos p1 (by omega) (by omega)).2.1
        exact conflictErrors_zero.1 (h (by omega)) hw
    · rintro ⟨h1, h2, h3⟩
      refine ⟨⟨h1, ?_⟩, ?_⟩
      · obtain ⟨pos, p1, p2, p3, p4⟩ := h2
        have g1 := s3 _ (hz' (pos - base) (by omega)) (by dsimp only; omega)
        simp only [f] at g1
        rw [if_pos (by omega), show base + (pos - base) = pos by omega] at g1
        have g2 := (h1 pos p1 p2 p3).2.2.2
        rcases s1 with s1 | ⟨x, hx, hp, hw⟩
        · have := (h1 pos p1 p2 p3).2.1; omega
        · obtain ⟨hx1, hx2⟩ := hz x hx
          rw [hx2] at hw
          simp only [f, if_pos hp] at hw
          have := (h1 (base + x.2) (by omega) (by omega) hp).2.2.2
          omega
      · intro a b hab hb' hw
        rw [conflictErrors_zero]
        simp only [f] at hw ⊢
        by_cases c1 : base + b < n
        · rw [if_pos c1, if_pos (by omega)]
          exact h3 (base + a) (base + b) (by omega) (by omega) (by omega) c1
        · rw [if_neg c1]
          intro h
          rw [h] at hw
          exact absurd hw (by decide)
  · intro hpos
    rw [conflictLoop_snd, List.countP_map]
    rw [← countP_range_lt]
    refine List.countP_congr fun lane hl => ?_
    have hl := List.mem_range.1 hl
    simp only [Function.comp, f, decide_eq_true_eq]
    by_cases h : base + lane < n
    · rw [if_pos h]
      have := hpos (base + lane) (by omega) (by omega) h
      constructor
      · intro; omega
      · intro; omega
    · rw [if_neg h]
      constructor
      · intro h; exact absurd h (by decide)
      · intro; omega

theorem validateBlock_reads {v : BlockView} {cell n block : Nat} {r : Nat × Nat}
    (h : v.validateBlock cell n block = some r) :
    ∃ (nw : Nat) (g : Nat → LanePair),
      v.waveCounts[block * v.cellCount + cell]? = some nw ∧
      ∀ pos, block * v.blockSize ≤ pos → pos < block * v.blockSize + v.blockSize → pos < n →
        (v.read cell pos).map laneOf = some (g pos) := by
  unfold BlockView.validateBlock at h
  obtain ⟨nw, h1, h⟩ := Option.bind_eq_some_iff.1 h
  obtain ⟨xs, h2, -⟩ := Option.bind_eq_some_iff.1 h
  have h3 := mapM_some h2
  refine ⟨nw, fun pos => ((v.read cell pos).map laneOf).getD ⟨0, 0, 0⟩, h1, fun pos p1 p2 p3 => ?_⟩
  have h4 := (List.forall₂_iff_get.1 h3).2 (pos - block * v.blockSize) (by simp; omega)
    (by rw [← h3.length_eq]; simp; omega)
  simp only [List.get_eq_getElem, List.getElem_range] at h4
  unfold BlockView.lanePair at h4
  rw [if_pos (by omega), show block * v.blockSize + (pos - block * v.blockSize) = pos by omega] at h4
  cases hr : v.read cell pos with
  | none => rw [hr] at h4; simp at h4
  | some x => simp only [hr, Option.map_some, Option.getD_some]

/-! ## One cell -/

theorem lt_numBlocks {n bs block : Nat} (hbs : 0 < bs) :
    block < (n + (bs - 1)) / bs ↔ block * bs < n := by
  rw [Nat.lt_iff_add_one_le, Nat.le_div_iff_mul_le hbs, Nat.add_mul]
  omega

theorem sum_blocks (n bs : Nat) (m : Nat) :
    ((List.range m).map fun b => min bs (n - b * bs)).sum = min n (m * bs) := by
  induction m with
  | zero => simp
  | succ m ih =>
    rw [List.range_succ, List.map_append, List.sum_append, ih, Nat.add_mul]
    simp only [List.map_cons, List.map_nil, List.sum_cons, List.sum_nil]
    omega

theorem sum_all_blocks {n bs : Nat} (hbs : 0 < bs) :
    ((List.range ((n + (bs - 1)) / bs)).map fun b => min bs (n - b * bs)).sum = n := by
  rw [sum_blocks]
  have := Nat.lt_div_mul_add (a := n + (bs - 1)) (b := bs) hbs
  omega

/-- What the device structure holds for the work item of a cell. -/
structure CellReads (v : BlockView) (cell n : Nat) (es : Nat → Nat) (nw : Nat → Nat)
    (g : Nat → LanePair) : Prop where
  count : v.pairCounts[cell]? = some n
  zero : cell = 0 → v.pairCountsEs[0]? = some (es 0)
  this : cell < v.cellCount - 1 → v.pairCountsEs[cell]? = some (es cell)
  next : cell < v.cellCount - 1 → v.pairCountsEs[cell + 1]? = some (es (cell + 1))
  waves : ∀ block, block * v.blockSize < n →
    v.waveCounts[block * v.cellCount + cell]? = some (nw block)
  pairs : ∀ pos < n, (v.read cell pos).map laneOf = some (g pos)

theorem validateCell_eq {v : BlockView} {cell n : Nat} {es nw : Nat → Nat} {g : Nat → LanePair}
    (hbs : 0 < v.blockSize) (h : CellReads v cell n es nw g) :
    ∃ e cnt, v.validateCell cell = some (e, cnt) ∧
      (e = 0 ↔ (cell = 0 → es 0 = 0) ∧ (cell < v.cellCount - 1 → es (cell + 1) = es cell + n) ∧
        ∀ block, block * v.blockSize < n →
          BlockGood v.maxWaveCount (nw block) n (block * v.blockSize) v.blockSize g) ∧
      ((∀ pos < n, 0 ≤ (g pos).w) → cnt = n) := by
  have hblock : ∀ block, block * v.blockSize < n → _ := fun block hb =>
    validateBlock_eq (cell := cell) (g := g) (h.waves block hb) hb hbs
      fun pos _ _ hp => h.pairs pos hp
  choose! fe fc hf using hblock
  unfold BlockView.validateCell
  simp only [rd, h.count, Option.bind_some, divRoundUp_eq hbs]
  have e1 : (if cell = 0 then (v.pairCountsEs[0]?).bind fun es => some (kernelAssert (es = 0))
      else some 0) = some (if cell = 0 then kernelAssert (es 0 = 0) else 0) := by
    by_cases hc : cell = 0
    · rw [if_pos hc, if_pos hc, h.zero hc]; rfl
    · rw [if_neg hc, if_neg hc]
  have e2 : (if cell < v.cellCount - 1 then (v.pairCountsEs[cell]?).bind fun c0 =>
        (v.pairCountsEs[cell + 1]?).bind fun c1 => some (kernelAssert ((n : Int) = (c1 : Int) - c0))
      else some 0) = some (if cell < v.cellCount - 1 then
        kernelAssert ((n : Int) = (es (cell + 1) : Int) - es cell) else 0) := by
    by_cases hc : cell < v.cellCount - 1
    · rw [if_pos hc, if_pos hc, h.this hc, h.next hc]; rfl
    · rw [if_neg hc, if_neg hc]
  have e3 : ((List.range ((n + (v.blockSize - 1)) / v.blockSize)).mapM fun block =>
      v.validateBlock cell n block) =
      some ((List.range ((n + (v.blockSize - 1)) / v.blockSize)).map fun b => (fe b, fc b)) :=
    mapM_of_forall fun b hb => (hf b ((lt_numBlocks hbs).1 (List.mem_range.1 hb))).1
  rw [e1, e2, e3]
  simp only [Option.bind_some]
  refine ⟨_, _, rfl, ?_, ?_⟩
  · rw [Nat.add_eq_zero_iff, Nat.add_eq_zero_iff, sum_zero_iff, and_assoc]
    refine and_congr ?_ (and_congr ?_ ?_)
    · by_cases hc : cell = 0
      · rw [if_pos hc, kernelAssert_zero]; simp [hc]
      · rw [if_neg hc]; simp [hc]
    · by_cases hc : cell < v.cellCount - 1
      · rw [if_pos hc, kernelAssert_zero]
        constructor
        · intro h _; omega
        · intro h; have := h hc; omega
      · rw [if_neg hc]
        exact ⟨fun _ h => absurd h hc, fun _ => rfl⟩
    · simp only [List.map_map, List.mem_map, List.mem_range, lt_numBlocks hbs]
      constructor
      · intro hh b hb
        exact (hf b hb).2.1.1 (hh _ ⟨b, hb, rfl⟩)
      · rintro hh x ⟨b, hb, rfl⟩
        exact (hf b hb).2.1.2 (hh b hb)
  · intro hpos
    simp only [List.map_map]
    refine Eq.trans (congrArg List.sum (List.map_congr_left fun b hb => ?_)) (sum_all_blocks hbs)
    have hb := (lt_numBlocks hbs).1 (List.mem_range.1 hb)
    simp only [Function.comp]
    exact (hf b hb).2.2 fun pos _ _ hp => hpos pos hp

theorem validateCell_reads {v : BlockView} {cell : Nat} {r : Nat × Nat} (hbs : 0 < v.blockSize)
    (h : v.validateCell cell = some r) :
    ∃ n nw g, CellReads v cell n (fun c => (v.pairCountsEs[c]?).getD 0) nw g := by
  unfold BlockView.validateCell at h
  obtain ⟨n, h1, h⟩ := Option.bind_eq_some_iff.1 h
  obtain ⟨e1, h2, h⟩ := Option.bind_eq_some_iff.1 h
  obtain ⟨e2, h3, h⟩ := Option.bind_eq_some_iff.1 h
  rw [divRoundUp_eq hbs, Option.bind_some] at h
  obtain ⟨rs, h4, -⟩ := Option.bind_eq_some_iff.1 h
  have h5 := mapM_some h4
  have hb : ∀ block, block * v.blockSize < n → ∃ r, v.validateBlock cell n block = some r := by
    intro block hb
    have hb := (lt_numBlocks hbs).2 hb
    have := (List.forall₂_iff_get.1 h5).2 block (by simpa using hb)
      (by rw [← h5.length_eq]; simpa using hb)
    simp only [List.get_eq_getElem, List.getElem_range] at this
    exact ⟨_, this⟩
  refine ⟨n, fun block => (v.waveCounts[block * v.cellCount + cell]?).getD 0,
    fun pos => ((v.read cell pos).map laneOf).getD ⟨0, 0, 0⟩, h1, ?_, ?_, ?_, ?_, ?_⟩
  · intro hc
    rw [if_pos hc] at h2
    obtain ⟨x, h2, -⟩ := Option.bind_eq_some_iff.1 h2
    simp only [rd] at h2
    rw [h2]; rfl
  · intro hc
    rw [if_pos hc] at h3
    obtain ⟨x, h3, -⟩ := Option.bind_eq_some_iff.1 h3
    simp only [rd] at h3
    rw [h3]; rfl
  · intro hc
    rw [if_pos hc] at h3
    obtain ⟨x, -, h3⟩ := Option.bind_eq_some_iff.1 h3
    obtain ⟨x, h3, -⟩ := Option.bind_eq_some_iff.1 h3
    simp only [rd] at h3
    rw [h3]; rfl
  · intro block hblock
    obtain ⟨r, hr⟩ := hb block hblock
    obtain ⟨nw, g, g1, -⟩ := validateBlock_reads hr
    rw [g1]; rfl
  · intro pos hpos
    have h6 := Nat.div_mul_le_self pos v.blockSize
    have h7 := Nat.lt_div_mul_add (a := pos) (b := v.blockSize) hbs
    obtain ⟨r, hr⟩ := hb (pos / v.blockSize) (by omega)
    obtain ⟨nw, g, -, g1⟩ := validateBlock_reads hr
    rw [g1 pos h6 h7 hpos]; rfl

/-! ## All cells -/

theorem runItems_sum {f : Nat → Option (Nat × Nat)} {g : Nat → Nat × Nat} {items : List Nat}
    (h : ∀ c ∈ items, f c = some (g c)) (s : Nat × Nat) :
    runItems (fun cell (s : Nat × Nat) => (f cell).bind fun r => some (s.1 + r.1, s.2 + r.2)) items
      s = some (s.1 + (items.map fun c => (g c).1).sum, s.2 + (items.map fun c => (g c).2).sum) := by
  induction items generalizing s with
  | nil => simp [runItems]
  | cons a l ih =>
    rw [runItems_cons, h a List.mem_cons_self, Option.bind_some, Option.bind_some,
      ih fun c hc => h c (List.mem_cons_of_mem _ hc)]
    simp only [List.map_cons, List.sum_cons, Nat.add_assoc]

theorem runItems_sum_some {f : Nat → Option (Nat × Nat)} {items : List Nat} {s s' : Nat × Nat}
    (h : runItems (fun cell (s : Nat × Nat) => (f cell).bind fun r => some (s.1 + r.1, s.2 + r.2))
      items s = some s') : ∀ c ∈ items, ∃ r, f c = some r := by
  induction items generalizing s with
  | nil => intro c hc; simp at hc
  | cons a l ih =>
    rw [runItems_cons] at h
    obtain ⟨t, h1, h2⟩ := Option.bind_eq_some_iff.1 h
    intro c hc
    rcases List.mem_cons.1 hc with rfl | hc
    · obtain ⟨r, h3, -⟩ := Option.bind_eq_some_iff.1 h1
      exact ⟨r, h3⟩
    · exact ih h2 c hc

theorem numBlockPairs_sum (c : Nat) (L : BlockList) :
    ((List.range c).map fun c => (L c).length).sum = numBlockPairs c L := by
  induction c with
  | zero => rfl
  | succ c ih =>
    rw [List.range_succ, List.map_append, List.sum_append, ih, numBlockPairs_succ]
    simp

end NP
