import Verif.Containers.SpecCellReduce
import Verif.Algo.PropsReduce
import Verif.Sub.LemmasSelect
import Verif.Common.Atomic
import Verif.Loop.Props
import Verif.Basics.Props

/-! Work groups of a reduction loop. -/

set_option autoImplicit false

namespace NP

open Spec

variable {T : Type}

/-! ## Accumulation -/

/-- Updates `m[loc] := op(m[loc], val)` one after another. -/
theorem runItems_accumulate {ι : Type} (op : T → T → T) (loc : ι → Nat) (val : ι → T) (is : List ι)
    (m : List T) (h : ∀ i ∈ is, loc i < m.length) :
    ∃ m', runItems (fun i m => (rd m (loc i)).bind fun current => st m (loc i) (op current (val i))) is m =
        some m' ∧ m'.length = m.length ∧
      ∀ k, m'[k]? = (m[k]?).map fun a =>
        (is.filterMap fun i => if loc i = k then some (val i) else none).foldl op a := by
  induction is generalizing m with
  | nil => exact ⟨m, rfl, rfl, fun k => by simp⟩
  | cons i is ih =>
    have hl := h i (by simp)
    obtain ⟨m', a1, a2, a3⟩ := ih (m.set (loc i) (op m[loc i] (val i))) fun j hj => by
      rw [List.length_set]; exact h j (by simp [hj])
    refine ⟨m', ?_, by simpa using a2, fun k => ?_⟩
    · rw [runItems_cons]
      simp only [rd]
      rw [List.getElem?_eq_getElem hl, Option.bind_some, st_eq_some hl, Option.bind_some]
      exact a1
    · rw [a3 k]
      by_cases hk : loc i = k
      · subst hk
        rw [List.getElem?_set_self hl, List.getElem?_eq_getElem hl]
        simp
      · rw [List.getElem?_set_ne hk, List.filterMap_cons]
        simp [hk]

/-! ## Powers of two -/

theorem prevPow2_isPow2 {N x : Nat} (h : getPrevPowerOfTwo N = some x) : IsPow2 x := by
  unfold getPrevPowerOfTwo log2Int oneShl at h
  split at h
  · exact absurd h (by simp)
  · rw [Option.bind_some] at h
    split at h
    · rw [Option.bind_some] at h
      obtain rfl := Option.some.inj h
      exact ⟨_, Nat.max_eq_left Nat.one_le_two_pow⟩
    · exact absurd h (by simp)

theorem loopLocalSize_pow2 {lmem ls S x : Nat} (hp : IsPow2 ls) (h : loopLocalSize lmem ls 0 S = some x) :
    IsPow2 x ∧ x ≤ ls := by
  unfold loopLocalSize at h
  dsimp only at h
  split at h
  · exact absurd h (by simp)
  · rw [if_pos rfl, Option.bind_some] at h
    obtain ⟨p, h1, h2⟩ := Option.bind_eq_some_iff.1 h
    split at h2
    · obtain rfl := Option.some.inj h2
      refine ⟨?_, Nat.min_le_right _ _⟩
      rcases Nat.le_total p ls with hh | hh
      · rw [Nat.min_eq_left hh]; exact prevPow2_isPow2 h1
      · rw [Nat.min_eq_right hh]; exact hp
    · exact absurd h2 (by simp)

theorem peelBlock_localSize {npart : List Nat} {sv R nb m L S i : Nat} {bs : List LoopBlock}
    (h : peelBlock npart sv R nb m L S i = some bs) : ∀ b ∈ bs, b.localSize = L := by
  unfold peelBlock at h
  obtain ⟨r, -, h⟩ := Option.bind_eq_some_iff.1 h
  obtain ⟨mo, -, h⟩ := Option.bind_eq_some_iff.1 h
  split at h
  · exact absurd h (by simp)
  · dsimp only at h
    split at h
    · obtain ⟨x, -, h⟩ := Option.bind_eq_some_iff.1 h
      obtain ⟨y, -, h⟩ := Option.bind_eq_some_iff.1 h
      obtain rfl := Option.some.inj h
      simp
    · obtain rfl := Option.some.inj h
      simp

theorem mem_of_collectM {ι β : Type _} {f : ι → Option (List β)} {is : List ι} {l : List β}
    (h : collectM f is = some l) {x : β} (hx : x ∈ l) : ∃ i ∈ is, ∃ y, f i = some y ∧ x ∈ y := by
  induction is generalizing l with
  | nil => obtain rfl := Option.some.inj h; simp at hx
  | cons i is ih =>
    obtain ⟨y, h1, h⟩ := Option.bind_eq_some_iff.1 h
    obtain ⟨ys, h2, h⟩ := Option.bind_eq_some_iff.1 h
    obtain rfl := Option.some.inj h
    rcases List.mem_append.1 hx with hx | hx
    · exact ⟨i, by simp, y, h1, hx⟩
    · obtain ⟨j, hj, z, h3, h4⟩ := ih h2 hx
      exact ⟨j, by simp [hj], z, h3, h4⟩

theorem getGeneric_localSize {lmem : Nat} {npart : List Nat} {cs ce nbin ls S : Nat} {bs : List LoopBlock}
    (hp : IsPow2 ls) (h : getGeneric lmem npart cs ce nbin ls 0 S = some bs) :
    ∀ b ∈ bs, IsPow2 b.localSize ∧ b.localSize ≤ ls := by
  unfold getGeneric at h
  obtain ⟨L, hL, h⟩ := Option.bind_eq_some_iff.1 h
  obtain ⟨hL1, hL2⟩ := loopLocalSize_pow2 hp hL
  split at h
  · exact absurd h (by simp)
  · obtain ⟨r, -, h⟩ := Option.bind_eq_some_iff.1 h
    obtain ⟨mm, -, h⟩ := Option.bind_eq_some_iff.1 h
    obtain ⟨pp, hpp, h⟩ := Option.bind_eq_some_iff.1 h
    dsimp only at h
    have hgood : IsPow2 (if 2 * pp < L then 2 * pp else L) ∧ (if 2 * pp < L then 2 * pp else L) ≤ ls := by
      split
      · obtain ⟨k, hk⟩ := prevPow2_isPow2 hpp
        exact ⟨⟨k + 1, by rw [hk, Nat.pow_succ, Nat.mul_comm]⟩, by omega⟩
      · exact ⟨hL1, hL2⟩
    generalize (if 2 * pp < L then 2 * pp else L) = L' at h hgood
    split at h
    · obtain rfl := Option.some.inj h; simp
    · split at h
      · exact absurd h (by simp)
      · obtain ⟨peel, hpeel, h⟩ := Option.bind_eq_some_iff.1 h
        obtain rfl := Option.some.inj h
        intro b hb
        rcases List.mem_append.1 hb with hb | hb
        · split at hb
          · rw [List.mem_singleton] at hb
            subst hb
            exact hgood
          · simp at hb
        · obtain ⟨i, -, y, h1, h2⟩ := mem_of_collectM hpeel hb
          rw [peelBlock_localSize h1 b h2]
          exact hgood

theorem submitBlocks_localSize {P : LoopParams} {counts : List Nat} {hg : Bool} {tot S : Nat}
    {cs ce : Option Int} {bs : List LoopBlock} (hp : IsPow2 P.localSize)
    (h : submitBlocks P counts hg tot S cs ce = some bs) :
    ∀ b ∈ bs, IsPow2 b.localSize ∧ b.localSize ≤ P.localSize := by
  unfold submitBlocks at h
  obtain ⟨r, -, h⟩ := Option.bind_eq_some_iff.1 h
  obtain ⟨em, -, h⟩ := Option.bind_eq_some_iff.1 h
  split at h
  · obtain rfl := Option.some.inj h; simp
  · split at h
    · exact getGeneric_localSize hp h
    · exact getGeneric_localSize hp h

/-! ## Initialisation -/

theorem redInit_spec (e : T) (num L : Nat) (order : Sched) (m : List T) (hm : num * L ≤ m.length) :
    ∃ m', runItems (redInitItem e num L) (order.order (List.range L)) m = some m' ∧
      m'.length = m.length ∧ ∀ ix w, ix < num → w < L → m'[ix * L + w]? = some e := by
  have hmem : ∀ w ∈ order.order (List.range L), w < L := fun w hw =>
    List.mem_range.1 ((order.perm _).mem_iff.1 hw)
  obtain ⟨m', a1, a2, a3⟩ := runItems_invariant (step := redInitItem e num L)
    (items := order.order (List.range L)) (s := m)
    (P := fun pre s => s.length = m.length ∧ ∀ ix w, ix < num → w ∈ pre → s[ix * L + w]? = some e)
    (by
      rintro pre w post s he ⟨b1, b2⟩
      have hw : w < L := hmem w (by rw [he]; simp)
      obtain ⟨s', c1, c2, c3, c4⟩ := forLoop_invariant (a := 0) (b := num)
        (step := fun ix m => st m (ix * L + w) e) (s := s)
        (P := fun i t => t.length = s.length ∧ (∀ ix, ix < i → t[ix * L + w]? = some e) ∧
          ∀ k : Nat, s[k]? = some e → t[k]? = some e) (Nat.zero_le _)
        (by
          rintro i t - hi ⟨d1, d2, d3⟩
          have hl : i * L + w < t.length := by
            rw [d1, b1]
            calc i * L + w < i * L + L := by omega
              _ = (i + 1) * L := by ring
              _ ≤ num * L := Nat.mul_le_mul_right _ hi
              _ ≤ _ := hm
          have hset : ∀ k : Nat, t[k]? = some e → (t.set (i * L + w) e)[k]? = some e := by
            intro k hk
            by_cases hki : i * L + w = k
            · subst hki; rw [List.getElem?_set_self hl]
            · rw [List.getElem?_set_ne hki]; exact hk
          refine ⟨_, st_eq_some hl, by simp [d1], fun ix hix => ?_, fun k hk => hset k (d3 k hk)⟩
          by_cases hxi : ix = i
          · subst hxi; rw [List.getElem?_set_self hl]
          · exact hset _ (d2 ix (by omega)))
        ⟨rfl, by omega, fun k hk => hk⟩
      refine ⟨s', c1, by omega, fun ix w' hix hw' => ?_⟩
      rcases List.mem_append.1 hw' with h | h
      · exact c4 _ (b2 ix w' hix h)
      · rw [List.mem_singleton] at h
        subst h
        exact c3 ix hix)
    ⟨rfl, by simp⟩
  exact ⟨m', a1, a2, fun ix w hix hw => a3 ix w hix ((order.perm _).mem_iff.2 (List.mem_range.2 hw))⟩

/-! ## The kernel -/

/-- The values of calls for component `ix`. -/
def compVals (nrow : Nat) (calls : List (Nat × Nat × T)) (ix : Nat) : List T :=
  calls.filterMap fun x => if nrow * x.2.1 + x.1 = ix then some x.2.2 else none

theorem lane_inj {L a b w w' : Nat} (hw : w < L) (hw' : w' < L) (h : a * L + w = b * L + w') :
    a = b ∧ w = w' := by
  have h1 : (a * L + w) / L = a := by
    rw [Nat.mul_comm, Nat.mul_add_div (by omega), Nat.div_eq_of_lt hw]; rfl
  have h2 : (b * L + w') / L = b := by
    rw [Nat.mul_comm, Nat.mul_add_div (by omega), Nat.div_eq_of_lt hw']; rfl
  have h3 : a = b := by rw [← h1, ← h2, h]
  subst h3
  exact ⟨rfl, by omega⟩

theorem redKernel_spec (op : T → T → T) (e : T) (counts : List Nat) (par : Parent)
    (calls : Nat → Nat → List (Nat × Nat × T)) (nrow num : Nat) (b : LoopBlock) (g : Nat × Nat)
    (order : Sched) (m : List T) (hm : num * b.localSize ≤ m.length)
    (he : ∀ ix w, ix < num → w < b.localSize → m[ix * b.localSize + w]? = some e)
    (visits : Nat → List (Nat × Nat)) (lay : Nat × Nat → Nat)
    (hv : ∀ w, w < b.localSize → itemVisitStrided counts b (g.1, g.2 * b.localSize + w) = some (visits w))
    (hlay : ∀ w, w < b.localSize → ∀ v ∈ visits w, par.layerAt v.1 v.2 = some (lay v))
    (hcalls : ∀ w, w < b.localSize → ∀ v ∈ visits w, ∀ x ∈ calls v.1 (lay v), nrow * x.2.1 + x.1 < num) :
    ∃ m', runItems (redKernelItem op counts par calls nrow b g) (order.order (List.range b.localSize)) m =
        some m' ∧ m'.length = m.length ∧
      ∀ ix w, ix < num → w < b.localSize → m'[ix * b.localSize + w]? =
        some ((compVals nrow ((visits w).flatMap fun v => calls v.1 (lay v)) ix).foldl op e) := by
  have hmem : ∀ w ∈ order.order (List.range b.localSize), w < b.localSize := fun w hw =>
    List.mem_range.1 ((order.perm _).mem_iff.1 hw)
  have hnd : (order.order (List.range b.localSize)).Nodup := (order.perm _).nodup_iff.2 List.nodup_range
  set L := b.localSize with hL
  obtain ⟨m', a1, a2, a3, -⟩ := runItems_invariant (step := redKernelItem op counts par calls nrow b g)
    (items := order.order (List.range L)) (s := m)
    (P := fun pre s => s.length = m.length ∧
      (∀ ix w, ix < num → w ∈ pre → s[ix * L + w]? =
        some ((compVals nrow ((visits w).flatMap fun v => calls v.1 (lay v)) ix).foldl op e)) ∧
      ∀ ix w, ix < num → w < L → w ∉ pre → s[ix * L + w]? = some e)
    (by
      rintro pre w post s hit ⟨b1, b2, b3⟩
      have hw : w < L := hmem w (by rw [hit]; simp)
      have hfree : w ∉ pre := by
        rw [hit, List.nodup_append] at hnd
        intro hc
        exact hnd.2.2 _ hc _ (by simp) rfl
      set cl := (visits w).flatMap fun v => calls v.1 (lay v) with hcl
      have hbd : ∀ x ∈ cl, (nrow * x.2.1 + x.1) * L + w < s.length := by
        intro x hx
        rw [hcl, List.mem_flatMap] at hx
        obtain ⟨v, hv1, hv2⟩ := hx
        have := hcalls w hw v hv1 x hv2
        rw [b1]
        calc (nrow * x.2.1 + x.1) * L + w < (nrow * x.2.1 + x.1) * L + L := by omega
          _ = (nrow * x.2.1 + x.1 + 1) * L := by ring
          _ ≤ num * L := Nat.mul_le_mul_right _ this
          _ ≤ _ := hm
      obtain ⟨s', c1, c2, c3⟩ := runItems_accumulate op
        (fun x : Nat × Nat × T => (nrow * x.2.1 + x.1) * L + w) (fun x => x.2.2) cl s hbd
      have hrun : redKernelItem op counts par calls nrow b g w s = some s' := by
        unfold redKernelItem
        rw [← hL, hv w hw, Option.bind_some, ← c1, hcl]
        have hl := hlay w hw
        clear hcl c1 c2 c3 hbd b1 b2 b3
        generalize visits w = vs at hl
        induction vs generalizing s with
        | nil => rfl
        | cons v vs ih =>
          rw [runItems_cons, hl v (by simp), Option.bind_some, List.flatMap_cons, runItems_append]
          congr 1
          funext t
          exact ih t fun v' hv' => hl v' (by simp [hv'])
      refine ⟨s', hrun, by omega, ?_, ?_⟩
      · intro ix w' hix hw'
        rw [c3]
        rcases List.mem_append.1 hw' with h | h
        · have hne : w' ≠ w := fun hc => hfree (hc ▸ h)
          have hw'L : w' < L := hmem w' (by rw [hit]; simp [h])
          rw [b2 ix w' hix h, Option.map_some]
          congr 1
          have : (cl.filterMap fun i => if (nrow * i.2.1 + i.1) * L + w = ix * L + w' then some i.2.2 else none)
              = [] := by
            rw [List.filterMap_eq_nil_iff]
            intro x _
            rw [if_neg]
            intro hc
            exact hne (lane_inj hw hw'L hc).2.symm
          rw [this]; rfl
        · rw [List.mem_singleton] at h
          subst h
          rw [b3 ix w' hix hw hfree, Option.map_some]
          congr 2
          unfold compVals
          congr 1
          funext x
          by_cases hx : nrow * x.2.1 + x.1 = ix
          · rw [if_pos hx, if_pos (by rw [hx])]
          · rw [if_neg hx, if_neg fun hc => hx (lane_inj hw hw hc).1]
      · intro ix w' hix hw'L hw'
        rw [List.mem_append, not_or, List.mem_singleton] at hw'
        rw [c3, b3 ix w' hix hw'L hw'.1, Option.map_some]
        congr 1
        have : (cl.filterMap fun i => if (nrow * i.2.1 + i.1) * L + w = ix * L + w' then some i.2.2 else none)
            = [] := by
          rw [List.filterMap_eq_nil_iff]
          intro x _
          rw [if_neg]
          intro hc
          exact hw'.2 (lane_inj hw hw'L hc).2.symm
        rw [this]; rfl)
    ⟨rfl, by simp, fun ix w hix hw _ => he ix w hix hw⟩
  exact ⟨m', a1, a2, fun ix w hix hw => a3 ix w hix ((order.perm _).mem_iff.2 (List.mem_range.2 hw))⟩

/-! ## The tree -/

theorem redHalvings_pow (fuel k : Nat) (h : k ≤ fuel) :
    redHalvings fuel (2 ^ k / 2) = (List.range k).map fun i => 2 ^ (k - 1 - i) := by
  induction k generalizing fuel with
  | zero =>
    cases fuel with
    | zero => rfl
    | succ f => rfl
  | succ k ih =>
    obtain ⟨f, rfl⟩ : ∃ f, fuel = f + 1 := ⟨fuel - 1, by omega⟩
    have h1 : 2 ^ (k + 1) / 2 = 2 ^ k := by rw [Nat.pow_succ, Nat.mul_div_cancel _ (by omega)]
    rw [h1]
    unfold redHalvings
    rw [if_pos (Nat.two_pow_pos k), ih f (by omega), List.range_succ_eq_map, List.map_cons, List.map_map]
    congr 1
    apply List.map_congr_left
    intro i _
    show 2 ^ (k - 1 - i) = 2 ^ (k + 1 - 1 - (i + 1))
    congr 1
    omega

/-- One step of the tree. -/
theorem redTreeStep_spec (op : T → T → T) (offset s L : Nat) (order : Sched) (m : List T) (hs : 2 * s ≤ L)
    (hm : offset + L ≤ m.length) :
    ∃ m', runItems (redTreeItem op offset s) (order.order (List.range L)) m = some m' ∧
      m'.length = m.length ∧
      (∀ w x y, w < s → m[offset + w]? = some x → m[offset + w + s]? = some y →
        m'[offset + w]? = some (op x y)) ∧
      ∀ k, (k < offset ∨ offset + s ≤ k) → m'[k]? = m[k]? := by
  have hmem : ∀ w ∈ order.order (List.range L), w < L := fun w hw =>
    List.mem_range.1 ((order.perm _).mem_iff.1 hw)
  have hnd : (order.order (List.range L)).Nodup := (order.perm _).nodup_iff.2 List.nodup_range
  obtain ⟨m', a1, a2, a3, a4, a5⟩ := runItems_invariant (step := redTreeItem op offset s)
    (items := order.order (List.range L)) (s := m)
    (P := fun pre t => t.length = m.length ∧
      (∀ w x y, w < s → w ∈ pre → m[offset + w]? = some x → m[offset + w + s]? = some y →
        t[offset + w]? = some (op x y)) ∧
      (∀ w, w < s → w ∉ pre → t[offset + w]? = m[offset + w]?) ∧
      ∀ k, (k < offset ∨ offset + s ≤ k) → t[k]? = m[k]?)
    (by
      rintro pre w post t hit ⟨b1, b2, b3, b4⟩
      have hw : w < L := hmem w (by rw [hit]; simp)
      have hfree : w ∉ pre := by
        rw [hit, List.nodup_append] at hnd
        intro hc
        exact hnd.2.2 _ hc _ (by simp) rfl
      by_cases hws : w < s
      · have l1 : offset + w < m.length := by omega
        have l2 : offset + w + s < m.length := by omega
        refine ⟨t.set (offset + w) (op m[offset + w] m[offset + w + s]), ?_, by simp [b1], ?_, ?_, ?_⟩
        · unfold redTreeItem
          simp only [rd]
          rw [if_pos hws, Nat.add_comm w offset, b3 w hws hfree, List.getElem?_eq_getElem l1, Option.bind_some,
            b4 _ (Or.inr (by omega)), List.getElem?_eq_getElem l2, Option.bind_some, st_eq_some (by omega)]
        · intro w' x y hw's hw' hx hy
          rcases List.mem_append.1 hw' with h | h
          · have hne : w' ≠ w := fun hc => hfree (hc ▸ h)
            rw [List.getElem?_set_ne (by omega)]
            exact b2 w' x y hw's h hx hy
          · rw [List.mem_singleton] at h
            subst h
            rw [List.getElem?_set_self (by omega)]
            rw [List.getElem?_eq_getElem l1] at hx
            rw [List.getElem?_eq_getElem l2] at hy
            rw [Option.some.inj hx, Option.some.inj hy]
        · intro w' hw's hw'
          rw [List.mem_append, not_or, List.mem_singleton] at hw'
          rw [List.getElem?_set_ne (by omega)]
          exact b3 w' hw's hw'.1
        · intro k hk
          rw [List.getElem?_set_ne (by omega)]
          exact b4 k hk
      · refine ⟨t, by unfold redTreeItem; rw [if_neg hws], b1, ?_, ?_, b4⟩
        · intro w' x y hw's hw' hx hy
          rcases List.mem_append.1 hw' with h | h
          · exact b2 w' x y hw's h hx hy
          · rw [List.mem_singleton] at h; omega
        · intro w' hw's hw'
          rw [List.mem_append, not_or] at hw'
          exact b3 w' hw's hw'.1)
    ⟨rfl, by simp, fun _ _ _ => rfl, fun _ _ => rfl⟩
  exact ⟨m', a1, a2, fun w x y hw => a3 w x y hw ((order.perm _).mem_iff.2 (List.mem_range.2 (by omega))), a5⟩

theorem Spec.Laws.foldl_pairs {op : T → T → T} {e : T} (h : Laws op e) (n : Nat) (x y : Nat → T) :
    ((List.range n).map fun i => op (x i) (y i)).foldl op e =
      op (((List.range n).map x).foldl op e) (((List.range n).map y).foldl op e) := by
  induction n with
  | zero => exact (h.neutral e).symm
  | succ n ih =>
    simp only [List.range_succ, List.map_append, List.foldl_append, List.map_cons, List.map_nil,
      List.foldl_cons, List.foldl_nil, ih]
    generalize ((List.range n).map x).foldl op e = a
    generalize ((List.range n).map y).foldl op e = b
    rw [h.assoc, h.assoc, ← h.assoc b, h.comm b (x n), h.assoc (x n)]

/-- The whole tree leaves the combination of all values in the first place. -/
theorem redTree_spec {op : T → T → T} {e : T} (h : Laws op e) (offset L : Nat) (order : Nat → Sched) (k : Nat)
    (hk : 2 ^ k ≤ L) (m : List T) (hm : offset + L ≤ m.length) (x : Nat → T)
    (hx : ∀ w, w < 2 ^ k → m[offset + w]? = some (x w)) :
    ∃ m', runItems (fun s m => runItems (redTreeItem op offset s) ((order s).order (List.range L)) m)
        ((List.range k).map fun i => 2 ^ (k - 1 - i)) m = some m' ∧ m'.length = m.length ∧
      m'[offset]? = some (((List.range (2 ^ k)).map x).foldl op e) ∧
      ∀ j, (j < offset ∨ offset + L ≤ j) → m'[j]? = m[j]? := by
  induction k generalizing m x with
  | zero =>
    refine ⟨m, rfl, rfl, ?_, fun _ _ => rfl⟩
    have := hx 0 (by decide)
    rw [Nat.add_zero] at this
    rw [this]
    show some (x 0) = some (op e (x 0))
    rw [h.comm, h.neutral]
  | succ k ih =>
    have hpow : 2 ^ (k + 1) = 2 * 2 ^ k := by rw [Nat.pow_succ, Nat.mul_comm]
    obtain ⟨m1, a1, a2, a3, a4⟩ := redTreeStep_spec op offset (2 ^ k) L (order (2 ^ k)) m (by omega) hm
    obtain ⟨m2, b1, b2, b3, b4⟩ := ih (by omega) m1 (by omega) (fun w => op (x w) (x (w + 2 ^ k))) (by
      intro w hw
      refine a3 w _ _ hw (hx w (by omega)) ?_
      rw [Nat.add_assoc]
      exact hx (w + 2 ^ k) (by omega))
    refine ⟨m2, ?_, by omega, ?_, fun j hj => ?_⟩
    · rw [List.range_succ_eq_map, List.map_cons, List.map_map, runItems_cons]
      have e1 : 2 ^ (k + 1 - 1 - 0) = 2 ^ k := rfl
      rw [e1, a1, Option.bind_some, ← b1]
      congr 1
      apply List.map_congr_left
      intro i _
      show 2 ^ (k + 1 - 1 - (i + 1)) = 2 ^ (k - 1 - i)
      congr 1
      omega
    · rw [b3, h.foldl_pairs, hpow, Nat.two_mul, List.range_add, List.map_append, h.foldl_append, List.map_map]
      congr 3
      apply List.map_congr_left
      intro i _
      show x (i + 2 ^ k) = x (2 ^ k + i)
      rw [Nat.add_comm]
    · rw [b4 j hj, a4 j (by
        have := Nat.two_pow_pos k
        omega)]

theorem redFinalise_spec {op : T → T → T} {e : T} (h : Laws op e) (order : Nat → Nat → Sched) (num k cell : Nat)
    (hk : k ≤ 32) (m : List T) (hm : num * 2 ^ k ≤ m.length) (x : Nat → Nat → T)
    (hx : ∀ ix w, ix < num → w < 2 ^ k → m[ix * 2 ^ k + w]? = some (x ix w)) :
    ∃ m', redFinalise op order num (2 ^ k) cell m = some (m', (List.range num).map fun ex =>
      (cell * num + ex, ((List.range (2 ^ k)).map (x ex)).foldl op e)) := by
  unfold redFinalise
  rw [redHalvings_pow 32 k hk]
  set L := 2 ^ k with hL
  have hblock : ∀ ix, ix < num → ix * L + L ≤ num * L := by
    intro ix hix
    calc ix * L + L = (ix + 1) * L := by ring
      _ ≤ num * L := Nat.mul_le_mul_right _ hix
  obtain ⟨⟨m', us⟩, a1, -, a3, -⟩ := forLoop_invariant (a := 0) (b := num) (s := (m, ([] : List (Nat × T))))
    (step := fun ex s =>
      let offset := ex * L
      (runItems (fun h m => runItems (redTreeItem op offset h) ((order ex h).order (List.range L)) m)
        ((List.range k).map fun i => 2 ^ (k - 1 - i)) s.1).bind fun m =>
      (rd m offset).bind fun value =>
      some (m, s.2 ++ [(cell * num + ex, value)]))
    (P := fun i s => s.1.length = m.length ∧
      s.2 = ((List.range i).map fun ex => (cell * num + ex, ((List.range L).map (x ex)).foldl op e)) ∧
      ∀ ix w, i ≤ ix → ix < num → w < L → s.1[ix * L + w]? = some (x ix w)) (Nat.zero_le _)
    (by
      rintro i ⟨t, us⟩ - hi ⟨b1, b2, b3⟩
      dsimp only at b1 b2 b3
      have hb := hblock i hi
      obtain ⟨t', c1, c2, c3, c4⟩ := redTree_spec h (i * L) L (order i) k (Nat.le_refl _) t (by omega) (x i)
        (fun w hw => b3 i w (Nat.le_refl _) hi hw)
      refine ⟨(t', us ++ [(cell * num + i, ((List.range L).map (x i)).foldl op e)]), ?_, by dsimp only; omega, ?_, ?_⟩
      · dsimp only
        simp only [rd]
        rw [c1, Option.bind_some, c3, Option.bind_some]
      · dsimp only
        rw [b2, List.range_succ, List.map_append]
        rfl
      · intro ix w hix hixn hw
        dsimp only
        have : i * L + L ≤ ix * L := by
          calc i * L + L = (i + 1) * L := by ring
            _ ≤ ix * L := Nat.mul_le_mul_right _ hix
        rw [c4 _ (Or.inr (by omega))]
        exact b3 ix w (by omega) hixn hw)
    ⟨rfl, rfl, fun ix w _ hix hw => hx ix w hix hw⟩
  dsimp only at a3
  refine ⟨m', ?_⟩
  rw [a1, a3]

/-- The updates of one work group. -/
theorem redGroup_spec {op : T → T → T} {e : T} (h : Laws op e) (env : CellReduceEnv T) (counts : List Nat)
    (par : Parent) (calls : Nat → Nat → List (Nat × Nat × T)) (nrow ncol : Nat) (b : LoopBlock) (g : Nat × Nat)
    (hp : IsPow2 b.localSize) (hle : b.localSize ≤ env.P.localSize) (hint : env.P.localSize < 2 ^ 31)
    (visits : Nat → List (Nat × Nat)) (lay : Nat × Nat → Nat)
    (hv : ∀ w, w < b.localSize → itemVisitStrided counts b (g.1, g.2 * b.localSize + w) = some (visits w))
    (hlay : ∀ w, w < b.localSize → ∀ v ∈ visits w, par.layerAt v.1 v.2 = some (lay v))
    (hcalls : ∀ w, w < b.localSize → ∀ v ∈ visits w, ∀ x ∈ calls v.1 (lay v),
      nrow * x.2.1 + x.1 < nrow * ncol) :
    redGroup op e env counts par calls nrow ncol b g = some ((List.range (nrow * ncol)).map fun ex =>
      ((g.1 + b.offsetCell) * (nrow * ncol) + ex,
        (((List.range b.localSize).flatMap visits).flatMap fun v =>
          compVals nrow (calls v.1 (lay v)) ex).foldl op e)) := by
  obtain ⟨k, hk⟩ := hp
  have hk32 : k ≤ 32 := by
    by_contra hcon
    have : 2 ^ 32 ≤ 2 ^ k := Nat.pow_le_pow_right (by omega) (by omega)
    omega
  have hsz : nrow * ncol * b.localSize ≤
      ((env.mem b g) (ncol * nrow * env.P.localSize)).val.length := by
    rw [((env.mem b g) _).property, Nat.mul_comm ncol nrow]
    exact Nat.mul_le_mul_left _ hle
  obtain ⟨m1, a1, a2, a3⟩ := redInit_spec e (nrow * ncol) b.localSize (env.initOrder b g)
    ((env.mem b g) (ncol * nrow * env.P.localSize)).val hsz
  obtain ⟨m2, b1, b2, b3⟩ := redKernel_spec op e counts par calls nrow (nrow * ncol) b g (env.kernelOrder b g) m1
    (by omega) a3 visits lay hv hlay hcalls
  rw [hk] at b3
  obtain ⟨m3, c1⟩ := redFinalise_spec h (env.treeOrder b g) (nrow * ncol) k (g.1 + b.offsetCell) hk32 m2
    (by rw [← hk]; omega) _ b3
  unfold redGroup
  dsimp only
  rw [a1, Option.bind_some, b1, Option.bind_some, hk, c1, Option.bind_some]
  congr 1
  apply List.map_congr_left
  intro ex _
  congr 1
  rw [← h.foldl_flatMap, List.flatMap_assoc]
  congr 2
  funext w
  unfold compVals
  rw [List.filterMap_flatMap]

end NP
