import Verif.Containers.SpecRng
import Verif.Containers.Props
import Mathlib.Data.List.Nodup
import Mathlib.Data.List.Perm.Subperm

/-! # Lemmas about the random number generators -/

set_option autoImplicit false

namespace NP

/-! ## Drawing -/

/-- Invariant of `drawLoop`: everything drawn so far is in the device buffer, except for the
block that is being copied, whose source is not the block that is written next. -/
structure DrawInv {T : Type} (gen : Nat → T) (block n d0 g0 : Nat) (dev0 : List T) (moved : Nat)
    (s : DrawState T) : Prop where
  len0 : s.block0.length = block
  len1 : s.block1.length = block
  len : s.dev.length = dev0.length
  frame : ∀ k, k < d0 ∨ d0 + n ≤ k → s.dev[k]? = dev0[k]?
  le : moved ≤ n
  idle : s.event = none → ∀ i, i < moved → s.dev[d0 + i]? = some (gen (g0 + i))
  busy : ∀ c, s.event = some c →
    c.snapshot.length ≤ moved ∧ c.dst = d0 + (moved - c.snapshot.length) ∧
    c.fromSecond = !s.currentIsSecond ∧
    (∀ i, i < moved - c.snapshot.length → s.dev[d0 + i]? = some (gen (g0 + i))) ∧
    (∀ i, i < c.snapshot.length →
      c.snapshot[i]? = some (gen (g0 + (moved - c.snapshot.length) + i)) ∧
      (if c.fromSecond then s.block1 else s.block0)[i]? =
        some (gen (g0 + (moved - c.snapshot.length) + i)))

theorem DrawInv.wait {T : Type} {gen : Nat → T} {block n d0 g0 : Nat} {dev0 : List T}
    {moved : Nat} {s : DrawState T} (h : DrawInv gen block n d0 g0 dev0 moved s)
    (hd : d0 + n ≤ dev0.length) (late : Nat → Nat → Bool) :
    ∃ s', s.wait late = some s' ∧ DrawInv gen block n d0 g0 dev0 moved s' ∧ s'.event = none ∧
      s'.block0 = s.block0 ∧ s'.block1 = s.block1 ∧ s'.currentIsSecond = s.currentIsSecond := by
  unfold DrawState.wait
  cases he : s.event with
  | none => exact ⟨s, rfl, h, he, rfl, rfl, rfl⟩
  | some c =>
    obtain ⟨b1, b2, b3, b4, b5⟩ := h.busy c he
    simp only
    rw [collectM_eq_flatMap (g := fun i => [gen (g0 + (moved - c.snapshot.length) + i)])]
    · simp only [Option.bind_some]
      have hl : ((List.range c.snapshot.length).flatMap fun i =>
          [gen (g0 + (moved - c.snapshot.length) + i)]) =
          (List.range c.snapshot.length).map fun i =>
            gen (g0 + (moved - c.snapshot.length) + i) := by
        exact List.map_eq_flatMap.symm
      rw [hl]
      have hle := h.le
      have hlen := h.len
      obtain ⟨dev, hst⟩ : ∃ dev, stRange s.dev c.dst ((List.range c.snapshot.length).map fun i =>
            gen (g0 + (moved - c.snapshot.length) + i)) = some dev :=
        ⟨_, stRange_eq_some (by simp; omega)⟩
      rw [hst]
      simp only [Option.bind_some]
      refine ⟨_, rfl, ?_, rfl, rfl, rfl, rfl⟩
      have hget := getElem?_of_stRange hst
      simp only [List.length_map, List.length_range] at hget
      have hlen' := (length_of_stRange hst).1
      constructor
      · exact h.len0
      · exact h.len1
      · simp only; omega
      · intro k hk
        simp only
        rw [hget k, if_neg (by omega)]
        exact h.frame k hk
      · exact h.le
      · intro _ i hi
        simp only
        rw [hget]
        by_cases hc : c.dst ≤ d0 + i ∧ d0 + i < c.dst + c.snapshot.length
        · rw [if_pos hc]
          rw [List.getElem?_map, List.getElem?_range (by omega)]
          simp only [Option.map_some, Option.some.injEq]
          congr 1; omega
        · rw [if_neg hc]
          exact b4 i (by omega)
      · intro c' hc'; simp at hc'
    · intro i hi
      obtain ⟨e1, e2⟩ := b5 i (List.mem_range.mp hi)
      by_cases hlate : late c.call i = true
      · rw [if_pos hlate]; simp only [rd]; rw [e2]; rfl
      · rw [if_neg hlate]; simp only [rd]; rw [e1]; rfl

theorem drawLoop_ok {T : Type} {gen : Nat → T} {block n d0 g0 : Nat} {dev0 : List T}
    (late : Nat → Nat → Bool) (hb : 0 < block) (hd : d0 + n ≤ dev0.length) :
    ∀ (fuel moved : Nat) (s : DrawState T), n ≤ fuel + moved →
      DrawInv gen block n d0 g0 dev0 moved s →
      ∃ s', drawLoop gen late block n fuel moved (d0 + moved) (g0 + moved) s =
        some (g0 + n, s') ∧ DrawInv gen block n d0 g0 dev0 n s' := by
  intro fuel
  induction fuel with
  | zero =>
    intro moved s hf h
    have := h.le
    obtain rfl : moved = n := by omega
    exact ⟨s, by simp [drawLoop], h⟩
  | succ fuel ih =>
    intro moved s hf h
    unfold drawLoop
    by_cases hm : moved < n
    · rw [if_pos hm]
      simp only
      have hmin : 0 < min block (n - moved) := by omega
      generalize hmm : min block (n - moved) = m at *
      have hcl : (if s.currentIsSecond then s.block1 else s.block0).length = block := by
        split
        · exact h.len1
        · exact h.len0
      obtain ⟨cur, hst⟩ : ∃ cur, stRange (if s.currentIsSecond then s.block1 else s.block0) 0
          ((List.range m).map fun i => gen (g0 + moved + i)) = some cur :=
        ⟨_, stRange_eq_some (by simp [hcl]; omega)⟩
      rw [hst]
      simp only [Option.bind_some]
      have hget := getElem?_of_stRange hst
      simp only [List.length_map, List.length_range] at hget
      have hlen' := (length_of_stRange hst).1
      have h1 : DrawInv gen block n d0 g0 dev0 moved
          (if s.currentIsSecond then { s with block1 := cur } else { s with block0 := cur }) := by
        by_cases hs : s.currentIsSecond = true
        · rw [if_pos hs]
          refine ⟨h.len0, by simp only; omega, h.len, h.frame, h.le, h.idle, ?_⟩
          intro c hc
          obtain ⟨b1, b2, b3, b4, b5⟩ := h.busy c hc
          refine ⟨b1, b2, b3, b4, fun i hi => ?_⟩
          have := b5 i hi
          rw [b3, hs] at this ⊢
          simpa using this
        · rw [if_neg hs]
          refine ⟨by simp only; omega, h.len1, h.len, h.frame, h.le, h.idle, ?_⟩
          intro c hc
          obtain ⟨b1, b2, b3, b4, b5⟩ := h.busy c hc
          refine ⟨b1, b2, b3, b4, fun i hi => ?_⟩
          have := b5 i hi
          simp only [Bool.not_eq_true] at hs
          rw [b3, hs] at this ⊢
          simpa using this
      have hcur : (if s.currentIsSecond = true then
          { s with block1 := cur } else { s with block0 := cur } : DrawState T).currentIsSecond =
          s.currentIsSecond := by split <;> rfl
      have hb0 : s.currentIsSecond = false → (if s.currentIsSecond = true then
          { s with block1 := cur } else { s with block0 := cur } : DrawState T).block0 = cur := by
        intro e; rw [e]; rfl
      have hb1 : s.currentIsSecond = true → (if s.currentIsSecond = true then
          { s with block1 := cur } else { s with block0 := cur } : DrawState T).block1 = cur := by
        intro e; rw [e]; rfl
      generalize (if s.currentIsSecond = true then
          { s with block1 := cur } else { s with block0 := cur } : DrawState T) = s1 at *
      obtain ⟨s2, e2, h2, ev, k0, k1, kc⟩ := h1.wait hd late
      rw [e2]
      simp only [Option.bind_some]
      have key := ih (moved + m)
        { s2 with
          event := some ⟨s2.calls, d0 + moved, s2.currentIsSecond, cur.take m⟩
          calls := s2.calls + 1
          currentIsSecond := !s2.currentIsSecond } (by omega) ?_
      · obtain ⟨s', e', h'⟩ := key
        refine ⟨s', ?_, h'⟩
        rw [← e']
        simp only [Nat.add_assoc]
      · have hsnap : (cur.take m).length = m := by
          rw [List.length_take]; omega
        refine ⟨h2.len0, h2.len1, h2.len, h2.frame, by omega, by simp, ?_⟩
        intro c hc
        simp only [Option.some.injEq] at hc
        subst hc
        simp only
        rw [hsnap]
        refine ⟨by omega, by omega, by simp, ?_, ?_⟩
        · intro i hi
          exact h2.idle ev i (by omega)
        · intro i hi
          have hci : cur[i]? = some (gen (g0 + (moved + m - m) + i)) := by
            rw [hget, if_pos ⟨by omega, by omega⟩, List.getElem?_map,
              List.getElem?_range (by omega)]
            simp only [Option.map_some, Option.some.injEq]
            congr 1; omega
          refine ⟨by rw [List.getElem?_take_of_lt hi]; exact hci, ?_⟩
          rw [kc, hcur]
          cases hs : s.currentIsSecond with
          | true => simp only [if_true]; rw [k1, hb1 hs]; exact hci
          | false => simp only [Bool.false_eq_true, if_false]; rw [k0, hb0 hs]; exact hci
    · rw [if_neg hm]
      have := h.le
      obtain rfl : moved = n := by omega
      exact ⟨s, rfl, h⟩

theorem drawRandomSamples_ok {T : Type} (gen : Nat → T) (late : Nat → Nat → Bool) (blk : Fresh T)
    {block n dst g : Nat} {dev : List T} (hb : 0 < block) (hd : dst + n ≤ dev.length) :
    ∃ dev', drawRandomSamples gen late blk block n dst g dev = some (g + n, dev') ∧
      dev'.length = dev.length ∧ (∀ i, i < n → dev'[dst + i]? = some (gen (g + i))) ∧
      (∀ k, k < dst ∨ dst + n ≤ k → dev'[k]? = dev[k]?) := by
  unfold drawRandomSamples
  obtain ⟨s, e, h⟩ := drawLoop_ok (gen := gen) (g0 := g) late hb hd n 0
    ⟨dev, (blk block).1, (blk block).1, false, none, 0⟩ (by omega)
    ⟨(blk block).2, (blk block).2, rfl, fun _ _ => rfl, by omega, by simp, by simp⟩
  simp only [Nat.add_zero] at e
  rw [e]
  simp only [Option.bind_some]
  obtain ⟨s', e', h', ev, _⟩ := h.wait hd late
  rw [e']
  exact ⟨s'.dev, rfl, h'.len, h'.idle ev, h'.frame⟩

/-! ## The device buffer -/

/-- Contents of the buffer, nothing if there is none. -/
def bufList {T : Type} (b : Option (Buffer T)) : List T :=
  match b with
  | some b => b.ptr.getD []
  | none => []

/-- There is no buffer, or it is allocated and not empty. -/
def BufOk {T : Type} (b : Option (Buffer T)) : Prop :=
  b = none ∨ ∃ x l, b = some x ∧ Spec.Holds x l ∧ 0 < x.size

theorem bufList_some {T : Type} {x : Buffer T} {l : List T} (h : Spec.Holds x l) :
    bufList (some x) = l := by
  show x.ptr.getD [] = l
  rw [h.1]; rfl

theorem rngAllocate_ok {T : Type} (cfg : RngConfig T) (fresh : Fresh T) {buf : Option (Buffer T)}
    (hb : BufOk buf) (n : Nat) (re : Bool) :
    ∃ buf' re', rngAllocate cfg fresh buf n re = some (buf', re') ∧ BufOk buf' ∧
      n ≤ (bufList buf').length ∧ (re' = true → n = 0) ∧
      (∀ i, i < (bufList buf).length → (bufList buf')[i]? = (bufList buf)[i]?) ∧
      (bufList buf).length ≤ (bufList buf').length ∧
      (n = 0 → buf' = buf) := by
  unfold rngAllocate
  by_cases h0 : n = 0
  · rw [if_pos h0]
    exact ⟨buf, re, rfl, hb, by omega, fun _ => h0, fun _ _ => rfl, Nat.le_refl _, fun _ => rfl⟩
  · rw [if_neg h0]
    simp only
    generalize hp : max n (cfg.pad n) = padded
    have hpad : n ≤ padded := by omega
    rcases hb with rfl | ⟨x, l, rfl, hh, hs⟩
    · refine ⟨_, _, rfl, Or.inr ⟨_, (fresh padded).1, rfl, ⟨?_, ?_⟩, ?_⟩, ?_, ?_, ?_, ?_, ?_⟩
      · unfold Buffer.create; simp only; rw [if_pos (by omega)]
      · exact (fresh padded).2.symm
      · show 0 < padded; omega
      · unfold bufList Buffer.create; simp only; rw [if_pos (by omega)]
        simp only [Option.getD_some]; rw [(fresh padded).2]; exact hpad
      · simp
      · intro i hi; simp [bufList] at hi
      · simp [bufList]
      · intro h; exact absurd h h0
    · simp only
      by_cases hlt : x.size < n
      · rw [if_pos hlt]
        obtain ⟨b', l', e, hh', hsz, hpre⟩ := C53_realloc_partial fresh x l hh padded
          cfg.maxFactor (fun f _ => by omega)
        rw [e]
        simp only [Option.bind_some]
        have hl' : l'.length = b'.size := hh'.2.symm
        refine ⟨_, _, rfl, Or.inr ⟨b', l', rfl, hh', by omega⟩, ?_, by simp, ?_, ?_,
          fun h => absurd h h0⟩
        · rw [bufList_some hh']; omega
        · intro i hi
          rw [bufList_some hh] at hi ⊢; rw [bufList_some hh']
          obtain ⟨t, rfl⟩ := hpre
          rw [List.getElem?_append_left hi]
        · rw [bufList_some hh, bufList_some hh']
          exact hpre.length_le
      · rw [if_neg hlt]
        refine ⟨_, _, rfl, Or.inr ⟨x, l, rfl, hh, hs⟩, ?_, by simp, fun _ _ => rfl, Nat.le_refl _,
          fun h => absurd h h0⟩
        rw [bufList_some hh]; have := hh.2; omega

theorem rngDraw_ok {T : Type} (cfg : RngConfig T) (late : Nat → Nat → Bool) (blk : Fresh T)
    {n dst g : Nat} {buf : Option (Buffer T)} (hb : BufOk buf) (hbs : 0 < cfg.blockSize)
    (hd : dst + n ≤ (bufList buf).length) :
    ∃ buf', rngDraw cfg late blk n dst g buf = some (g + n, buf') ∧ BufOk buf' ∧
      (bufList buf').length = (bufList buf).length ∧
      (∀ i, i < n → (bufList buf')[dst + i]? = some (cfg.gen (g + i))) ∧
      (∀ k, k < dst ∨ dst + n ≤ k → (bufList buf')[k]? = (bufList buf)[k]?) ∧
      (buf = none → buf' = none) := by
  unfold rngDraw
  by_cases h0 : n = 0
  · rw [if_pos h0]; subst h0
    exact ⟨buf, rfl, hb, rfl, by omega, fun _ _ => rfl, fun h => h⟩
  · rw [if_neg h0]
    rcases hb with rfl | ⟨x, l, rfl, hh, hs⟩
    · simp [bufList] at hd; omega
    · simp only [Option.bind_some]
      rw [hh.1]
      simp only [Option.bind_some]
      have hbl : bufList (some x) = l := bufList_some hh
      rw [hbl] at hd ⊢
      obtain ⟨dev', e, h1, h2, h3⟩ := drawRandomSamples_ok cfg.gen late blk (g := g) hbs hd
      rw [e]
      simp only [Option.bind_some]
      exact ⟨_, rfl, Or.inr ⟨_, dev', rfl, ⟨rfl, by simp only; rw [h1]; exact hh.2⟩, hs⟩, h1, h2,
        h3, by simp⟩

/-! ## The kernel -/

/-- Invariant of the interleaved calls to `at`. -/
structure AtInv {T : Type} (d : List T) (bs : Nat) (pre : List Nat) (s : AtState T) : Prop where
  counters : ∃ p : Int, s.counter = [((s.results.length + s.pending.length : Nat) : Int), p] ∧
    (p = 0 ↔ ∀ r ∈ s.results, r.valid = true) ∧ 0 ≤ p
  keys : (s.pending.map Prod.fst).Nodup
  indices : (s.pending.map Prod.snd).Nodup
  reads : ∃ idxs : List Nat, idxs.Nodup ∧
    (∀ i ∈ idxs, i < s.results.length + s.pending.length ∧ i < bs) ∧
    idxs.map (fun i => d[i]?) = (Spec.validValues s.results).map some ∧
    (∀ q ∈ s.pending, ∃ i : Nat, q.2 = (i : Int) ∧
      i < s.results.length + s.pending.length ∧ i ∉ idxs)
  overrun : (∃ r ∈ s.results, r.valid = false) → bs < s.results.length + s.pending.length
  threads : ∀ c, 2 * (s.results.map fun r => r.thread).count c +
    (if c ∈ s.pending.map Prod.fst then 1 else 0) = pre.count c

theorem lookup_none_iff {β : Type} (l : List (Nat × β)) (c : Nat) :
    l.lookup c = none ↔ c ∉ l.map Prod.fst := by
  induction l with
  | nil => simp
  | cons p l ih =>
    obtain ⟨a, b⟩ := p
    rw [List.lookup_cons]
    by_cases h : c = a
    · subst h; simp
    · have : (c == a) = false := by simpa using h
      rw [this]
      simp only [ih, List.map_cons, List.mem_cons]
      tauto

theorem lookup_some_mem {β : Type} {l : List (Nat × β)} {c : Nat} {v : β}
    (h : l.lookup c = some v) : (c, v) ∈ l := by
  induction l with
  | nil => simp at h
  | cons p l ih =>
    obtain ⟨a, b⟩ := p
    rw [List.lookup_cons] at h
    by_cases hc : c = a
    · subst hc
      simp only [beq_self_eq_true, Option.some.injEq] at h
      subst h; exact List.mem_cons_self
    · have : (c == a) = false := by simpa using hc
      rw [this] at h
      exact List.mem_cons_of_mem _ (ih h)

theorem filter_key_length {β : Type} {l : List (Nat × β)} {c : Nat}
    (hn : (l.map Prod.fst).Nodup) (hc : c ∈ l.map Prod.fst) :
    (l.filter fun p => p.1 ≠ c).length + 1 = l.length := by
  induction l with
  | nil => simp at hc
  | cons p l ih =>
    rw [List.map_cons, List.nodup_cons] at hn
    by_cases h : p.1 = c
    · have : l.filter (fun p => p.1 ≠ c) = l := by
        rw [List.filter_eq_self]
        intro q hq
        simp only [ne_eq, decide_not, Bool.not_eq_true', decide_eq_false_iff_not]
        intro e
        exact hn.1 (by rw [h, ← e]; exact List.mem_map_of_mem hq)
      rw [List.filter_cons_of_neg (by simpa using h), this, List.length_cons]
    · rw [List.filter_cons_of_pos (by simpa using h), List.length_cons, List.length_cons,
        ih hn.2 (by
          rw [List.map_cons, List.mem_cons] at hc
          rcases hc with e | e
          · exact absurd e.symm h
          · exact e)]

theorem atStep_ok {T : Type} (zero : T) {d : List T} {bs : Nat} (hbs : bs ≤ d.length)
    {pre : List Nat} {s : AtState T} (h : AtInv d bs pre s) (c : Nat) :
    ∃ s', atStep zero ⟨(bs : Int), some d⟩ c s = some s' ∧ AtInv d bs (pre ++ [c]) s' := by
  obtain ⟨p, hctr, hp, hp0⟩ := h.counters
  obtain ⟨idxs, i1, i2, i3, i4⟩ := h.reads
  unfold atStep
  cases hl : s.pending.lookup c with
  | none =>
    simp only [rd, hctr]
    refine ⟨_, rfl, ?_⟩
    have hc := (lookup_none_iff s.pending c).1 hl
    constructor
    · refine ⟨p, ?_, hp, hp0⟩
      simp only [List.set_cons_zero, List.length_cons, List.cons.injEq, and_true]
      push_cast; omega
    · simp only [List.map_cons, List.nodup_cons]; exact ⟨hc, h.keys⟩
    · simp only [List.map_cons, List.nodup_cons]
      refine ⟨?_, h.indices⟩
      intro hm
      obtain ⟨q, hq, e⟩ := List.mem_map.mp hm
      obtain ⟨i, e1, e2, _⟩ := i4 q hq
      rw [e1] at e
      have : i = s.results.length + s.pending.length := by exact_mod_cast e
      omega
    · refine ⟨idxs, i1, ?_, i3, ?_⟩
      · intro i hi
        have := i2 i hi
        simp only [List.length_cons]; omega
      · intro q hq
        rcases List.mem_cons.mp hq with rfl | hq
        · refine ⟨_, rfl, by simp, ?_⟩
          intro hm; have := (i2 _ hm).1; omega
        · obtain ⟨i, e1, e2, e3⟩ := i4 q hq
          exact ⟨i, e1, by simp only [List.length_cons]; omega, e3⟩
    · intro hx
      have := h.overrun hx
      simp only [List.length_cons]; omega
    · intro c'
      have := h.threads c'
      simp only [List.map_cons, List.mem_cons, List.count_append, List.count_singleton]
      by_cases e : c' = c
      · subst e
        rw [if_neg hc] at this
        simp
        omega
      · have e' : (c == c') = false := by simpa using Ne.symm e
        rw [e']
        simp only [e, false_or, Bool.false_eq_true, if_false]
        omega
  | some idx =>
    have hmem := lookup_some_mem hl
    obtain ⟨i, e1, e2, e3⟩ := i4 _ hmem
    simp only at e1
    subst e1
    simp only [rd, hctr]
    have hkey : c ∈ s.pending.map Prod.fst := List.mem_map.mpr ⟨_, hmem, rfl⟩
    have hflen := filter_key_length h.keys hkey
    have hother : ∀ q ∈ s.pending.filter (fun p => p.1 ≠ c), q ∈ s.pending ∧ q.2 ≠ (i : Int) := by
      intro q hq
      rw [List.mem_filter] at hq
      refine ⟨hq.1, fun e => ?_⟩
      have := List.inj_on_of_nodup_map h.indices hq.1 hmem e
      rw [this] at hq
      simp at hq
    have hkeys' : ((s.pending.filter fun p => p.1 ≠ c).map Prod.fst).Nodup :=
      h.keys.sublist ((List.filter_sublist).map _)
    have hind' : ((s.pending.filter fun p => p.1 ≠ c).map Prod.snd).Nodup :=
      h.indices.sublist ((List.filter_sublist).map _)
    have hthreads : ∀ c', 2 * (s.results.map (fun r => r.thread) ++ [c]).count c' +
        (if c' ∈ (s.pending.filter fun p => p.1 ≠ c).map Prod.fst then 1 else 0) =
        (pre ++ [c]).count c' := by
      intro c'
      have := h.threads c'
      simp only [List.count_append, List.count_singleton]
      by_cases e : c' = c
      · subst e
        rw [if_pos hkey] at this
        have hnot : c' ∉ (s.pending.filter fun p => p.1 ≠ c').map Prod.fst := by
          intro hm
          obtain ⟨q, hq, e⟩ := List.mem_map.mp hm
          rw [List.mem_filter] at hq
          simp [e] at hq
        rw [if_neg hnot]
        simp
        omega
      · have e' : (c == c') = false := by simpa using Ne.symm e
        have hiff : c' ∈ (s.pending.filter fun p => p.1 ≠ c).map Prod.fst ↔
            c' ∈ s.pending.map Prod.fst := by
          constructor
          · intro hm
            obtain ⟨q, hq, e⟩ := List.mem_map.mp hm
            exact List.mem_map.mpr ⟨q, (List.mem_filter.mp hq).1, e⟩
          · intro hm
            obtain ⟨q, hq, e2⟩ := List.mem_map.mp hm
            refine List.mem_map.mpr ⟨q, List.mem_filter.mpr ⟨hq, ?_⟩, e2⟩
            simp only [ne_eq, decide_not, Bool.not_eq_true', decide_eq_false_iff_not]
            rw [e2]; exact e
        rw [e']
        simp only [hiff, Bool.false_eq_true, if_false]
        omega
    have hfr : ∀ j : Nat, j < s.results.length + s.pending.length →
        j < (s.results.length + 1) + (s.pending.filter fun p => p.1 ≠ c).length := by
      intro j hj; omega
    simp only [List.getElem?_cons_succ, List.getElem?_cons_zero, Option.bind_some]
    by_cases hv : (decide ((i : Int) < (bs : Int)) && decide ((0 : Int) ≤ (i : Int)) &&
        decide (p = 0)) = true
    · rw [hv]
      simp only [Bool.and_eq_true, decide_eq_true_eq] at hv
      obtain ⟨⟨hv1, hv2⟩, hv3⟩ := hv
      have hib : i < bs := by exact_mod_cast hv1
      have hidx : index (i : Int) = some i := by simp [index]
      rw [hidx]
      simp only [if_true, Option.bind_some]
      rw [List.getElem?_eq_getElem (by omega : i < d.length)]
      simp only [Option.bind_some]
      refine ⟨_, rfl, ?_⟩
      have hpois : (if (decide ((i : Int) < (bs : Int)) && decide ((0 : Int) ≤ (i : Int))) = true
          then (0 : Int) else 1) = 0 := by
        rw [if_pos (by simp only [Bool.and_eq_true, decide_eq_true_eq]; exact ⟨hv1, hv2⟩)]
      constructor
      · refine ⟨max p 0, ?_, ?_, by omega⟩
        · simp only [hctr, hpois, List.set_cons_succ, List.set_cons_zero, List.length_append,
            List.length_singleton, List.cons.injEq, and_true]
          push_cast; omega
        · rw [hv3]
          simp only [max_self, true_iff]
          intro r hr
          rcases List.mem_append.mp hr with hr | hr
          · exact hp.1 hv3 r hr
          · rw [List.mem_singleton] at hr; subst hr; rfl
      · exact hkeys'
      · exact hind'
      · refine ⟨idxs ++ [i], ?_, ?_, ?_, ?_⟩
        · rw [List.nodup_append]
          refine ⟨i1, by simp, ?_⟩
          intro a ha b hb e
          rw [List.mem_singleton] at hb
          exact e3 (by rw [← hb, ← e]; exact ha)
        · intro j hj
          simp only [List.length_append, List.length_singleton]
          rcases List.mem_append.mp hj with hj | hj
          · exact ⟨hfr j (i2 j hj).1, (i2 j hj).2⟩
          · rw [List.mem_singleton] at hj; subst hj; exact ⟨hfr _ e2, hib⟩
        · rw [List.map_append, i3]
          unfold Spec.validValues
          rw [List.filter_append, List.map_append, List.map_append]
          simp [List.getElem?_eq_getElem (by omega : i < d.length)]
        · intro q hq
          obtain ⟨hq1, hq2⟩ := hother q hq
          obtain ⟨j, f1, f2, f3⟩ := i4 q hq1
          refine ⟨j, f1, ?_, ?_⟩
          · simp only [List.length_append, List.length_singleton]; exact hfr j f2
          · intro hm
            rcases List.mem_append.mp hm with hm | hm
            · exact f3 hm
            · rw [List.mem_singleton] at hm
              subst hm; exact hq2 f1
      · rintro ⟨r, hr, hf⟩
        simp only at hr
        rcases List.mem_append.mp hr with hr | hr
        · have := h.overrun ⟨r, hr, hf⟩
          simp only [List.length_append, List.length_singleton]; omega
        · rw [List.mem_singleton] at hr; subst hr; simp at hf
      · intro c'
        rw [← hthreads c']
        simp
    · have hv' : (decide ((i : Int) < (bs : Int)) && decide ((0 : Int) ≤ (i : Int)) &&
        decide (p = 0)) = false := by simpa using hv
      rw [hv']
      simp only [Bool.false_eq_true, if_false, Option.bind_some]
      refine ⟨_, rfl, ?_⟩
      have hdisj : ¬ ((i : Int) < (bs : Int)) ∨ p ≠ 0 := by
        by_contra hcon
        push Not at hcon
        apply hv
        simp only [Bool.and_eq_true, decide_eq_true_eq]
        exact ⟨⟨hcon.1, by omega⟩, hcon.2⟩
      constructor
      · refine ⟨max p (if (decide ((i : Int) < (bs : Int)) && decide ((0 : Int) ≤ (i : Int))) = true
          then (0 : Int) else 1), ?_, ?_, by omega⟩
        · simp only [hctr, List.set_cons_succ, List.set_cons_zero, List.length_append,
            List.length_singleton, List.cons.injEq, and_true]
          push_cast; omega
        · constructor
          · intro hm
            exfalso
            rcases hdisj with hd | hd
            · rw [if_neg (by simp only [Bool.and_eq_true, decide_eq_true_eq]; tauto)] at hm
              omega
            · omega
          · intro hall
            have := hall ⟨c, false, zero⟩ (by simp)
            simp at this
      · exact hkeys'
      · exact hind'
      · refine ⟨idxs, i1, ?_, ?_, ?_⟩
        · intro j hj
          simp only [List.length_append, List.length_singleton]
          exact ⟨hfr j (i2 j hj).1, (i2 j hj).2⟩
        · rw [i3]
          unfold Spec.validValues
          rw [List.filter_append]
          simp
        · intro q hq
          obtain ⟨hq1, hq2⟩ := hother q hq
          obtain ⟨j, f1, f2, f3⟩ := i4 q hq1
          refine ⟨j, f1, ?_, f3⟩
          simp only [List.length_append, List.length_singleton]; exact hfr j f2
      · intro _
        simp only [List.length_append, List.length_singleton]
        rcases hdisj with hd | hd
        · have := hfr i e2; omega
        · have hex : ∃ r ∈ s.results, r.valid = false := by
            by_contra hcon
            push Not at hcon
            exact hd (hp.2 fun r hr => by simpa using hcon r hr)
          have := h.overrun hex
          omega
      · intro c'
        rw [← hthreads c']
        simp

theorem atRun_ok {T : Type} (zero : T) {d : List T} {bs : Nat} (hbs : bs ≤ d.length)
    (sched : List Nat) (hc : ∀ c, sched.count c % 2 = 0) :
    ∃ s, runItems (atStep zero ⟨(bs : Int), some d⟩) sched ⟨[0, 0], [], []⟩ = some s ∧
      AtInv d bs sched s ∧ s.pending = [] ∧ 2 * s.results.length = sched.length := by
  have key := runItems_invariant (step := atStep zero ⟨(bs : Int), some d⟩)
    (P := fun pre s => AtInv d bs pre s) (items := sched)
    (fun pre i post s _ h => atStep_ok zero hbs h i) (s := ⟨[0, 0], [], []⟩) ?_
  · obtain ⟨s, e, h⟩ := key
    have hp : s.pending = [] := by
      cases hp : s.pending with
      | nil => rfl
      | cons q l =>
        exfalso
        have := h.threads q.1
        rw [if_pos (by rw [hp]; simp)] at this
        have := hc q.1
        omega
    refine ⟨s, e, h, hp, ?_⟩
    have hperm : sched.Perm ((s.results.map fun r => r.thread) ++
        s.results.map fun r => r.thread) := by
      rw [List.perm_iff_count]
      intro c
      have := h.threads c
      rw [hp] at this
      simp only [List.map_nil, List.not_mem_nil, if_false, Nat.add_zero] at this
      rw [List.count_append]; omega
    have := hperm.length_eq
    simp at this
    omega
  · exact ⟨⟨0, rfl, by simp, by omega⟩, by simp, by simp, ⟨[], by simp, by simp, by
      simp [Spec.validValues], by simp⟩, by simp, by simp⟩

/-! ## Histories -/

/-- The entries of the buffer at the positions `P` are drawn samples that have not been
used, each at one position only. -/
structure StockOn {T : Type} (cfg : RngConfig T) (used : List T) (drawn : Nat) (dev : List T)
    (P : Nat → Prop) : Prop where
  unused : ∀ i, P i → ∃ k, k < drawn ∧ dev[i]? = some (cfg.gen k) ∧ cfg.gen k ∉ used
  inj : ∀ i j, P i → P j → dev[i]? = dev[j]? → i = j

theorem StockOn.mono {T : Type} {cfg : RngConfig T} {used : List T} {drawn : Nat} {dev : List T}
    {P Q : Nat → Prop} (h : StockOn cfg used drawn dev P) (hq : ∀ i, Q i → P i) :
    StockOn cfg used drawn dev Q :=
  ⟨fun i hi => h.unused i (hq i hi), fun i j hi hj => h.inj i j (hq i hi) (hq j hj)⟩

theorem StockOn.congr {T : Type} {cfg : RngConfig T} {used : List T} {drawn : Nat}
    {dev dev' : List T} {P : Nat → Prop} (h : StockOn cfg used drawn dev P)
    (hd : ∀ i, P i → dev'[i]? = dev[i]?) : StockOn cfg used drawn dev' P :=
  ⟨fun i hi => by rw [hd i hi]; exact h.unused i hi,
   fun i j hi hj e => h.inj i j hi hj (by rw [← hd i hi, ← hd j hj]; exact e)⟩

theorem StockOn.draw {T : Type} {cfg : RngConfig T} (hinj : Function.Injective cfg.gen)
    {used : List T} {drawn n dst : Nat} {dev dev' : List T} {P : Nat → Prop}
    (h : StockOn cfg used drawn dev P) (hu : ∀ v ∈ used, ∃ k, k < drawn ∧ v = cfg.gen k)
    (h1 : ∀ i, i < n → dev'[dst + i]? = some (cfg.gen (drawn + i)))
    (h2 : ∀ k, k < dst ∨ dst + n ≤ k → dev'[k]? = dev[k]?) :
    StockOn cfg used (drawn + n) dev' (fun i => P i ∨ (dst ≤ i ∧ i < dst + n)) := by
  have hnew : ∀ i, dst ≤ i → i < dst + n → dev'[i]? = some (cfg.gen (drawn + (i - dst))) := by
    intro i a b
    have := h1 (i - dst) (by omega)
    rwa [show dst + (i - dst) = i by omega] at this
  have hval : ∀ i, P i ∨ (dst ≤ i ∧ i < dst + n) →
      ((dst ≤ i ∧ i < dst + n) ∧ dev'[i]? = some (cfg.gen (drawn + (i - dst)))) ∨
      (P i ∧ dev'[i]? = dev[i]?) := by
    intro i hi
    by_cases hr : dst ≤ i ∧ i < dst + n
    · exact Or.inl ⟨hr, hnew i hr.1 hr.2⟩
    · exact Or.inr ⟨hi.resolve_right hr, h2 i (by omega)⟩
  constructor
  · intro i hi
    rcases hval i hi with ⟨hr, e⟩ | ⟨hp, e⟩
    · refine ⟨_, by omega, e, fun hm => ?_⟩
      obtain ⟨k, hk, e'⟩ := hu _ hm
      have := hinj e'
      omega
    · obtain ⟨k, hk, e', hn⟩ := h.unused i hp
      exact ⟨k, by omega, by rw [e, e'], hn⟩
  · intro i j hi hj e
    rcases hval i hi with ⟨hr, ei⟩ | ⟨hp, ei⟩ <;> rcases hval j hj with ⟨hr', ej⟩ | ⟨hp', ej⟩
    · rw [ei, ej] at e
      have := hinj (Option.some.inj e)
      omega
    · obtain ⟨k, hk, e', _⟩ := h.unused j hp'
      rw [ei, ej, e'] at e
      have := hinj (Option.some.inj e)
      omega
    · obtain ⟨k, hk, e', _⟩ := h.unused i hp
      rw [ei, ej, e'] at e
      have := hinj (Option.some.inj e)
      omega
    · exact h.inj i j hp hp' (by rw [← ei, ← ej]; exact e)

/-- Invariant of the generator between loops; `used` are the samples handed out so far. -/
structure RngInv {T : Type} (cfg : RngConfig T) (used : List T) (r : AtomicRng T) : Prop where
  idle : r.internalState = 0
  bufOk : BufOk r.buf
  stock : ∃ nv lo : Nat, r.getNumValues = (nv : Int) ∧ nv ≤ (bufList r.buf).length ∧
    (r.counter = none → nv = 0) ∧ (∀ c, r.counter = some c → ∃ p, c = [(lo : Int), p]) ∧
    lo ≤ intMax ∧ StockOn cfg used r.drawn (bufList r.buf) (fun i => lo ≤ i ∧ i < nv)
  usedDrawn : ∀ v ∈ used, ∃ k, k < r.drawn ∧ v = cfg.gen k
  usedNodup : used.Nodup

/-- State after the pre loop hook of a loop that wants `n` samples. -/
structure RngReady {T : Type} (cfg : RngConfig T) (used : List T) (n : Nat) (r : AtomicRng T) :
    Prop where
  bufOk : BufOk r.buf
  stock : ∃ nv : Nat, r.getNumValues = (nv : Int) ∧ nv ≤ (bufList r.buf).length ∧ n ≤ nv ∧
    StockOn cfg used r.drawn (bufList r.buf) (fun i => i < nv)
  counter : r.counter = some [0, 0]
  usedDrawn : ∀ v ∈ used, ∃ k, k < r.drawn ∧ v = cfg.gen k
  usedNodup : used.Nodup

theorem numRandomNumbers_eq {T : Type} (cfg : RngConfig T) (l : RngLoop T) :
    numRandomNumbers cfg.numComponents l.particles l.override = Spec.samplesWanted cfg l := by
  unfold numRandomNumbers Spec.samplesWanted
  by_cases h : 0 ≤ l.override
  · rw [if_pos h, if_pos (by omega)]
  · rw [if_neg h, if_neg (by omega), Nat.mul_comm]

theorem resetCounter_ok {T : Type} (fresh : Fresh Int) (r : AtomicRng T)
    (h : ∀ c, r.counter = some c → c.length = 2) :
    r.resetCounter fresh = some { r with counter := some [0, 0] } := by
  unfold AtomicRng.resetCounter AtomicRng.getCounterPtr
  cases hc : r.counter with
  | none =>
    simp only
    rw [stRange_eq_some (by simp [(fresh 2).2])]
    have : (fresh 2).1.drop (0 + [(0 : Int), 0].length) = [] :=
      List.drop_eq_nil_of_le (by simp [(fresh 2).2])
    rw [this]
    simp
  | some c =>
    simp only
    have h2 := h c hc
    rw [stRange_eq_some (by simp [h2])]
    have : c.drop (0 + [(0 : Int), 0].length) = [] :=
      List.drop_eq_nil_of_le (by simp [h2])
    rw [this]
    simp

theorem intToSize_nat {n : Nat} (h : n ≤ intMax) : intToSize (n : Int) = n := by
  unfold intToSize
  unfold intMax at h
  omega

theorem getCounter_ok {T : Type} (fresh : Fresh Int) (r : AtomicRng T)
    (h : ∀ c, r.counter = some c → c.length = 2) :
    ∃ c n p, r.getCounter fresh = some (n, p, { r with counter := some c }) ∧ c.length = 2 ∧
      (∀ c', r.counter = some c' → c = c' ∧ c'[0]? = some n) := by
  unfold AtomicRng.getCounter AtomicRng.getCounterPtr
  have h2 : ∀ c : List Int, c.length = 2 → ∃ a b, c = [a, b] := by
    intro c hc
    match c, hc with
    | [a, b], _ => exact ⟨a, b, rfl⟩
  cases hc : r.counter with
  | none =>
    obtain ⟨a, b, e⟩ := h2 _ (fresh 2).2
    simp only [rd, e]
    exact ⟨_, _, _, rfl, rfl, by simp⟩
  | some c =>
    obtain ⟨a, b, e⟩ := h2 c (h c hc)
    subst e
    simp only [rd]
    refine ⟨_, _, _, by rw [← hc]; rfl, rfl, ?_⟩
    intro c' hc'
    simp only [Option.some.injEq] at hc'
    subst hc'
    exact ⟨rfl, rfl⟩

/-- What is known at the intermediate points of the pre loop hook. -/
structure RngMid {T : Type} (cfg : RngConfig T) (used : List T) (n : Nat) (r0 r : AtomicRng T)
    (P : Nat → Nat → Prop) : Prop where
  bufOk : BufOk r.buf
  state : r.internalState = r0.internalState
  valid : r.valid = r0.valid
  ctr : ∀ c, r.counter = some c → c.length = 2
  room : n ≤ (bufList r.buf).length
  stock : ∃ nv : Nat, r.getNumValues = (nv : Int) ∧ nv ≤ (bufList r.buf).length ∧
    StockOn cfg used r.drawn (bufList r.buf) (P nv)
  usedDrawn : ∀ v ∈ used, ∃ k, k < r.drawn ∧ v = cfg.gen k
  keep : r0.buf ≠ none → r.buf ≠ none

theorem preLoop_ok {T : Type} {cfg : RngConfig T} (hinj : Function.Injective cfg.gen)
    (hbs : 0 < cfg.blockSize) (hn : 0 < cfg.numComponents) (env : RngEnv T) {particles : Nat}
    {override : Int} {used : List T} {r : AtomicRng T} (h : RngInv cfg used r)
    (hmax : particles * cfg.numComponents < intMax) :
    ∃ r', r.preLoop cfg env particles override = some r' ∧
      RngReady cfg used (numRandomNumbers cfg.numComponents particles override) r' ∧
      r'.internalState = 1 ∧ r'.valid = r.valid ∧ (r.buf ≠ none → r'.buf ≠ none) := by
  unfold AtomicRng.preLoop
  rw [if_pos h.idle, if_pos hn]
  simp only
  rw [if_pos hmax]
  generalize numRandomNumbers cfg.numComponents particles override = n
  obtain ⟨nv, lo, hnv, hle, hc0, hc1, hlo, hst⟩ := h.stock
  obtain ⟨buf, re, ea, hb, hnb, hre, hsame, hlen, hkeep⟩ :=
    rngAllocate_ok cfg env.freshBuffer h.bufOk n env.uninitialisedBool
  rw [ea]
  simp only [Option.bind_some]
  have hbn : r.buf ≠ none → buf ≠ none := by
    intro hr e
    apply hr
    by_cases h0 : n = 0
    · rw [← hkeep h0, e]
    · rw [e] at hnb; simp [bufList] at hnb; omega
  have hclen : ∀ c, r.counter = some c → c.length = 2 := by
    intro c hc
    obtain ⟨p, e⟩ := hc1 c hc
    rw [e]; rfl
  -- it is enough to fill the buffer up to `nv'` with `n ≤ nv'`
  suffices hfill : ∃ r', (if re = true then
        (rngDraw cfg env.late env.freshBlock n 0 r.drawn buf).bind fun x =>
          some ({ r with
            internalState := 1
            drawn := x.1
            buf := x.2
            numValues := some (n : Int) } : AtomicRng T)
      else
        (AtomicRng.getCounter env.freshCounter { r with
            internalState := 1
            buf := buf }).bind fun x =>
          (if intToSize x.1 > 0 then
            (rngDraw cfg env.late env.freshBlock (min n (intToSize x.1)) 0 x.2.2.drawn
                x.2.2.buf).bind fun y =>
              some (if min n (intToSize x.1) < intToSize x.1 then
                { x.2.2 with
                  drawn := y.1
                  buf := y.2
                  numValues := some ((min n (intToSize x.1) : Nat) : Int) }
                else
                { x.2.2 with
                  drawn := y.1
                  buf := y.2 })
          else some x.2.2).bind fun r =>
            if (n : Int) - r.getNumValues > 0 then
              (index r.getNumValues).bind fun previousEnd =>
                (rngDraw cfg env.late2 env.freshBlock ((n : Int) - r.getNumValues).toNat
                    previousEnd r.drawn r.buf).bind fun y =>
                  some { r with
                    drawn := y.1
                    buf := y.2
                    numValues := some (n : Int) }
            else some r) = some r' ∧
      RngMid cfg used n { r with
            internalState := 1
            buf := buf } r' (fun nv i => n ≤ nv ∧ i < nv) ∧ (n : Int) ≤ r'.getNumValues by
    obtain ⟨r', e', m, hm⟩ := hfill
    refine ⟨{ r' with counter := some [0, 0] }, ?_, ?_, m.state, m.valid,
      fun hr => m.keep (hbn hr)⟩
    · have h2 := resetCounter_ok env.freshCounter r' m.ctr
      rw [← h2]
      exact (congrArg (fun o => o.bind fun r => AtomicRng.resetCounter env.freshCounter r) e')
    · obtain ⟨nv', e1, e2, e3⟩ := m.stock
      refine ⟨m.bufOk, ⟨nv', e1, e2, by rw [e1] at hm; omega, ?_⟩, rfl, m.usedDrawn, h.usedNodup⟩
      exact e3.mono fun i hi => ⟨by rw [e1] at hm; omega, hi⟩
  cases hree : re with
  | true =>
    have h0 := hre hree
    subst h0
    obtain ⟨buf', ed, d1, d2, d3, d4, d5⟩ := rngDraw_ok cfg env.late env.freshBlock (n := 0) (dst := 0)
      (g := r.drawn) hb hbs (by omega)
    simp only [if_true]
    rw [ed]
    simp only [Option.bind_some]
    refine ⟨_, rfl, ⟨d1, rfl, rfl, hclen, by omega, ⟨0, rfl, by omega, ⟨by omega, by omega⟩⟩,
      h.usedDrawn, ?_⟩, by simp [AtomicRng.getNumValues]⟩
    · intro hx
      have : rngDraw cfg env.late env.freshBlock 0 0 r.drawn buf = some (r.drawn, buf) := by
        unfold rngDraw; rw [if_pos rfl]
      rw [this] at ed
      simp only [Option.some.injEq, Prod.mk.injEq] at ed
      rw [← ed.2]; exact hx
  | false =>
    simp only [Bool.false_eq_true, if_false]
    obtain ⟨c, cnt, p, eg, hcl, hcc⟩ := getCounter_ok env.freshCounter
      { r with
            internalState := 1
            buf := buf } hclen
    rw [eg]
    simp only [Option.bind_some]
    generalize hcur : intToSize cnt = cur
    have hst1 : StockOn cfg used r.drawn (bufList buf) (fun i => cur ≤ i ∧ i < nv) := by
      refine (hst.congr (dev' := bufList buf) fun i hi => hsame i (by omega)).mono ?_
      intro i hi
      refine ⟨?_, hi.2⟩
      cases hctr : r.counter with
      | none => have := hc0 hctr; omega
      | some c' =>
        obtain ⟨p', e'⟩ := hc1 c' hctr
        have := (hcc c' hctr).2
        rw [e'] at this
        simp at this
        rw [← this, intToSize_nat hlo] at hcur
        omega
    -- refill what was used
    have step2 : ∃ r2, (if cur > 0 then
            (rngDraw cfg env.late env.freshBlock (min n cur) 0 r.drawn
                buf).bind fun y =>
              some (if min n cur < cur then
                { r with
                  internalState := 1
                  counter := some c
                  drawn := y.1
                  buf := y.2
                  numValues := some ((min n cur : Nat) : Int) }
                else
                { r with
                  internalState := 1
                  counter := some c
                  drawn := y.1
                  buf := y.2 })
          else some { r with
                  internalState := 1
                  counter := some c
                  buf := buf }) = some r2 ∧
        RngMid cfg used n { r with
            internalState := 1
            buf := buf } r2 (fun nv i => i < nv) := by
      have hcl' : ∀ c', some c = some c' → c'.length = 2 := by
        intro c' e; rw [← Option.some.inj e]; exact hcl
      by_cases hpos : cur > 0
      · rw [if_pos hpos]
        obtain ⟨buf', ed, d1, d2, d3, d4, d5⟩ := rngDraw_ok cfg env.late env.freshBlock
          (n := min n cur) (dst := 0) (g := r.drawn) hb hbs (by omega)
        rw [ed]
        simp only [Option.bind_some]
        have hs2 := hst1.draw hinj h.usedDrawn d3 d4
        have hu2 : ∀ v ∈ used, ∃ k, k < r.drawn + min n cur ∧ v = cfg.gen k := by
          intro v hv
          obtain ⟨k, hk, e⟩ := h.usedDrawn v hv
          exact ⟨k, by omega, e⟩
        have hk2 : buf ≠ none → buf' ≠ none := by
          intro hx e
          by_cases hz : min n cur = 0
          · have : rngDraw cfg env.late env.freshBlock (min n cur) 0 r.drawn buf =
                some (r.drawn, buf) := by
              unfold rngDraw; rw [if_pos hz]
            rw [this] at ed
            simp only [Option.some.injEq, Prod.mk.injEq] at ed
            exact hx (by rw [ed.2]; exact e)
          · have := d3 0 (by omega)
            rw [e] at this; simp [bufList] at this
        by_cases hlt : min n cur < cur
        · rw [if_pos hlt]
          refine ⟨_, rfl, ⟨d1, rfl, rfl, hcl', by simp only; omega, ⟨min n cur, rfl,
            by simp only; omega, hs2.mono fun i hi => Or.inr (by omega)⟩, hu2, hk2⟩⟩
        · rw [if_neg hlt]
          refine ⟨_, rfl, ⟨d1, rfl, rfl, hcl', by simp only; omega, ⟨nv, hnv,
            by simp only; omega, hs2.mono fun i hi => ?_⟩, hu2, hk2⟩⟩
          by_cases hi' : i < cur
          · exact Or.inr (by omega)
          · exact Or.inl (by omega)
      · rw [if_neg hpos]
        exact ⟨_, rfl, ⟨hb, rfl, rfl, hcl', hnb, ⟨nv, hnv, by simp only; omega,
          hst1.mono fun i hi => by omega⟩, h.usedDrawn, fun hx => hx⟩⟩
    obtain ⟨r2, e2, m2⟩ := step2
    have e2' := congrArg (fun o => o.bind fun (r : AtomicRng T) =>
            if (n : Int) - r.getNumValues > 0 then
              (index r.getNumValues).bind fun previousEnd =>
                (rngDraw cfg env.late2 env.freshBlock ((n : Int) - r.getNumValues).toNat
                    previousEnd r.drawn r.buf).bind fun y =>
                  some { r with
                    drawn := y.1
                    buf := y.2
                    numValues := some (n : Int) }
            else some r) e2
    simp only [Option.bind_some] at e2'
    obtain ⟨nv2, f1, f2, f3⟩ := m2.stock
    by_cases hd : (n : Int) - r2.getNumValues > 0
    · rw [if_pos hd, f1] at e2'
      have hidx : index (nv2 : Int) = some nv2 := by simp [index]
      rw [hidx] at e2'
      simp only [Option.bind_some] at e2'
      rw [f1] at hd
      have hlt : nv2 < n := by omega
      have hto : ((n : Int) - (nv2 : Int)).toNat = n - nv2 := by omega
      rw [hto] at e2'
      have hroom := m2.room
      obtain ⟨buf', ed, d1, d2, d3, d4, d5⟩ := rngDraw_ok cfg env.late2 env.freshBlock
          (n := n - nv2) (dst := nv2) (g := r2.drawn) m2.bufOk hbs (by omega)
      rw [ed] at e2'
      simp only [Option.bind_some] at e2'
      refine ⟨_, e2', ⟨d1, m2.state, m2.valid, m2.ctr, by simp only; omega, ⟨n, rfl,
        by simp only; omega, (f3.draw hinj m2.usedDrawn d3 d4).mono fun i hi => ?_⟩, ?_, ?_⟩,
        by simp [AtomicRng.getNumValues]⟩
      · by_cases hi' : i < nv2
        · exact Or.inl hi'
        · exact Or.inr (by omega)
      · intro v hv
        obtain ⟨k, hk, e⟩ := m2.usedDrawn v hv
        exact ⟨k, by simp only; omega, e⟩
      · intro _ e
        simp only at e
        have := d3 0 (by omega)
        rw [e] at this; simp [bufList] at this
    · rw [if_neg hd] at e2'
      rw [f1] at hd
      exact ⟨r2, e2', ⟨m2.bufOk, m2.state, m2.valid, m2.ctr, m2.room, ⟨nv2, f1, f2,
        f3.mono fun i hi => hi.2⟩, m2.usedDrawn, m2.keep⟩, by rw [f1]; omega⟩

theorem getConsts_ok {T : Type} {cfg : RngConfig T} (hn : 0 < cfg.numComponents) (env : RngEnv T)
    {r : AtomicRng T} (hs : r.internalState = 1) {b : Buffer T} (hb : r.buf = some b)
    {c : List Int} (hc : r.counter = some c) :
    ∀ k, 0 < k → AtomicRng.getConsts cfg env k r =
      some (some ⟨r.getNumValues, b.ptr⟩, { r with internalState := 2 }) := by
  have one : ∀ r' : AtomicRng T, (r'.internalState = 1 ∨ r'.internalState = 2) → r'.buf = some b →
      r'.counter = some c → r'.getConst cfg env =
      some (⟨r'.getNumValues, b.ptr⟩, { r' with internalState := 2 }) := by
    intro r' h1 h2 h3
    unfold AtomicRng.getConst AtomicRng.getCounterPtr
    rw [if_pos h1]
    simp only [h3]
    rw [if_neg (by omega), h2]
    rfl
  intro k
  induction k with
  | zero => intro h; omega
  | succ k ih =>
    intro _
    unfold AtomicRng.getConsts
    by_cases hk : 0 < k
    · rw [ih hk]
      simp only [Option.bind_some]
      rw [one { r with internalState := 2 } (Or.inr rfl) hb hc]
      rfl
    · obtain rfl : k = 0 := by omega
      unfold AtomicRng.getConsts
      simp only [Option.bind_some]
      rw [one _ (Or.inl hs) hb hc]
      rfl

theorem getConsts_no_buffer {T : Type} {cfg : RngConfig T} (hn : 0 < cfg.numComponents)
    (env : RngEnv T) {r : AtomicRng T} (hb : r.buf = none) :
    ∀ k, 0 < k → AtomicRng.getConsts cfg env k r = none := by
  intro k
  induction k with
  | zero => intro h; omega
  | succ k ih =>
    intro _
    unfold AtomicRng.getConsts
    by_cases hk : 0 < k
    · rw [ih hk]; rfl
    · obtain rfl : k = 0 := by omega
      unfold AtomicRng.getConsts
      simp only [Option.bind_some]
      unfold AtomicRng.getConst AtomicRng.getCounterPtr
      by_cases hs : r.internalState = 1 ∨ r.internalState = 2
      · rw [if_pos hs]
        cases r.counter <;> · simp only; rw [if_neg (by omega), hb]; rfl
      · rw [if_neg hs]; rfl

theorem preLoop_some {T : Type} {cfg : RngConfig T} (hn : 0 < cfg.numComponents) {env : RngEnv T}
    {particles : Nat} {override : Int} {r r' : AtomicRng T}
    (h : r.preLoop cfg env particles override = some r') :
    particles * cfg.numComponents < intMax := by
  by_contra hc
  unfold AtomicRng.preLoop at h
  by_cases hs : r.internalState = 0
  · rw [if_pos hs, if_pos hn, if_neg hc] at h; simp at h
  · rw [if_neg hs] at h; simp at h

/-- What a loop does, given that the arguments of its kernels exist. -/
theorem loop_ok {T : Type} {cfg : RngConfig T} (hinj : Function.Injective cfg.gen)
    (hbs : 0 < cfg.blockSize) (hn : 0 < cfg.numComponents) {l : RngLoop T}
    (hl : Spec.PossibleLoop l) {used : List T} {r : AtomicRng T} (h : RngInv cfg used r)
    (hmax : l.particles * cfg.numComponents < intMax)
    (hbuf : ∀ r1, r.preLoop cfg l.env l.particles l.override = some r1 →
      l.launches = 0 ∨ r1.buf ≠ none) :
    ∃ res r', r.loop cfg l = some (res, r') ∧ RngInv cfg (used ++ Spec.validValues res) r' ∧
      (r'.valid = true ↔ r.valid = true ∧ ∀ x ∈ res, x.valid = true) ∧
      (Spec.numCalls l ≤ Spec.samplesWanted cfg l → ∀ x ∈ res, x.valid = true) ∧
      (∀ c, (res.map fun x => x.thread).count c = l.sched.count c / 2) ∧
      res.length = Spec.numCalls l := by
  obtain ⟨r1, e1, hr, hs1, hv1, _⟩ := preLoop_ok hinj hbs hn l.env (override := l.override) h hmax
  rw [numRandomNumbers_eq] at hr
  have hb := hbuf r1 e1
  unfold AtomicRng.loop
  rw [e1]
  simp only [Option.bind_some]
  obtain ⟨nv, g1, g2, g3, g4⟩ := hr.stock
  by_cases hk : l.launches = 0
  · have hsched := hl.fromKernel hk
    rw [hk]
    unfold AtomicRng.getConsts AtomicRng.postLoop AtomicRng.getCounter AtomicRng.getCounterPtr
    simp only [Option.bind_some, hr.counter, rd, List.getElem?_cons_zero, List.getElem?_cons_succ]
    rw [if_neg (by
      simp only [AtomicRng.getNumValues] at g1
      simp [AtomicRng.getNumValues]; omega)]
    refine ⟨[], _, rfl, ?_, ?_, by simp, ?_, ?_⟩
    · simp only [Spec.validValues, List.filter_nil, List.map_nil, List.append_nil]
      exact ⟨rfl, hr.bufOk, ⟨nv, 0, g1, g2, by simp, by simp, by omega,
        g4.mono fun i hi => hi.2⟩, hr.usedDrawn, hr.usedNodup⟩
    · simp [hv1]
    · simp [hsched]
    · simp [Spec.numCalls, hsched]
  · rcases hr.bufOk with hno | ⟨b, dev, hbe, hh, hsz⟩
    · exact absurd hno (hb.resolve_left hk)
    · rw [getConsts_ok hn l.env hs1 hbe hr.counter l.launches (by omega)]
      simp only [Option.bind_some, hr.counter]
      rw [hbe, bufList_some hh] at g2 g4
      rw [g1, hh.1]
      obtain ⟨s, es, hinv, hp, hlen⟩ := atRun_ok cfg.zero (d := dev) (bs := nv) g2 l.sched hl.complete
      rw [es]
      simp only [Option.bind_some]
      obtain ⟨p, hctr, hp1, hp2⟩ := hinv.counters
      rw [hp] at hctr
      simp only [List.length_nil, Nat.add_zero] at hctr
      have hcalls : s.results.length = Spec.numCalls l := by
        unfold Spec.numCalls; omega
      obtain ⟨idxs, i1, i2, i3, i4⟩ := hinv.reads
      rw [hp] at i2
      simp only [List.length_nil, Nat.add_zero] at i2
      have hov := hinv.overrun
      rw [hp] at hov
      simp only [List.length_nil, Nat.add_zero] at hov
      -- values read are those at the indices
      have hvals : ∀ v, v ∈ Spec.validValues s.results ↔ ∃ i ∈ idxs, dev[i]? = some v := by
        intro v
        have : some v ∈ (Spec.validValues s.results).map some ↔
            some v ∈ idxs.map (fun i => dev[i]?) := by rw [i3]
        simp only [List.mem_map, Option.some.injEq, exists_eq_right] at this
        exact this
      have hvn : (Spec.validValues s.results).Nodup := by
        have hnd : (idxs.map (fun i => dev[i]?)).Nodup := by
          apply List.Nodup.map_on _ i1
          intro a ha b hb e
          exact g4.inj a b (i2 a ha).2 (i2 b hb).2 e
        rw [i3] at hnd
        exact List.Nodup.of_map _ hnd
      have hvalid : (∀ x ∈ s.results, x.valid = true) → s.results.length ≤ nv := by
        intro hall
        have hfil : (s.results.filter fun r => r.valid) = s.results := by
          rw [List.filter_eq_self]; exact hall
        have hl1 : idxs.length = s.results.length := by
          have := congrArg List.length i3
          simp only [List.length_map, Spec.validValues, hfil] at this
          exact this
        have hsub : idxs ⊆ List.range nv := fun i hi => List.mem_range.mpr (i2 i hi).2
        have := (List.subperm_of_subset i1 hsub).length_le
        simp at this
        omega
      unfold AtomicRng.postLoop AtomicRng.getCounter AtomicRng.getCounterPtr
      simp only [hctr, rd, List.getElem?_cons_zero, List.getElem?_cons_succ, Option.bind_some]
      refine ⟨s.results, _, rfl, ?_, ?_, ?_, ?_, hcalls⟩
      · have hgen : RngInv cfg (used ++ Spec.validValues s.results)
            ({ r1 with
              internalState := 0
              counter := some [(s.results.length : Int), p] } : AtomicRng T) := by
          refine ⟨rfl, hr.bufOk, ⟨nv, s.results.length, g1, by
              simp only; rw [hbe, bufList_some hh]; exact g2, by simp, ?_, ?_, ?_⟩, ?_, ?_⟩
          · intro c hc
            simp only [Option.some.injEq] at hc
            exact ⟨p, hc.symm⟩
          · rw [hcalls]; exact hl.fewer
          · simp only
            rw [hbe, bufList_some hh]
            constructor
            · intro i hi
              obtain ⟨k, hk1, hk2, hk3⟩ := g4.unused i hi.2
              refine ⟨k, hk1, hk2, ?_⟩
              intro hm
              rcases List.mem_append.mp hm with hm | hm
              · exact hk3 hm
              · obtain ⟨j, hj, ej⟩ := (hvals _).1 hm
                have hji := g4.inj i j hi.2 (i2 j hj).2 (by rw [hk2, ej])
                have := (i2 j hj).1
                omega
            · intro i j hi hj e
              exact g4.inj i j hi.2 hj.2 e
          · intro v hv
            rcases List.mem_append.mp hv with hv | hv
            · exact hr.usedDrawn v hv
            · obtain ⟨j, hj, ej⟩ := (hvals _).1 hv
              obtain ⟨k, hk1, hk2, hk3⟩ := g4.unused j (i2 j hj).2
              rw [hk2] at ej
              exact ⟨k, hk1, (Option.some.inj ej).symm⟩
          · rw [List.nodup_append]
            refine ⟨hr.usedNodup, hvn, ?_⟩
            intro a ha b hb e
            obtain ⟨j, hj, ej⟩ := (hvals _).1 hb
            obtain ⟨k, hk1, hk2, hk3⟩ := g4.unused j (i2 j hj).2
            rw [hk2] at ej
            rw [Option.some.inj ej, ← e] at hk3
            exact hk3 ha
        split
        · exact ⟨hgen.idle, hgen.bufOk, hgen.stock, hgen.usedDrawn, hgen.usedNodup⟩
        · exact hgen
      · rw [← hv1]
        split
        · rename_i hc
          simp only [Bool.false_eq_true, false_iff, not_and]
          intro _ hall
          have hle := hvalid hall
          have hp0 := hp1.2 hall
          simp only [AtomicRng.getNumValues] at g1 hc
          rw [g1] at hc
          rcases hc with hc | hc
          · omega
          · simp [hp0] at hc
        · rename_i hc
          have hall : ∀ x ∈ s.results, x.valid = true := by
            apply hp1.1
            by_contra hne
            exact hc (Or.inr (by simpa using hne))
          exact ⟨fun a => ⟨a, hall⟩, fun a => a.1⟩
      · intro hle
        by_contra hcon
        push Not at hcon
        obtain ⟨x, hx, hxv⟩ := hcon
        have := hov ⟨x, hx, by simpa using hxv⟩
        omega
      · intro c
        have := hinv.threads c
        rw [hp] at this
        simp only [List.map_nil, List.not_mem_nil, if_false, Nat.add_zero] at this
        omega

theorem loop_some {T : Type} {cfg : RngConfig T} (hn : 0 < cfg.numComponents) {l : RngLoop T}
    {r r' : AtomicRng T} {res : List (AtResult T)} (h : r.loop cfg l = some (res, r')) :
    l.particles * cfg.numComponents < intMax ∧
    ∀ r1, r.preLoop cfg l.env l.particles l.override = some r1 →
      l.launches = 0 ∨ r1.buf ≠ none := by
  unfold AtomicRng.loop at h
  cases hp : r.preLoop cfg l.env l.particles l.override with
  | none => rw [hp] at h; simp at h
  | some r1 =>
    refine ⟨preLoop_some hn hp, ?_⟩
    intro r1' e
    cases e
    by_contra hcon
    push Not at hcon
    rw [hp] at h
    simp only [Option.bind_some] at h
    rw [getConsts_no_buffer hn l.env hcon.2 l.launches (by omega)] at h
    simp at h

theorem rngInv_init {T : Type} (cfg : RngConfig T) : RngInv cfg [] (AtomicRng.init : AtomicRng T) :=
  ⟨rfl, Or.inl rfl, ⟨0, 0, rfl, by simp, by simp [AtomicRng.init], by simp [AtomicRng.init],
    by omega, ⟨by omega, by omega⟩⟩, by simp, by simp⟩

theorem loops_some {T : Type} {cfg : RngConfig T} (hinj : Function.Injective cfg.gen)
    (hbs : 0 < cfg.blockSize) (hn : 0 < cfg.numComponents) :
    ∀ (ls : List (RngLoop T)) (used : List T) (r r' : AtomicRng T) (res : List (AtResult T)),
      (∀ l ∈ ls, Spec.PossibleLoop l) → RngInv cfg used r →
      AtomicRng.loops cfg ls r = some (res, r') →
      RngInv cfg (used ++ Spec.validValues res) r' ∧
      (r'.valid = true ↔ r.valid = true ∧ ∀ x ∈ res, x.valid = true) ∧
      res.length = (ls.map Spec.numCalls).sum := by
  intro ls
  induction ls with
  | nil =>
    intro used r r' res _ h e
    simp only [AtomicRng.loops, Option.some.injEq, Prod.mk.injEq] at e
    obtain ⟨rfl, rfl⟩ := e
    exact ⟨by simpa [Spec.validValues] using h, by simp, by simp⟩
  | cons l ls ih =>
    intro used r r' res hp h e
    unfold AtomicRng.loops at e
    cases e1 : r.loop cfg l with
    | none => rw [e1] at e; simp at e
    | some x =>
      obtain ⟨res1, r1⟩ := x
      rw [e1] at e
      simp only [Option.bind_some] at e
      cases e2 : AtomicRng.loops cfg ls r1 with
      | none => rw [e2] at e; simp at e
      | some y =>
        obtain ⟨res2, r2⟩ := y
        rw [e2] at e
        simp only [Option.bind_some, Option.some.injEq, Prod.mk.injEq] at e
        obtain ⟨rfl, rfl⟩ := e
        obtain ⟨k1, k2⟩ := loop_some hn e1
        obtain ⟨res1', r1', f1, f2, f3, f4, f5, f6⟩ := loop_ok hinj hbs hn
          (hp l List.mem_cons_self) h k1 k2
        rw [e1] at f1
        simp only [Option.some.injEq, Prod.mk.injEq] at f1
        obtain ⟨rfl, rfl⟩ := f1
        obtain ⟨j1, j2, j3⟩ := ih _ r1 r2 res2 (fun l' hl' => hp l' (List.mem_cons_of_mem _ hl')) f2 e2
        refine ⟨?_, ?_, ?_⟩
        · have : Spec.validValues (res1 ++ res2) =
              Spec.validValues res1 ++ Spec.validValues res2 := by
            simp [Spec.validValues]
          rw [this, ← List.append_assoc]; exact j1
        · rw [j2, f3]
          simp only [List.mem_append]
          constructor
          · rintro ⟨⟨a, b⟩, c⟩
            exact ⟨a, fun x hx => hx.elim (b x) (c x)⟩
          · rintro ⟨a, b⟩
            exact ⟨⟨a, fun x hx => b x (Or.inl hx)⟩, fun x hx => b x (Or.inr hx)⟩
        · simp [f6, j3]

theorem loops_total {T : Type} {cfg : RngConfig T} (hinj : Function.Injective cfg.gen)
    (hbs : 0 < cfg.blockSize) (hn : 0 < cfg.numComponents) :
    ∀ (ls : List (RngLoop T)) (used : List T) (r : AtomicRng T),
      (∀ l ∈ ls, Spec.PossibleLoop l ∧ l.particles * cfg.numComponents < intMax ∧
        (l.launches = 0 ∨ 0 < Spec.samplesWanted cfg l) ∧
        Spec.numCalls l ≤ Spec.samplesWanted cfg l) → RngInv cfg used r →
      ∃ res r', AtomicRng.loops cfg ls r = some (res, r') ∧
      (∀ x ∈ res, x.valid = true) ∧ res.length = (ls.map Spec.numCalls).sum ∧
      r'.valid = r.valid := by
  intro ls
  induction ls with
  | nil => intro used r _ _; exact ⟨[], r, rfl, by simp, by simp, rfl⟩
  | cons l ls ih =>
    intro used r hp h
    obtain ⟨h1, h2, h3, h4⟩ := hp l List.mem_cons_self
    obtain ⟨res1, r1, f1, f2, f3, f4, f5, f6⟩ := loop_ok hinj hbs hn h1 h h2 (by
      intro r1 e1
      rcases h3 with h3 | h3
      · exact Or.inl h3
      · right
        obtain ⟨r1', e1', hr, _⟩ := preLoop_ok hinj hbs hn l.env (override := l.override) h h2
        rw [e1] at e1'
        cases e1'
        rw [numRandomNumbers_eq] at hr
        obtain ⟨nv, g1, g2, g3, g4⟩ := hr.stock
        intro e
        rw [e] at g2
        simp [bufList] at g2
        omega)
    obtain ⟨res2, r2, k1, k2, k3, k4⟩ := ih _ r1 (fun l' hl' => hp l' (List.mem_cons_of_mem _ hl')) f2
    refine ⟨res1 ++ res2, r2, ?_, ?_, ?_, ?_⟩
    · unfold AtomicRng.loops
      rw [f1]; simp only [Option.bind_some]; rw [k1]; rfl
    · intro x hx
      rcases List.mem_append.mp hx with hx | hx
      · exact f4 h4 x hx
      · exact k2 x hx
    · simp [f6, k3]
    · rw [k4]
      have := f4 h4
      cases hv : r.valid with
      | true => exact f3.2 ⟨hv, this⟩
      | false =>
        cases hv1 : r1.valid with
        | false => rfl
        | true => rw [hv] at f3; simp at f3; exact absurd f3 (by simp [hv1])

/-! ## No components -/

theorem atRun_empty {T : Type} (zero : T) (dptr : Option (List T)) :
    ∀ (sched : List Nat) (s s' : AtState T), s.counter.length = 2 →
      runItems (atStep zero ⟨0, dptr⟩) sched s = some s' →
      (∀ x ∈ s.results, x.valid = false) →
      (s.results ≠ [] → ∃ p, s.counter[1]? = some p ∧ 0 < p) →
      s'.counter.length = 2 ∧ (∀ x ∈ s'.results, x.valid = false) ∧
      (s'.results ≠ [] → ∃ p, s'.counter[1]? = some p ∧ 0 < p) := by
  intro sched
  induction sched with
  | nil =>
    intro s s' hl h h1 h2
    simp only [runItems_nil, Option.some.injEq] at h
    subst h; exact ⟨hl, h1, h2⟩
  | cons c cs ih =>
    intro s s' hl h h1 h2
    rw [runItems_cons] at h
    have h2c : ∀ c : List Int, c.length = 2 → ∃ a b, c = [a, b] := by
      intro c hc
      match c, hc with
      | [a, b], _ => exact ⟨a, b, rfl⟩
    obtain ⟨a, b, hc⟩ := h2c _ hl
    cases hp : s.pending.lookup c with
    | none =>
      have e : atStep zero ⟨0, dptr⟩ c s = some { s with
          counter := [a + 1, b]
          pending := (c, a) :: s.pending } := by
        unfold atStep; rw [hp]; simp only [rd, hc]; rfl
      rw [e] at h
      simp only [Option.bind_some] at h
      refine ih _ s' rfl h h1 ?_
      intro hr
      have := h2 hr
      rw [hc] at this
      exact this
    | some idx =>
      have hcond : (decide (idx < (0 : Int)) && decide (0 ≤ idx)) = false := by
        simp only [Bool.and_eq_false_iff, decide_eq_false_iff_not]; omega
      have e : atStep zero ⟨0, dptr⟩ c s = some ⟨[a, max b 1],
          s.pending.filter fun p => p.1 ≠ c, s.results ++ [⟨c, false, zero⟩]⟩ := by
        unfold atStep; rw [hp]; simp only [rd, hc, hcond]; rfl
      rw [e] at h
      simp only [Option.bind_some] at h
      refine ih _ s' rfl h ?_ ?_
      · intro x hx
        rcases List.mem_append.mp hx with hx | hx
        · exact h1 x hx
        · rw [List.mem_singleton] at hx; subst hx; rfl
      · intro _
        exact ⟨max b 1, rfl, by omega⟩

theorem getConsts_zero {T : Type} {cfg : RngConfig T} (hn : cfg.numComponents = 0) (env : RngEnv T) :
    ∀ (k : Nat) (r r' : AtomicRng T) (a : Option (AtomicArgs T)),
      (∀ c, r.counter = some c → c.length = 2) →
      AtomicRng.getConsts cfg env k r = some (a, r') →
      (∀ c, r'.counter = some c → c.length = 2) ∧ (∀ a', a = some a' → a' = ⟨0, none⟩) ∧
      (a ≠ none → r'.counter ≠ none) ∧ r'.valid = r.valid := by
  intro k
  induction k with
  | zero =>
    intro r r' a hl h
    simp only [AtomicRng.getConsts, Option.some.injEq, Prod.mk.injEq] at h
    obtain ⟨rfl, rfl⟩ := h
    exact ⟨hl, by simp, by simp, rfl⟩
  | succ k ih =>
    intro r r' a hl h
    unfold AtomicRng.getConsts at h
    cases e : AtomicRng.getConsts cfg env k r with
    | none => rw [e] at h; simp at h
    | some x =>
      obtain ⟨a1, r1⟩ := x
      rw [e] at h
      simp only [Option.bind_some] at h
      obtain ⟨g1, g2, g3, g4⟩ := ih r r1 a1 hl e
      unfold AtomicRng.getConst AtomicRng.getCounterPtr at h
      by_cases hs : r1.internalState = 1 ∨ r1.internalState = 2
      · rw [if_pos hs] at h
        cases hc : r1.counter with
        | none =>
          rw [hc] at h
          simp only [hn, if_true, Option.bind_some, Option.some.injEq, Prod.mk.injEq] at h
          obtain ⟨rfl, rfl⟩ := h
          refine ⟨?_, by simp, by simp, g4⟩
          intro c hc'
          simp only [Option.some.injEq] at hc'
          subst hc'; exact (env.freshCounter 2).2
        | some c0 =>
          rw [hc] at h
          simp only [hn, if_true, Option.bind_some, Option.some.injEq, Prod.mk.injEq] at h
          obtain ⟨rfl, rfl⟩ := h
          refine ⟨?_, by simp, by simp, g4⟩
          intro c hc'
          simp only [Option.some.injEq] at hc'
          subst hc'; exact g1 _ hc
      · rw [if_neg hs] at h; simp at h

theorem loops_zero {T : Type} {cfg : RngConfig T} (hn : cfg.numComponents = 0) :
    ∀ (ls : List (RngLoop T)) (r r' : AtomicRng T) (res : List (AtResult T)),
      (∀ c, r.counter = some c → c.length = 2) →
      AtomicRng.loops cfg ls r = some (res, r') →
      (∀ x ∈ res, x.valid = false) ∧ (r.valid = false → r'.valid = false) ∧
      (res ≠ [] → r'.valid = false) := by
  intro ls
  induction ls with
  | nil =>
    intro r r' res _ h
    simp only [AtomicRng.loops, Option.some.injEq, Prod.mk.injEq] at h
    obtain ⟨rfl, rfl⟩ := h
    exact ⟨by simp, fun h => h, by simp⟩
  | cons l ls ih =>
    intro r r' res hl h
    unfold AtomicRng.loops at h
    cases e1 : r.loop cfg l with
    | none => rw [e1] at h; simp at h
    | some x =>
      obtain ⟨res1, r1⟩ := x
      rw [e1] at h
      simp only [Option.bind_some] at h
      cases e2 : AtomicRng.loops cfg ls r1 with
      | none => rw [e2] at h; simp at h
      | some y =>
        obtain ⟨res2, r2⟩ := y
        rw [e2] at h
        simp only [Option.bind_some, Option.some.injEq, Prod.mk.injEq] at h
        obtain ⟨rfl, rfl⟩ := h
        have one : (∀ c, r1.counter = some c → c.length = 2) ∧ (∀ x ∈ res1, x.valid = false) ∧
            (r.valid = false → r1.valid = false) ∧ (res1 ≠ [] → r1.valid = false) := by
          unfold AtomicRng.loop AtomicRng.preLoop at e1
          by_cases hs : r.internalState = 0
          · rw [if_pos hs, if_neg (by omega)] at e1
            simp only [Option.bind_some] at e1
            cases eg : AtomicRng.getConsts cfg l.env l.launches { r with internalState := 1 } with
            | none => rw [eg] at e1; simp at e1
            | some z =>
              obtain ⟨a, r3⟩ := z
              obtain ⟨g1, g2, g3, g4⟩ := getConsts_zero hn l.env l.launches { r with internalState := 1 } r3 a hl eg
              rw [eg] at e1
              simp only [Option.bind_some] at e1
              cases a with
              | none =>
                simp only [Option.bind_some] at e1
                obtain ⟨c, n, p, ep, hcl, _⟩ := getCounter_ok l.env.freshCounter
                  { r3 with internalState := 0 } g1
                unfold AtomicRng.postLoop at e1
                rw [ep] at e1
                simp only [Option.bind_some, Option.some.injEq, Prod.mk.injEq] at e1
                obtain ⟨rfl, rfl⟩ := e1
                refine ⟨?_, by simp, ?_, by simp⟩
                · intro c' hc'
                  split at hc' <;>
                  · simp only [Option.some.injEq] at hc'
                    subst hc'; exact hcl
                · intro hv
                  split
                  · rfl
                  · simp only; rw [g4]; exact hv
              | some a =>
                obtain rfl := g2 a rfl
                simp only at e1
                cases hc : r3.counter with
                | none => exact absurd hc (g3 (by simp))
                | some c0 =>
                  rw [hc] at e1
                  simp only [Option.bind_some] at e1
                  cases er : runItems (atStep cfg.zero ⟨0, none⟩) l.sched ⟨c0, [], []⟩ with
                  | none => rw [er] at e1; simp at e1
                  | some s =>
                    rw [er] at e1
                    simp only [Option.bind_some] at e1
                    obtain ⟨k1, k2, k3⟩ := atRun_empty cfg.zero none l.sched ⟨c0, [], []⟩ s
                      (g1 c0 hc) er (by simp) (by simp)
                    obtain ⟨a, b, hab⟩ : ∃ a b, s.counter = [a, b] := by
                      match s.counter, k1 with
                      | [a, b], _ => exact ⟨a, b, rfl⟩
                    unfold AtomicRng.postLoop AtomicRng.getCounter AtomicRng.getCounterPtr at e1
                    simp only [hab, rd, List.getElem?_cons_zero, List.getElem?_cons_succ,
                      Option.bind_some, Option.some.injEq, Prod.mk.injEq] at e1
                    obtain ⟨rfl, rfl⟩ := e1
                    refine ⟨?_, k2, ?_, ?_⟩
                    · intro c' hc'
                      split at hc' <;>
                      · simp only [Option.some.injEq] at hc'
                        subst hc'; rfl
                    · intro hv
                      split
                      · rfl
                      · simp only; rw [g4]; exact hv
                    · intro hne
                      obtain ⟨p, hp, hp0⟩ := k3 hne
                      rw [hab] at hp
                      simp only [List.getElem?_cons_succ, List.getElem?_cons_zero,
                        Option.some.injEq] at hp
                      subst hp
                      split
                      · rfl
                      · rename_i hcon
                        exact absurd (Or.inr (by simp only [decide_eq_true_eq]; omega)) hcon
          · rw [if_neg hs] at e1; simp at e1
        obtain ⟨o1, o2, o3, o4⟩ := one
        obtain ⟨j1, j2, j3⟩ := ih r1 r2 res2 o1 e2
        refine ⟨?_, fun hv => j2 (o3 hv), ?_⟩
        · intro x hx
          rcases List.mem_append.mp hx with hx | hx
          · exact o2 x hx
          · exact j1 x hx
        · intro hne
          by_cases h1 : res1 = []
          · rw [h1] at hne
            exact j3 (by simpa using hne)
          · exact j2 (o4 h1)

end NP
