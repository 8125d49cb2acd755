import Verif.Containers.Lemmas

/-!
# Properties C48, C49, C50, C53
-/

set_option autoImplicit false

namespace NP

open Spec

/-! ## C48: lookup table -/

/-- **C48** A new table of any size, with whatever the new memory contains, after any
sequence of adds with keys in range: no add fails, and for every key a lookup, on the
device and on the host, gives the value last added for this key, or reports that there is
none (also for keys out of range). -/
theorem C48_lookup {V : Type} (fresh : Fresh V) (size : Nat) (adds : List (Int × V))
    (h : ∀ p ∈ adds, 0 ≤ p.1 ∧ p.1 < size) :
    ∃ t, addAll (LookupTable.create fresh size) adds = some t ∧
      ∀ key, t.get key = some (lastAdded adds key) ∧ t.hostGet key = some (lastAdded adds key) := by
  obtain ⟨t, e, _, ok⟩ := TableOk.addAll adds _ _ (TableOk.create fresh size) h
  refine ⟨t, e, fun key => ?_⟩
  have := ok.get key
  simpa using this

/-- **C48** A sequence of adds with a key out of range is rejected. -/
theorem C48_out_of_range_rejected {V : Type} (fresh : Fresh V) (size : Nat)
    (adds : List (Int × V)) (h : ¬ ∀ p ∈ adds, 0 ≤ p.1 ∧ p.1 < size) :
    addAll (LookupTable.create fresh size) adds = none := by
  have key : ∀ (adds : List (Int × V)) (t : LookupTable V) (f : Int → Option V), TableOk t f →
      (¬ ∀ p ∈ adds, 0 ≤ p.1 ∧ p.1 < t.size) → addAll t adds = none := by
    intro adds
    induction adds with
    | nil => intro t f _ h; exact absurd (fun p hp => by cases hp) h
    | cons p rest ih =>
      intro t f ok h
      obtain ⟨k, v⟩ := p
      by_cases hk : 0 ≤ k ∧ k < t.size
      · obtain ⟨t', e, hs, ok'⟩ := ok.add k v hk
        show (t.add k v).bind (fun t => addAll t rest) = none
        rw [e]
        refine ih t' _ ok' fun hall => h fun p hp => ?_
        rcases List.mem_cons.mp hp with e | hp
        · subst e; exact hk
        · have := hall p hp; rw [hs] at this; exact this
      · show (t.add k v).bind (fun t => addAll t rest) = none
        have : t.add k v = none := by
          unfold LookupTable.add; rw [if_neg (by omega)]
        rw [this]; rfl
  exact key adds _ _ (TableOk.create fresh size) h

-- A table of size 3 and adds with a repeated key.
example : (∀ p ∈ [((1 : Int), 'a'), (2, 'b'), (1, 'c')], 0 ≤ p.1 ∧ p.1 < ((3 : Nat) : Int)) ∧
    lastAdded [((1 : Int), 'a'), (2, 'b'), (1, 'c')] 1 = some 'c' ∧
    lastAdded [((1 : Int), 'a'), (2, 'b'), (1, 'c')] 0 = none := by decide

/-! ## C49: multi dimensional index -/

/-- **C49** Every index tuple inside the shape is given an index in `[0, size)`. -/
theorem C49_range (shape idx : List Int) (hne : shape ≠ []) (h : InShape shape idx) :
    ∃ n size, getLinearIndex shape idx = some n ∧ ndSize shape = some size ∧
      0 ≤ n ∧ n < size := by
  cases shape with
  | nil => exact absurd rfl hne
  | cons s ss =>
    obtain ⟨r, hr, h0, h1⟩ := linearise_acc h
    exact ⟨r, _, by simp [getLinearIndex, hr], ndSize_eq s ss, h0, h1⟩

/-- **C49** The numbering is the lexicographic one, the last index is fastest.  In
particular different tuples have different indices. -/
theorem C49_order (shape i j : List Int) (hi : InShape shape i) (hj : InShape shape j) :
    ∃ a b, getLinearIndex shape i = some a ∧ getLinearIndex shape j = some b ∧
      (a < b ↔ LexLt i j) ∧ (a = b ↔ i = j) := by
  obtain ⟨a, ha, -, -⟩ := linearise_acc hi
  obtain ⟨b, hb, -, -⟩ := linearise_acc hj
  refine ⟨a, b, by simp [getLinearIndex, ha], by simp [getLinearIndex, hb], ?_, ?_⟩
  all_goals
    have fwd : ∀ (i j : List Int) (a b : Int), InShape shape i → InShape shape j →
        (∀ x, lineariseInner x shape i = some (x * shapeProd shape + a)) →
        (∀ x, lineariseInner x shape j = some (x * shapeProd shape + b)) → LexLt i j → a < b := by
      intro i j a b hi hj ha hb hl
      obtain ⟨x, y, hx, hy, hlt⟩ := linearise_lt hi hj hl
      rw [ha] at hx; rw [hb] at hy
      cases hx; cases hy; linarith
  · constructor
    · intro hlt
      rcases lex_total hi hj with h | h | h
      · subst h
        have := ha 0; rw [hb 0] at this
        simp at this; omega
      · exact h
      · have := fwd j i b a hj hi hb ha h; omega
    · exact fwd i j a b hi hj ha hb
  · constructor
    · intro he
      rcases lex_total hi hj with h | h | h
      · exact h
      · have := fwd i j a b hi hj ha hb h; omega
      · have := fwd j i b a hj hi hb ha h; omega
    · intro h
      subst h
      have := ha 0; rw [hb 0] at this
      simp at this; omega

/-- **C49** Moving by one in the last dimension moves by one in the linear order. -/
theorem C49_last_fastest (shape pre : List Int) (k : Int) (h : InShape shape (pre ++ [k]))
    (h' : InShape shape (pre ++ [k + 1])) :
    ∃ n, getLinearIndex shape (pre ++ [k]) = some n ∧
      getLinearIndex shape (pre ++ [k + 1]) = some (n + 1) := by
  have key : ∀ (pre shape : List Int) (acc : Int), InShape shape (pre ++ [k]) →
      ∃ n, lineariseInner acc shape (pre ++ [k]) = some n ∧
        lineariseInner acc shape (pre ++ [k + 1]) = some (n + 1) := by
    intro pre
    induction pre with
    | nil =>
      intro shape acc h
      cases h with
      | @cons s _ ss _ _ _ hs =>
        cases hs
        exact ⟨acc * s + k, rfl, by simp [lineariseInner, add_assoc]⟩
    | cons p pre ih =>
      intro shape acc h
      cases h with
      | @cons s _ ss _ _ _ hs => exact ih ss (acc * s + p) hs
  exact key pre shape 0 h

/-- **C49** Every number in `[0, size)` is the index of a tuple. -/
theorem C49_onto (shape : List Int) (hpos : ∀ s ∈ shape, 0 < s) (size n : Int)
    (hs : ndSize shape = some size) (h0 : 0 ≤ n) (h1 : n < size) :
    ∃ idx, InShape shape idx ∧ getLinearIndex shape idx = some n := by
  cases shape with
  | nil => cases hs
  | cons s ss =>
    rw [ndSize_eq] at hs
    cases hs
    exact linearise_surj _ hpos n h0 h1

example : InShape [3, 4, 5] [2, 0, 3] ∧ getLinearIndex [3, 4, 5] [2, 0, 3] = some 43 ∧
    ndSize [3, 4, 5] = some 60 :=
  ⟨InShape.cons (by decide) (by decide) (InShape.cons (by decide) (by decide)
    (InShape.cons (by decide) (by decide) InShape.nil)), by decide, by decide⟩

/-! ## C50: resource stack -/

/-- **C50** After every history of calls: the resource handed out next is not held by any
user (no pointer to it exists, and it was restored each time it had been handed out), it
was not destroyed, and it is in the cleaned state. -/
theorem C50_get (calls : List StackCall) (evs : List StackEvent) (s : StackState)
    (h : stackCalls StackState.init calls = some (evs, s)) :
    s.get.1 ∉ heldAfter [] evs ∧ s.get.1 ∉ s.refs ∧ s.get.1 ∉ s.freed ∧
      s.clean s.get.1 = true := by
  have ok := StackOk.init.calls calls h
  obtain ⟨-, h1, h2, h3⟩ := ok.get
  exact ⟨h1, fun hr => h1 (ok.rf _ hr), h3, h2⟩

/-- **C50** `free` succeeds exactly if everything handed out was restored; then no user
pointer is left, and no resource is destroyed twice. -/
theorem C50_free (calls : List StackCall) (evs : List StackEvent) (s : StackState)
    (h : stackCalls StackState.init calls = some (evs, s)) :
    (s.free.isSome ↔ heldAfter [] evs = []) ∧ s.freed.Nodup ∧
      (∀ s', s.free = some s' → s.refs = [] ∧ s'.freed = s.freed ++ s.stack) ∧
      (∀ r, r ∈ s.refs → r ∉ s.freed) := by
  have ok := StackOk.init.calls calls h
  have hm := ok.mg
  have iff1 : s.stack.length = s.managed ↔ heldAfter [] evs = [] := by
    constructor
    · intro e; exact List.eq_nil_of_length_eq_zero (by omega)
    · intro e; rw [e] at hm; simpa using hm.symm
  refine ⟨?_, ok.nf, ?_, fun r hr hf => ok.dh r hf (ok.rf r hr)⟩
  · unfold StackState.free
    by_cases hc : s.stack.length = s.managed
    · rw [if_pos hc]; simp [iff1.mp hc]
    · rw [if_neg hc]; simp [mt iff1.mpr hc]
  · intro s' e
    unfold StackState.free at e
    by_cases hc : s.stack.length = s.managed
    · rw [if_pos hc] at e; cases e
      refine ⟨?_, rfl⟩
      have hz := iff1.mp hc
      rw [List.eq_nil_iff_forall_not_mem]
      intro r hr
      have := ok.rf r hr
      rw [hz] at this; cases this
    · rw [if_neg hc] at e; cases e

/-- **C50** A pointer can be restored exactly if it is the only pointer to the resource. -/
theorem C50_restore (calls : List StackCall) (evs : List StackEvent) (s : StackState)
    (h : stackCalls StackState.init calls = some (evs, s)) (r : Nat) :
    (s.restore r).isSome ↔ s.refs.count r = 1 := by
  have ok := StackOk.init.calls calls h
  unfold StackState.restore
  by_cases hr : r ∈ s.refs
  · rw [if_pos hr]
    have hz : s.stack.count r = 0 := List.count_eq_zero.mpr fun hm => ok.dj r hm (ok.rf r hr)
    have h1 : (s.refs.erase r).count r = s.refs.count r - 1 := List.count_erase_self
    have h2 : 0 < s.refs.count r := List.count_pos_iff.mpr hr
    simp only
    by_cases hc : 1 + (s.refs.erase r).count r + s.stack.count r = 1
    · rw [if_pos hc]; simp; omega
    · rw [if_neg hc]; simp; omega
  · rw [if_neg hr]
    have : s.refs.count r = 0 := List.count_eq_zero.mpr hr
    simp [this]

-- Two resources, the first is used, restored and handed out again (cleaned).
example : ∃ evs s, stackCalls StackState.init
      [.get, .get, .use 0, .restore 0, .get, .copy 0, .drop 0, .restore 1] = some (evs, s) ∧
    heldAfter [] evs = [0] ∧ s.free.isSome = false ∧ s.get.1 = 1 :=
  ⟨_, _, rfl, by decide, by decide, by decide⟩

/-! ## C53: buffers -/

/-- **C53** `realloc_no_copy` of an allocated buffer always succeeds and leaves a buffer
that holds at least the requested number of elements; the value returned is the size. -/
theorem C53_realloc_no_copy {α : Type} (fresh : Fresh α) (b : Buffer α) (l : List α)
    (hb : Holds b l) (size : Nat) (factor : Option (Nat → Nat)) :
    ∃ b' l', b.reallocNoCopy fresh size factor = some (b'.size, b') ∧ Holds b' l' ∧
      size ≤ b'.size := by
  unfold Buffer.reallocNoCopy
  by_cases h0 : size = 0
  · rw [if_pos h0]; exact ⟨b, l, rfl, hb, by omega⟩
  · rw [if_neg h0]
    by_cases hc : size > b.size ∨ b.size > b.maxSize factor size
    · rw [if_pos hc, hb.1]
      exact ⟨⟨some (fresh size).1, size⟩, (fresh size).1, rfl, ⟨rfl, (fresh size).2.symm⟩,
        Nat.le_refl _⟩
    · rw [if_neg hc]; exact ⟨b, l, rfl, hb, by omega⟩

/-- **C53** `realloc` of an allocated buffer that does not free memory because of the size
factor (no factor, or the buffer is at most the factor times larger than requested):
it succeeds, the buffer holds at least the requested number of elements and starts with
the elements it had.  Missing for the full property: see `C53_realloc_shrink_overflows`. -/
theorem C53_realloc_partial {α : Type} (fresh : Fresh α) (b : Buffer α) (l : List α)
    (hb : Holds b l) (size : Nat) (factor : Option (Nat → Nat))
    (hf : ∀ f, factor = some f → b.size ≤ max size (f size)) :
    ∃ b' l', b.realloc fresh size factor = some (b'.size, b') ∧ Holds b' l' ∧
      size ≤ b'.size ∧ l <+: l' := by
  unfold Buffer.realloc
  by_cases h0 : size = 0
  · rw [if_pos h0]; exact ⟨b, l, rfl, hb, by omega, List.prefix_rfl⟩
  · rw [if_neg h0]
    by_cases hc : size > b.size ∨ b.size > b.maxSize factor size
    · rw [if_pos hc, hb.1]
      have hle : b.size ≤ size := by
        rcases hc with hc | hc
        · omega
        · unfold Buffer.maxSize at hc
          cases factor with
          | none => simp only at hc; omega
          | some f => have := hf f rfl; simp only at hc; omega
      obtain ⟨d, e, hl, h1, -⟩ := memcpyFront_ok (fresh size).1 l b.size
        (by rw [(fresh size).2]; exact hle) (by rw [hb.2])
      refine ⟨⟨some d, size⟩, d, ?_, ⟨rfl, by rw [hl, (fresh size).2]⟩, Nat.le_refl _, ?_⟩
      · simp [e]
      · rw [List.prefix_iff_eq_take]
        apply List.ext_getElem?
        intro i
        rw [List.getElem?_take]
        by_cases hi : i < l.length
        · rw [if_pos hi, h1 i (by rw [hb.2]; exact hi)]
        · rw [if_neg hi, List.getElem?_eq_none (by omega)]
    · rw [if_neg hc]; exact ⟨b, l, rfl, hb, by omega, List.prefix_rfl⟩

/-- **C53** fails for the other calls of `realloc`: whenever the factor makes it free
memory, the copy writes outside the new allocation. -/
theorem C53_realloc_shrink_overflows {α : Type} (fresh : Fresh α) (b : Buffer α) (l : List α)
    (hb : Holds b l) (size : Nat) (f : Nat → Nat) (hs : 0 < size)
    (hf : max size (f size) < b.size) : b.realloc fresh size (some f) = none := by
  unfold Buffer.realloc
  rw [if_neg (by omega), if_pos (Or.inr (by simpa [Buffer.maxSize] using hf)), hb.1]
  simp only
  rw [memcpyFront_overflow _ _ _ (by rw [(fresh size).2]; omega)]
  rfl

/-- **C53** A buffer created with no elements cannot be made larger. -/
theorem C53_empty_buffer_cannot_grow {α : Type} (fresh fresh' : Fresh α) (size : Nat)
    (factor : Option (Nat → Nat)) (hs : 0 < size) :
    (Buffer.create fresh 0).realloc fresh' size factor = none ∧
      (Buffer.create fresh 0).reallocNoCopy fresh' size factor = none := by
  unfold Buffer.realloc Buffer.reallocNoCopy Buffer.create
  simp [hs, Nat.ne_of_gt hs]

/-- **C53** What is written with `set` is at the start of the buffer, the rest is not
changed, and `get` returns all of the buffer. -/
theorem C53_set_get {α : Type} (b : Buffer α) (l data out : List α) (hb : Holds b l)
    (hd : data.length ≤ b.size) (ho : out.length = b.size) :
    ∃ b', b.set data = some b' ∧ Holds b' (data ++ l.drop data.length) ∧
      b'.get out = some (data ++ l.drop data.length) := by
  have getok : ∀ (b : Buffer α) (l : List α), Holds b l → out.length = b.size →
      b.get out = some l := by
    intro b l hb ho
    unfold Buffer.get
    rw [if_pos ho]
    by_cases hz : b.size > 0
    · rw [if_pos hz, hb.1]
      obtain ⟨d, e, hl, h1, -⟩ := memcpyFront_ok out l b.size (by omega) (by rw [hb.2])
      simp only [e, Option.some.injEq]
      apply List.ext_getElem?
      intro i
      by_cases hi : i < b.size
      · exact h1 i hi
      · rw [List.getElem?_eq_none (by omega), List.getElem?_eq_none (by have := hb.2; omega)]
    · rw [if_neg hz]
      have h1 : out = [] := List.eq_nil_of_length_eq_zero (by omega)
      have h2 : l = [] := List.eq_nil_of_length_eq_zero (by have := hb.2; omega)
      rw [h1, h2]
  have hl := hb.2
  unfold Buffer.set
  rw [if_pos hd]
  by_cases hz : data.length > 0
  · rw [if_pos hz, hb.1]
    obtain ⟨d, e, hdl, h1, h2⟩ := memcpyFront_ok l data data.length (by omega) (Nat.le_refl _)
    have hd' : d = data ++ l.drop data.length := by
      apply List.ext_getElem?
      intro i
      by_cases hi : i < data.length
      · rw [h1 i hi, List.getElem?_append_left hi]
      · rw [h2 i (by omega), List.getElem?_append_right (by omega), List.getElem?_drop]
        congr 1; omega
    subst hd'
    have hh : Holds (⟨some (data ++ l.drop data.length), b.size⟩ : Buffer α)
        (data ++ l.drop data.length) := ⟨rfl, by rw [hdl]; exact hl⟩
    exact ⟨_, by simp only [e, Option.bind_some], hh, getok _ _ hh ho⟩
  · rw [if_neg hz]
    have hz' : data = [] := List.eq_nil_of_length_eq_zero (by omega)
    subst hz'
    exact ⟨b, rfl, by simpa using hb, by simpa using getok b l hb ho⟩

-- A buffer of two elements is made larger (contents kept), and cannot be made smaller.
example : Holds (⟨some [7, 8], 2⟩ : Buffer Nat) [7, 8] ∧
    ((⟨some [7, 8], 2⟩ : Buffer Nat).realloc (fun n => ⟨List.replicate n 0, by simp⟩) 4
      (some fun n => 2 * n)).map (fun r => (r.1, r.2.ptr)) = some (4, some [7, 8, 0, 0]) ∧
    ((⟨some [7, 8, 9], 3⟩ : Buffer Nat).realloc (fun n => ⟨List.replicate n 0, by simp⟩) 1
      (some fun n => 2 * n)).isNone :=
  ⟨⟨rfl, rfl⟩, by decide, by decide⟩

end NP
