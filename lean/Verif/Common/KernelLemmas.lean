import Verif.Common.Kernel

/-! Helper lemmas about `Verif.Common.Kernel`. -/

set_option autoImplicit false

namespace NP

variable {α ι σ : Type _}

theorem st_eq_some {m : List α} {i : Nat} {v : α} (h : i < m.length) :
    st m i v = some (m.set i v) := by simp [st, h]

@[simp] theorem runItems_nil (step : ι → σ → Option σ) (s : σ) :
    runItems step [] s = some s := rfl

theorem runItems_cons (step : ι → σ → Option σ) (i : ι) (is : List ι) (s : σ) :
    runItems step (i :: is) s = (step i s).bind (runItems step is) := rfl

theorem runItems_append (step : ι → σ → Option σ) (l₁ l₂ : List ι) (s : σ) :
    runItems step (l₁ ++ l₂) s = (runItems step l₁ s).bind (runItems step l₂) := by
  induction l₁ generalizing s with
  | nil => rfl
  | cons i is ih =>
    simp only [List.cons_append, runItems_cons]
    cases step i s with
    | none => rfl
    | some s' => simp [ih]

/-- Invariant rule: `P done s` holds after the items `done` were run, in any
order in which they are run. -/
theorem runItems_invariant {step : ι → σ → Option σ} {P : List ι → σ → Prop}
    {items : List ι}
    (hstep : ∀ (pre : List ι) (i : ι) (post : List ι) s,
      items = pre ++ i :: post → P pre s →
        ∃ s', step i s = some s' ∧ P (pre ++ [i]) s')
    {s : σ} (h0 : P [] s) :
    ∃ s', runItems step items s = some s' ∧ P items s' := by
  suffices h : ∀ (post pre : List ι) s, items = pre ++ post → P pre s →
      ∃ s', runItems step post s = some s' ∧ P items s' from h items [] s rfl h0
  intro post
  induction post with
  | nil =>
    intro pre s hs hP
    refine ⟨s, rfl, ?_⟩
    rw [hs]; simpa using hP
  | cons i is ih =>
    intro pre s hs hP
    obtain ⟨s', h1, h2⟩ := hstep pre i is s hs hP
    obtain ⟨s'', h3, h4⟩ := ih (pre ++ [i]) s' (by simpa using hs) h2
    exact ⟨s'', by simp [runItems_cons, h1, h3], h4⟩

/-- A work item that reads and writes one array location. -/
def rmw (loc : ι → Nat) (f : ι → α → Option α) (i : ι) (m : List α) :
    Option (List α) :=
  (m[loc i]?).bind fun v => (f i v).bind fun v' => st m (loc i) v'

/-- Work items that each update their own location: every location with an item
gets its updated value, all others are unchanged. -/
theorem runItems_rmw {loc : ι → Nat} {f : ι → α → Option α} {items : List ι}
    {m : List α} (hnd : (items.map loc).Nodup)
    (hdef : ∀ i ∈ items, ∃ v v', m[loc i]? = some v ∧ f i v = some v') :
    ∃ m', runItems (rmw loc f) items m = some m' ∧ m'.length = m.length ∧
      (∀ i ∈ items, m'[loc i]? = (m[loc i]?).bind (f i)) ∧
      (∀ k, k ∉ items.map loc → m'[k]? = m[k]?) := by
  have := runItems_invariant (step := rmw loc f) (items := items) (s := m)
    (P := fun done m' => m'.length = m.length ∧
      (∀ i ∈ done, m'[loc i]? = (m[loc i]?).bind (f i)) ∧
      (∀ k, k ∉ done.map loc → m'[k]? = m[k]?)) ?_ ?_
  · exact this
  · rintro pre i post s hs ⟨hl, h1, h2⟩
    have hmem : i ∈ items := by rw [hs]; simp
    obtain ⟨v, v', hv, hv'⟩ := hdef i hmem
    rw [hs] at hnd
    simp only [List.map_append, List.map_cons, List.nodup_append, List.nodup_cons] at hnd
    have hni : loc i ∉ pre.map loc := by
      intro hc
      exact hnd.2.2 _ hc (loc i) (by simp) rfl
    have hsv : s[loc i]? = some v := by rw [h2 _ hni, hv]
    have hlt : loc i < s.length := by
      have := List.getElem?_eq_some_iff.1 hsv; exact this.1
    refine ⟨s.set (loc i) v', ?_, ?_, ?_, ?_⟩
    · unfold rmw; rw [hsv]; simp [hv', st, hlt]
    · simp [hl]
    · intro j hj
      simp only [List.mem_append, List.mem_singleton] at hj
      by_cases hji : loc i = loc j
      · rcases hj with hj | hj
        · exact absurd (hji ▸ List.mem_map_of_mem hj) hni
        · subst hj
          simp [hv, hv', hlt]
      · rcases hj with hj | hj
        · rw [List.getElem?_set_ne hji, h1 j hj]
        · subst hj; exact absurd rfl hji
    · intro k hk
      simp only [List.map_append, List.map_cons, List.map_nil, List.mem_append,
        List.mem_singleton, not_or] at hk
      rw [List.getElem?_set_ne (Ne.symm hk.2), h2 k hk.1]
  · simp

/-- Any two runs of the same independent updates (in different orders) end in the
same memory. -/
theorem runItems_rmw_perm {loc : ι → Nat} {f : ι → α → Option α}
    {items items' : List ι} {m : List α} (hp : items'.Perm items)
    (hnd : (items.map loc).Nodup)
    (hdef : ∀ i ∈ items, ∃ v v', m[loc i]? = some v ∧ f i v = some v') :
    ∃ m', runItems (rmw loc f) items' m = some m' ∧ m'.length = m.length ∧
      (∀ i ∈ items, m'[loc i]? = (m[loc i]?).bind (f i)) ∧
      (∀ k, k ∉ items.map loc → m'[k]? = m[k]?) := by
  have hnd' : (items'.map loc).Nodup := (hp.map loc).nodup_iff.2 hnd
  obtain ⟨m', a, b, c, d⟩ := runItems_rmw (m := m) (f := f) hnd'
    (fun i hi => hdef i (hp.mem_iff.1 hi))
  refine ⟨m', a, b, fun i hi => c i (hp.mem_iff.2 hi), fun k hk => d k ?_⟩
  intro hc; exact hk ((hp.map loc).mem_iff.1 hc)

theorem slice_eq_some {m : List α} {a b : Nat} (h1 : a ≤ b) (h2 : b ≤ m.length) :
    slice m a b = some ((m.drop a).take (b - a)) := by simp [slice, h1, h2]

theorem length_of_slice {m l : List α} {a b : Nat} (h : slice m a b = some l) :
    l.length = b - a ∧ a ≤ b ∧ b ≤ m.length := by
  unfold slice at h
  split at h
  · rename_i hc
    simp only [Option.some.injEq] at h
    subst h
    refine ⟨?_, hc.1, hc.2⟩
    simp; omega
  · simp at h

theorem getElem?_of_slice {m l : List α} {a b : Nat} (h : slice m a b = some l)
    (i : Nat) (hi : i < b - a) : l[i]? = m[a + i]? := by
  unfold slice at h
  split at h
  · rename_i hc
    simp only [Option.some.injEq] at h
    subst h
    rw [List.getElem?_take_of_lt hi, List.getElem?_drop]
  · simp at h

theorem stRange_eq_some {m vs : List α} {a : Nat} (h : a + vs.length ≤ m.length) :
    stRange m a vs = some (m.take a ++ vs ++ m.drop (a + vs.length)) := by
  simp [stRange, h]

theorem length_of_stRange {m m' vs : List α} {a : Nat} (h : stRange m a vs = some m') :
    m'.length = m.length ∧ a + vs.length ≤ m.length := by
  unfold stRange at h
  split at h
  · rename_i hc
    simp only [Option.some.injEq] at h
    subst h
    refine ⟨?_, hc⟩
    simp; omega
  · simp at h

theorem getElem?_of_stRange {m m' vs : List α} {a : Nat} (h : stRange m a vs = some m')
    (k : Nat) :
    m'[k]? = if a ≤ k ∧ k < a + vs.length then vs[k - a]? else m[k]? := by
  have hl := length_of_stRange h
  unfold stRange at h
  rw [if_pos hl.2] at h
  simp only [Option.some.injEq] at h
  subst h
  by_cases h1 : k < a
  · rw [if_neg (by omega), List.append_assoc, List.getElem?_append_left (by simp; omega),
      List.getElem?_take_of_lt h1]
  · by_cases h2 : k < a + vs.length
    · rw [if_pos (by omega), List.getElem?_append_left (by simp; omega),
        List.getElem?_append_right (by simp; omega)]
      congr 1; simp; omega
    · rw [if_neg (by omega), List.getElem?_append_right (by simp; omega),
        List.getElem?_drop]
      congr 1; simp; omega

end NP

namespace NP

theorem mem_strided {x start stop step : Nat} (hs : 0 < step) :
    x ∈ strided start stop step ↔ start ≤ x ∧ x < stop ∧ (x - start) % step = 0 := by
  unfold strided
  simp only [List.mem_map, List.mem_range]
  constructor
  · rintro ⟨k, hk, rfl⟩
    have h1 : (k + 1) * step ≤ stop - start + (step - 1) :=
      (Nat.le_div_iff_mul_le hs).1 hk
    have h2 : (k + 1) * step = k * step + step := Nat.succ_mul k step
    refine ⟨by omega, by omega, ?_⟩
    rw [Nat.add_sub_cancel_left, Nat.mul_mod_left]
  · rintro ⟨h1, h2, h3⟩
    refine ⟨(x - start) / step, ?_, ?_⟩
    · apply (Nat.le_div_iff_mul_le hs).2
      show ((x - start) / step + 1) * step ≤ _
      have := Nat.div_mul_le_self (x - start) step
      have e : ((x - start) / step + 1) * step = (x - start) / step * step + step :=
        Nat.succ_mul _ step
      omega
    · have := Nat.div_add_mod (x - start) step
      rw [h3, Nat.mul_comm] at this
      omega

theorem strided_nodup (start stop step : Nat) : (strided start stop step).Nodup := by
  unfold strided
  by_cases hs : step = 0
  · subst hs; simp
  · rw [List.Nodup, List.pairwise_map]
    refine List.Pairwise.imp ?_ (List.nodup_range (n := (stop - start + (step - 1)) / step))
    intro a b hab h
    apply hab
    have : a * step = b * step := by omega
    exact Nat.eq_of_mul_eq_mul_right (by omega) this

end NP

namespace NP

variable {α ι : Type _}

/-- Work items that only write: item `i` overwrites the locations `region i` with
`val i`.  If items that share locations agree on the values, then after running
all of them every location covered by an item has its value and all other
locations are unchanged. -/
theorem runItems_region {step : ι → List α → Option (List α)} {items : List ι}
    {m : List α} (region : ι → Nat → Prop) (val : ι → Nat → α)
    (hstep : ∀ i ∈ items, ∀ s : List α, s.length = m.length →
      ∃ s', step i s = some s' ∧ s'.length = s.length ∧
        (∀ k, region i k → s'[k]? = some (val i k)) ∧
        (∀ k, ¬ region i k → s'[k]? = s[k]?))
    (hagree : ∀ i ∈ items, ∀ j ∈ items, ∀ k, region i k → region j k → val i k = val j k) :
    ∃ m', runItems step items m = some m' ∧ m'.length = m.length ∧
      (∀ i ∈ items, ∀ k, region i k → m'[k]? = some (val i k)) ∧
      (∀ k, (∀ i ∈ items, ¬ region i k) → m'[k]? = m[k]?) := by
  have := runItems_invariant (step := step) (items := items) (s := m)
    (P := fun done m' => m'.length = m.length ∧
      (∀ i ∈ done, ∀ k, region i k → m'[k]? = some (val i k)) ∧
      (∀ k, (∀ i ∈ done, ¬ region i k) → m'[k]? = m[k]?)) ?_ ?_
  · exact this
  · rintro pre i post s hs ⟨hl, h1, h2⟩
    have hmem : i ∈ items := by rw [hs]; simp
    have hpre : ∀ j ∈ pre, j ∈ items := by
      intro j hj; rw [hs]; exact List.mem_append_left _ hj
    obtain ⟨s', e, hl', hr, hn⟩ := hstep i hmem s hl
    refine ⟨s', e, by omega, ?_, ?_⟩
    · intro j hj k hk
      simp only [List.mem_append, List.mem_singleton] at hj
      rcases hj with hj | hj
      · by_cases hik : region i k
        · rw [hr k hik, hagree i hmem j (hpre j hj) k hik hk]
        · rw [hn k hik, h1 j hj k hk]
      · subst hj; exact hr k hk
    · intro k hk
      have hik : ¬ region i k := hk i (by simp)
      rw [hn k hik]
      exact h2 k (fun j hj => hk j (by simp [hj]))
  · simp

end NP

namespace NP

variable {ι β : Type _}

theorem collectM_eq_flatMap {f : ι → Option (List β)} {g : ι → List β} {items : List ι}
    (h : ∀ i ∈ items, f i = some (g i)) : collectM f items = some (items.flatMap g) := by
  induction items with
  | nil => rfl
  | cons i is ih =>
    simp only [collectM, h i (by simp), ih (fun j hj => h j (by simp [hj])), Option.bind_some,
      List.flatMap_cons]

/-- Invariant rule for a host loop. -/
theorem forLoop_invariant {σ : Type _} {a b : Nat} {step : Nat → σ → Option σ} {s : σ}
    (P : Nat → σ → Prop) (hab : a ≤ b)
    (hstep : ∀ i s, a ≤ i → i < b → P i s → ∃ s', step i s = some s' ∧ P (i + 1) s')
    (h0 : P a s) : ∃ s', forLoop a b step s = some s' ∧ P b s' := by
  obtain ⟨n, rfl⟩ : ∃ n, b = a + n := ⟨b - a, by omega⟩
  unfold forLoop
  rw [Nat.add_sub_cancel_left]
  clear hab
  induction n generalizing a s with
  | zero => exact ⟨s, rfl, h0⟩
  | succ n ih =>
    rw [List.range'_succ]
    obtain ⟨s', e, hP⟩ := hstep a s (Nat.le_refl a) (by omega) h0
    obtain ⟨s'', e', hP'⟩ := ih (a := a + 1) (s := s') hP
      (fun i s h1 h2 h3 => hstep i s (by omega) (by omega) h3)
    refine ⟨s'', ?_, ?_⟩
    · rw [runItems_cons, e]; exact e'
    · rw [show a + (n + 1) = a + 1 + n by omega]; exact hP'

end NP
