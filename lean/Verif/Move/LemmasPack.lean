import Verif.Move.PropsIdentify

/-! # Lemmas about packed particles -/

set_option autoImplicit false

namespace NP

open Spec

/-! ## Flattened components -/

theorem length_flatComps (dats : List Dat) : (flatComps dats).length = numWords dats := by
  unfold flatComps numWords
  rw [List.length_flatMap]
  simp

theorem flatComps_append (a b : List Dat) : flatComps (a ++ b) = flatComps a ++ flatComps b := by
  unfold flatComps; rw [List.flatMap_append]

theorem numWords_append (a b : List Dat) : numWords (a ++ b) = numWords a + numWords b := by
  unfold numWords; rw [List.map_append, List.sum_append]

theorem flatIndex_get (dats : List Dat) : ∀ (k q : Nat), q < numWords dats → ∃ i j d,
    ((dats.zipIdx k).flatMap fun di => (List.range di.1.ncomp).map fun j => (di.2, j))[q]? =
      some (k + i, j) ∧ dats[i]? = some d ∧ q = ((dats.map (·.ncomp)).take i).sum + j ∧
    (flatComps dats)[q]? = some (d.sym, j) := by
  induction dats with
  | nil => intro k q h; simp [numWords] at h
  | cons d ds ih =>
    intro k q h
    rw [List.zipIdx_cons, List.flatMap_cons]
    have hfc : flatComps (d :: ds) = ((List.range d.ncomp).map fun j => (d.sym, j)) ++
      flatComps ds := rfl
    by_cases hq : q < d.ncomp
    · refine ⟨0, q, d, ?_, rfl, by simp, ?_⟩
      · rw [List.getElem?_append_left (by simpa using hq)]
        simp [hq]
      · rw [hfc, List.getElem?_append_left (by simpa using hq)]
        simp [hq]
    · have hn : numWords (d :: ds) = d.ncomp + numWords ds := by simp [numWords]
      obtain ⟨i, j, d', h1, h2, h3, h4⟩ := ih (k + 1) (q - d.ncomp) (by omega)
      refine ⟨i + 1, j, d', ?_, by simpa using h2, ?_, ?_⟩
      · rw [List.getElem?_append_right (by simpa using hq)]
        rw [List.length_map, List.length_range, h1]
        congr 2
        omega
      · rw [List.map_cons, List.take_succ_cons, List.sum_cons]
        omega
      · rw [hfc, List.getElem?_append_right (by simpa using hq), List.length_map,
          List.length_range, h4]

theorem packIndex_eq {dats : List Dat} {q : Nat} (h : q < numWords dats) :
    ∃ sj, (flatComps dats)[q]? = some sj ∧ packIndex dats q = some (sj.1, sj.2, q) := by
  obtain ⟨i, j, d, h1, h2, h3, h4⟩ := flatIndex_get dats 0 q h
  refine ⟨(d.sym, j), h4, ?_⟩
  have h1' : (flatIndex dats)[q]? = some (i, j) := by
    unfold flatIndex; rw [h1, Nat.zero_add]
  have hi : i < dats.length := (List.getElem?_eq_some_iff.1 h2).1
  have h5 : (ncompExscan dats)[i]? = some (((dats.map (·.ncomp)).take i).sum) := by
    unfold ncompExscan
    rw [getElem?_exclusiveFrom _ _ _ (by simpa using hi), Nat.zero_add]
  unfold packIndex
  simp only [rd, h1', Option.bind_some, h2, h5]
  rw [h3]

theorem side_word {dats : List Dat} {nReal : Nat} {b : Bool} {q : Nat}
    (h : q < numWords (packSide dats nReal b).1) :
    ∃ sj, (flatComps dats)[(packSide dats nReal b).2 + q]? = some sj ∧
      packIndex (packSide dats nReal b).1 q = some (sj.1, sj.2, q) ∧
      (packSide dats nReal b).2 + q < numWords dats := by
  obtain ⟨sj, h1, h2⟩ := packIndex_eq h
  have hfc : flatComps dats = flatComps (dats.take nReal) ++ flatComps (dats.drop nReal) := by
    rw [← flatComps_append, List.take_append_drop]
  have hnw : numWords dats = numWords (dats.take nReal) + numWords (dats.drop nReal) := by
    rw [← numWords_append, List.take_append_drop]
  refine ⟨sj, ?_, h2, ?_⟩
  · rw [hfc]
    cases b with
    | false =>
      simp only [packSide, Bool.false_eq_true, if_false, Nat.zero_add] at h h1 ⊢
      rw [List.getElem?_append_left (by rw [length_flatComps]; exact h), h1]
    | true =>
      simp only [packSide, if_true] at h h1 ⊢
      rw [List.getElem?_append_right (by rw [length_flatComps]; omega), length_flatComps,
        Nat.add_sub_cancel_left, h1]
  · cases b with
    | false => simp only [packSide, Bool.false_eq_true, if_false] at h ⊢; omega
    | true => simp only [packSide, if_true] at h ⊢; omega

theorem side_surj {dats : List Dat} (nReal : Nat) {Q : Nat} (h : Q < numWords dats) :
    ∃ b q, q < numWords (packSide dats nReal b).1 ∧ (packSide dats nReal b).2 + q = Q := by
  have hnw : numWords dats = numWords (dats.take nReal) + numWords (dats.drop nReal) := by
    rw [← numWords_append, List.take_append_drop]
  by_cases hq : Q < numWords (dats.take nReal)
  · exact ⟨false, Q, hq, by simp [packSide]⟩
  · refine ⟨true, Q - numWords (dats.take nReal), ?_, ?_⟩
    · simp only [packSide, if_true]; omega
    · simp only [packSide, if_true]; omega

theorem mem_packItems {dats : List Dat} {nReal n : Nat} {it : Bool × Nat × Nat} :
    it ∈ packItems dats nReal n ↔ it.2.1 < n ∧ it.2.2 < numWords (packSide dats nReal it.1).1 := by
  unfold packItems
  obtain ⟨b, i, q⟩ := it
  simp only [List.mem_flatMap, List.mem_map, List.mem_range, Prod.mk.injEq]
  constructor
  · rintro ⟨b', _, i', hi, q', hq, rfl, rfl, rfl⟩; exact ⟨hi, hq⟩
  · rintro ⟨hi, hq⟩
    exact ⟨b, by cases b <;> simp, i, hi, q, hq, rfl, rfl, rfl⟩

/-! ## Sequences of particles -/

theorem getElem?_flatten_uniform {α : Type} {W : Nat} {ws : List (List α)}
    (h : ∀ w ∈ ws, w.length = W) {l Q : Nat} (hQ : Q < W) :
    ws.flatten[l * W + Q]? = (ws[l]?).bind fun w => w[Q]? := by
  induction ws generalizing l with
  | nil => simp
  | cons w ws ih =>
    have hw := h w List.mem_cons_self
    rw [List.flatten_cons]
    cases l with
    | zero =>
      rw [Nat.zero_mul, Nat.zero_add, List.getElem?_append_left (by omega)]
      rfl
    | succ l =>
      rw [List.getElem?_append_right (by rw [hw, Nat.succ_mul]; omega)]
      have : (l + 1) * W + Q - w.length = l * W + Q := by rw [hw, Nat.succ_mul]; omega
      rw [this, ih (fun w' hw' => h w' (List.mem_cons_of_mem _ hw'))]
      rfl

theorem length_flatten_uniform {α : Type} {W : Nat} {ws : List (List α)}
    (h : ∀ w ∈ ws, w.length = W) : ws.flatten.length = ws.length * W := by
  induction ws with
  | nil => simp
  | cons w ws ih =>
    rw [List.flatten_cons, List.length_append, h w List.mem_cons_self,
      ih (fun w' hw' => h w' (List.mem_cons_of_mem _ hw')), List.length_cons, Nat.succ_mul,
      Nat.add_comm]

theorem eq_flatten_uniform {α : Type} {W : Nat} {ws : List (List α)} {buf : List α}
    (h : ∀ w ∈ ws, w.length = W) (hl : buf.length = ws.length * W)
    (hb : ∀ l Q, l < ws.length → Q < W → buf[l * W + Q]? = (ws[l]?).bind fun w => w[Q]?) :
    buf = ws.flatten := by
  apply List.ext_getElem?
  intro t
  by_cases ht : t < ws.length * W
  · have hW : 0 < W := by
      rcases Nat.eq_zero_or_pos W with h0 | h0
      · rw [h0, Nat.mul_zero] at ht; omega
      · exact h0
    have h1 : t = t / W * W + t % W := (Nat.div_add_mod' t W).symm
    have h2 : t / W < ws.length := Nat.div_lt_of_lt_mul (by rw [Nat.mul_comm]; exact ht)
    rw [h1, hb _ _ h2 (Nat.mod_lt _ hW), getElem?_flatten_uniform h (Nat.mod_lt _ hW)]
  · rw [List.getElem?_eq_none (by omega), List.getElem?_eq_none (by
      rw [length_flatten_uniform h]; omega)]

/-! ## Stores to a list of buffers -/

theorem runItems_put2 {ι α : Type} {step : ι → List (List α) → Option (List (List α))}
    {items : List ι} {m : List (List α)} (a b : ι → Nat) (v : ι → α)
    (hstep : ∀ i ∈ items, ∀ x : List (List α), step i x = (rd x (a i)).bind fun buf =>
      (st buf (b i) (v i)).bind fun buf => some (x.set (a i) buf))
    (hagree : ∀ i ∈ items, ∀ j ∈ items, a i = a j → b i = b j → v i = v j)
    (hin : ∀ i ∈ items, ∃ buf, m[a i]? = some buf ∧ b i < buf.length) :
    ∃ m', runItems step items m = some m' ∧ m'.length = m.length ∧
      (∀ k : Nat, (m'[k]?).map List.length = (m[k]?).map List.length) ∧
      ∀ i ∈ items, (m'[a i]?).bind (fun buf => buf[b i]?) = some (v i) := by
  obtain ⟨m', h1, h2, h3, h4⟩ := runItems_invariant (step := step) (items := items) (s := m)
    (P := fun pre m' => m'.length = m.length ∧
      (∀ k : Nat, (m'[k]?).map List.length = (m[k]?).map List.length) ∧
      ∀ i ∈ pre, (m'[a i]?).bind (fun buf => buf[b i]?) = some (v i))
    (by
      intro pre i post x he ⟨hl, hk, hp⟩
      have hi : i ∈ items := by rw [he]; simp
      have hpre : ∀ j ∈ pre, j ∈ items := by intro j hj; rw [he]; simp [hj]
      obtain ⟨buf0, hb1, hb2⟩ := hin i hi
      have hk1 := hk (a i)
      rw [hb1, Option.map_some, Option.map_eq_some_iff] at hk1
      obtain ⟨buf, hbuf, hlen⟩ := hk1
      have hlt : a i < x.length := (List.getElem?_eq_some_iff.1 hbuf).1
      refine ⟨x.set (a i) (buf.set (b i) (v i)), ?_, by simpa using hl, ?_, ?_⟩
      · rw [hstep i hi]
        simp only [rd, hbuf, Option.bind_some]
        rw [st_eq_some (by omega)]
        rfl
      · intro k
        rw [← hk k, List.getElem?_set]
        by_cases hka : a i = k
        · subst hka
          rw [if_pos rfl, if_pos hlt, hbuf]
          simp
        · rw [if_neg hka]
      · intro j hj
        rw [List.getElem?_set]
        by_cases hja : a i = a j
        · rw [if_pos hja, if_pos hlt, Option.bind_some, List.getElem?_set]
          by_cases hjb : b i = b j
          · rw [if_pos hjb, if_pos (by omega)]
            congr 1
            rcases List.mem_append.1 hj with hj | hj
            · exact hagree i hi j (hpre j hj) hja hjb
            · rw [List.mem_singleton] at hj; rw [hj]
          · rw [if_neg hjb]
            rcases List.mem_append.1 hj with hj | hj
            · have := hp j hj
              rw [← hja, hbuf] at this
              exact this
            · rw [List.mem_singleton] at hj; rw [hj] at hjb; exact absurd rfl hjb
        · rw [if_neg hja]
          rcases List.mem_append.1 hj with hj | hj
          · exact hp j hj
          · rw [List.mem_singleton] at hj; rw [hj] at hja; exact absurd rfl hja)
    ⟨rfl, fun _ => rfl, by simp⟩
  exact ⟨m', h1, h2, h3, h4⟩

/-! ## Messages -/

/-- The pointers lead to the packed particles. -/
theorem packedPointers_spec (e : Env) (aware : Bool) {W : Nat} {nparts : List Nat}
    {packs : List (List Int)} (hlen : packs.length = nparts.length)
    (hp : ∀ i n : Nat, nparts[i]? = some n → ∃ buf, packs[i]? = some buf ∧ buf.length = n * W) :
    ∃ msgs, packedPointers e aware W nparts packs = some msgs ∧ msgs.length = packs.length ∧
      ∀ (i n : Nat) (buf : List Int), nparts[i]? = some n → packs[i]? = some buf →
        ∃ msg, msgs[i]? = some msg ∧ slice msg 0 (n * W) = some buf := by
  have hslice : ∀ (buf : List Int) (k : Nat), buf.length = k → slice buf 0 k = some buf := by
    intro buf k hk
    rw [slice_eq_some (Nat.zero_le _) (by omega)]
    simp [← hk]
  unfold packedPointers
  cases aware with
  | true =>
    refine ⟨packs, by simp, rfl, ?_⟩
    intro i n buf hn hb
    obtain ⟨buf', hb', hl⟩ := hp i n hn
    rw [hb, Option.some.injEq] at hb'
    subst hb'
    exact ⟨buf, hb, hslice _ _ hl⟩
  | false =>
    rw [if_neg (by simp)]
    set total := (nparts.map (· * W)).sum with htot
    have hoff : ∀ i n : Nat, nparts[i]? = some n →
        ((nparts.map (· * W)).take (i + 1)).sum = ((nparts.map (· * W)).take i).sum + n * W := by
      intro i n hn
      have : (nparts.map (· * W))[i]? = some (n * W) := by rw [List.getElem?_map, hn]; rfl
      rw [List.take_add_one, this, Option.toList_some, List.sum_append]
      simp
    have hmono : ∀ i j : Nat, i ≤ j →
        ((nparts.map (· * W)).take i).sum ≤ ((nparts.map (· * W)).take j).sum := by
      intro i j hij
      have := List.take_append_drop i ((nparts.map (· * W)).take j)
      rw [List.take_take, Nat.min_eq_left hij] at this
      rw [← this, List.sum_append]
      exact Nat.le_add_right _ _
    obtain ⟨s, h1, h2, h3, h4, h5⟩ := runItems_invariant
      (step := fun (i : Nat) (s : List Int × Nat × List Nat) =>
        (rd nparts i).bind fun n => (rd packs i).bind fun buf =>
        (slice buf 0 (n * W)).bind fun data =>
        (if n * W > 0 then stRange s.1 s.2.1 data else some s.1).bind fun h =>
          some (h, s.2.1 + n * W, s.2.2 ++ [s.2.1]))
      (items := List.range packs.length) (s := ((e.freshI 36 total).1, 0, []))
      (P := fun pre s => s.1.length = total ∧
        s.2.1 = ((nparts.map (· * W)).take pre.length).sum ∧
        s.2.2 = (List.range pre.length).map (fun i => ((nparts.map (· * W)).take i).sum) ∧
        ∀ (i n : Nat) (buf : List Int), i < pre.length → nparts[i]? = some n →
          packs[i]? = some buf → ∀ t, t < n * W →
            s.1[((nparts.map (· * W)).take i).sum + t]? = buf[t]?)
      (by
        intro pre i post s he ⟨k1, k2, k3, k4⟩
        have hi : i = pre.length := by
          have := congrArg (fun l : List Nat => l[pre.length]?) he
          rw [List.getElem?_append_right (Nat.le_refl _), Nat.sub_self, List.getElem?_cons_zero] at this
          have hlt := (List.getElem?_eq_some_iff.1 this).1
          rw [List.length_range] at hlt
          rw [List.getElem?_range hlt, Option.some.injEq] at this
          exact this.symm
        have hip : i < packs.length := by
          have := congrArg List.length he
          simp at this; omega
        subst hi
        have hn : nparts[pre.length]? = some nparts[pre.length] :=
          List.getElem?_eq_getElem (by omega)
        generalize nparts[pre.length] = n at hn
        obtain ⟨buf, hb, hbl⟩ := hp _ n hn
        have hle : s.2.1 + n * W ≤ total := by
          rw [k2, ← hoff _ n hn, htot]
          have := hmono (pre.length + 1) (nparts.map (· * W)).length (by simp; omega)
          rwa [List.take_length] at this
        have hst : ∃ h : List Int, (if n * W > 0 then stRange s.1 s.2.1 buf else some s.1) = some h ∧
            h.length = total ∧ (∀ t, t < n * W → h[s.2.1 + t]? = buf[t]?) ∧
            (∀ t, t < s.2.1 → h[t]? = s.1[t]?) := by
          by_cases hpos : n * W > 0
          · rw [if_pos hpos]
            obtain ⟨h, hh⟩ : ∃ h, stRange s.1 s.2.1 buf = some h :=
              ⟨_, stRange_eq_some (by omega)⟩
            refine ⟨h, hh, by rw [(length_of_stRange hh).1, k1], ?_, ?_⟩
            · intro t ht
              rw [getElem?_of_stRange hh, if_pos (by omega)]
              congr 1; omega
            · intro t ht
              rw [getElem?_of_stRange hh, if_neg (by omega)]
          · rw [if_neg hpos]
            exact ⟨s.1, rfl, k1, fun t ht => by omega, fun _ _ => rfl⟩
        obtain ⟨h, hh1, hh2, hh3, hh4⟩ := hst
        refine ⟨(h, s.2.1 + n * W, s.2.2 ++ [s.2.1]), ?_, hh2, ?_, ?_, ?_⟩
        · simp only [rd, hn, hb, Option.bind_some, hslice buf _ hbl]
          rw [hh1, Option.bind_some]
        · rw [List.length_append, List.length_singleton, hoff _ n hn, k2]
        · rw [List.length_append, List.length_singleton, List.range_succ, List.map_append, k3, k2]
          rfl
        · intro i' n' buf' hi' hn' hb' t ht
          rw [List.length_append, List.length_singleton] at hi'
          by_cases hlt : i' < pre.length
          · have h6 := hmono (i' + 1) pre.length (by omega)
            rw [hoff i' n' hn', ← k2] at h6
            simp only
            rw [hh4 _ (by omega)]
            exact k4 i' n' buf' hlt hn' hb' t ht
          · have : i' = pre.length := by omega
            subst this
            rw [hn, Option.some.injEq] at hn'
            rw [hb, Option.some.injEq] at hb'
            subst hn'; subst hb'
            simp only
            rw [← k2]
            exact hh3 t ht)
      ⟨(e.freshI 36 total).2, by simp, by simp, by simp⟩
    simp only [List.length_range] at h3 h4 h5
    refine ⟨s.2.2.map fun o => s.1.drop o, ?_, by simp [h4], ?_⟩
    · dsimp only
      rw [h1, Option.bind_some]
    · intro i n buf hn hb
      have hi : i < packs.length := (List.getElem?_eq_some_iff.1 hb).1
      obtain ⟨buf', hb', hbl⟩ := hp i n hn
      rw [hb, Option.some.injEq] at hb'
      subst hb'
      refine ⟨s.1.drop ((nparts.map (· * W)).take i).sum, ?_, ?_⟩
      · rw [h4, List.getElem?_map, List.getElem?_map, List.getElem?_range hi]
        rfl
      · have hle : ((nparts.map (· * W)).take i).sum + n * W ≤ total := by
          rw [← hoff _ n hn, htot]
          have := hmono (i + 1) (nparts.map (· * W)).length (by simp; omega)
          rwa [List.take_length] at this
        rw [slice_eq_some (Nat.zero_le _) (by rw [List.length_drop, h2]; omega)]
        congr 1
        apply List.ext_getElem?
        intro t
        rw [List.drop_zero, Nat.sub_zero, List.getElem?_take, List.getElem?_drop]
        by_cases ht : t < n * W
        · rw [if_pos ht]
          exact h5 i n buf hi hn hb t ht
        · rw [if_neg ht, List.getElem?_eq_none (by omega)]

end NP
