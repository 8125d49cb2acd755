import Verif.Petsc.SpecHalo
import Verif.Containers.LemmasSerial
import Mathlib.Data.List.Basic

/-!
# Lemmas: maps and the bytes of a cell
-/

set_option autoImplicit false

namespace NP

open Spec

/-! ## Maps -/

theorem omGet_nil {α : Type} (k : Int) : omGet ([] : OMap α) k = none := rfl

theorem omGet_cons {α : Type} (e : Int × α) (m : OMap α) (k : Int) :
    omGet (e :: m) k = if e.1 = k then some e.2 else omGet m k := by
  unfold omGet
  rw [List.find?_cons]
  by_cases h : e.1 = k
  · have hb : (e.1 == k) = true := by simpa using h
    rw [if_pos h, hb]
    rfl
  · have hb : (e.1 == k) = false := by simpa using h
    rw [if_neg h, hb]

theorem omGet_some_mem {α : Type} {m : OMap α} {k : Int} {v : α} (h : omGet m k = some v) :
    (k, v) ∈ m := by
  induction m with
  | nil => cases h
  | cons e m ih =>
    rw [omGet_cons] at h
    by_cases he : e.1 = k
    · rw [if_pos he] at h
      cases h
      subst he
      exact List.mem_cons_self
    · rw [if_neg he] at h
      exact List.mem_cons_of_mem _ (ih h)

theorem omGet_of_mem {α : Type} {m : OMap α} (hm : OMapOk m) {k : Int} {v : α} (h : (k, v) ∈ m) :
    omGet m k = some v := by
  induction m with
  | nil => cases h
  | cons e m ih =>
    have hm' : OMapOk m := (List.pairwise_cons.1 hm).2
    rw [omGet_cons]
    rcases List.mem_cons.1 h with h | h
    · rw [← h, if_pos rfl]
    · have : e.1 < k := (List.pairwise_cons.1 hm).1 k (List.mem_map.2 ⟨_, h, rfl⟩)
      rw [if_neg (by omega)]
      exact ih hm' h

theorem omGet_put {α : Type} (m : OMap α) (k : Int) (v : α) (j : Int) :
    omGet (omPut m k v) j = if k = j then some v else omGet m j := by
  induction m with
  | nil => simp only [omPut, omGet_cons]
  | cons e m ih =>
    unfold omPut
    split
    · simp only [omGet_cons]
    · split
      · rename_i h1 h2
        rw [omGet_cons, omGet_cons]
        by_cases hk : k = j
        · simp [hk]
        · rw [if_neg hk, if_neg hk, if_neg (by omega)]
      · rename_i h1 h2
        rw [omGet_cons, ih, omGet_cons]
        by_cases hk : k = j
        · rw [if_pos hk, if_neg (by omega), if_pos hk]
        · rw [if_neg hk, if_neg hk]

theorem mem_keys_put {α : Type} (m : OMap α) (k : Int) (v : α) (j : Int) :
    j ∈ (omPut m k v).map (·.1) ↔ j = k ∨ j ∈ m.map (·.1) := by
  induction m with
  | nil => simp [omPut]
  | cons e m ih =>
    unfold omPut
    split
    · simp
    · split
      · rename_i h1 h2
        simp only [List.map_cons, List.mem_cons]
        constructor
        · rintro (h | h)
          · exact .inl h
          · exact .inr (.inr h)
        · rintro (h | h | h)
          · exact .inl h
          · exact .inl (by omega)
          · exact .inr h
      · simp only [List.map_cons, List.mem_cons, ih]
        constructor
        · rintro (h | h | h)
          · exact .inr (.inl h)
          · exact .inl h
          · exact .inr (.inr h)
        · rintro (h | h | h)
          · exact .inr (.inl h)
          · exact .inl h
          · exact .inr (.inr h)

theorem omPut_ok {α : Type} {m : OMap α} (hm : OMapOk m) (k : Int) (v : α) :
    OMapOk (omPut m k v) := by
  induction m with
  | nil => simp [omPut, OMapOk]
  | cons e m ih =>
    have h := List.pairwise_cons.1 hm
    unfold omPut
    split
    · rename_i hk
      refine List.pairwise_cons.2 ⟨?_, hm⟩
      intro j hj
      rcases List.mem_cons.1 hj with hj | hj
      · rw [hj]; exact hk
      · exact Int.lt_trans hk (h.1 j hj)
    · split
      · rename_i h1 h2
        refine List.pairwise_cons.2 ⟨?_, h.2⟩
        intro j hj
        have : e.1 < j := h.1 j hj
        show k < j
        omega
      · rename_i h1 h2
        refine List.pairwise_cons.2 ⟨?_, ih h.2⟩
        intro j hj
        rcases (mem_keys_put m k v j).1 hj with hj | hj
        · show e.1 < j
          omega
        · exact h.1 j hj

/-- A new key larger than the others goes to the end. -/
theorem omPut_last {α : Type} (m : OMap α) (k : Int) (v : α) (h : ∀ e ∈ m, e.1 < k) :
    omPut m k v = m ++ [(k, v)] := by
  induction m with
  | nil => rfl
  | cons e m ih =>
    have he := h e List.mem_cons_self
    unfold omPut
    rw [if_neg (by omega), if_neg (by omega), ih (fun e' h' => h e' (List.mem_cons_of_mem _ h'))]
    rfl

theorem omGet_append_none {α : Type} (m : OMap α) (k : Int) (h : ∀ e ∈ m, e.1 < k) :
    omGet m k = none := by
  cases hg : omGet m k with
  | none => rfl
  | some v => exact absurd (h _ (omGet_some_mem hg)) (by simp)

/-! ## Integers as bytes -/

theorem encS_length (k : Nat) (x : Int) : (encS k x).length = k := encNat_length _ _

theorem decS_encS (k : Nat) (x : Int) (h : FitsIn k x) : decS k (encS k x) = x := by
  obtain ⟨h1, h2⟩ := h
  have hp : (0 : Int) < (256 ^ k : Nat) := by
    have : 0 < 256 ^ k := Nat.pow_pos (by decide)
    omega
  have hm0 : 0 ≤ x % (256 ^ k : Nat) := Int.emod_nonneg _ (by omega)
  have hm1 : x % (256 ^ k : Nat) < (256 ^ k : Nat) := Int.emod_lt_of_pos _ hp
  have hdec : (decNat (encS k x) : Int) = x % (256 ^ k : Nat) := by
    unfold encS
    rw [decNat_encNat _ _ (by omega)]
    omega
  unfold decS
  by_cases hx : 0 ≤ x
  · have e : x % (256 ^ k : Nat) = x := Int.emod_eq_of_lt hx (by omega)
    rw [if_pos (by omega), hdec, e]
  · have e : x % (256 ^ k : Nat) = x + (256 ^ k : Nat) := by
      rw [← Int.add_emod_right, Int.emod_eq_of_lt (by omega) (by omega)]
    rw [if_neg (by omega), hdec, e]
    omega

theorem chunks_flatten (k : Nat) (ls : List (List Byte)) (h : ∀ l ∈ ls, l.length = k) :
    chunks k ls.length ls.flatten = ls := by
  induction ls with
  | nil => rfl
  | cons l ls ih =>
    have hl := h l List.mem_cons_self
    simp only [List.length_cons, chunks, List.flatten_cons]
    rw [List.take_left' hl, List.drop_left' hl, ih (fun l' h' => h l' (List.mem_cons_of_mem _ h'))]

theorem length_flatten_const {α : Type} (k : Nat) (ls : List (List α)) (h : ∀ l ∈ ls, l.length = k) :
    ls.flatten.length = ls.length * k := by
  induction ls with
  | nil => simp
  | cons l ls ih =>
    rw [List.flatten_cons, List.length_append, h l List.mem_cons_self,
      ih (fun l' h' => h l' (List.mem_cons_of_mem _ h')), List.length_cons, Nat.add_mul, Nat.one_mul,
      Nat.add_comm]

theorem chunks_ints (k : Nat) (xs : List Int) (h : ∀ x ∈ xs, FitsIn k x) :
    (chunks k xs.length (xs.flatMap (encS k))).map (decS k) = xs := by
  have h1 := chunks_flatten k (xs.map (encS k)) (by
    intro l hl
    obtain ⟨x, -, rfl⟩ := List.mem_map.1 hl
    exact encS_length k x)
  rw [List.length_map] at h1
  have h2 : xs.flatMap (encS k) = (xs.map (encS k)).flatten := by
    rw [List.flatMap_def]
  rw [h2, h1, List.map_map]
  conv_rhs => rw [← List.map_id xs]
  refine List.map_congr_left ?_
  intro x hx
  exact decS_encS k x (h x hx)

theorem readN_append {α : Type} (a b : List α) : readN (a.length : Int) (a ++ b) = some (a, b) := by
  unfold readN
  rw [if_pos ⟨by omega, by simp⟩]
  simp

/-! ## The round trip -/

theorem pointInts_spec (ornts cones : OMap (List Int))
    (h : ∀ e ∈ cones, ∃ o, omGet ornts e.1 = some o ∧ o.length = e.2.length) :
    ∃ pi, pointInts ornts cones = some pi := by
  induction cones with
  | nil => exact ⟨[], rfl⟩
  | cons e m ih =>
    obtain ⟨r, hr⟩ := ih (fun e' h' => h e' (List.mem_cons_of_mem _ h'))
    obtain ⟨o, ho, -⟩ := h e List.mem_cons_self
    obtain ⟨p, c⟩ := e
    refine ⟨p :: (c.length : Int) :: (c ++ o ++ r), ?_⟩
    unfold pointInts
    rw [ho, hr]
    rfl

/-- Reading the points back onto maps with smaller keys. -/
theorem readPoints_spec (ornts : OMap (List Int)) :
    ∀ (cones : OMap (List Int)) (pi rest : List Int) (c : StdCell) (pre : OMap (List Int)),
      pointInts ornts cones = some pi →
      (∀ e ∈ cones, ∃ o, omGet ornts e.1 = some o ∧ o.length = e.2.length) →
      OMapOk (pre ++ cones) → c.cones = pre →
      c.ornts = pre.map (fun e => (e.1, (omGet ornts e.1).getD [])) →
      readPoints cones.length (c, pi ++ rest) =
        some ({ c with
          cones := pre ++ cones
          ornts := (pre ++ cones).map (fun e => (e.1, (omGet ornts e.1).getD [])) }, rest)
  | [], pi, rest, c, pre, hpi, _, _, hc, ho => by
    cases hpi
    simp only [List.length_nil, readPoints, List.nil_append, List.append_nil]
    rw [← hc]
    obtain ⟨a, b, d, e⟩ := c
    simp only at ho hc
    subst hc
    rw [ho]
  | (p, cone) :: m, pi, rest, c, pre, hpi, hm, hok, hc, ho => by
    obtain ⟨o, hgo, hol⟩ := hm (p, cone) List.mem_cons_self
    simp only at hgo hol
    unfold pointInts at hpi
    rw [hgo, Option.bind_some] at hpi
    obtain ⟨r, hr, hpi⟩ := Option.bind_eq_some_iff.1 hpi
    cases hpi
    have hlt : ∀ e ∈ pre, e.1 < p := by
      intro e he
      have h := hok
      unfold OMapOk at h
      rw [List.map_append, List.pairwise_append] at h
      exact h.2.2 e.1 (List.mem_map.2 ⟨e, he, rfl⟩) p (by simp)
    simp only [List.length_cons, List.cons_append, readPoints]
    rw [List.append_assoc, List.append_assoc, readN_append]
    simp only [Option.bind_some]
    rw [← hol, readN_append]
    simp only [Option.bind_some]
    rw [hc, ho, omPut_last _ _ _ hlt, omPut_last _ _ _ (by
      intro e he
      obtain ⟨e', he', rfl⟩ := List.mem_map.1 he
      exact hlt e' he')]
    have := readPoints_spec ornts m r rest
      { c with cones := pre ++ [(p, cone)], ornts := (pre.map
          (fun e => (e.1, (omGet ornts e.1).getD []))) ++ [(p, o)] } (pre ++ [(p, cone)]) hr
      (fun e he => hm e (List.mem_cons_of_mem _ he)) (by simpa using hok) rfl (by simp [hgo])
    rw [this]
    simp

theorem readVertices_spec :
    ∀ (vs : OMap (List Scal)) (rest : List Int) (srest : List Scal) (c : StdCell)
      (pre : OMap (List Scal)),
      OMapOk (pre ++ vs) → c.vertices = pre →
      readVertices vs.length (c, vertexInts vs ++ rest, vertexScals vs ++ srest) =
        some ({ c with vertices := pre ++ vs }, rest, srest)
  | [], rest, srest, c, pre, _, hc => by
    simp only [List.length_nil, readVertices, vertexInts, vertexScals, List.flatMap_nil,
      List.nil_append, List.append_nil]
    rw [← hc]
  | (p, x) :: m, rest, srest, c, pre, hok, hc => by
    have hlt : ∀ e ∈ pre, e.1 < p := by
      intro e he
      have h := hok
      unfold OMapOk at h
      rw [List.map_append, List.pairwise_append] at h
      exact h.2.2 e.1 (List.mem_map.2 ⟨e, he, rfl⟩) p (by simp)
    simp only [List.length_cons, vertexInts, vertexScals, List.flatMap_cons, List.cons_append,
      List.nil_append, readVertices]
    rw [List.append_assoc, readN_append]
    simp only [Option.bind_some]
    unfold omPushAll
    rw [hc, omGet_append_none _ _ hlt, omPut_last _ _ _ hlt]
    have := readVertices_spec m rest srest
      { c with vertices := pre ++ [(p, (none : Option (List Scal)).getD [] ++ x)] }
      (pre ++ [(p, x)]) (by simpa using hok) (by simp)
    unfold vertexInts vertexScals at this
    rw [this]
    simp

theorem omap_ext {α : Type} {a b : OMap α} (ha : OMapOk a) (hb : OMapOk b)
    (h : ∀ k, omGet a k = omGet b k) : a = b := by
  induction a generalizing b with
  | nil =>
    cases b with
    | nil => rfl
    | cons e m =>
      have := h e.1
      rw [omGet_nil, omGet_cons, if_pos rfl] at this
      cases this
  | cons e m ih =>
    cases b with
    | nil =>
      have := h e.1
      rw [omGet_nil, omGet_cons, if_pos rfl] at this
      cases this
    | cons f n =>
      have hae := List.pairwise_cons.1 ha
      have hbf := List.pairwise_cons.1 hb
      have hef : e.1 = f.1 := by
        by_contra hne
        have h1 := h e.1
        have h2 := h f.1
        rw [omGet_cons, omGet_cons, if_pos rfl, if_neg (fun hh => hne hh.symm)] at h1
        rw [omGet_cons, omGet_cons, if_neg hne, if_pos rfl] at h2
        have m1 : f.1 < e.1 := hbf.1 e.1 (List.mem_map.2 ⟨_, omGet_some_mem h1.symm, rfl⟩)
        have m2 : e.1 < f.1 := hae.1 f.1 (List.mem_map.2 ⟨_, omGet_some_mem h2, rfl⟩)
        omega
      have hv : e.2 = f.2 := by
        have h1 := h e.1
        rw [omGet_cons, omGet_cons, if_pos rfl, if_pos hef.symm] at h1
        exact Option.some.inj h1
      have hE : e = f := Prod.ext hef hv
      rw [hE, ih hae.2 hbf.2]
      intro k
      have hk := h k
      rw [omGet_cons, omGet_cons, ← hef] at hk
      by_cases he : e.1 = k
      · rw [omGet_append_none' hae.1 he, omGet_append_none' hbf.1 (hef.symm.trans he)]
      · rw [if_neg he, if_neg he] at hk
        exact hk
where
  omGet_append_none' {α : Type} {m : OMap α} {j k : Int} (h : ∀ x ∈ m.map (·.1), j < x)
      (e : j = k) : omGet m k = none := by
    cases hg : omGet m k with
    | none => rfl
    | some v =>
      have := h k (List.mem_map.2 ⟨_, omGet_some_mem hg, rfl⟩)
      omega

theorem stored_matching {c : StdCell} {ki ks : Nat} (h : CellStored c ki ks) :
    ∀ e ∈ c.cones, ∃ o, omGet c.ornts e.1 = some o ∧ o.length = e.2.length := by
  intro e he
  have hm := h.matching e.1
  rw [omGet_of_mem h.cones (k := e.1) (v := e.2) he] at hm
  cases ho : omGet c.ornts e.1 with
  | none => rw [ho] at hm; cases hm
  | some o =>
    rw [ho] at hm
    exact ⟨o, rfl, Option.some.inj hm⟩

theorem stored_ornts {c : StdCell} {ki ks : Nat} (h : CellStored c ki ks) :
    c.cones.map (fun e => (e.1, (omGet c.ornts e.1).getD [])) = c.ornts := by
  have hkeys : (c.cones.map (fun e => (e.1, (omGet c.ornts e.1).getD []))).map (·.1) =
      c.cones.map (·.1) := by simp
  refine omap_ext (by unfold OMapOk; rw [hkeys]; exact h.cones) h.ornts ?_
  intro k
  have hm := h.matching k
  cases hc : omGet c.cones k with
  | none =>
    rw [hc] at hm
    have ho : omGet c.ornts k = none := by
      cases ho : omGet c.ornts k with
      | none => rfl
      | some v => rw [ho] at hm; cases hm
    rw [ho]
    cases hg : omGet (c.cones.map (fun e => (e.1, (omGet c.ornts e.1).getD []))) k with
    | none => rfl
    | some v =>
      obtain ⟨e, he, hee⟩ := List.mem_map.1 (omGet_some_mem hg)
      cases hee
      rw [omGet_of_mem h.cones (k := e.1) (v := e.2) he] at hc
      cases hc
  | some v =>
    have hmem := omGet_some_mem hc
    obtain ⟨o, ho, -⟩ := stored_matching h _ hmem
    simp only at ho
    rw [ho]
    refine omGet_of_mem (by unfold OMapOk; rw [hkeys]; exact h.cones) ?_
    exact List.mem_map.2 ⟨_, hmem, by simp [ho]⟩

theorem pointInts_fits {ki : Nat} (ornts : OMap (List Int))
    (ho : ∀ e ∈ ornts, ∀ q ∈ e.2, FitsIn ki q) :
    ∀ (cones : OMap (List Int)) (pi : List Int), pointInts ornts cones = some pi →
      (∀ e ∈ cones, FitsIn ki e.1 ∧ FitsIn ki e.2.length ∧ ∀ q ∈ e.2, FitsIn ki q) →
      ∀ x ∈ pi, FitsIn ki x
  | [], pi, hpi, _ => by cases hpi; intro x hx; cases hx
  | (p, cone) :: m, pi, hpi, h => by
    unfold pointInts at hpi
    obtain ⟨o, hgo, hpi⟩ := Option.bind_eq_some_iff.1 hpi
    obtain ⟨r, hr, hpi⟩ := Option.bind_eq_some_iff.1 hpi
    cases hpi
    obtain ⟨h1, h2, h3⟩ := h _ List.mem_cons_self
    intro x hx
    simp only [List.mem_cons, List.mem_append] at hx
    rcases hx with rfl | rfl | (hx | hx) | hx
    · exact h1
    · exact h2
    · exact h3 x hx
    · exact ho _ (omGet_some_mem hgo) x hx
    · exact pointInts_fits ornts ho m r hr (fun e he => h e (List.mem_cons_of_mem _ he)) x hx

theorem readBytes_at (pre mid post : List Byte) (p n : Nat) (hp : p = pre.length)
    (hn : n = mid.length) : readBytes (pre ++ (mid ++ post)) p n = some mid := by
  subst hp hn
  exact readBytes_mid pre mid post

/-- A stored cell is read back as it was. -/
theorem rep_round_trip {ki ks : Nat} (hki : 0 < ki) (hks : 0 < ks) {c : StdCell}
    (h : CellStored c ki ks)
    (hsize : ∀ b, repSerialise ki ks c = some b → b.length < sizeTMax) :
    ∃ b, repSerialise ki ks c = some b ∧
      ∀ (o : StdCell), o.cones = [] → o.ornts = [] → o.vertices = [] →
        repDeserialise ki ks o b = some { c with depthOf := o.depthOf } := by
  obtain ⟨pi, hpi⟩ := pointInts_spec c.ornts c.cones (stored_matching h)
  have hfit : ∀ x ∈ ((c.cones.length : Int) :: pi ++ ((c.vertices.length : Int) ::
      vertexInts c.vertices)), FitsIn ki x := by
    intro x hx
    simp only [List.cons_append, List.mem_cons, List.mem_append, vertexInts, List.mem_flatMap,
      List.not_mem_nil, or_false] at hx
    rcases hx with rfl | hx | rfl | ⟨e, he, rfl | rfl⟩
    · exact h.counts.1
    · exact pointInts_fits c.ornts h.orntValues c.cones pi hpi h.points x hx
    · exact h.counts.2
    · exact (h.coords e he).1
    · exact (h.coords e he).2.1
  have hsc : ∀ x ∈ vertexScals c.vertices, x.length = ks := by
    intro x hx
    obtain ⟨e, he, hx⟩ := List.mem_flatMap.1 hx
    exact (h.coords e he).2.2 x hx
  generalize hints : ((c.cones.length : Int) :: pi ++ ((c.vertices.length : Int) ::
      vertexInts c.vertices)) = ints at hfit
  have hser : repSerialise ki ks c = some (encNat sizeofSize (ints.length * ki) ++
      encNat sizeofSize ((vertexScals c.vertices).length * ks) ++ ints.flatMap (encS ki) ++
      (vertexScals c.vertices).flatten) := by
    unfold repSerialise
    rw [hpi]
    simp only [Option.bind_some]
    rw [hints]
  have hlen := hsize _ hser
  have hli : (ints.flatMap (encS ki)).length = ints.length * ki := by
    rw [List.flatMap_def, length_flatten_const ki, List.length_map]
    intro l hl
    obtain ⟨x, -, rfl⟩ := List.mem_map.1 hl
    exact encS_length ki x
  have hls := length_flatten_const ks (vertexScals c.vertices) hsc
  simp only [List.length_append, hli, hls, encNat_length] at hlen
  refine ⟨_, hser, ?_⟩
  intro o o1 o2 o3
  generalize hA : encNat sizeofSize (ints.length * ki) = A
  generalize hB : encNat sizeofSize ((vertexScals c.vertices).length * ks) = B
  generalize hI : ints.flatMap (encS ki) = I at hli
  generalize hS : (vertexScals c.vertices).flatten = S at hls
  have hAl : A.length = sizeofSize := by rw [← hA]; exact encNat_length _ _
  have hBl : B.length = sizeofSize := by rw [← hB]; exact encNat_length _ _
  have dA : decNat A = ints.length * ki := by rw [← hA]; exact decSize _ (by omega)
  have dB : decNat B = (vertexScals c.vertices).length * ks := by
    rw [← hB]; exact decSize _ (by omega)
  have r1 : readBytes (A ++ B ++ I ++ S) 0 sizeofSize = some A := by
    rw [List.append_assoc, List.append_assoc]
    exact readBytes_at [] A _ _ _ rfl hAl.symm
  have r2 : readBytes (A ++ B ++ I ++ S) sizeofSize sizeofSize = some B := by
    rw [List.append_assoc, List.append_assoc]
    exact readBytes_at A B _ _ _ hAl.symm hBl.symm
  have r3 : readBytes (A ++ B ++ I ++ S) (2 * sizeofSize) (ints.length * ki) = some I := by
    rw [List.append_assoc]
    exact readBytes_at (A ++ B) I S _ _ (by rw [List.length_append]; omega) hli.symm
  have r4 : readBytes (A ++ B ++ I ++ S) (2 * sizeofSize + ints.length * ki)
      ((vertexScals c.vertices).length * ks) = some S := by
    have := readBytes_at (A ++ B ++ I) S [] (2 * sizeofSize + ints.length * ki)
      ((vertexScals c.vertices).length * ks)
      (by rw [List.length_append, List.length_append]; omega) hls.symm
    rw [List.append_nil] at this
    exact this
  unfold repDeserialise
  rw [r1, r2]
  simp only [Option.bind_some]
  rw [dA, dB, Nat.mul_div_cancel _ hki, Nat.mul_div_cancel _ hks,
    if_pos ⟨Nat.le_refl _, Nat.le_refl _⟩, r3, r4]
  simp only [Option.bind_some]
  rw [← hI, chunks_ints ki ints hfit, ← hS, chunks_flatten ks _ hsc, ← hints]
  simp only [List.cons_append, Int.toNat_natCast]
  rw [readPoints_spec c.ornts c.cones pi _ o [] hpi (stored_matching h) (by simpa using h.cones) o1
    (by simpa using o2)]
  simp only [Option.bind_some, List.nil_append, Int.toNat_natCast]
  have hv := readVertices_spec c.vertices [] [] { o with
      cones := c.cones
      ornts := c.cones.map (fun e => (e.1, (omGet c.ornts e.1).getD [])) } []
    (by simpa using h.vertices) o3
  simp only [List.append_nil, List.nil_append] at hv
  rw [hv]
  simp only [Option.bind_some, and_self, if_true]
  rw [stored_ornts h]

/-- A packed cell is a correctly implemented serialisable type. -/
theorem packed_good {ki : Nat} (c : PackedCell) (h1 : FitsIn ki c.localId) (h2 : FitsIn ki c.globalId)
    (h3 : FitsIn 4 c.rank) (h4 : FitsIn 4 c.type) (hs : 2 * ki + 8 + c.rep.length < sizeTMax) :
    Serial.Good (packedCellSerial ki) c := by
  have hl : (encS ki c.localId ++ encS ki c.globalId ++ encS 4 c.rank ++ encS 4 c.type ++
      c.rep).length = 2 * ki + 8 + c.rep.length := by
    simp only [List.length_append, encS_length]
    omega
  have hser : (packedCellSerial ki).serialise c (2 * ki + 8 + c.rep.length) =
      some (encS ki c.localId ++ encS ki c.globalId ++ encS 4 c.rank ++ encS 4 c.type ++ c.rep) := by
    show PackedCell.serialise ki c _ = _
    unfold PackedCell.serialise
    rw [if_pos hl]
  refine ⟨hs, _, hser, hl, ?_⟩
  show PackedCell.deserialise ki _ _ = _
  rw [hl]
  generalize hA : encS ki c.localId = A
  generalize hB : encS ki c.globalId = B
  generalize hC : encS 4 c.rank = C
  generalize hD : encS 4 c.type = D
  have lA : A.length = ki := by rw [← hA]; exact encS_length _ _
  have lB : B.length = ki := by rw [← hB]; exact encS_length _ _
  have lC : C.length = 4 := by rw [← hC]; exact encS_length _ _
  have lD : D.length = 4 := by rw [← hD]; exact encS_length _ _
  have r1 : readBytes (A ++ B ++ C ++ D ++ c.rep) 0 ki = some A := by
    simp only [List.append_assoc]
    exact readBytes_at [] A _ _ _ rfl lA.symm
  have r2 : readBytes (A ++ B ++ C ++ D ++ c.rep) ki ki = some B := by
    simp only [List.append_assoc]
    exact readBytes_at A B _ _ _ lA.symm lB.symm
  have r3 : readBytes (A ++ B ++ C ++ D ++ c.rep) (2 * ki) 4 = some C := by
    rw [List.append_assoc, List.append_assoc]
    exact readBytes_at (A ++ B) C _ _ _ (by rw [List.length_append]; omega) lC.symm
  have r4 : readBytes (A ++ B ++ C ++ D ++ c.rep) (2 * ki + 4) 4 = some D := by
    rw [List.append_assoc]
    exact readBytes_at (A ++ B ++ C) D _ _ _ (by simp only [List.length_append]; omega) lD.symm
  have r5 : readBytes (A ++ B ++ C ++ D ++ c.rep) (2 * ki + 8) c.rep.length = some c.rep := by
    have := readBytes_at (A ++ B ++ C ++ D) c.rep [] (2 * ki + 8) c.rep.length
      (by simp only [List.length_append]; omega) rfl
    rw [List.append_nil] at this
    exact this
  unfold PackedCell.deserialise
  rw [r1, r2, r3, r4]
  simp only [Option.bind_some]
  rw [if_pos (by omega), show 2 * ki + 8 + c.rep.length - (2 * ki + 8) = c.rep.length by omega, r5]
  simp only [Option.bind_some]
  rw [← hA, ← hB, ← hC, ← hD, decS_encS _ _ h1, decS_encS _ _ h2, decS_encS _ _ h3, decS_encS _ _ h4]

end NP
