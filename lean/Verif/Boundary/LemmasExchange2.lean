import Verif.Boundary.LemmasExchange
import Mathlib.Data.List.Sort

/-!
# Lemmas for the exchange of face data: the pattern on one rank
-/

set_option autoImplicit false

namespace NP

/-- What a rank that holds the faces `H` knows: `faces` are the faces it owns and `R q` the
faces of rank `q` that it holds. -/
structure SurfCore (n : Nat) (Own : Nat → Int → Prop) (H : Int → Prop) (faces : List Int)
    (R : Nat → List Int) (a : SurfRank) : Prop where
  owned : a.owned = faces
  index : ∀ g i, surfFind a.ownedIndex g = some i ↔ faces[i]? = some g
  recv : a.recvIds = (List.range n).map R
  sorted : ∀ q < n, (R q).Pairwise (· < ·)
  mem : ∀ q < n, ∀ g, g ∈ R q ↔ H g ∧ Own q g
  nodup : a.seqGeom.Nodup
  seq : ∀ g, g ∈ a.seqGeom ↔ H g
  find : ∀ g i, surfFind a.geomSeq g = some i ↔ a.seqGeom[i]? = some g

theorem set_table {A : Type} {n i : Nat} (W : Nat → A) (x : A) (_h : i < n) :
    ((List.range n).map W).set i x = (List.range n).map fun j => if j = i then x else W j := by
  apply List.ext_getElem? fun k => ?_
  rw [List.getElem?_set, List.getElem?_map, List.getElem?_map, List.length_map, List.length_range]
  by_cases hk : i = k
  · subst hk
    simp [_h]
  · rw [if_neg hk]
    by_cases hkn : k < n
    · have hk' : k ≠ i := fun h => hk h.symm
      simp [hkn, hk']
    · simp [hkn]

/-- One pair. -/
theorem surfRegister_core {n : Nat} {Own : Nat → Int → Prop} {H : Int → Prop} {faces : List Int}
    {R : Nat → List Int} {a : SurfRank} {b : Bool} (hc : SurfCore n Own H faces R a)
    (huniq : ∀ q q' g, Own q g → Own q' g → q = q') {p : Nat × Int} (hp : p.1 < n ∧ Own p.1 p.2) :
    ∃ a' b' R', surfRegister p (a, b) = some (a', b') ∧
      SurfCore n Own (fun g => H g ∨ g = p.2) faces R' a' ∧
      (∀ q g, g ∈ R q → g ∈ R' q) ∧
      a' = { a with recvIds := a'.recvIds, seqGeom := a'.seqGeom, geomSeq := a'.geomSeq } ∧
      (b' = false → b = false ∧ a' = a ∧ R' = R ∧ H p.2) ∧ (H p.2 → a' = a ∧ b' = b) ∧
      (b = true → b' = true) ∧ a.seqGeom <+: a'.seqGeom := by
  obtain ⟨hn, hown⟩ := hp
  unfold surfRegister
  dsimp only
  rw [hc.recv, rd_table R hn, Option.bind_some]
  have hiff : p.2 ∈ R p.1 ↔ H p.2 := by
    rw [hc.mem p.1 hn]; exact ⟨fun h => h.1, fun h => ⟨h, hown⟩⟩
  by_cases hm : p.2 ∈ R p.1
  · rw [if_pos (by simpa using hm)]
    have hH := hiff.1 hm
    refine ⟨a, b, R, rfl, ?_, fun _ _ h => h, rfl, fun h => ⟨h, rfl, rfl, hH⟩, fun _ => ⟨rfl, rfl⟩,
      fun h => h, List.prefix_rfl⟩
    have he : (fun g => H g ∨ g = p.2) = H := by
      funext g; apply propext
      exact ⟨fun h => h.elim id (fun h => h ▸ hH), Or.inl⟩
    rw [he]; exact hc
  · rw [if_neg (by simpa using hm)]
    have hH : ¬ H p.2 := fun h => hm (hiff.2 h)
    have hnm : p.2 ∉ a.seqGeom := fun h => hH ((hc.seq _).1 h)
    refine ⟨_, _, fun j => if j = p.1 then intSetInsert p.2 (R p.1) else R j, rfl, ?_, ?_, rfl,
      fun h => by simp at h, fun h => absurd h hH, fun _ => rfl, List.prefix_append _ _⟩
    · refine ⟨hc.owned, hc.index, set_table R _ hn, ?_, ?_, ?_, ?_, ?_⟩
      · intro q hq
        by_cases hqp : q = p.1
        · rw [if_pos hqp]; exact intSetInsert_sorted (hc.sorted _ hn)
        · rw [if_neg hqp]; exact hc.sorted q hq
      · intro q hq g
        by_cases hqp : q = p.1
        · subst hqp
          rw [if_pos rfl, mem_intSetInsert, hc.mem _ hn]
          constructor
          · rintro (rfl | ⟨h1, h2⟩)
            · exact ⟨Or.inr rfl, hown⟩
            · exact ⟨Or.inl h1, h2⟩
          · rintro ⟨h1 | h1, h2⟩
            · exact Or.inr ⟨h1, h2⟩
            · exact Or.inl h1
        · rw [if_neg hqp, hc.mem q hq]
          constructor
          · rintro ⟨h1, h2⟩
            exact ⟨Or.inl h1, h2⟩
          · rintro ⟨h1 | h1, h2⟩
            · exact ⟨h1, h2⟩
            · subst h1; exact absurd (huniq _ _ _ h2 hown) hqp
      · dsimp only
        rw [List.nodup_append]
        refine ⟨hc.nodup, by simp, ?_⟩
        intro x hx y hy
        simp only [List.mem_singleton] at hy
        rintro rfl
        exact hnm (hy ▸ hx)
      · intro g
        dsimp only
        rw [List.mem_append, List.mem_singleton, hc.seq]
      · intro g i
        dsimp only
        unfold surfFind
        rw [List.lookup_cons]
        by_cases hg : g = p.2
        · subst hg
          simp only [BEq.rfl]
          constructor
          · intro h
            cases h
            simp
          · intro h
            obtain ⟨hlt, hget⟩ := List.getElem?_eq_some_iff.1 h
            simp only [List.length_append, List.length_singleton] at hlt
            by_cases hi : i < a.seqGeom.length
            · rw [List.getElem?_append_left hi] at h
              exact absurd (List.mem_of_getElem? h) hnm
            · congr 1; omega
        · rw [show (g == p.2) = false by simpa using hg]
          simp only
          rw [show List.lookup g a.geomSeq = surfFind a.geomSeq g from rfl, hc.find]
          by_cases hi : i < a.seqGeom.length
          · rw [List.getElem?_append_left hi]
          · rw [List.getElem?_append_right (by omega), List.getElem?_eq_none (by omega)]
            constructor
            · intro h; cases h
            · intro h
              have := List.mem_of_getElem? h
              simp only [List.mem_singleton] at this
              exact absurd this hg
    · intro q g hg
      dsimp only
      by_cases hqp : q = p.1
      · rw [if_pos hqp, mem_intSetInsert]; exact Or.inr (hqp ▸ hg)
      · rw [if_neg hqp]; exact hg

/-- The pairs of one call. -/
theorem surfRegisters_core {n : Nat} {Own : Nat → Int → Prop} {H : Int → Prop} {faces : List Int}
    {R : Nat → List Int} {a : SurfRank} {b : Bool} (hc : SurfCore n Own H faces R a)
    (huniq : ∀ q q' g, Own q g → Own q' g → q = q') {ps : List (Nat × Int)}
    (hps : ∀ p ∈ ps, p.1 < n ∧ Own p.1 p.2) :
    ∃ a' b' R', runItems surfRegister ps (a, b) = some (a', b') ∧
      SurfCore n Own (fun g => H g ∨ ∃ q, (q, g) ∈ ps) faces R' a' ∧
      (∀ q g, g ∈ R q → g ∈ R' q) ∧
      a' = { a with recvIds := a'.recvIds, seqGeom := a'.seqGeom, geomSeq := a'.geomSeq } ∧
      (b' = false → b = false ∧ a' = a ∧ R' = R ∧ ∀ p ∈ ps, H p.2) ∧
      ((∀ p ∈ ps, H p.2) → a' = a ∧ b' = b) ∧ (b = true → b' = true) ∧
      a.seqGeom <+: a'.seqGeom := by
  induction ps generalizing a b R H with
  | nil =>
    refine ⟨a, b, R, rfl, ?_, fun _ _ h => h, rfl, fun h => ⟨h, rfl, rfl, by simp⟩,
      fun _ => ⟨rfl, rfl⟩, fun h => h, List.prefix_rfl⟩
    have he : (fun g => H g ∨ ∃ q : Nat, (q, g) ∈ ([] : List (Nat × Int))) = H := by
      funext g; simp
    rw [he]; exact hc
  | cons p ps ih =>
    obtain ⟨a1, b1, R1, e1, c1, m1, s1, f1, t1, u1, x1⟩ :=
      surfRegister_core (b := b) hc huniq (hps p (by simp))
    obtain ⟨a2, b2, R2, e2, c2, m2, s2, f2, t2, u2, x2⟩ :=
      ih (b := b1) c1 fun p hp => hps p (by simp [hp])
    refine ⟨a2, b2, R2, ?_, ?_, fun q g h => m2 q g (m1 q g h), ?_, ?_, ?_, fun h => u2 (u1 h), x1.trans x2⟩
    · rw [runItems_cons, e1, Option.bind_some, e2]
    · have he : (fun g => (H g ∨ g = p.2) ∨ ∃ q, (q, g) ∈ ps) =
          fun g => H g ∨ ∃ q, (q, g) ∈ p :: ps := by
        funext g; apply propext
        constructor
        · rintro ((h | h) | ⟨q, h⟩)
          · exact Or.inl h
          · exact Or.inr ⟨p.1, by rw [h]; simp⟩
          · exact Or.inr ⟨q, by simp [h]⟩
        · rintro (h | ⟨q, h⟩)
          · exact Or.inl (Or.inl h)
          · rcases List.mem_cons.1 h with h | h
            · exact Or.inl (Or.inr (by rw [← h]))
            · exact Or.inr ⟨q, h⟩
      rw [← he]; exact c2
    · rw [s2]
      conv_lhs => rw [s1]
    · intro h
      obtain ⟨h1, h2, h3, h4⟩ := f2 h
      obtain ⟨g1, g2, g3, g4⟩ := f1 h1
      refine ⟨g1, h2.trans g2, h3.trans g3, fun p' hp' => ?_⟩
      rcases List.mem_cons.1 hp' with rfl | hp'
      · exact g4
      · rcases h4 p' hp' with h | h
        · exact h
        · rw [h]; exact g4
    · intro h
      obtain ⟨g1, g2⟩ := t1 (h p (by simp))
      obtain ⟨h1, h2⟩ := t2 fun p' hp' => Or.inl (h p' (by simp [hp']))
      exact ⟨h1.trans g1, h2.trans g2⟩

end NP
