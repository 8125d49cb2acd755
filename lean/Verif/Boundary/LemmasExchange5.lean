import Verif.Boundary.LemmasExchange4
import Mathlib.Data.List.Induction

/-!
# Lemmas for the exchange of face data: histories of extensions
-/

set_option autoImplicit false

namespace NP

/-- Rank `q` owns the face. -/
def surfOwn (owned : List (List Int)) (q : Nat) (g : Int) : Prop :=
  ∃ faces, owned[q]? = some faces ∧ g ∈ faces

/-- The invariant of the interface: `R s q` are the faces of rank `q` held by rank `s`. -/
structure SurfInv (owned : List (List Int)) (H : Nat → Int → Prop) (R : Nat → Nat → List Int)
    (W : Nat → SurfRank) : Prop where
  holds : ∀ s < owned.length, ∀ g, H s g → ∃ q < owned.length, surfOwn owned q g
  core : ∀ r < owned.length,
    SurfCore owned.length (surfOwn owned) (H r) (owned.getD r []) (R r) (W r)
  sync : ∀ r < owned.length, SurfSync owned.length R (owned.getD r []) r (W r)

theorem surfOwn_iff {owned : List (List Int)} {q : Nat} (hq : q < owned.length) (g : Int) :
    surfOwn owned q g ↔ g ∈ owned.getD q [] := by
  unfold surfOwn
  simp [List.getD_eq_getElem?_getD, List.getElem?_eq_getElem hq]

theorem surfOwn_unique {owned : List (List Int)} (h : Spec.FacesOwned owned) (q q' : Nat) (g : Int)
    (h1 : surfOwn owned q g) (h2 : surfOwn owned q' g) : q = q' := by
  obtain ⟨f1, e1, m1⟩ := h1
  obtain ⟨f2, e2, m2⟩ := h2
  obtain ⟨l1, e1⟩ := List.getElem?_eq_some_iff.1 e1
  obtain ⟨l2, e2⟩ := List.getElem?_eq_some_iff.1 e2
  unfold Spec.FacesOwned at h
  rw [List.nodup_flatten] at h
  by_contra hne
  rcases Nat.lt_or_gt_of_ne hne with hlt | hlt
  · exact (List.pairwise_iff_getElem.1 h.2) q q' l1 l2 hlt (e1 ▸ m1) (e2 ▸ m2)
  · exact (List.pairwise_iff_getElem.1 h.2) q' q l2 l1 hlt (e2 ▸ m2) (e1 ▸ m1)

theorem surfOwn_nodup {owned : List (List Int)} (h : Spec.FacesOwned owned) {q : Nat}
    (hq : q < owned.length) : (owned.getD q []).Nodup := by
  unfold Spec.FacesOwned at h
  rw [List.nodup_flatten] at h
  rw [List.getD_eq_getElem?_getD, List.getElem?_eq_getElem hq]
  exact h.1 _ (List.getElem_mem hq)

/-- The map from owned faces to their index built by the constructor. -/
theorem surfNew_index {faces : List Int} (h : faces.Nodup) (size : Nat) (g : Int) (i : Nat) :
    surfFind (surfNew size faces).ownedIndex g = some i ↔ faces[i]? = some g := by
  show surfFind (faces.zipIdx.foldl (fun m p => (p.1, p.2) :: m) []) g = some i ↔ _
  induction faces using List.reverseRecOn generalizing i with
  | nil => simp [surfFind]
  | append_singleton l x ih =>
    obtain ⟨h1, -, h3⟩ := List.nodup_append.1 h
    have hx : x ∉ l := fun hx => h3 x hx x (by simp) rfl
    rw [List.zipIdx_append, List.foldl_append]
    simp only [List.zipIdx_cons, List.zipIdx_nil, List.foldl_cons, List.foldl_nil, Nat.zero_add]
    unfold surfFind
    rw [List.lookup_cons]
    by_cases hg : g = x
    · subst hg
      simp only [BEq.rfl]
      constructor
      · intro h; cases h; simp
      · intro h
        obtain ⟨hlt, -⟩ := List.getElem?_eq_some_iff.1 h
        simp only [List.length_append, List.length_singleton] at hlt
        by_cases hi : i < l.length
        · rw [List.getElem?_append_left hi] at h
          exact absurd (List.mem_of_getElem? h) hx
        · congr 1; omega
    · rw [show (g == x) = false by simpa using hg]
      simp only
      rw [show List.lookup g _ = surfFind _ g from rfl, ih h1]
      by_cases hi : i < l.length
      · rw [List.getElem?_append_left hi]
      · rw [List.getElem?_append_right (by omega), List.getElem?_eq_none (by omega)]
        constructor
        · intro h; cases h
        · intro h
          have := List.mem_of_getElem? h
          simp only [List.mem_singleton] at this
          exact absurd this hg

theorem surfNew_inv {owned : List (List Int)} (h : Spec.FacesOwned owned) :
    SurfInv owned (fun _ _ => False) (fun _ _ => [])
      (fun r => surfNew owned.length (owned.getD r [])) := by
  have hrep : List.replicate owned.length ([] : List Int) =
      (List.range owned.length).map fun _ => [] := by
    rw [List.map_const', List.length_range]
  refine ⟨fun _ _ _ h => h.elim, fun r hr => ?_, fun r hr => ?_⟩
  · exact {
      owned := rfl
      index := surfNew_index (surfOwn_nodup h hr) _
      recv := hrep
      sorted := fun _ _ => List.Pairwise.nil
      mem := by simp
      nodup := List.nodup_nil
      seq := fun g => by simp [surfNew]
      find := fun g i => by simp [surfNew, surfFind] }
  · exact {
      dests := by simp [surfNew]
      destsNodup := List.nodup_nil
      sources := by simp [surfNew]
      sourcesNodup := List.nodup_nil
      revDests := List.Perm.refl _
      revSources := List.Perm.refl _
      outCounts := rfl
      inCounts := rfl
      outIds := rfl
      inIds := rfl
      sendIds := hrep
      packIndex := rfl
      revPack := rfl
      revPackSome := fun _ => rfl
      revUnpack := rfl
      revUnpackSome := fun _ => rfl
      revOutCounts := rfl
      revInCounts := rfl }

/-- The pair was passed by rank `s` in this call. -/
def surfPassed (pairs : List (List (Nat × Int))) (s : Nat) (g : Int) : Prop :=
  ∃ ps, pairs[s]? = some ps ∧ ∃ q, (q, g) ∈ ps

/-- One call of `extend_exchange_pattern`. -/
theorem surfExtend_inv {owned : List (List Int)} (ho : Spec.FacesOwned owned)
    {H : Nat → Int → Prop} {R : Nat → Nat → List Int} {W : Nat → SurfRank} (hI : SurfInv owned H R W)
    (mpi : SurfOrders) (mem : Nat → Fresh Int) {pairs : List (List (Nat × Int))}
    (hp : Spec.PairsOk owned pairs) :
    ∃ W' R', surfExtend mpi mem pairs ((List.range owned.length).map W) =
        some ((List.range owned.length).map W') ∧
      SurfInv owned (fun s g => H s g ∨ surfPassed pairs s g) R' W' ∧
      (∀ r < owned.length, (W r).seqGeom <+: (W' r).seqGeom) ∧
      ((∀ r < owned.length, ∀ g, surfPassed pairs r g → H r g) →
        ∀ r < owned.length, W' r = W r) ∧
      (∀ r < owned.length, (∃ s < owned.length, ∃ g, surfPassed pairs s g ∧ ¬ H s g) →
        (W' r).version = (W r).version + 1) := by
  set n := owned.length with hn
  have hps : ∀ r < n, ∃ ps, pairs[r]? = some ps ∧ ∀ p ∈ ps, p.1 < n ∧ surfOwn owned p.1 p.2 := by
    intro r hr
    have hlt : r < pairs.length := by rw [hp.1]; exact hr
    refine ⟨pairs[r], List.getElem?_eq_getElem hlt, fun p hpm => ?_⟩
    obtain ⟨f, h1, h2⟩ := hp.2 _ (List.getElem_mem hlt) p hpm
    exact ⟨(List.getElem?_eq_some_iff.1 h1).1, f, h1, h2⟩
  obtain ⟨g, hg1, hg2⟩ := mapRanks_exists (n := n) (W := W)
    (f := fun r a => (rd pairs r).bind fun ps => runItems surfRegister ps (a, false))
    (P := fun r b => ∃ R' ps, pairs[r]? = some ps ∧
      SurfCore n (surfOwn owned) (fun g => H r g ∨ ∃ q, (q, g) ∈ ps) (owned.getD r []) R' b.1 ∧
      (∀ q g, g ∈ R r q → g ∈ R' q) ∧
      b.1 = { W r with recvIds := b.1.recvIds, seqGeom := b.1.seqGeom, geomSeq := b.1.geomSeq } ∧
      (b.2 = false → b.1 = W r ∧ R' = R r ∧ ∀ p ∈ ps, H r p.2) ∧
      ((∀ p ∈ ps, H r p.2) → b.1 = W r ∧ b.2 = false) ∧ (W r).seqGeom <+: b.1.seqGeom) (by
    intro r hr
    obtain ⟨ps, e1, e2⟩ := hps r hr
    obtain ⟨a', b', R', f1, f2, f3, f4, f5, f6, -, f7⟩ :=
      surfRegisters_core (b := false) (hI.core r hr) (surfOwn_unique ho) e2
    refine ⟨(a', b'), ?_, R', ps, e1, f2, f3, f4, fun h => (f5 h).2, f6, f7⟩
    simp only [rd]
    rw [e1, Option.bind_some, f1])
  have hH' : ∀ r < n, ∀ ps, pairs[r]? = some ps →
      (fun g => H r g ∨ ∃ q, (q, g) ∈ ps) = fun g => H r g ∨ surfPassed pairs r g := by
    intro r hr ps hps'
    funext x; apply propext
    unfold surfPassed
    rw [hps']
    simp
  choose! R' ps c1 c2 c3 c4 c5 c6 c7 using hg2
  have hholds : ∀ s < n, ∀ g, (H s g ∨ surfPassed pairs s g) → ∃ q < n, surfOwn owned q g := by
    rintro s hs x (h | ⟨l, h1, q, h2⟩)
    · exact hI.holds s hs x h
    · obtain ⟨ps', e1, e2⟩ := hps s hs
      rw [e1] at h1
      cases h1
      exact ⟨q, (e2 _ h2).1, (e2 _ h2).2⟩
  have hcore : ∀ r < n, SurfCore n (surfOwn owned) (fun g => H r g ∨ surfPassed pairs r g)
      (owned.getD r []) (R' r) (g r).1 := fun r hr => by
    rw [← hH' r hr _ (c1 r hr)]; exact c2 r hr
  unfold surfExtend
  rw [hg1, Option.bind_some, List.map_map]
  by_cases hany : ∃ r < n, (g r).2 = true
  · rw [if_pos (by
      obtain ⟨r, h1, h2⟩ := hany
      rw [List.any_eq_true]
      exact ⟨g r, List.mem_map.2 ⟨r, List.mem_range.2 h1, rfl⟩, h2⟩)]
    obtain ⟨W', h1, h2, h3, h4⟩ := surfRebuild_sync (n := n) (W := Prod.fst ∘ g) (R := R')
      (S := fun r s => R s r) mpi mem (surfOwn_unique ho) (fun q hq => surfOwn_iff hq) hholds hcore
      (fun r hr => by
        show ((g r).1).sendIds = _
        rw [c4 r hr]
        exact (hI.sync r hr).sendIds)
      (fun r hr s hs => (hI.core s hs).sorted r hr)
      (fun r hr s hs x hx => c3 s hs r x hx)
    refine ⟨W', R', h1, ⟨hholds, h2, h3⟩, ?_, ?_, ?_⟩
    · intro r hr
      rw [(h4 r hr).2.1]
      exact c7 r hr
    · intro hall
      exfalso
      obtain ⟨r, h1, h2⟩ := hany
      have := (c6 r h1 fun p hp => hall r h1 p.2 ⟨_, c1 r h1, p.1, hp⟩).2
      rw [this] at h2; cases h2
    · intro r hr _
      rw [(h4 r hr).1]
      show ((g r).1).version + 1 = _
      rw [c4 r hr]
  · have hall : ∀ r < n, (g r).2 = false := fun r hr => by
      cases h : (g r).2 with
      | false => rfl
      | true => exact absurd ⟨r, hr, h⟩ hany
    rw [if_neg (by
      rw [List.any_eq_true]
      rintro ⟨x, hx, hx2⟩
      obtain ⟨r, hr, rfl⟩ := List.mem_map.1 hx
      rw [hall r (List.mem_range.1 hr)] at hx2; cases hx2)]
    have hW : ∀ r < n, (g r).1 = W r := fun r hr => (c5 r hr (hall r hr)).1
    refine ⟨Prod.fst ∘ g, R, rfl, ⟨hholds, ?_, ?_⟩, c7, fun _ => hW, ?_⟩
    · intro r hr
      have := hcore r hr
      rw [(c5 r hr (hall r hr)).2.1] at this
      exact this
    · intro r hr
      show SurfSync n R (owned.getD r []) r (g r).1
      rw [hW r hr]
      exact hI.sync r hr
    · rintro r hr ⟨s, hs, x, ⟨l, h1, q, h2⟩, h3⟩
      have := (c5 s hs (hall s hs)).2.2
      rw [c1 s hs] at h1
      cases h1
      exact absurd (this _ h2) h3

/-- The invariant holds after every history of well formed calls. -/
theorem surfRun_inv {owned : List (List Int)} (ho : Spec.FacesOwned owned) (calls : List SurfCall)
    (hcalls : ∀ c ∈ calls, Spec.PairsOk owned c.pairs) :
    ∃ W R, surfRun owned calls = some ((List.range owned.length).map W) ∧
      SurfInv owned (Spec.Announced calls) R W := by
  induction calls using List.reverseRecOn with
  | nil =>
    refine ⟨fun r => surfNew owned.length (owned.getD r []), fun _ _ => [], ?_, ?_⟩
    · unfold surfRun
      rw [runItems_nil]
      congr 1
      apply List.ext_getElem? fun k => ?_
      by_cases hk : k < owned.length
      · simp [hk, List.getD_eq_getElem?_getD, List.getElem?_eq_getElem hk]
      · simp [hk]
    · have := surfNew_inv ho
      have he : (fun _ _ => False : Nat → Int → Prop) = Spec.Announced [] := by
        funext s g; simp [Spec.Announced]
      rw [he] at this
      exact this
  | append_singleton calls c ih =>
    obtain ⟨W, R, h1, h2⟩ := ih fun c hc => hcalls c (by simp [hc])
    obtain ⟨W', R', g1, g2, -⟩ := surfExtend_inv ho h2 c.mpi c.mem (hcalls c (by simp))
    refine ⟨W', R', ?_, ?_⟩
    · unfold surfRun at h1 ⊢
      rw [runItems_append, h1, Option.bind_some, runItems_cons, g1, Option.bind_some, runItems_nil]
    · have he : (fun s g => Spec.Announced calls s g ∨ surfPassed c.pairs s g) =
          Spec.Announced (calls ++ [c]) := by
        funext s g; apply propext
        unfold Spec.Announced surfPassed
        constructor
        · rintro (⟨c', hc', h⟩ | h)
          · exact ⟨c', by simp [hc'], h⟩
          · exact ⟨c, by simp, h⟩
        · rintro ⟨c', hc', h⟩
          rcases List.mem_append.1 hc' with hc' | hc'
          · exact Or.inl ⟨c', hc', h⟩
          · simp only [List.mem_singleton] at hc'
            subst hc'
            exact Or.inr h
      rw [he] at g2
      exact g2

end NP
