import Verif.Petsc.LemmasInterface
import Mathlib.Tactic.Positivity
import Mathlib.Tactic.Linarith

/-!
# Lemmas: positions and the cells of the hierarchy that a bounding box has a part of
-/

set_option autoImplicit false

namespace NP

open Spec

theorem overlapVolume_pos {w : ℚ} : ∀ (os los his : List ℚ) (is : List Int),
    (∀ (d : Nat) (o a b : ℚ) (i : Int), os[d]? = some o → los[d]? = some a → his[d]? = some b →
      is[d]? = some i → 0 < overlap a b (o + i * w) (o + (i + 1) * w)) →
    0 < overlapVolume w os los his is
  | o :: os, lo :: los, hi :: his, i :: is, h => by
    unfold overlapVolume
    exact mul_pos (h 0 o lo hi i rfl rfl rfl rfl)
      (overlapVolume_pos os los his is fun d o' a b i' h1 h2 h3 h4 => h (d + 1) o' a b i' h1 h2 h3 h4)
  | [], _, _, _, _ => by unfold overlapVolume; exact zero_lt_one
  | _ :: _, [], _, _, _ => by unfold overlapVolume; exact zero_lt_one
  | _ :: _, _ :: _, [], _, _ => by unfold overlapVolume; exact zero_lt_one
  | _ :: _, _ :: _, _ :: _, [], _ => by unfold overlapVolume; exact zero_lt_one

theorem overlap_positive {a b c d : ℚ} (h1 : a < b) (h2 : a < d) (h3 : c < b) (h4 : c < d) :
    0 < overlap a b c d := by
  unfold overlap
  apply lt_max_of_lt_right
  rw [sub_pos, max_lt_iff, lt_min_iff, lt_min_iff]
  exact ⟨⟨h1, h2⟩, h3, h4⟩

/-- In one dimension a box around a point has a part of a cell next to the one the point is in. -/
theorem near_overlap {w o p a b : ℚ} {t N : Int} (hw : 0 < w) (ht0 : 0 ≤ t) (htN : t < N)
    (h1 : o + t * w ≤ p) (h2 : p ≤ o + (t + 1) * w) (h3 : a ≤ p) (h4 : p ≤ b) (hab : a < b)
    (ha : o ≤ a) (hb : b ≤ o + N * w) :
    ∃ i : Int, 0 ≤ i ∧ i < N ∧ t - 1 ≤ i ∧ i ≤ t + 1 ∧ 0 < overlap a b (o + i * w) (o + (i + 1) * w) := by
  have hstep : ∀ i : Int, o + i * w < o + (i + 1) * w := fun i => by linarith
  by_cases hp : p < b
  · rcases lt_or_eq_of_le h2 with hlt | heq
    · exact ⟨t, ht0, htN, by omega, by omega,
        overlap_positive hab (lt_of_le_of_lt h3 hlt) (lt_of_le_of_lt h1 hp) (hstep t)⟩
    · have hlt : (t + 1 : ℚ) < N := by
        have : o + (t + 1) * w < o + N * w := lt_of_lt_of_le (heq ▸ hp) hb
        have : (t + 1 : ℚ) * w < N * w := by linarith
        exact lt_of_mul_lt_mul_right this hw.le
      have hlt' : t + 1 < N := by exact_mod_cast hlt
      refine ⟨t + 1, by omega, hlt', by omega, by omega, overlap_positive hab ?_ ?_ (hstep (t + 1))⟩
      · have := hstep (t + 1)
        push_cast at this ⊢
        linarith
      · push_cast
        linarith
  · have hpb : p = b := le_antisymm h4 (not_lt.1 hp)
    rcases lt_or_eq_of_le h1 with hlt | heq
    · refine ⟨t, ht0, htN, by omega, by omega, overlap_positive hab ?_ ?_ (hstep t)⟩
      · linarith
      · linarith
    · have hpos : (0 : ℚ) < t := by
        have : 0 < t * w := by linarith
        exact pos_of_mul_pos_left this hw.le
      have hpos' : 0 < t := by exact_mod_cast hpos
      refine ⟨t - 1, by omega, by omega, by omega, by omega, overlap_positive hab ?_ ?_ (hstep (t - 1))⟩
      · push_cast
        linarith
      · push_cast
        linarith

theorem getElem?_of_length {α : Type} {l : List α} {d n : Nat} (h : l.length = n) (hd : d < n) :
    ∃ a, l[d]? = some a := ⟨_, List.getElem?_eq_getElem (by omega)⟩

/-- The box of a cell around a position in the cell `c` of the hierarchy has a part of a cell of the
hierarchy that is `c` or next to it. -/
theorem touches_adjacent {g : MeshGeom} (hg : ValidGeom g) {e : DmCell} {x : List ℚ} {c : Int}
    (hx : InFineCell g x c) (hin : InBoxOf g.mh.dims.length x e) (hbox : CellBoxInside g e) :
    ∃ c', Adjacent g c c' ∧ Touches g e c' := by
  obtain ⟨t, ht, hpos⟩ := hx
  have hw := fineWidth_pos hg
  have htl := isCellAt_length ht
  have htr := isCellAt_inRange ht
  have hfw : (g.mh.ncellsDimFine : ℚ) * fineWidth g = g.width := by
    unfold fineWidth MeshHierarchy.ncellsDimFine
    push_cast
    rw [mul_div_cancel₀ _ (by positivity)]
  have hex : ∀ d : Nat, ∃ i : Int, d < g.mh.dims.length → ∃ (m : Int) (o a b : ℚ) (j : Int),
      g.mh.dims[d]? = some m ∧ g.origin[d]? = some o ∧
      e.lower[d]? = some a ∧ e.upper[d]? = some b ∧ t[d]? = some j ∧ 0 ≤ i ∧
      i < m * g.mh.ncellsDimFine ∧ j - 1 ≤ i ∧ i ≤ j + 1 ∧
      0 < overlap a b (o + i * fineWidth g) (o + (i + 1) * fineWidth g) := by
    intro d
    by_cases hd : d < g.mh.dims.length
    · obtain ⟨m, hm⟩ := getElem?_of_length rfl hd
      obtain ⟨o, ho⟩ := getElem?_of_length hg.2.1 hd
      obtain ⟨j, hj⟩ := getElem?_of_length htl hd
      obtain ⟨p, hp, hp1, hp2⟩ := hpos d o j ho hj
      obtain ⟨p', a, b, hp', hla, hub, hap, hpb⟩ := hin d hd
      obtain ⟨a', b', hla', hub', hab, hoa, hbo⟩ := hbox d o m ho hm
      rw [hp] at hp'; cases hp'
      rw [hla] at hla'; cases hla'
      rw [hub] at hub'; cases hub'
      have hjr : 0 ≤ j ∧ j < m * g.mh.ncellsDimFine := by
        unfold InRange at htr
        have h1 : ∀ i (hi : i < (g.mh.dims.map (· * g.mh.ncellsDimFine)).length) (hi' : i < t.length),
            0 ≤ t[i] ∧ t[i] < (g.mh.dims.map (· * g.mh.ncellsDimFine))[i] :=
          fun i hi hi' => (List.forall₂_iff_get.1 htr).2 i hi hi'
        have := h1 d (by simpa using hd) (by omega)
        rw [List.getElem_map] at this
        rw [(List.getElem?_eq_some_iff.1 hj).2, (List.getElem?_eq_some_iff.1 hm).2] at this
        exact this
      obtain ⟨i, h0, hN, hl, hu, hov⟩ := near_overlap hw hjr.1 hjr.2 hp1 hp2 hap hpb hab hoa (by
        push_cast
        rw [mul_assoc, hfw]
        exact hbo)
      exact ⟨i, fun _ => ⟨m, o, a, b, j, hm, ho, hla, hub, hj, h0, hN, hl, hu, hov⟩⟩
    · exact ⟨0, fun hh => absurd hh hd⟩
  choose f hf using hex
  have hr : InRange (g.mh.dims.map (· * g.mh.ncellsDimFine)) ((List.range g.mh.dims.length).map f) := by
    unfold InRange
    rw [List.forall₂_iff_get]
    refine ⟨by simp, fun i hi hi' => ?_⟩
    simp only [List.length_map] at hi
    obtain ⟨m, o, a, b, j, hm, -, -, -, -, h0, hN, -⟩ := hf i hi
    simp only [List.get_eq_getElem, List.getElem_map, List.getElem_range]
    rw [(List.getElem?_eq_some_iff.1 hm).2]
    exact ⟨h0, hN⟩
  obtain ⟨c', hc'⟩ := isCellAt_exists hg.1 hr
  refine ⟨c', ⟨t, _, ht, hc', ?_⟩, ?_⟩
  · intro d m a b hm hta hb
    have hd : d < g.mh.dims.length := (List.getElem?_eq_some_iff.1 hm).1
    obtain ⟨m', o, a', b', j, hm', -, -, -, hj, -, -, hl, hu, -⟩ := hf d hd
    rw [hta] at hj; cases hj
    rw [List.getElem?_map, List.getElem?_range hd] at hb
    cases hb
    exact ⟨f d - a, by omega, by omega, by simp⟩
  · have hv : 0 < overlapVolume (fineWidth g) g.origin e.lower e.upper
        ((List.range g.mh.dims.length).map f) := by
      refine overlapVolume_pos _ _ _ _ ?_
      intro d o a b i ho ha hb hi
      have hd : d < g.mh.dims.length := by rw [← hg.2.1]; exact (List.getElem?_eq_some_iff.1 ho).1
      obtain ⟨m, o', a', b', j, -, ho', ha', hb', -, -, -, -, -, hov⟩ := hf d hd
      rw [ho] at ho'; cases ho'
      rw [ha] at ha'; cases ha'
      rw [hb] at hb'; cases hb'
      rw [List.getElem?_map, List.getElem?_range hd] at hi
      cases hi
      exact hov
    exact ⟨_, _, hc', div_pos hv (by positivity), rfl⟩

/-! ## The hierarchy -/

theorem foldl_min_ext : ∀ (es : List ℚ) (e : ℚ), es.foldl min e ∈ e :: es ∧ ∀ x ∈ e :: es, es.foldl min e ≤ x
  | [], e => by simp
  | y :: es, e => by
    obtain ⟨h1, h2⟩ := foldl_min_ext es (min e y)
    rw [List.foldl_cons]
    constructor
    · rcases List.mem_cons.1 h1 with h | h
      · rw [h]
        rcases min_choice e y with hh | hh <;> rw [hh] <;> simp
      · exact List.mem_cons_of_mem _ (List.mem_cons_of_mem _ h)
    · intro x hx
      have h3 := h2 (min e y) (by simp)
      rcases List.mem_cons.1 hx with rfl | hx
      · exact h3.trans (min_le_left _ _)
      · rcases List.mem_cons.1 hx with rfl | hx
        · exact h3.trans (min_le_right _ _)
        · exact h2 x (List.mem_cons_of_mem _ hx)

theorem foldl_max_ext : ∀ (es : List ℚ) (e : ℚ), es.foldl max e ∈ e :: es ∧ ∀ x ∈ e :: es, x ≤ es.foldl max e
  | [], e => by simp
  | y :: es, e => by
    obtain ⟨h1, h2⟩ := foldl_max_ext es (max e y)
    rw [List.foldl_cons]
    constructor
    · rcases List.mem_cons.1 h1 with h | h
      · rw [h]
        rcases max_choice e y with hh | hh <;> rw [hh] <;> simp
      · exact List.mem_cons_of_mem _ (List.mem_cons_of_mem _ h)
    · intro x hx
      have h3 := h2 (max e y) (by simp)
      rcases List.mem_cons.1 hx with rfl | hx
      · exact (le_max_left _ _).trans h3
      · rcases List.mem_cons.1 hx with rfl | hx
        · exact (le_max_right _ _).trans h3
        · exact h2 x (List.mem_cons_of_mem _ hx)

/-! ## The ranks of the halo cells -/

theorem foldlM_holds {α σ : Type} {f : σ → α → Option σ} (P : σ → Prop)
    (h : ∀ s a s', P s → f s a = some s' → P s') : ∀ (l : List α) (s s' : σ), P s →
    l.foldlM f s = some s' → P s'
  | [], s, s', hs, e => by
    rw [List.foldlM_nil] at e
    cases e
    exact hs
  | a :: l, s, s', hs, e => by
    rw [List.foldlM_cons] at e
    obtain ⟨s1, e1, e2⟩ := Option.bind_eq_some_iff.1 e
    exact foldlM_holds P h l s1 s' (h s a s1 hs e1) e2

theorem haloLids_ok {ix : HaloIndex} {cells : List PackedCell} {m m' : LidMap} (hm : OMapOk m)
    (h : haloLids ix cells m = some m') : OMapOk m' := by
  refine foldlM_holds (P := OMapOk) (fun s a s' hs e => ?_) cells m m' hm h
  obtain ⟨l, -, e2⟩ := Option.bind_eq_some_iff.1 e
  cases e2
  exact omPut_ok hs _ _

theorem haloCone_ok {ix : HaloIndex} {sizes : List Nat} {ornts : OMap (List Int)} {s s' : HaloConeState}
    {x : Int × List Int} (hs : OMapOk s.lids) (h : haloCone ix sizes ornts s x = some s') :
    OMapOk s'.lids := by
  unfold haloCone at h
  by_cases h1 : x.1 ∈ s.seen
  · rw [if_pos h1] at h
    cases h
    exact hs
  · rw [if_neg h1] at h
    obtain ⟨l, -, h⟩ := Option.bind_eq_some_iff.1 h
    obtain ⟨cone, -, h⟩ := Option.bind_eq_some_iff.1 h
    split at h
    · obtain ⟨cones, -, h⟩ := Option.bind_eq_some_iff.1 h
      obtain ⟨o, -, h⟩ := Option.bind_eq_some_iff.1 h
      obtain ⟨orn, -, h⟩ := Option.bind_eq_some_iff.1 h
      cases h
      show OMapOk (if (omGet s.lids l).isSome then s.lids else omPut s.lids l (-1, -1, x.1))
      split
      · exact hs
      · exact omPut_ok hs _ _
    · cases h

theorem dmFromCells_ok {ki ks fuel ndim : Nat} {fresh : Fresh Scal} {cells : List PackedCell}
    {lids lids' : LidMap} {x : Option (HaloIndex × HaloPlex)} (hl : OMapOk lids)
    (h : dmFromCells ki ks fuel ndim fresh cells lids = some (x, lids')) : OMapOk lids' := by
  unfold dmFromCells at h
  obtain ⟨reps, -, h⟩ := Option.bind_eq_some_iff.1 h
  obtain ⟨ix, -, h⟩ := Option.bind_eq_some_iff.1 h
  obtain ⟨l1, h1, h⟩ := Option.bind_eq_some_iff.1 h
  have hl1 := haloLids_ok hl h1
  split at h
  · cases h
    exact hl1
  · obtain ⟨⟨seen, sizes⟩, -, h⟩ := Option.bind_eq_some_iff.1 h
    obtain ⟨s, h2, h⟩ := Option.bind_eq_some_iff.1 h
    obtain ⟨vs, -, h⟩ := Option.bind_eq_some_iff.1 h
    obtain ⟨ve, -, h⟩ := Option.bind_eq_some_iff.1 h
    obtain ⟨coords, -, h⟩ := Option.bind_eq_some_iff.1 h
    cases h
    refine foldlM_holds (P := fun s : HaloConeState => OMapOk s.lids) (fun s r s' hs e => ?_) reps _ s hl1 h2
    exact foldlM_holds (P := fun s : HaloConeState => OMapOk s.lids)
      (fun s x s' hs e => haloCone_ok hs e) _ s s' hs e

theorem omGet_mem {α : Type} {m : OMap α} {k : Int} {v : α} (h : omGet m k = some v) : (k, v) ∈ m := by
  unfold omGet at h
  rw [Option.map_eq_some_iff] at h
  obtain ⟨e, he, rfl⟩ := h
  have h1 := List.mem_of_find?_eq_some he
  have h2 := List.find?_some he
  simp only [beq_iff_eq] at h2
  rw [← h2]
  exact h1

theorem dmNeighbours_spec {size : Nat} (lids : LidMap) (h : ∀ x ∈ lids, x.2.1 < (size : Int)) :
    ∃ out, dmNeighbours size lids = some out ∧ out.Pairwise (· < ·) ∧
      ∀ q, q ∈ out ↔ -1 < q ∧ ∃ x ∈ lids, x.2.1 = q := by
  have key : ∀ (l : LidMap) (acc : List Int), (∀ x ∈ l, x.2.1 < (size : Int)) → acc.Pairwise (· < ·) →
      ∃ out, runItems (fun (x : Int × (Int × Int × Int)) out =>
        if x.2.1 > -1 then if x.2.1 < size then some (setInsert out x.2.1) else none else some out)
          l acc = some out ∧ out.Pairwise (· < ·) ∧
        ∀ q, q ∈ out ↔ q ∈ acc ∨ (-1 < q ∧ ∃ x ∈ l, x.2.1 = q) := by
    intro l
    induction l with
    | nil => intro acc _ ha; exact ⟨acc, rfl, ha, by simp⟩
    | cons y l ih =>
      intro acc hl ha
      have hy := hl y (by simp)
      by_cases hp : y.2.1 > -1
      · obtain ⟨out, e, ho, hm⟩ := ih (setInsert acc y.2.1) (fun x hx => hl x (by simp [hx]))
          (setInsert_sorted _ _ ha)
        refine ⟨out, ?_, ho, ?_⟩
        · simp only [runItems, if_pos hp, if_pos hy, Option.bind_some]
          exact e
        · intro q
          rw [hm, mem_setInsert]
          constructor
          · rintro ((rfl | hq) | ⟨hq, x, hx, e⟩)
            · exact Or.inr ⟨by omega, y, by simp, rfl⟩
            · exact Or.inl hq
            · exact Or.inr ⟨hq, x, by simp [hx], e⟩
          · rintro (hq | ⟨hq, x, hx, ex⟩)
            · exact Or.inl (Or.inr hq)
            · rcases List.mem_cons.1 hx with rfl | hx
              · exact Or.inl (Or.inl ex.symm)
              · exact Or.inr ⟨hq, x, hx, ex⟩
      · obtain ⟨out, e, ho, hm⟩ := ih acc (fun x hx => hl x (by simp [hx])) ha
        refine ⟨out, ?_, ho, ?_⟩
        · simp only [runItems, if_neg hp, Option.bind_some]
          exact e
        · intro q
          rw [hm]
          refine or_congr_right (and_congr_right fun hq => ?_)
          constructor
          · rintro ⟨x, hx, e⟩; exact ⟨x, by simp [hx], e⟩
          · rintro ⟨x, hx, e⟩
            rcases List.mem_cons.1 hx with rfl | hx
            · omega
            · exact ⟨x, hx, e⟩
  obtain ⟨out, e, ho, hm⟩ := key lids [] h List.Pairwise.nil
  exact ⟨out, e, ho, fun q => by rw [hm]; simp⟩

end NP
