import Verif.Mesh.SpecMap
import Verif.Mesh.LemmasNeighbour
import Verif.Mesh.LemmasClaim
import Mathlib.Tactic.FieldSimp
import Mathlib.Tactic.Positivity

/-!
# Lemmas for mapping positions
-/

set_option autoImplicit false

namespace NP

theorem truncZ_of_nonneg {q : ℚ} (h : 0 ≤ q) : truncZ q = ⌊q⌋ := if_pos h

/-- One dimension, for a position inside the domain. -/
theorem mapDim_spec {n nf : Int} {w o p : ℚ} (hn : 0 < n) (hnf : 0 < nf) (hw : 0 < w)
    (h0 : o ≤ p) (h1 : p ≤ o + n * w) :
    (mapDim n nf w o p).bad = false ∧
    0 ≤ (mapDim n nf w o p).coarse ∧ (mapDim n nf w o p).coarse < n ∧
    0 ≤ (mapDim n nf w o p).fine ∧ (mapDim n nf w o p).fine < nf ∧
    ((o + (((mapDim n nf w o p).coarse * nf + (mapDim n nf w o p).fine : Int) : ℚ) * (w / nf) ≤ p ∧
      p < o + ((((mapDim n nf w o p).coarse * nf + (mapDim n nf w o p).fine : Int) : ℚ) + 1) * (w / nf)) ∨
     (p = o + n * w ∧ (mapDim n nf w o p).coarse * nf + (mapDim n nf w o p).fine = n * nf - 1)) := by
  have hnfq : (0 : ℚ) < nf := by exact_mod_cast hnf
  have hnq : (0 : ℚ) < n := by exact_mod_cast hn
  have hq0 : 0 ≤ (p - o) * (1 / w) := by
    apply mul_nonneg
    · linarith
    · positivity
  have hqmul : (p - o) * (1 / w) * w = p - o := by field_simp
  by_cases hlast : p = o + n * w
  · -- the upper end of the domain
    have e1 : p - o = n * w := by linarith
    have hc : truncZ ((p - o) * (1 / w)) = n := by
      rw [e1, show (n : ℚ) * w * (1 / w) = ((n : Int) : ℚ) by field_simp,
        truncZ_of_nonneg (by exact_mod_cast hn.le), Int.floor_intCast]
    have ef : p - o - ((n - 1 : Int) : ℚ) * w = w := by rw [e1]; push_cast; ring
    have hf : truncZ (w * ((nf : ℚ) / w)) = nf := by
      rw [show w * ((nf : ℚ) / w) = ((nf : Int) : ℚ) by field_simp,
        truncZ_of_nonneg (by exact_mod_cast hnf.le), Int.floor_intCast]
    have hmap : mapDim n nf w o p = ⟨n - 1, nf - 1, false⟩ := by
      unfold mapDim
      simp only [hc, ge_iff_le, le_refl, if_true]
      rw [if_pos (by rw [e1, sub_self, abs_zero, zero_div]; unfold mapTol; norm_num)]
      simp only
      rw [ef, hf, if_pos (le_refl _), if_pos (by
        rw [show w - (nf : ℚ) * (w / nf) = 0 by field_simp; ring]
        rw [abs_zero, zero_div]; unfold mapTol; norm_num)]
      rfl
    rw [hmap]
    refine ⟨rfl, by simp only; omega, by simp only; omega, by simp only; omega,
      by simp only; omega, Or.inr ⟨hlast, ?_⟩⟩
    simp only
    ring
  · have hlt : p < o + n * w := lt_of_le_of_ne h1 hlast
    have hqlt : (p - o) * (1 / w) < n := by
      have : (p - o) * (1 / w) * w < n * w := by rw [hqmul]; linarith
      exact lt_of_mul_lt_mul_right this hw.le
    obtain ⟨k, hk⟩ : ∃ k, ⌊(p - o) * (1 / w)⌋ = k := ⟨_, rfl⟩
    have hk0 : 0 ≤ k := by rw [← hk]; exact Int.floor_nonneg.mpr hq0
    have hkn : k < n := by rw [← hk]; exact Int.floor_lt.mpr hqlt
    have hkle : (k : ℚ) ≤ (p - o) * (1 / w) := by rw [← hk]; exact Int.floor_le _
    have hklt : (p - o) * (1 / w) < k + 1 := by rw [← hk]; exact Int.lt_floor_add_one _
    have hpf0 : 0 ≤ p - o - k * w := by
      have := mul_le_mul_of_nonneg_right hkle hw.le
      rw [hqmul] at this
      linarith
    have hpf1 : p - o - k * w < w := by
      have := mul_lt_mul_of_pos_right hklt hw
      rw [hqmul] at this
      linarith
    have hf0 : 0 ≤ (p - o - k * w) * ((nf : ℚ) / w) := mul_nonneg hpf0 (by positivity)
    have hfmul : (p - o - k * w) * ((nf : ℚ) / w) * (w / nf) = p - o - k * w := by field_simp
    have hwf : 0 < w / nf := by positivity
    have hf1 : (p - o - k * w) * ((nf : ℚ) / w) < nf := by
      have : (p - o - k * w) * ((nf : ℚ) / w) * (w / nf) < nf * (w / nf) := by
        rw [hfmul, show (nf : ℚ) * (w / nf) = w by field_simp]; exact hpf1
      exact lt_of_mul_lt_mul_right this hwf.le
    obtain ⟨f, hf⟩ : ∃ f, ⌊(p - o - k * w) * ((nf : ℚ) / w)⌋ = f := ⟨_, rfl⟩
    have hfn0 : 0 ≤ f := by rw [← hf]; exact Int.floor_nonneg.mpr hf0
    have hfn : f < nf := by rw [← hf]; exact Int.floor_lt.mpr hf1
    have hfle : (f : ℚ) ≤ (p - o - k * w) * ((nf : ℚ) / w) := by rw [← hf]; exact Int.floor_le _
    have hflt : (p - o - k * w) * ((nf : ℚ) / w) < f + 1 := by
      rw [← hf]; exact Int.lt_floor_add_one _
    have hmap : mapDim n nf w o p = ⟨k, f, false⟩ := by
      unfold mapDim
      simp only [truncZ_of_nonneg hq0, hk, ge_iff_le]
      rw [if_neg (by omega)]
      simp only [truncZ_of_nonneg hf0, hf]
      rw [if_neg (by omega)]
      rfl
    rw [hmap]
    refine ⟨rfl, hk0, hkn, hfn0, hfn, Or.inl ⟨?_, ?_⟩⟩
    · have := mul_le_mul_of_nonneg_right hfle hwf.le
      rw [hfmul] at this
      have e : (((k * nf + f : Int) : ℚ)) * (w / nf) = k * w + f * (w / nf) := by
        push_cast; field_simp
      simp only
      rw [e]
      linarith
    · have := mul_lt_mul_of_pos_right hflt hwf
      rw [hfmul] at this
      have e : ((((k * nf + f : Int) : ℚ)) + 1) * (w / nf) = k * w + (f + 1) * (w / nf) := by
        push_cast; field_simp; ring
      simp only
      rw [e]
      linarith

theorem mapDims_spec {nf : Int} {w : ℚ} (hnf : 0 < nf) (hw : 0 < w) :
    ∀ {ds : List Int} {os ps : List ℚ}, (∀ d ∈ ds, 0 < d) → os.length = ds.length →
      ps.length = ds.length →
      (∀ (d : Nat) (n : Int) (o x : ℚ), ds[d]? = some n → os[d]? = some o → ps[d]? = some x →
        o ≤ x ∧ x ≤ o + n * w) →
      ∃ cs fs, mapDims nf w ds os ps = some (cs, fs, false) ∧ Spec.InRange ds cs ∧
        Spec.InRange (List.replicate ds.length nf) fs ∧
        ∀ (d : Nat) (n i : Int) (o x : ℚ), ds[d]? = some n → os[d]? = some o →
          ps[d]? = some x → (cart nf cs fs)[d]? = some i →
          (o + i * (w / nf) ≤ x ∧ x < o + (i + 1) * (w / nf)) ∨
          (x = o + n * w ∧ i = n * nf - 1) := by
  intro ds
  induction ds with
  | nil =>
    intro os ps _ _ _ _
    exact ⟨[], [], by cases os <;> cases ps <;> rfl, List.Forall₂.nil, List.Forall₂.nil,
      by intro d n i o x h; simp at h⟩
  | cons n ds ih =>
    intro os ps hpos hol hpl hin
    obtain _ | ⟨o, os⟩ := os
    · simp at hol
    obtain _ | ⟨p, ps⟩ := ps
    · simp at hpl
    obtain ⟨cs, fs, h1, h2, h3, h4⟩ := ih (os := os) (ps := ps)
      (fun d hd => hpos d (by simp [hd])) (by simpa using hol) (by simpa using hpl)
      (fun d => hin (d + 1))
    have hd := hin 0 n o p rfl rfl rfl
    obtain ⟨m1, m2, m3, m4, m5, m6⟩ := mapDim_spec (hpos n (by simp)) hnf hw hd.1 hd.2
    refine ⟨(mapDim n nf w o p).coarse :: cs, (mapDim n nf w o p).fine :: fs, ?_, ?_, ?_, ?_⟩
    · unfold mapDims
      simp only [h1, Option.bind_some, m1]
      rfl
    · exact List.Forall₂.cons ⟨m2, m3⟩ h2
    · rw [List.length_cons, List.replicate_succ]
      exact List.Forall₂.cons ⟨m4, m5⟩ h3
    · intro d n' i o' x hn ho hx hi
      obtain _ | d := d
      · simp only [List.getElem?_cons_zero, Option.some.injEq, cart, List.zipWith_cons_cons] at hn ho hx hi
        subst hn ho hx hi
        exact m6
      · simp only [List.getElem?_cons_succ, cart, List.zipWith_cons_cons] at hn ho hx hi
        exact h4 d n' i o' x hn ho hx hi

/-- A position inside the domain is mapped to the tuple of the cell that contains it. -/
theorem mapPosition_spec {g : MeshGeom} (hg : Spec.ValidGeom g) {p : List ℚ}
    (hp : Spec.InDomain g p) :
    ∃ t cell y, g.mapPosition p = some (t, false) ∧ t.length = g.mh.ndim * 2 ∧
      (∀ u, g.mh.tupleToLinearGlobal (t ++ u) = some cell) ∧ 0 ≤ cell ∧
      cell < g.mh.ncellsGlobal ∧ Spec.IsCellAt g.mh y cell ∧ Spec.CellContains g y p := by
  obtain ⟨cs, fs, h1, h2, h3, h4⟩ := mapDims_spec (ncellsDimFine_pos (mh := g.mh)) hg.2.2 hg.1.2
    hg.2.1 hp.1 hp.2
  have hb := global_bounds h2 h3
  have hlin := tupleToLinearGlobal_eq hg.1 h2 h3
  have hcl : cs.length = g.mh.ndim := h2.length
  have hfl : fs.length = g.mh.ndim := by
    have := h3.length; rwa [List.length_replicate] at this
  refine ⟨cs ++ fs, _, cart g.mh.ncellsDimFine cs fs, ?_, by simp; omega, ?_, hb.1, hb.2,
    ⟨cs, fs, h2, h3, hlin, rfl⟩, ?_⟩
  · unfold MeshGeom.mapPosition
    rw [h1]
    rfl
  · intro u
    rw [← hlin]
    unfold MeshHierarchy.tupleToLinearGlobal MeshHierarchy.tupleToLinearCoarse
      MeshHierarchy.tupleToLinearFine
    have hd : (cs ++ fs ++ u).drop g.mh.ndim = fs ++ u := by
      rw [List.append_assoc, ← hcl, List.drop_left]
    have hd' : (cs ++ fs).drop g.mh.ndim = fs := by rw [← hcl, List.drop_left]
    have hdl : g.mh.dims.length = cs.length := h2.length.symm
    rw [hd, hd', radixToLinear_eq hg.1.1 (by simp; omega), radixToLinear_eq hg.1.1 (by simp; omega),
      radixToLinear_eq (replicate_ne hg.1) (by simp; omega),
      radixToLinear_eq (replicate_ne hg.1) (by simp; omega),
      List.append_assoc, horner_append (t := cs) (t' := fs ++ u) (by omega),
      horner_append (t := cs) (t' := fs) (by omega),
      horner_append (t := fs) (t' := u) (by simp only [List.length_replicate]; omega)]
  · intro d n i o x hn ho hx hi
    have := h4 d n i o x hn ho hx hi
    have hnf : ((g.mh.ncellsDimFine : Int) : ℚ) = 2 ^ g.mh.order := by
      unfold MeshHierarchy.ncellsDimFine; push_cast; rfl
    rw [hnf] at this
    exact this

end NP

namespace NP

/-! ## The kernels of the global map -/

variable {P : Type}

theorem mem_particleItems {cells : List (List P)} {it : Nat × Nat} :
    it ∈ particleItems cells ↔ ∃ p, rd2 cells it = some p := by
  obtain ⟨c, l⟩ := it
  unfold particleItems rd2
  simp only [List.mem_flatMap, List.mem_range, List.mem_map, Prod.mk.injEq, rd]
  constructor
  · rintro ⟨c', hc', l', hl', rfl, rfl⟩
    rw [List.getElem?_eq_getElem hc'] at hl' ⊢
    simp only [Option.getD_some] at hl'
    exact ⟨_, by rw [Option.bind_some, List.getElem?_eq_getElem hl']⟩
  · rintro ⟨p, hp⟩
    cases hc : cells[c]? with
    | none => rw [hc] at hp; cases hp
    | some row =>
      rw [hc, Option.bind_some] at hp
      refine ⟨c, (List.getElem?_eq_some_iff.mp hc).1, l, ?_, rfl, rfl⟩
      rw [hc]
      exact (List.getElem?_eq_some_iff.mp hp).1

theorem particleItems_nodup {cells : List (List P)} : (particleItems cells).Nodup := by
  unfold particleItems
  rw [List.nodup_flatMap]
  refine ⟨fun c _ => ?_, ?_⟩
  · exact List.Nodup.map (fun a b h => by simpa using h) List.nodup_range
  · refine List.Pairwise.imp ?_ (List.nodup_range (n := cells.length))
    intro a b hab x ha hb
    simp only [List.mem_map] at ha hb
    obtain ⟨_, -, rfl⟩ := ha
    obtain ⟨_, -, h⟩ := hb
    simp only [Prod.mk.injEq] at h
    exact hab h.1.symm

theorem st2_spec {cells : List (List P)} {it : Nat × Nat} {p v : P}
    (h : rd2 cells it = some p) :
    ∃ cells', st2 cells it v = some cells' ∧ rd2 cells' it = some v ∧
      (∀ it', it' ≠ it → rd2 cells' it' = rd2 cells it') ∧ cells'.length = cells.length := by
  obtain ⟨c, l⟩ := it
  unfold rd2 at h
  simp only [rd] at h
  cases hc : cells[c]? with
  | none => rw [hc] at h; cases h
  | some row =>
    rw [hc, Option.bind_some] at h
    have hcl := (List.getElem?_eq_some_iff.mp hc).1
    have hll := (List.getElem?_eq_some_iff.mp h).1
    refine ⟨cells.set c (row.set l v), ?_, ?_, ?_, by simp⟩
    · unfold st2
      simp only [rd, hc, Option.bind_some]
      rw [st_eq_some hll, Option.bind_some, st_eq_some hcl]
    · unfold rd2
      simp [rd, hcl, hll]
    · rintro ⟨c', l'⟩ hne
      unfold rd2
      simp only [rd]
      by_cases hcc : c' = c
      · subst hcc
        rw [List.getElem?_set_self hcl, hc, Option.bind_some, Option.bind_some,
          List.getElem?_set_ne (by rintro rfl; exact hne rfl)]
      · rw [List.getElem?_set_ne (by omega)]

/-- The items that need to be looked up. -/
def needsLookup (cells : List (List MapParticle)) (it : Nat × Nat) : Bool :=
  ((rd2 cells it).map fun p => decide (p.rank1 < 0)).getD false

theorem lookup_spec {cells : List (List MapParticle)} {items : List (Nat × Nat)}
    {arr : List (Nat × Nat)} (hi : ∀ it ∈ items, ∃ p, rd2 cells it = some p)
    (ha : arr.length = items.length) :
    ∃ n arr', runItems (lookupStep items.length cells) items (0, arr) = some (n, arr') ∧
      n = (items.filter (needsLookup cells)).length ∧
      ∀ k, k < n → arr'[k]? = (items.filter (needsLookup cells))[k]? := by
  obtain ⟨⟨n, arr'⟩, h1, h2, h3, h4⟩ := runItems_invariant
    (step := lookupStep items.length cells) (items := items) (s := (0, arr))
    (P := fun pre (s : Nat × List (Nat × Nat)) =>
      s.1 = (pre.filter (needsLookup cells)).length ∧ s.2.length = items.length ∧
      ∀ k, k < s.1 → s.2[k]? = (pre.filter (needsLookup cells))[k]?) (by
      rintro pre it post ⟨n, arr⟩ heq ⟨h1, h2, h3⟩
      simp only at h1 h2 h3
      obtain ⟨p, hp⟩ := hi it (by rw [heq]; simp)
      have hlen : items.length = pre.length + 1 + post.length := by rw [heq]; simp; omega
      have hle : n ≤ pre.length := by rw [h1]; exact List.length_filter_le _ _
      unfold lookupStep
      rw [hp, Option.bind_some]
      by_cases hr : p.rank1 < 0
      · have hneed : needsLookup cells it = true := by simp [needsLookup, hp, hr]
        rw [if_pos hr, if_pos (by simp only; omega)]
        simp only
        rw [st_eq_some (by omega), Option.bind_some]
        refine ⟨_, rfl, ?_, by simpa using h2, ?_⟩
        · simp [List.filter_append, hneed, h1]
        · intro k hk
          simp only at hk ⊢
          rw [List.filter_append, List.filter_cons_of_pos hneed, List.filter_nil]
          by_cases hkn : k = n
          · subst hkn
            rw [List.getElem?_set_self (by omega), h1, List.getElem?_concat_length]
          · rw [List.getElem?_set_ne (by omega), List.getElem?_append_left (by omega)]
            exact h3 k (by omega)
      · have hneed : ¬ needsLookup cells it = true := by simp [needsLookup, hp, hr]
        rw [if_neg hr]
        refine ⟨_, rfl, ?_, h2, ?_⟩
        · rw [List.filter_append, List.filter_cons_of_neg hneed, List.filter_nil,
            List.append_nil]
          exact h1
        · rw [List.filter_append, List.filter_cons_of_neg hneed, List.filter_nil,
            List.append_nil]
          exact h3)
    ⟨rfl, ha, by intro k hk; simp at hk⟩
  exact ⟨n, arr', h1, h2, h4⟩

/-- The kernel that maps the positions, when each of them can be mapped. -/
theorem mapKernel_spec {g : MeshGeom} {cells : List (List MapParticle)}
    {lookup : List (Nat × Nat)} {nq : Nat} {items : List Nat} (hd : g.mh.ndim ≤ 3)
    (hit : ∀ i ∈ items, i < nq)
    {tup : Nat → List Int} (ht : ∀ i, i < nq → (tup i).length = g.mh.ndim * 2)
    (hmap : ∀ i, i < nq → ∃ it p, lookup[i]? = some it ∧ rd2 cells it = some p ∧
      g.mapPosition p.pos = some (tup i, false))
    {arr : List Int} (ha : arr.length = nq * 6) :
    ∃ arr', runItems (mapStep g cells lookup) items (arr, false) = some (arr', false) ∧
      arr'.length = nq * 6 ∧
      ∀ i ∈ items, ∃ u, arr'.drop (i * g.mh.ndim * 2) = tup i ++ u := by
  obtain ⟨⟨arr', b⟩, h1, h2, h3, h4⟩ := runItems_invariant
    (step := mapStep g cells lookup) (items := items) (s := (arr, false))
    (P := fun pre (s : List Int × Bool) => s.2 = false ∧ s.1.length = nq * 6 ∧
      ∀ i ∈ pre, ∀ j, j < g.mh.ndim * 2 → s.1[i * g.mh.ndim * 2 + j]? = (tup i)[j]?) (by
      rintro pre i post ⟨arr, b⟩ heq ⟨h1, h2, h3⟩
      simp only at h1 h2 h3
      subst h1
      have hi := hit i (by rw [heq]; simp)
      obtain ⟨it, p, ha, hb, hc⟩ := hmap i hi
      have hbound : i * g.mh.ndim * 2 + (tup i).length ≤ arr.length := by
        rw [h2, ht i hi]
        have e : i * g.mh.ndim * 2 + g.mh.ndim * 2 = (i + 1) * (g.mh.ndim * 2) := by ring
        rw [e]
        exact Nat.mul_le_mul (by omega) (by omega)
      obtain ⟨arr2, hst⟩ : ∃ arr2, stRange arr (i * g.mh.ndim * 2) (tup i) = some arr2 :=
        ⟨_, stRange_eq_some hbound⟩
      refine ⟨(arr2, false), ?_, rfl, ?_, ?_⟩
      · unfold mapStep
        simp only [rd, ha, hb, hc, hst, Option.bind_some, Bool.or_false]
      · exact (length_of_stRange hst).1.trans h2
      · intro i' hi' j hj
        simp only
        rw [getElem?_of_stRange hst, ht i hi]
        rcases List.mem_append.mp hi' with hi' | hi'
        · by_cases hii : i' = i
          · subst hii
            rw [if_pos (by omega)]
            congr 1; omega
          · rw [if_neg (by
              intro ⟨hx, hy⟩
              rw [Nat.mul_assoc, Nat.mul_assoc] at hx hy
              generalize g.mh.ndim * 2 = m at hx hy hj
              rcases Nat.lt_or_gt_of_ne hii with hlt | hlt
              · have : (i' + 1) * m ≤ i * m := Nat.mul_le_mul_right _ hlt
                rw [Nat.add_mul] at this
                omega
              · have : (i + 1) * m ≤ i' * m := Nat.mul_le_mul_right _ hlt
                rw [Nat.add_mul] at this
                omega)]
            exact h3 i' hi' j hj
        · rw [List.mem_singleton] at hi'
          subst hi'
          rw [if_pos (by omega)]
          congr 1; omega)
    ⟨rfl, ha, by simp⟩
  simp only at h2
  subst h2
  refine ⟨arr', h1, h3, ?_⟩
  intro i hi
  refine ⟨arr'.drop (i * g.mh.ndim * 2 + g.mh.ndim * 2), ?_⟩
  apply List.ext_getElem?
  intro j
  rw [List.getElem?_drop]
  have hl := ht i (hit i hi)
  by_cases hj : j < g.mh.ndim * 2
  · rw [List.getElem?_append_left (by omega)]
    exact h4 i hi j hj
  · rw [List.getElem?_append_right (by omega), List.getElem?_drop, hl]
    congr 1; omega

theorem writeRank_spec {cells : List (List MapParticle)} {lookup : List (Nat × Nat)}
    {ranks : List Int} {items : List Nat} {nq : Nat} (hit : ∀ i ∈ items, i < nq)
    (hnd : items.Nodup) {loc : Nat → Nat × Nat}
    (hloc : ∀ i, i < nq → lookup[i]? = some (loc i))
    (hinj : ∀ i j, i < nq → j < nq → loc i = loc j → i = j)
    {rk : Nat → Int} (hrk : ∀ i, i < nq → ranks[i]? = some (rk i))
    (hpart : ∀ i, i < nq → ∃ p, rd2 cells (loc i) = some p) :
    ∃ cells', runItems (writeRankStep lookup ranks) items cells = some cells' ∧
      cells'.length = cells.length ∧
      (∀ i ∈ items, rd2 cells' (loc i) = (rd2 cells (loc i)).map fun p => { p with
        rank0 := rk i }) ∧
      (∀ it, (∀ i ∈ items, loc i ≠ it) → rd2 cells' it = rd2 cells it) := by
  refine runItems_invariant (step := writeRankStep lookup ranks) (items := items) (s := cells)
    (P := fun pre (cells' : List (List MapParticle)) => cells'.length = cells.length ∧
      (∀ i ∈ pre, rd2 cells' (loc i) = (rd2 cells (loc i)).map fun p => { p with
        rank0 := rk i }) ∧
      (∀ it, (∀ i ∈ pre, loc i ≠ it) → rd2 cells' it = rd2 cells it)) ?_ ⟨rfl, by simp, by simp⟩
  rintro pre i post cells1 heq ⟨h0, h1, h2⟩
  have hi := hit i (by rw [heq]; simp)
  have hnot : i ∉ pre := by
    intro hm
    rw [heq] at hnd
    have := (List.nodup_append.mp hnd).2.2 i hm i (by simp)
    exact this rfl
  have hpre : ∀ j ∈ pre, j < nq := fun j hj => hit j (by rw [heq]; simp [hj])
  have hsame : rd2 cells1 (loc i) = rd2 cells (loc i) := h2 _ (by
    intro j hj he
    have := hinj j i (hpre j hj) hi he
    subst this
    exact hnot hj)
  obtain ⟨p, hp⟩ := hpart i hi
  obtain ⟨cells2, ha, hb, hc, hd⟩ := st2_spec (v := { p with
    rank0 := rk i }) (hsame.trans hp)
  refine ⟨cells2, ?_, hd.trans h0, ?_, ?_⟩
  · unfold writeRankStep
    simp only [rd, hloc i hi, hrk i hi, hsame, hp, Option.bind_some]
    exact ha
  · intro j hj
    rcases List.mem_append.mp hj with hj' | hj'
    · have hji : loc j ≠ loc i := by
        intro he
        have := hinj j i (hpre j hj') hi he
        subst this
        exact hnot hj'
      rw [hc _ hji]
      exact h1 j hj'
    · rw [List.mem_singleton] at hj'
      subst hj'
      rw [hb, hp]
      rfl
  · intro it hne
    rw [hc _ (by intro he; exact hne i (by simp) he.symm)]
    exact h2 it (fun j hj => hne j (by simp [hj]))

end NP
