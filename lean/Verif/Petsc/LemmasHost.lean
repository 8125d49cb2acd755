import Verif.Petsc.SpecHost
import Verif.Common.KernelLemmas
import Mathlib.Data.List.Nodup
import Mathlib.Data.List.Perm.Subperm
import Mathlib.Tactic.ByContra
import Mathlib.Tactic.Conv

/-!
# Lemmas: particles to cells of unstructured meshes with PETSc
-/

set_option autoImplicit false

namespace NP

open Spec

variable {R : Type}

theorem copyBlock_spec {src dst : List R} {b n a : Nat} (hs : b + n ≤ src.length) (hd : a + n ≤ dst.length) :
    ∃ d, copyBlock src b n a dst = some d ∧ d.length = dst.length ∧ (∀ i < n, d[a + i]? = src[b + i]?) ∧
      ∀ k, (k < a ∨ a + n ≤ k) → d[k]? = dst[k]? := by
  obtain ⟨d, h1, h2, h3, h4⟩ := forLoop_invariant (a := 0) (b := n)
    (step := fun dx d => (rd src (b + dx)).bind fun x => st d (a + dx) x) (s := dst)
    (P := fun j d => d.length = dst.length ∧ (∀ i < j, d[a + i]? = src[b + i]?) ∧
      ∀ k, (k < a ∨ a + j ≤ k) → d[k]? = dst[k]?) (Nat.zero_le _)
    (by
      intro j d _ hj ⟨g1, g2, g3⟩
      have e : rd src (b + j) = some (src[b + j]'(by omega)) := List.getElem?_eq_getElem _
      refine ⟨d.set (a + j) (src[b + j]'(by omega)), ?_, by simp [g1], fun i hi => ?_, fun k hk => ?_⟩
      · rw [e, Option.bind_some, st_eq_some (by omega)]
      · by_cases h : i = j
        · subst h
          rw [List.getElem?_set_self (by omega)]
          exact e.symm
        · rw [List.getElem?_set_ne (by omega)]
          exact g2 i (by omega)
      · rw [List.getElem?_set_ne (by omega)]
        exact g3 k (by omega))
    ⟨rfl, by simp, fun _ _ => rfl⟩
  exact ⟨d, h1, h2, h3, h4⟩

/-! ## Items -/

theorem items_linear {npart : List Nat} {mapCell : Int} {n : Nat} {items : List (Nat × Nat)}
    (hn : (if mapCell > -1 then rd npart mapCell.toNat else some npart.sum) = some n)
    (hi : hostItems npart mapCell = some items) :
    items.map (hostLinear npart mapCell) = List.range n := by
  unfold hostItems at hi
  by_cases hm : mapCell > -1
  · rw [if_pos hm] at hn hi
    rw [hn] at hi
    cases hi
    rw [List.map_map]
    conv_rhs => rw [← List.map_id (List.range n)]
    refine List.map_congr_left fun l _ => ?_
    simp only [Function.comp, hostLinear, if_pos hm, id]
    omega
  · rw [if_neg hm] at hn hi
    cases hn
    cases hi
    have key : ∀ (post pre : List Nat), npart = pre ++ post →
        ((post.zipIdx pre.length).flatMap fun nc => (List.range nc.1).map fun l => (nc.2, l)).map
          (hostLinear npart mapCell) = (List.range post.sum).map (pre.sum + ·) := by
      intro post
      induction post with
      | nil => intro pre _; rfl
      | cons x post ih =>
        intro pre e
        have := ih (pre ++ [x]) (by simp [e])
        rw [List.length_append, List.length_singleton] at this
        rw [List.zipIdx_cons, List.flatMap_cons, List.map_append, this, List.sum_cons, List.range_add,
          List.map_append, List.map_map, List.map_map]
        congr 1
        · refine List.map_congr_left fun l _ => ?_
          simp only [Function.comp, hostLinear, if_neg hm, e]
          simp
        · refine List.map_congr_left fun l _ => ?_
          simp only [Function.comp, List.sum_append, List.sum_singleton]
          omega
    have := key npart [] rfl
    simpa using this

theorem items_mem {cells : List (List (HostPart R))} {mapCell : Int} {items : List (Nat × Nat)}
    (hi : hostItems (cells.map List.length) mapCell = some items) (c l : Nat) :
    (c, l) ∈ items ↔ Mapped mapCell c ∧ ∃ p, hostGet cells (c, l) = some p := by
  have hget : (∃ p, hostGet cells (c, l) = some p) ↔ ∃ k, (cells.map List.length)[c]? = some k ∧ l < k := by
    unfold hostGet rd
    rw [List.getElem?_map]
    cases h : cells[c]? with
    | none => simp
    | some ps =>
      simp only [Option.bind_some, Option.map_some, Option.some.injEq, exists_eq_left']
      constructor
      · rintro ⟨p, hp⟩; exact (List.getElem?_eq_some_iff.1 hp).1
      · intro hl; exact ⟨_, List.getElem?_eq_getElem hl⟩
  rw [hget]
  unfold hostItems at hi
  unfold Mapped
  by_cases hm : mapCell > -1
  · rw [if_pos hm] at hi
    obtain ⟨n, h1, rfl⟩ := Option.map_eq_some_iff.1 hi
    unfold rd at h1
    simp only [List.mem_map, List.mem_range, Prod.mk.injEq]
    constructor
    · rintro ⟨l', hl, rfl, rfl⟩
      exact ⟨Or.inr (by omega), n, h1, hl⟩
    · rintro ⟨h, k, hk, hl⟩
      obtain rfl : mapCell.toNat = c := by omega
      rw [h1] at hk
      cases hk
      exact ⟨l, hl, rfl, rfl⟩
  · rw [if_neg hm] at hi
    cases hi
    simp only [List.mem_flatMap, List.mem_map, List.mem_range, Prod.mk.injEq]
    constructor
    · rintro ⟨⟨n, c'⟩, hz, l', hl, rfl, rfl⟩
      exact ⟨Or.inl (by omega), n, List.mk_mem_zipIdx_iff_getElem?.1 hz, hl⟩
    · rintro ⟨-, k, hk, hl⟩
      exact ⟨(k, c), List.mk_mem_zipIdx_iff_getElem?.2 hk, l, hl, rfl, rfl⟩

theorem items_exists {cells : List (List (HostPart R))} {mapCell : Int} (h : mapCell < cells.length) :
    ∃ n items, (if mapCell > -1 then rd (cells.map List.length) mapCell.toNat
        else some (cells.map List.length).sum) = some n ∧
      hostItems (cells.map List.length) mapCell = some items := by
  unfold hostItems
  by_cases hm : mapCell > -1
  · rw [if_pos hm, if_pos hm]
    have : rd (cells.map List.length) mapCell.toNat = some ((cells.map List.length)[mapCell.toNat]'(by
      rw [List.length_map]; omega)) := List.getElem?_eq_getElem _
    exact ⟨_, _, this, by rw [this]; rfl⟩
  · rw [if_neg hm, if_neg hm]
    exact ⟨_, _, rfl, rfl⟩

/-! ## Interlacing -/

theorem interlace_spec (s : Sched) {ndim n : Nat} {lin : Nat × Nat → Nat} {items : List (Nat × Nat)}
    {cells : List (List (HostPart R))} {buf : List R} (hbuf : buf.length = n * ndim)
    (hlin : items.map lin = List.range n)
    (hp : ∀ cl ∈ items, ∃ p, hostGet cells cl = some p ∧ ndim ≤ p.pos.length) :
    ∃ v, hostInterlace s ndim lin items cells buf = some v ∧ v.length = n * ndim ∧
      ∀ cl ∈ items, ∀ p, hostGet cells cl = some p → (v.drop (lin cl * ndim)).take ndim = p.pos.take ndim := by
  have hlt : ∀ cl ∈ items, lin cl < n := by
    intro cl hcl
    have : lin cl ∈ items.map lin := List.mem_map_of_mem hcl
    rw [hlin] at this
    exact List.mem_range.1 this
  have hnd : ((s.order items).map lin).Nodup := by
    rw [((s.perm items).map lin).nodup_iff, hlin]
    exact List.nodup_range
  obtain ⟨v, h1, h2, h3⟩ := runItems_invariant (items := s.order items)
    (step := fun cl buf => (hostGet cells cl).bind fun p => copyBlock p.pos 0 ndim (lin cl * ndim) buf)
    (P := fun pre v => v.length = n * ndim ∧ ∀ cl ∈ pre, ∀ p, hostGet cells cl = some p →
      ∀ i < ndim, v[lin cl * ndim + i]? = p.pos[i]?)
    (s := buf) (by
      intro pre cl post v hsplit ⟨g1, g2⟩
      have hmem : cl ∈ items := (s.perm items).mem_iff.1 (by rw [hsplit]; simp)
      obtain ⟨p, e, hdim⟩ := hp cl hmem
      have hb : lin cl * ndim + ndim ≤ n * ndim := by
        have := Nat.mul_le_mul_right ndim (hlt cl hmem)
        rwa [Nat.succ_mul] at this
      obtain ⟨d, d1, d2, d3, d4⟩ := copyBlock_spec (src := p.pos) (dst := v) (b := 0) (n := ndim)
        (a := lin cl * ndim) (by omega) (by omega)
      refine ⟨d, by rw [e]; exact d1, by omega, fun cl' hcl' p' hp' i hi => ?_⟩
      rcases List.mem_append.1 hcl' with h | h
      · rw [d4, g2 cl' h p' hp' i hi]
        have hne : lin cl' ≠ lin cl := by
          rw [hsplit, List.map_append, List.map_cons] at hnd
          intro hh
          have := List.disjoint_of_nodup_append hnd (List.mem_map_of_mem h)
          exact this (by rw [hh]; simp)
        rcases Nat.lt_or_gt_of_ne hne with h' | h'
        · left
          have := Nat.mul_le_mul_right ndim h'
          rw [Nat.succ_mul] at this
          omega
        · right
          have := Nat.mul_le_mul_right ndim h'
          rw [Nat.succ_mul] at this
          omega
      · obtain rfl : cl' = cl := by simpa using h
        rw [e] at hp'
        cases hp'
        rw [d3 i hi, Nat.zero_add])
    ⟨hbuf, by simp⟩
  refine ⟨v, h1, h2, fun cl hcl p e => ?_⟩
  have := h3 cl ((s.perm items).mem_iff.2 hcl) p e
  refine List.ext_getElem? fun i => ?_
  rw [List.getElem?_take, List.getElem?_take]
  split
  · rename_i hi
    rw [List.getElem?_drop]
    exact this i hi
  · rfl

/-! ## Search -/

theorem hostPoints_get {ndim n k : Nat} (v : List R) (h : k < n) :
    (hostPoints ndim n v)[k]? = some ((v.drop (k * ndim)).take ndim) := by
  unfold hostPoints
  rw [List.getElem?_map, List.getElem?_range h]
  rfl

theorem hostLocal_spec (rank : Int) {n : Nat} {found cs0 rs0 : List Int} (hf : found.length = n)
    (h1 : cs0.length = n) (h2 : rs0.length = n) :
    ∃ cs rs nf, hostLocal rank n found (cs0, rs0, []) = some (cs, rs, nf) ∧ cs.length = n ∧ rs.length = n ∧
      nf.Nodup ∧ (∀ k : Nat, k ∈ nf ↔ ∃ c, found[k]? = some c ∧ c < 0) ∧
      ∀ (k : Nat) (c : Int), found[k]? = some c → cs[k]? = some (if c > -1 then c else -1) ∧
        rs[k]? = some (if c > -1 then rank else -1) := by
  obtain ⟨⟨cs, rs, nf⟩, e, g1, g2, g3, g4, g5⟩ := forLoop_invariant (a := 0) (b := n)
    (step := fun px (s : List Int × List Int × List Nat) => (rd found px).bind fun c =>
      (st s.1 px (if c > -1 then c else -1)).bind fun cs =>
      (st s.2.1 px (if c > -1 then rank else -1)).bind fun rs =>
      some (cs, rs, if c > -1 then s.2.2 else s.2.2 ++ [px])) (s := (cs0, rs0, []))
    (P := fun i s => s.1.length = n ∧ s.2.1.length = n ∧ s.2.2.Nodup ∧
      (∀ k, k ∈ s.2.2 ↔ k < i ∧ ∃ c, found[k]? = some c ∧ c < 0) ∧
      ∀ k c, k < i → found[k]? = some c → s.1[k]? = some (if c > -1 then c else -1) ∧
        s.2.1[k]? = some (if c > -1 then rank else -1)) (Nat.zero_le _)
    (by
      rintro i ⟨cs, rs, nf⟩ _ hi ⟨g1, g2, g3, g4, g5⟩
      dsimp only at g1 g2 g3 g4 g5
      have e : rd found i = some (found[i]'(by omega)) := List.getElem?_eq_getElem _
      generalize found[i]'_ = c at e
      refine ⟨_, by rw [e, Option.bind_some, st_eq_some (by dsimp only; omega), Option.bind_some, st_eq_some (by dsimp only; omega)]; rfl,
        by simp [g1], by simp [g2], ?_, fun k => ?_, fun k c' hk hc' => ?_⟩
      · dsimp only
        split
        · exact g3
        · rw [List.nodup_append]
          refine ⟨g3, by simp, fun a ha b hb => ?_⟩
          have := ((g4 a).1 ha).1
          simp at hb
          omega
      · dsimp only
        split
        · rename_i hc
          rw [g4]
          constructor
          · rintro ⟨a, b⟩; exact ⟨by omega, b⟩
          · rintro ⟨a, c', b, d⟩
            refine ⟨?_, c', b, d⟩
            by_contra hk
            obtain rfl : k = i := by omega
            unfold rd at e
            rw [e] at b
            cases b
            omega
        · rename_i hc
          rw [List.mem_append, g4, List.mem_singleton]
          constructor
          · rintro (⟨a, b⟩ | rfl)
            · exact ⟨by omega, b⟩
            · exact ⟨by omega, c, e, by omega⟩
          · rintro ⟨a, b⟩
            by_cases hk : k = i
            · exact Or.inr hk
            · exact Or.inl ⟨by omega, b⟩
      · dsimp only
        by_cases h : k = i
        · subst h
          unfold rd at e
          rw [e] at hc'
          cases hc'
          rw [List.getElem?_set_self (by omega), List.getElem?_set_self (by omega)]
          exact ⟨rfl, rfl⟩
        · rw [List.getElem?_set_ne (Ne.symm h), List.getElem?_set_ne (Ne.symm h)]
          exact g5 k c' (by omega) hc')
    ⟨h1, h2, List.nodup_nil, by simp, by simp⟩
  refine ⟨cs, rs, nf, e, g1, g2, g3, fun k => ?_, fun k c hc => ?_⟩
  · rw [g4]
    constructor
    · exact fun h => h.2
    · rintro ⟨c, hc, h⟩
      exact ⟨by have := (List.getElem?_eq_some_iff.1 hc).1; omega, c, hc, h⟩
  · exact g5 k c (by have := (List.getElem?_eq_some_iff.1 hc).1; omega) hc

theorem hostHaloCopy_spec {ndim n : Nat} {nf : List Nat} {v vh0 : List R} (hv : v.length = n * ndim)
    (hvh : vh0.length = n * ndim) (hnf : nf.length ≤ n) (hlt : ∀ k ∈ nf, k < n) :
    ∃ vh, hostHaloCopy ndim nf v vh0 = some vh ∧ ∀ q k, nf[q]? = some k →
      (vh.drop (q * ndim)).take ndim = (v.drop (k * ndim)).take ndim := by
  obtain ⟨vh, e, -, h⟩ := forLoop_invariant (a := 0) (b := nf.length)
    (step := fun qx vh => (rd nf qx).bind fun px => copyBlock v (px * ndim) ndim (qx * ndim) vh) (s := vh0)
    (P := fun i vh => vh.length = n * ndim ∧ ∀ q k, q < i → nf[q]? = some k →
      ∀ j < ndim, vh[q * ndim + j]? = v[k * ndim + j]?) (Nat.zero_le _)
    (by
      intro i vh _ hi ⟨g1, g2⟩
      have e : rd nf i = some nf[i] := List.getElem?_eq_getElem _
      have hk := hlt nf[i] (List.getElem_mem hi)
      have b1 := Nat.mul_le_mul_right ndim hk
      have b2 := Nat.mul_le_mul_right ndim (show i + 1 ≤ n by omega)
      rw [Nat.succ_mul] at b1 b2
      obtain ⟨d, d1, d2, d3, d4⟩ := copyBlock_spec (src := v) (dst := vh) (b := nf[i] * ndim) (n := ndim)
        (a := i * ndim) (by omega) (by omega)
      refine ⟨d, by rw [e]; exact d1, by omega, fun q k hq hqk j hj => ?_⟩
      by_cases h : q = i
      · subst h
        unfold rd at e
        rw [e] at hqk
        cases hqk
        exact d3 j hj
      · rw [d4, g2 q k (by omega) hqk j hj]
        left
        have := Nat.mul_le_mul_right ndim (show q + 1 ≤ i by omega)
        rw [Nat.succ_mul] at this
        omega)
    ⟨hvh, by simp⟩
  refine ⟨vh, e, fun q k hq => ?_⟩
  refine List.ext_getElem? fun i => ?_
  rw [List.getElem?_take, List.getElem?_take]
  split
  · rename_i hi
    rw [List.getElem?_drop, List.getElem?_drop]
    exact h q k (List.getElem?_eq_some_iff.1 hq).1 hq i hi
  · rfl

theorem hostHalo_spec {lids : LidMap} {n : Nat} {nf : List Nat} {found cs0 rs0 : List Int} (hnd : nf.Nodup)
    (hlt : ∀ k ∈ nf, k < n) (hf : nf.length ≤ found.length) (h1 : cs0.length = n) (h2 : rs0.length = n)
    (hk : ∀ c ∈ found, 0 ≤ c → ∃ e, omGet lids c = some e) :
    ∃ cs rs, hostHalo lids nf found (cs0, rs0) = some (cs, rs) ∧ cs.length = n ∧ rs.length = n ∧
      (∀ k, k ∉ nf → cs[k]? = cs0[k]? ∧ rs[k]? = rs0[k]?) ∧
      ∀ (q k : Nat) (c : Int), nf[q]? = some k → found[q]? = some c →
        (0 ≤ c ∧ ∃ r l g, omGet lids c = some (r, l, g) ∧ cs[k]? = some l ∧ rs[k]? = some r) ∨
        (c < 0 ∧ cs[k]? = some (-1) ∧ rs[k]? = some (-1)) := by
  obtain ⟨⟨cs, rs⟩, e, g1, g2, g3, g4⟩ := forLoop_invariant (a := 0) (b := nf.length)
    (step := fun qx (s : List Int × List Int) => (rd nf qx).bind fun px => (rd found qx).bind fun c =>
      (if c > -1 then (omGet lids c).map fun rc => (rc.2.1, rc.1) else some (-1, -1)).bind fun cr =>
      (st s.1 px cr.1).bind fun cs => (st s.2 px cr.2).bind fun rs => some (cs, rs)) (s := (cs0, rs0))
    (P := fun i s => s.1.length = n ∧ s.2.length = n ∧
      (∀ k, k ∉ nf → s.1[k]? = cs0[k]? ∧ s.2[k]? = rs0[k]?) ∧
      ∀ q k c, q < i → nf[q]? = some k → found[q]? = some c →
        (0 ≤ c ∧ ∃ r l g, omGet lids c = some (r, l, g) ∧ s.1[k]? = some l ∧ s.2[k]? = some r) ∨
        (c < 0 ∧ s.1[k]? = some (-1) ∧ s.2[k]? = some (-1))) (Nat.zero_le _)
    (by
      rintro i ⟨cs, rs⟩ _ hi ⟨g1, g2, g3, g4⟩
      dsimp only at g1 g2 g3 g4
      have e : nf[i]? = some nf[i] := List.getElem?_eq_getElem _
      have e' : found[i]? = some (found[i]'(by omega)) := List.getElem?_eq_getElem _
      have hmem := List.getElem_mem hi
      have hkk := hlt nf[i] hmem
      have hcr : ∃ cr : Int × Int, (if found[i]'(by omega) > -1 then
          (omGet lids (found[i]'(by omega))).map fun rc => (rc.2.1, rc.1) else some (-1, -1)) = some cr ∧
          ((0 ≤ found[i]'(by omega) ∧ ∃ g, omGet lids (found[i]'(by omega)) = some (cr.2, cr.1, g)) ∨
            (found[i]'(by omega) < 0 ∧ cr = (-1, -1))) := by
        by_cases hc : found[i]'(by omega) > -1
        · obtain ⟨⟨r, l, g⟩, he⟩ := hk (found[i]'(by omega)) (List.getElem_mem _) (by omega)
          exact ⟨(l, r), by rw [if_pos hc, he]; rfl, Or.inl ⟨by omega, g, he⟩⟩
        · exact ⟨(-1, -1), by rw [if_neg hc], Or.inr ⟨by omega, rfl⟩⟩
      obtain ⟨cr, hcr, hcase⟩ := hcr
      generalize found[i]'_ = c at e' hcr hcase
      generalize nf[i] = px at e hmem hkk
      refine ⟨(cs.set px cr.1, rs.set px cr.2), ?_, by simp [g1], by simp [g2], fun k hk' => ?_,
        fun q k c' hq hqk hqc => ?_⟩
      · unfold rd
        rw [e, Option.bind_some, e', Option.bind_some, hcr, Option.bind_some, st_eq_some (by dsimp only; omega),
          Option.bind_some, st_eq_some (by dsimp only; omega)]
        rfl
      · have : px ≠ k := fun h => hk' (h ▸ hmem)
        dsimp only
        rw [List.getElem?_set_ne this, List.getElem?_set_ne this]
        exact g3 k hk'
      · dsimp only
        by_cases h : q = i
        · subst h
          rw [e] at hqk
          cases hqk
          rw [e'] at hqc
          cases hqc
          rw [List.getElem?_set_self (by omega), List.getElem?_set_self (by omega)]
          rcases hcase with ⟨a, g, b⟩ | ⟨a, rfl⟩
          · exact Or.inl ⟨a, _, _, g, b, rfl, rfl⟩
          · exact Or.inr ⟨a, rfl, rfl⟩
        · have hne : px ≠ k := by
            intro hh
            subst hh
            have a1 := List.getElem?_eq_some_iff.1 e
            have a2 := List.getElem?_eq_some_iff.1 hqk
            exact h ((hnd.getElem_inj_iff (hi := a2.1) (hj := a1.1)).1 (a2.2.trans a1.2.symm))
          rw [List.getElem?_set_ne hne, List.getElem?_set_ne hne]
          exact g4 q k c' (by omega) hqk hqc)
    ⟨h1, h2, fun _ _ => ⟨rfl, rfl⟩, by simp⟩
  exact ⟨cs, rs, e, g1, g2, g3, fun q k c hq hc => g4 q k c (List.getElem?_eq_some_iff.1 hq).1 hq hc⟩

theorem hostSearch_spec (fi : Fresh Int) (fr : Fresh R) {m : HostMesh R} (hm : HaloKnown m) {n : Nat}
    {v : List R} (hv : v.length = n * m.ndim) :
    ∃ cs rs, hostSearch fi fr m n v = some (cs, rs) ∧ ∀ k < n, ∃ c r, cs[k]? = some c ∧ rs[k]? = some r ∧
      HostFound m ((v.drop (k * m.ndim)).take m.ndim) c r := by
  obtain ⟨cs, rs, nf, h1, h2, h3, h4, h5, h6⟩ := hostLocal_spec m.rank (n := n)
    (found := (hostPoints m.ndim n v).map m.locate) (cs0 := (fi n).1) (rs0 := (fi n).1)
    (by simp [hostPoints]) (fi n).2 (fi n).2
  have hfound : ∀ k < n, ((hostPoints m.ndim n v).map m.locate)[k]? =
      some (m.locate ((v.drop (k * m.ndim)).take m.ndim)) := by
    intro k hk
    rw [List.getElem?_map, hostPoints_get v hk]
    rfl
  have hlt : ∀ k ∈ nf, k < n := by
    intro k hk
    obtain ⟨c, hc, -⟩ := (h5 k).1 hk
    have := (List.getElem?_eq_some_iff.1 hc).1
    simpa [hostPoints] using this
  have hnf : nf.length ≤ n := by
    have : nf.Subset (List.range n) := fun k hk => List.mem_range.2 (hlt k hk)
    have := (List.subperm_of_subset h4 this).length_le
    simpa using this
  unfold hostSearch
  rw [h1, Option.bind_some]
  cases hh : m.haloLocate with
  | none =>
    refine ⟨cs, rs, rfl, fun k hk => ?_⟩
    have := h6 k _ (hfound k hk)
    refine ⟨_, _, this.1, this.2, ?_⟩
    by_cases hc : m.locate ((v.drop (k * m.ndim)).take m.ndim) > -1
    · rw [if_pos hc, if_pos hc]
      exact HostFound.own (by omega)
    · rw [if_neg hc, if_neg hc]
      exact HostFound.lost (by omega) (by rw [hh]; simp)
  | some loc =>
    obtain ⟨vh, e1, e2⟩ := hostHaloCopy_spec (vh0 := (fr (n * m.ndim)).1) hv (fr (n * m.ndim)).2 hnf hlt
    obtain ⟨cs', rs', e3, -, -, e6, e7⟩ := hostHalo_spec (lids := m.lids)
      (found := (hostPoints m.ndim n vh).map loc) h4 hlt (by simp [hostPoints, hnf]) h2 h3 (by
        intro c hc hpos
        obtain ⟨x, -, rfl⟩ := List.mem_map.1 hc
        exact hm loc x hh hpos)
    dsimp only
    rw [e1, Option.bind_some, e3]
    refine ⟨cs', rs', rfl, fun k hk => ?_⟩
    have hloc := h6 k _ (hfound k hk)
    by_cases hc : m.locate ((v.drop (k * m.ndim)).take m.ndim) > -1
    · have hn : k ∉ nf := by
        intro hkn
        obtain ⟨c, hc', hneg⟩ := (h5 k).1 hkn
        rw [hfound k hk] at hc'
        cases hc'
        omega
      rw [if_pos hc, if_pos hc] at hloc
      refine ⟨_, _, (e6 k hn).1.trans hloc.1, (e6 k hn).2.trans hloc.2, HostFound.own (by omega)⟩
    · have hkn : k ∈ nf := (h5 k).2 ⟨_, hfound k hk, by omega⟩
      obtain ⟨q, hq, hqk⟩ := List.getElem_of_mem hkn
      have hq' : nf[q]? = some k := by rw [List.getElem?_eq_getElem hq, hqk]
      have hfq : ((hostPoints m.ndim n vh).map loc)[q]? =
          some (loc ((v.drop (k * m.ndim)).take m.ndim)) := by
        rw [List.getElem?_map, hostPoints_get vh (by omega), e2 q k hq']
        rfl
      rcases e7 q k _ hq' hfq with ⟨a, r, l, g, b, c1, c2⟩ | ⟨a, c1, c2⟩
      · exact ⟨l, r, c1, c2, HostFound.halo loc l r g (by omega) hh a b⟩
      · refine ⟨-1, -1, c1, c2, HostFound.lost (by omega) ?_⟩
        intro loc' hl
        rw [hh] at hl
        cases hl
        exact a

/-! ## Writing back -/

theorem hostPut_spec {cells : List (List (HostPart R))} {cl : Nat × Nat} {p : HostPart R}
    (h : hostGet cells cl = some p) (q : HostPart R) :
    ∃ out, hostPut cells cl q = some out ∧ out.map List.length = cells.map List.length ∧
      hostGet out cl = some q ∧ ∀ cl', cl' ≠ cl → hostGet out cl' = hostGet cells cl' := by
  obtain ⟨c, l⟩ := cl
  unfold hostGet rd at h
  cases hps : cells[c]? with
  | none => rw [hps] at h; cases h
  | some ps =>
    rw [hps, Option.bind_some] at h
    have hc := (List.getElem?_eq_some_iff.1 hps)
    have hl := (List.getElem?_eq_some_iff.1 h).1
    dsimp only at hl
    refine ⟨cells.set c (ps.set l q), ?_, ?_, ?_, ?_⟩
    · unfold hostPut rd
      dsimp only
      rw [hps, Option.bind_some, st_eq_some hl, Option.bind_some, st_eq_some hc.1]
    · refine List.ext_getElem? fun i => ?_
      rw [List.getElem?_map, List.getElem?_map]
      by_cases hi : c = i
      · subst hi
        rw [List.getElem?_set_self hc.1, hps]
        simp
      · rw [List.getElem?_set_ne hi]
    · unfold hostGet rd
      dsimp only
      rw [List.getElem?_set_self hc.1, Option.bind_some, List.getElem?_set_self hl]
    · rintro ⟨c', l'⟩ hne
      unfold hostGet rd
      dsimp only
      by_cases hi : c = c'
      · subst hi
        rw [List.getElem?_set_self hc.1, hps, Option.bind_some, Option.bind_some, List.getElem?_set_ne]
        intro hl'
        exact hne (by rw [hl'])
      · rw [List.getElem?_set_ne hi]

theorem deinterlace_spec (s : Sched) {n : Nat} {lin : Nat × Nat → Nat} {items : List (Nat × Nat)} {cs rs : List Int}
    {cells : List (List (HostPart R))} (hlin : items.map lin = List.range n)
    (hcr : ∀ k < n, ∃ c r, cs[k]? = some c ∧ rs[k]? = some r)
    (hp : ∀ cl ∈ items, ∃ p, hostGet cells cl = some p ∧ 1 ≤ p.cell.length ∧ 2 ≤ p.rank.length) :
    ∃ out, hostDeinterlace s lin items cs rs cells = some out ∧ out.map List.length = cells.map List.length ∧
      (∀ cl, cl ∉ items → hostGet out cl = hostGet cells cl) ∧
      ∀ cl ∈ items, ∀ p c r, hostGet cells cl = some p → cs[lin cl]? = some c → rs[lin cl]? = some r →
        hostGet out cl = some { p with cell := p.cell.set 0 c, rank := p.rank.set 1 r } := by
  have hnd : (s.order items).Nodup := by
    rw [(s.perm items).nodup_iff]
    exact List.Nodup.of_map lin (by rw [hlin]; exact List.nodup_range)
  obtain ⟨out, h1, h2, h3, h4⟩ := runItems_invariant (items := s.order items)
    (step := fun cl cells => (hostGet cells cl).bind fun p =>
      (rd cs (lin cl)).bind fun c => (st p.cell 0 c).bind fun pc =>
      (rd rs (lin cl)).bind fun r => (st p.rank 1 r).bind fun pr =>
      hostPut cells cl { p with cell := pc, rank := pr })
    (P := fun pre out => out.map List.length = cells.map List.length ∧
      (∀ cl, cl ∉ pre → hostGet out cl = hostGet cells cl) ∧
      ∀ cl ∈ pre, ∀ p c r, hostGet cells cl = some p → cs[lin cl]? = some c → rs[lin cl]? = some r →
        hostGet out cl = some { p with cell := p.cell.set 0 c, rank := p.rank.set 1 r })
    (s := cells) (by
      intro pre cl post out hsplit ⟨g1, g2, g3⟩
      have hmem : cl ∈ items := (s.perm items).mem_iff.1 (by rw [hsplit]; simp)
      obtain ⟨p, e, hl1, hl2⟩ := hp cl hmem
      have hnot : cl ∉ pre := by
        rw [hsplit] at hnd
        intro hh
        exact List.disjoint_of_nodup_append hnd hh (by simp)
      have hk : lin cl < n := by
        have : lin cl ∈ items.map lin := List.mem_map_of_mem hmem
        rw [hlin] at this
        exact List.mem_range.1 this
      obtain ⟨c, r, ec, er⟩ := hcr _ hk
      have eo : hostGet out cl = some p := (g2 cl hnot).trans e
      obtain ⟨out', o1, o2, o3, o4⟩ := hostPut_spec eo { p with cell := p.cell.set 0 c, rank := p.rank.set 1 r }
      refine ⟨out', ?_, o2.trans g1, fun cl' hcl' => ?_, fun cl' hcl' p' c' r' hp' hc' hr' => ?_⟩
      · unfold rd
        rw [eo, Option.bind_some, ec, Option.bind_some, st_eq_some (by omega), Option.bind_some, er,
          Option.bind_some, st_eq_some (by omega), Option.bind_some]
        exact o1
      · rw [List.mem_append, List.mem_singleton, not_or] at hcl'
        rw [o4 cl' hcl'.2]
        exact g2 cl' hcl'.1
      · by_cases h : cl' = cl
        · subst h
          rw [e] at hp'
          cases hp'
          rw [ec] at hc'
          cases hc'
          rw [er] at hr'
          cases hr'
          exact o3
        · rw [o4 cl' h]
          refine g3 cl' ?_ p' c' r' hp' hc' hr'
          simpa [h] using hcl')
    ⟨rfl, fun _ _ => rfl, by simp⟩
  exact ⟨out, h1, h2, fun cl hcl => h3 cl fun hh => hcl ((s.perm items).mem_iff.1 hh),
    fun cl hcl => h4 cl ((s.perm items).mem_iff.2 hcl)⟩

end NP
