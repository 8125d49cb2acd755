import Verif.Group.LemmasDense

/-! The sparse compression kernels compute a correct plan, whatever order the work items
with atomic counters run in. -/

set_option autoImplicit false

namespace NP

open Spec

theorem length_eq_of_bij {ι : Type} {l : List ι} {n : Nat} {f : ι → Nat} (hnd : l.Nodup)
    (hinj : ∀ i ∈ l, ∀ j ∈ l, f i = f j → i = j) (hf : ∀ i ∈ l, f i < n)
    (hsurj : ∀ r, r < n → ∃ i ∈ l, f i = r) : l.length = n := by
  have : (l.map f).Perm (List.range n) := by
    rw [List.perm_ext_iff_of_nodup (List.Nodup.map_on hinj hnd) List.nodup_range]
    intro r
    rw [List.mem_map, List.mem_range]
    exact ⟨fun ⟨i, hi, h⟩ => h ▸ hf i hi, fun h => hsurj r h⟩
  have := this.length_eq
  simpa using this

theorem replicate_getD (n c : Nat) : (List.replicate n 0).getD c 0 = 0 := by
  rw [List.getD_eq_getElem?_getD, List.getElem?_replicate]
  split <;> rfl

/-- Kernel that decrements counters. -/
theorem runItems_decr {ι : Type} {items : List ι} {ctr : List Nat} (key : ι → Nat)
    (h : ∀ i ∈ items, key i < ctr.length)
    (hle : ∀ c v, ctr[c]? = some v → keyCount (fun i => some (key i)) items c ≤ v) :
    ∃ ctr', runItems (fun i (s : List Nat) => (rd s (key i)).bind fun v =>
        if v = 0 then none else some (s.set (key i) (v - 1))) items ctr = some ctr' ∧
      ctr'.length = ctr.length ∧
      ∀ c v, ctr[c]? = some v →
        ctr'[c]? = some (v - keyCount (fun i => some (key i)) items c) := by
  have key' := runItems_invariant (step := fun i (s : List Nat) => (rd s (key i)).bind fun v =>
        if v = 0 then none else some (s.set (key i) (v - 1))) (items := items) (s := ctr)
    (P := fun done s => s.length = ctr.length ∧ ∀ c v, ctr[c]? = some v →
        s[c]? = some (v - keyCount (fun i => some (key i)) done c)) ?_ ?_
  · exact key'
  · rintro pre i post s he ⟨hl, hs⟩
    have hi : i ∈ items := by rw [he]; simp
    have hv : ctr[key i]? = some (ctr[key i]'(h i hi)) := List.getElem?_eq_getElem _
    generalize ctr[key i]'(h i hi) = v at hv
    have hcount := hle _ _ hv
    rw [he, keyCount_append] at hcount
    have h1 : keyCount (fun i => some (key i)) (i :: post) (key i) =
        keyCount (fun i => some (key i)) post (key i) + 1 := by
      unfold keyCount
      rw [List.filter_cons_of_pos (by simp)]; simp
    have hsi := hs _ _ hv
    refine ⟨s.set (key i) (v - keyCount (fun i => some (key i)) pre (key i) - 1), ?_, by simp [hl],
      ?_⟩
    · simp only [rd, hsi, Option.bind_some]
      rw [if_neg (by omega)]
    · intro c w hw
      rw [keyCount_append]
      by_cases hc : key i = c
      · subst hc
        rw [hv] at hw
        simp only [Option.some.injEq] at hw
        rw [List.getElem?_set_self (by rw [hl]; exact h i hi)]
        have h2 : keyCount (fun i => some (key i)) [i] (key i) = 1 := by simp [keyCount]
        rw [h2, ← hw]
        congr 1
      · rw [List.getElem?_set_ne hc, hs c w hw]
        have h2 : keyCount (fun i => some (key i)) [i] c = 0 := by simp [keyCount, hc]
        rw [h2]; rfl
  · refine ⟨rfl, fun c v hv => ?_⟩
    simp [keyCount, hv]

theorem blockItems_covers {npart : List Nat} {ce : Nat} {bs : List LoopBlock}
    (h : BlocksCover npart 0 ce 1 bs) :
    ∃ l, collectM blockItemsCellLayer bs = some l ∧ l.Nodup ∧ (∀ p ∈ l, p.1 < ce) ∧
      ∀ c k, c < ce → IsParticle npart c k → (c, k) ∈ l := by
  let f : LoopBlock → List (Nat × Nat) := fun b =>
    (pairs b.globalCells b.globalLayers).map fun g => (g.1 + b.offsetCell, g.2 + b.offsetLayer)
  have hf : ∀ b ∈ bs, blockItemsCellLayer b = some (f b) := by
    intro b hb
    obtain ⟨k1, k2, -⟩ := h.ok b hb
    unfold blockItemsCellLayer blockItems
    rw [if_neg (by omega)]; rfl
  have hmem : ∀ b c k, (c, k) ∈ f b ↔ b.offsetCell ≤ c ∧ c < b.offsetCell + b.globalCells ∧
      b.offsetLayer ≤ k ∧ k < b.offsetLayer + b.globalLayers := by
    intro b c k
    simp only [f, List.mem_map, Prod.mk.injEq]
    constructor
    · rintro ⟨⟨x, y⟩, hxy, h1, h2⟩
      rw [mem_pairs] at hxy
      simp only at hxy h1 h2
      omega
    · rintro ⟨h1, h2, h3, h4⟩
      refine ⟨(c - b.offsetCell, k - b.offsetLayer), ?_, by simp only; omega, by simp only; omega⟩
      rw [mem_pairs]
      simp only; omega
  refine ⟨bs.flatMap f, collectM_eq_flatMap hf, ?_, ?_, ?_⟩
  · rw [List.nodup_flatMap]
    refine ⟨fun b _ => List.Nodup.map_on ?_ (pairs_nodup _ _), ?_⟩
    · rintro ⟨x, y⟩ _ ⟨x', y'⟩ _ hxy
      simp only [Prod.mk.injEq] at hxy
      exact Prod.ext (by simp only; omega) (by simp only; omega)
    · refine List.Pairwise.imp_of_mem ?_ h.unique
      intro b b' hb hb' hu
      rw [Function.onFun, List.disjoint_left]
      rintro ⟨c, k⟩ h1 h2
      rw [hmem] at h1 h2
      have s1 := h.stride_eq b hb
      have s2 := h.stride_eq b' hb'
      rw [s1, s2] at hu
      exact hu c k h1.1 h1.2.1 h2.1 h2.2.1 (by omega) (by omega) (by omega) (by omega)
  · rintro ⟨c, k⟩ hp
    rw [List.mem_flatMap] at hp
    obtain ⟨b, hb, hp⟩ := hp
    rw [hmem] at hp
    exact (h.inside b hb c hp.1 hp.2.1).2
  · intro c k hc hk
    obtain ⟨b, hb, h1, h2, h3, h4⟩ := h.total c k (Nat.zero_le _) hc hk
    rw [List.mem_flatMap]
    have s1 := h.stride_eq b hb
    rw [s1] at h3 h4
    exact ⟨b, hb, (hmem b c k).2 ⟨h1, h2, by omega, by omega⟩⟩

theorem sparseIndices_spec {e : Env} (hE : EnvOk e) {ncell cellSym : Nat} {old : List Nat}
    {npart : Nat} {cells layers : List Int} {m : Mem} {a : Arrays} {new : List Nat}
    (hold : old.length = ncell) (hsmall : ∀ n ∈ old, n < 2 ^ 31)
    (ha1 : a.1.length = npart) (ha2 : a.2.1.length = npart) (ha3 : a.2.2.length = npart)
    (hnew : new.length = ncell)
    (hmem : ∀ c n k, old[c]? = some n → k < n → (m ⟨cellSym, c, 0, k⟩).isSome = true)
    (cc kk : Nat → Nat)
    (hcc : ∀ i, i < npart → cells[i]? = some (cc i : Int))
    (hkk : ∀ i, i < npart → layers[i]? = some (kk i : Int))
    (hvalid : ∀ i, i < npart → ∃ n, old[cc i]? = some n ∧ kk i < n)
    (hdistinct : ∀ i j, i < npart → j < npart → cc i = cc j → kk i = kk j → i = j)
    (hneg : ∀ c n k v, old[c]? = some n → k < n → ¬ Listed npart cells layers c k →
      m ⟨cellSym, c, 0, k⟩ = some v → 0 ≤ v) :
    ∃ p fc flo fln, sparseIndices e ncell cellSym old npart cells layers m a new =
        some (marked ncell cellSym npart cells layers m, p) ∧
      PlanOk ncell (fun c => old.getD c 0)
        (fun c k => decide (Listed npart cells layers c k)) p fc flo fln := by
  have ho : ∀ c, c < ncell → old[c]? = some (old.getD c 0) := by
    intro c hc
    have : c < old.length := by omega
    simp [this]
  generalize hodef : (fun c => old.getD c 0) = o
  have ho : ∀ c, c < ncell → old[c]? = some (o c) := by
    intro c hc; rw [ho c hc, ← hodef]
  have hlt : ∀ c (n : Nat), old[c]? = some n → c < ncell := by
    intro c n h
    have := (List.getElem?_eq_some_iff.1 h).1
    omega
  have hv : ∀ i, i < npart → cc i < ncell ∧ kk i < o (cc i) := by
    intro i hi
    obtain ⟨n, h1, h2⟩ := hvalid i hi
    have hc := hlt _ _ h1
    rw [ho _ hc] at h1
    simp only [Option.some.injEq] at h1
    exact ⟨hc, by omega⟩
  have hL : ∀ c k, Listed npart cells layers c k ↔ ∃ i, i < npart ∧ cc i = c ∧ kk i = k := by
    intro c k
    rw [listed_iff]
    constructor
    · rintro ⟨i, hi, h1, h2⟩
      rw [hcc i hi] at h1; rw [hkk i hi] at h2
      simp only [Option.some.injEq] at h1 h2
      exact ⟨i, hi, by omega, by omega⟩
    · rintro ⟨i, hi, rfl, rfl⟩; exact ⟨i, hi, hcc i hi, hkk i hi⟩
  generalize hRdef : (fun c k => decide (Listed npart cells layers c k)) = R
  have hRiff' : ∀ c k, R c k = true ↔ Listed npart cells layers c k := by
    intro c k; rw [← hRdef]; simp
  have hRiff : ∀ c k, R c k = true ↔ ∃ i, i < npart ∧ cc i = c ∧ kk i = k := by
    intro c k; rw [hRiff']; exact hL c k
  let nw : Nat → Nat := fun c => o c - cnt (R c) (o c)
  have hcle : ∀ c, cnt (R c) (o c) ≤ o c := fun c => cnt_le _ _
  have hnw : ∀ c, nw c ≤ o c := fun c => Nat.sub_le _ _
  -- counting listed particles below a bound
  have hcount : ∀ c x (items : List Nat), c < ncell → items.Perm (List.range npart) →
      keyCount (fun i => if kk i < x then some (cc i) else none) items c = cnt (R c) x := by
    intro c x items hc hp
    rw [keyCount_perm hp]
    unfold keyCount
    have hmem' : ∀ i, i ∈ (List.range npart).filter
        (fun j => decide ((if kk j < x then some (cc j) else none) = some c)) ↔
        i < npart ∧ kk i < x ∧ cc i = c := by
      intro i
      rw [List.mem_filter, List.mem_range]
      by_cases h : kk i < x <;> simp [h]
    refine length_eq_of_bij (f := fun i => cnt (R c) (kk i)) (List.nodup_range.filter _) ?_ ?_ ?_
    · intro i hi j hj hij
      rw [hmem'] at hi hj
      refine hdistinct i j hi.1 hj.1 (by rw [hi.2.2, hj.2.2]) (cnt_inj ?_ ?_ hij)
      · exact (hRiff c _).2 ⟨i, hi.1, hi.2.2, rfl⟩
      · exact (hRiff c _).2 ⟨j, hj.1, hj.2.2, rfl⟩
    · intro i hi
      rw [hmem'] at hi
      exact cnt_lt hi.2.1 ((hRiff c _).2 ⟨i, hi.1, hi.2.2, rfl⟩)
    · intro r hr
      obtain ⟨k, k1, k2, k3⟩ := cnt_surj hr
      obtain ⟨i, i1, i2, i3⟩ := (hRiff c k).1 k2
      subst i3
      exact ⟨i, (hmem' i).2 ⟨i1, k1, i2⟩, k3⟩
  unfold sparseIndices
  -- copy of the counts
  obtain ⟨N0, e1, l1, g1, -⟩ := runItems_fill (step := fun c (b : List Nat) =>
      (rd old c).bind fun n => st b c n) (m := new) ((e.sched 0).perm (List.range ncell))
    (by omega) o (by intro c hc b _; simp only [rd, ho c hc, Option.bind_some])
  rw [e1]
  simp only [Option.bind_some]
  -- mark and decrement
  have hin1 : ∀ i, i ∈ (e.sched 1).order (List.range npart) ↔ i < npart := fun i => by
    rw [((e.sched 1).perm _).mem_iff, List.mem_range]
  have hcountall : ∀ c, c < ncell →
      keyCount (fun i => some (cc i)) ((e.sched 1).order (List.range npart)) c =
        cnt (R c) (o c) := by
    intro c hc
    rw [← hcount c (o c) _ hc ((e.sched 1).perm (List.range npart))]
    unfold keyCount
    congr 1
    apply List.filter_congr
    intro i hi
    have hi' := (hin1 i).1 hi
    have := hv i hi'
    by_cases hci : cc i = c
    · subst hci; simp [this.2]
    · by_cases hx : kk i < o c <;> simp [hx, hci]
  obtain ⟨N, e2, l2, g2⟩ := runItems_decr (items := (e.sched 1).order (List.range npart))
    (ctr := N0) cc (by
      intro i hi
      have := (hv i ((hin1 i).1 hi)).1
      omega)
    (by
      intro c v hcv
      have hc : c < ncell := by
        have := (List.getElem?_eq_some_iff.1 hcv).1; omega
      rw [g1 c hc] at hcv
      simp only [Option.some.injEq] at hcv
      rw [hcountall c hc, ← hcv]; exact hcle c)
  have lN : N.length = ncell := by omega
  have gN : ∀ c, c < ncell → N[c]? = some (nw c) := by
    intro c hc
    rw [g2 c _ (g1 c hc), hcountall c hc]
  have hcl : npart ≤ cells.length := by
    by_contra hcon
    have := hcc (npart - 1) (by omega)
    have := (List.getElem?_eq_some_iff.1 this).1
    omega
  have hll : npart ≤ layers.length := by
    by_contra hcon
    have := hkk (npart - 1) (by omega)
    have := (List.getElem?_eq_some_iff.1 this).1
    omega
  have e3 := mark_spec (ncell := ncell) (cellSym := cellSym) (m := m)
    ((e.sched 1).perm (List.range npart)) hcl hll (by
      intro c k hc hl
      obtain ⟨i, hi, rfl, rfl⟩ := (hL c k).1 hl
      exact hmem _ _ _ (ho _ hc) (hv i hi).2)
  rw [runItems_prod (step := sparseMarkStep cellSym cells layers) (by
    intro i hi s t
    have hi' := (hin1 i).1 hi
    have hvi := hv i hi'
    unfold sparseMarkStep markStep
    simp only [rd, hcc i hi', hkk i hi', Option.bind_some, index]
    rw [if_pos (by omega), if_pos (by omega), if_pos (by omega)]
    simp only [Option.bind_some, Int.toNat_natCast]
    cases s[cc i]? with
    | none => rfl
    | some v =>
      simp only [Option.bind_some]
      by_cases h0 : v = 0
      · simp [h0]
      · simp [h0]) e2 e3]
  simp only [Option.bind_some]
  -- count the holes
  let hkey : Nat → Option Nat := fun i => if kk i < nw (cc i) then some (cc i) else none
  have hin2 : ∀ i, i ∈ (e.sched 2).order (List.range npart) ↔ i < npart := fun i => by
    rw [((e.sched 2).perm _).mem_iff, List.mem_range]
  have hnd2 : ((e.sched 2).order (List.range npart)).Nodup :=
    ((e.sched 2).perm _).nodup_iff.2 List.nodup_range
  have hkeyc : ∀ i c, hkey i = some c ↔ cc i = c ∧ kk i < nw c := by
    intro i c
    simp only [hkey]
    by_cases h : kk i < nw (cc i)
    · rw [if_pos h]
      simp only [Option.some.injEq]
      exact ⟨fun h1 => ⟨h1, h1 ▸ h⟩, fun h1 => h1.1⟩
    · rw [if_neg h]
      simp only [reduceCtorEq, false_iff]
      rintro ⟨rfl, h2⟩; exact h h2
  have hcount2 : ∀ c, c < ncell →
      keyCount hkey ((e.sched 2).order (List.range npart)) c = cnt (R c) (nw c) := by
    intro c hc
    rw [← hcount c (nw c) _ hc ((e.sched 2).perm (List.range npart))]
    unfold keyCount
    congr 1
    apply List.filter_congr
    intro i hi
    rw [decide_eq_decide, hkeyc]
    by_cases hci : kk i < nw c <;> simp [hci]
  generalize hrk : rank hkey ((e.sched 2).order (List.range npart)) = rk at *
  obtain ⟨O, e4, l4, g4, -⟩ := runItems_putStep (m := (e.freshN 0 npart).1)
    (items := (e.sched 2).order (List.range npart))
    (fun i => (hkey i).map fun _ => i) rk
    (by
      intro i hi j hj d h1 h2
      simp only [Option.map_eq_some_iff] at h1 h2
      obtain ⟨_, _, rfl⟩ := h1
      obtain ⟨_, _, h2⟩ := h2
      rw [h2])
    (by
      intro i hi d h1
      simp only [Option.map_eq_some_iff] at h1
      obtain ⟨_, _, rfl⟩ := h1
      rw [(e.freshN 0 npart).2]
      exact (hin2 i).1 hi)
  have e5 : runItems (sparseHoleStep cells layers N) ((e.sched 2).order (List.range npart))
      (List.replicate (ncell + 1) 0, (e.freshN 0 npart).1) =
      some (addCounts hkey ((e.sched 2).order (List.range npart)) (List.replicate (ncell + 1) 0), O)
      := by
    rw [runItems_congr (step' := fetchStep hkey (fun i r o => st o i r) (fun _ o => some o)) (by
      intro i hi s
      have hi' := (hin2 i).1 hi
      have hvi := hv i hi'
      unfold sparseHoleStep fetchStep
      simp only [rd, hcc i hi', hkk i hi', Option.bind_some, index]
      rw [if_pos (by omega)]
      simp only [Option.bind_some, Int.toNat_natCast, gN _ hvi.1, hkey]
      by_cases h : kk i < nw (cc i)
      · rw [if_pos (by omega), if_pos h]
      · rw [if_neg (by omega), if_neg h])]
    rw [runItems_fetch hnd2 (by
      intro i hi c hc
      rw [hkeyc] at hc
      have := (hv i ((hin2 i).1 hi)).1
      simp only [List.length_replicate]; omega)]
    rw [runItems_congr (step' := putStep (fun i => (hkey i).map fun _ => i) rk) (by
      intro i hi s
      unfold putStep
      simp only
      cases hki : hkey i with
      | none => rfl
      | some c =>
        simp only [Option.map_some]
        rw [replicate_getD, ← hrk, Nat.zero_add]), e4]
    rfl
  rw [e5]
  simp only [Option.bind_some]
  generalize hHdef : addCounts hkey ((e.sched 2).order (List.range npart))
    (List.replicate (ncell + 1) 0) = H
  have lH : H.length = ncell + 1 := by rw [← hHdef]; simp [addCounts]
  have gH : ∀ c, c < ncell → H[c]? = some (cnt (R c) (nw c)) := by
    intro c hc
    rw [← hHdef, getElem?_addCounts, hcount2 c hc, List.getElem?_replicate, if_pos (by omega)]
    simp
  -- scan
  obtain ⟨F, e6, l6, g6, -⟩ := C03_exclusive_scan_blocking (e.sched 3) (e.sched 4) (e.sched 5)
    e.scanLocalSize e.computeUnits (ncell + 1) hE.scan_pos (e.freshN 1) H
    (List.replicate (ncell + 1) 0) (by omega) (by simp)
  rw [e6]
  simp only [Option.bind_some]
  have gF : ∀ c, c ≤ ncell → F[c]? = some (before H c) := by
    intro c hc
    have := g6 c (by omega)
    simpa [before] using this
  simp only [rd, gF ncell (Nat.le_refl _), Option.bind_some]
  have hTP : ∀ c k, c < ncell → k < cnt (R c) (nw c) → IsParticle H c k :=
    fun c k hc hk => ⟨_, gH c hc, hk⟩
  have hTlt : ∀ c k, c < ncell → k < cnt (R c) (nw c) → before H c + k < before H ncell :=
    fun c k hc hk => before_le (hTP c k hc hk) hc
  have hn : before H ncell ≤ npart := by
    refine sum_holes_le (R := R) (cells := cells) (layers := layers) hold (by simp; omega) ?_ ?_
    · intro c n hcn
      have hc := hlt c n hcn
      rw [ho c hc] at hcn
      simp only [Option.some.injEq] at hcn
      exact ⟨nw c, by rw [← hcn]; exact hnw c, gH c hc⟩
    · intro c n k _ _ hR; exact (hRiff' c k).1 hR
  rw [if_neg (by omega)]
  -- store the holes
  have hrklt : ∀ i, i < npart → kk i < nw (cc i) → rk i < cnt (R (cc i)) (nw (cc i)) := by
    intro i hi h
    rw [← hcount2 (cc i) (hv i hi).1, ← hrk]
    exact rank_lt ((hin2 i).2 hi) ((hkeyc i _).2 ⟨rfl, h⟩)
  have hrkinj : ∀ i j, i < npart → j < npart → kk i < nw (cc i) → kk j < nw (cc j) →
      before H (cc i) + rk i = before H (cc j) + rk j → i = j := by
    intro i j hi hj h1 h2 h3
    obtain ⟨h4, h5⟩ := before_inj (hTP _ _ (hv i hi).1 (hrklt i hi h1))
      (hTP _ _ (hv j hj).1 (hrklt j hj h2)) h3
    rw [← hrk] at h5
    exact rank_inj ((hin2 i).2 hi) ((hkeyc i (cc i)).2 ⟨rfl, h1⟩)
      ((hkeyc j (cc i)).2 ⟨h4.symm, h4 ▸ h2⟩) h5
  have hO : ∀ i, i < npart → kk i < nw (cc i) → O[i]? = some (rk i) := by
    intro i hi h
    exact g4 i ((hin2 i).2 hi) i (by rw [(hkeyc i (cc i)).2 ⟨rfl, h⟩]; rfl)
  have hin6 : ∀ i, i ∈ (e.sched 6).order (List.range npart) ↔ i < npart := fun i => by
    rw [((e.sched 6).perm _).mem_iff, List.mem_range]
  let dh : Nat → Option Nat := fun i =>
    if kk i < nw (cc i) then some (before H (cc i) + rk i) else none
  have hdh : ∀ i d, dh i = some d ↔ kk i < nw (cc i) ∧ before H (cc i) + rk i = d := by
    intro i d
    simp only [dh]
    by_cases h : kk i < nw (cc i) <;> simp [h]
  have hdinj : ∀ i ∈ (e.sched 6).order (List.range npart),
      ∀ j ∈ (e.sched 6).order (List.range npart), ∀ d, dh i = some d → dh j = some d → i = j := by
    intro i hi j hj d h1 h2
    rw [hdh] at h1 h2
    exact hrkinj i j ((hin6 i).1 hi) ((hin6 j).1 hj) h1.1 h2.1 (by omega)
  have hdb : ∀ i ∈ (e.sched 6).order (List.range npart), ∀ d, dh i = some d → d < npart := by
    intro i hi d h1
    rw [hdh] at h1
    have hi' := (hin6 i).1 hi
    have := hTlt _ _ (hv i hi').1 (hrklt i hi' h1.1)
    omega
  obtain ⟨A1, r1, la1, s1, -⟩ := runItems_putStep (m := a.1)
    (items := (e.sched 6).order (List.range npart)) dh (fun i => (cc i : Int))
    (fun p hp q hq d h1 h2 => by rw [hdinj p hp q hq d h1 h2]) (by rw [ha1]; exact hdb)
  obtain ⟨A2, r2, la2, s2, -⟩ := runItems_putStep (m := a.2.1)
    (items := (e.sched 6).order (List.range npart)) dh (fun i => (rk i : Int))
    (fun p hp q hq d h1 h2 => by rw [hdinj p hp q hq d h1 h2]) (by rw [ha2]; exact hdb)
  obtain ⟨A3, r3, la3, s3, -⟩ := runItems_putStep (m := a.2.2)
    (items := (e.sched 6).order (List.range npart)) dh (fun i => (kk i : Int))
    (fun p hp q hq d h1 h2 => by rw [hdinj p hp q hq d h1 h2]) (by rw [ha3]; exact hdb)
  have r23 := runItems_prod (step := fun p (s : List Int × List Int) =>
      (putStep dh (fun i => (rk i : Int)) p s.1).bind fun x =>
      (putStep dh (fun i => (kk i : Int)) p s.2).bind fun y => some (x, y))
    (fun _ _ _ _ => rfl) r2 r3
  have r123 : runItems (sparseStoreStep cells layers N F O) ((e.sched 6).order (List.range npart))
      a = some (A1, A2, A3) := by
    refine runItems_prod (s := a.1) (t := a.2) ?_ r1 r23
    intro i hi s t
    have hi' := (hin6 i).1 hi
    have hvi := hv i hi'
    unfold sparseStoreStep
    simp only [rd, hcc i hi', hkk i hi', Option.bind_some, index]
    rw [if_pos (by omega)]
    simp only [Option.bind_some, Int.toNat_natCast, gN _ hvi.1, putStep, dh]
    by_cases h : kk i < nw (cc i)
    · rw [if_pos (by omega), hO i hi' h]
      simp only [Option.bind_some, gF _ (Nat.le_of_lt hvi.1), if_pos h, Option.bind_assoc]
    · rw [if_neg (by omega)]
      simp only [if_neg h, Option.bind_some]
  rw [r123]
  simp only [Option.bind_some]
  -- search space
  obtain ⟨D, e7, l7, g7, g7'⟩ := runItems_fill (step := fun c (ctr : List Nat) =>
      (rd old c).bind fun o => (rd N c).bind fun nw =>
      (index ((o : Int) - nw)).bind fun d => st ctr c d)
    (m := H) ((e.sched 7).perm (List.range ncell)) (by omega) (fun c => o c - nw c) (by
      intro c hc b _
      simp only [rd, ho c hc, gN c hc, Option.bind_some, index]
      have := hnw c
      rw [if_pos (by omega)]
      simp only [Option.bind_some]
      rw [show ((o c : Int) - nw c).toNat = o c - nw c by omega])
  rw [e7]
  simp only [Option.bind_some]
  have lDt : (D.take ncell).length = ncell := by rw [List.length_take]; omega
  have gD : ∀ c, c < ncell → (D.take ncell)[c]? = some (o c - nw c) := by
    intro c hc
    rw [List.getElem?_take, if_pos hc]; exact g7 c hc
  obtain ⟨ls', hls, hls1, _⟩ := loopLocalSize_zero (lmem := e.loop.localMemSize) (S := 1)
    hE.localSize_pos hE.localSize_int
  obtain ⟨bs, b1, b2, _⟩ := getGeneric_covers (npart := D.take ncell) (cs := 0)
    (ce := (D.take ncell).length) hls hls1 Nat.one_pos hE.nbin_pos (Nat.le_refl _) (by
      intro d hd
      obtain ⟨c, hc⟩ := List.mem_iff_getElem?.1 hd
      have hcl : c < ncell := by
        have := (List.getElem?_eq_some_iff.1 hc).1; omega
      rw [gD c hcl] at hc
      simp only [Option.some.injEq] at hc
      have := hsmall (o c) (List.mem_of_getElem? (ho c hcl))
      omega)
  unfold getAllCells
  rw [b1]
  simp only [Option.bind_some]
  obtain ⟨raw, b3, b4, b5, b6⟩ := blockItems_covers b2
  rw [b3]
  simp only [Option.bind_some]
  rw [lDt] at b5 b6
  -- only the work items of existing particles matter
  let M := marked ncell cellSym npart cells layers m
  let keep : Nat × Nat → Bool := fun p => decide (p.2 + nw p.1 < o p.1)
  have hrin : ∀ p, p ∈ ((e.sched 8).order raw).filter keep ↔
      p.1 < ncell ∧ p.2 + nw p.1 < o p.1 := by
    intro p
    rw [List.mem_filter, ((e.sched 8).perm raw).mem_iff]
    simp only [keep, decide_eq_true_eq]
    constructor
    · rintro ⟨h1, h2⟩; exact ⟨b5 p h1, h2⟩
    · rintro ⟨h1, h2⟩
      exact ⟨b6 p.1 p.2 h1 ⟨_, gD p.1 h1, by omega⟩, h2⟩
  have hndS : (((e.sched 8).order raw).filter keep).Nodup :=
    (((e.sched 8).perm raw).nodup_iff.2 b4).filter _
  rw [runItems_filter (p := keep) (by
    intro p hp hk s
    have hc : p.1 < ncell := b5 p (((e.sched 8).perm raw).mem_iff.1 hp)
    simp only [keep, decide_eq_false_iff_not] at hk
    unfold sparseSearchStep
    simp only [rd, gN p.1 hc, ho p.1 hc, Option.bind_some]
    rw [if_neg hk])]
  let K : Nat → Nat → Bool := fun c k => !R c k
  have hcntK : ∀ c k, cnt (K c) k = k - cnt (R c) k := fun c k => cnt_not _ _
  have hKtot : ∀ c, cnt (K c) (o c) = cnt (K c) (nw c) + cnt (R c) (nw c) := by
    intro c
    rw [hcntK, hcntK]
    have := hcle c
    have := cnt_le (R c) (nw c)
    simp only [nw] at *
    omega
  let skey : Nat × Nat → Option Nat := fun p =>
    if R p.1 (p.2 + nw p.1) = false then some p.1 else none
  have hskey : ∀ p c, skey p = some c ↔ p.1 = c ∧ R c (p.2 + nw c) = false := by
    intro p c
    simp only [skey]
    by_cases h : R p.1 (p.2 + nw p.1) = false
    · rw [if_pos h]
      simp only [Option.some.injEq]
      exact ⟨fun h1 => ⟨h1, h1 ▸ h⟩, fun h1 => h1.1⟩
    · rw [if_neg h]
      simp only [reduceCtorEq, false_iff]
      rintro ⟨rfl, h2⟩; exact h h2
  have hscount : ∀ c, c < ncell →
      keyCount skey (((e.sched 8).order raw).filter keep) c = cnt (R c) (nw c) := by
    intro c hc
    unfold keyCount
    have hm : ∀ p, p ∈ (((e.sched 8).order raw).filter keep).filter
        (fun j => decide (skey j = some c)) ↔
        p.1 = c ∧ p.2 + nw c < o c ∧ R c (p.2 + nw c) = false := by
      intro p
      rw [List.mem_filter, hrin, decide_eq_true_eq, hskey]
      constructor
      · rintro ⟨⟨h1, h2⟩, rfl, h3⟩; exact ⟨rfl, h2, h3⟩
      · rintro ⟨rfl, h2, h3⟩; exact ⟨⟨hc, h2⟩, rfl, h3⟩
    have htot := hKtot c
    refine length_eq_of_bij (f := fun p => cnt (K c) (p.2 + nw c) - cnt (K c) (nw c))
      (hndS.filter _) ?_ ?_ ?_
    · intro p hp q hq hpq
      rw [hm] at hp hq
      have h1 := cnt_mono (p := K c) (show nw c ≤ p.2 + nw c by omega)
      have h2 := cnt_mono (p := K c) (show nw c ≤ q.2 + nw c by omega)
      have := cnt_inj (p := K c) (a := p.2 + nw c) (b := q.2 + nw c) (by simp [K, hp.2.2])
        (by simp [K, hq.2.2]) (by omega)
      exact Prod.ext (by rw [hp.1, hq.1]) (by omega)
    · intro p hp
      rw [hm] at hp
      have := cnt_lt (p := K c) hp.2.1 (by simp [K, hp.2.2])
      have h1 := cnt_mono (p := K c) (show nw c ≤ p.2 + nw c by omega)
      omega
    · intro r hr
      obtain ⟨k, k1, k2, k3⟩ := cnt_surj (p := K c) (n := o c) (r := cnt (K c) (nw c) + r)
        (by omega)
      have hge : nw c ≤ k := by
        by_contra hcon
        have := cnt_lt (p := K c) (a := k) (b := nw c) (by omega) k2
        omega
      refine ⟨(c, k - nw c), (hm _).2 ⟨rfl, ?_, ?_⟩, ?_⟩
      · simp only; omega
      · simp only
        rw [show k - nw c + nw c = k by omega]
        simpa [K] using k2
      · simp only
        rw [show k - nw c + nw c = k by omega]; omega
  generalize hsr : rank skey (((e.sched 8).order raw).filter keep) = sr at *
  have hsrlt : ∀ p c, p ∈ ((e.sched 8).order raw).filter keep → skey p = some c →
      sr p < cnt (R c) (nw c) := by
    intro p c hp hs
    have hc := ((hrin p).1 hp).1
    have hpc := ((hskey p c).1 hs).1
    rw [← hscount c (hpc ▸ hc), ← hsr]
    exact rank_lt hp hs
  have hsrinj : ∀ p q c c', p ∈ ((e.sched 8).order raw).filter keep →
      q ∈ ((e.sched 8).order raw).filter keep → skey p = some c → skey q = some c' →
      before H c + sr p = before H c' + sr q → p = q := by
    intro p q c c' hp hq h1 h2 h3
    have hc := ((hrin p).1 hp).1
    have hc' := ((hrin q).1 hq).1
    rw [((hskey p c).1 h1).1] at hc
    rw [((hskey q c').1 h2).1] at hc'
    obtain ⟨h4, h5⟩ := before_inj (hTP c _ hc (hsrlt p c hp h1))
      (hTP c' _ hc' (hsrlt q c' hq h2)) h3
    subst h4
    rw [← hsr] at h5
    exact rank_inj hp h1 h2 h5
  obtain ⟨S, e8, l8, g8, -⟩ := runItems_putStep (m := (e.freshN 2 (before H ncell)).1)
    (items := ((e.sched 8).order raw).filter keep)
    (fun p => (skey p).map fun c => before H c + sr p) (fun p => p.2 + nw p.1)
    (by
      intro p hp q hq d h1 h2
      simp only [Option.map_eq_some_iff] at h1 h2
      obtain ⟨c, h1, h1'⟩ := h1
      obtain ⟨c', h2, h2'⟩ := h2
      rw [hsrinj p q c c' hp hq h1 h2 (by omega)])
    (by
      intro p hp d h1
      simp only [Option.map_eq_some_iff] at h1
      obtain ⟨c, h1, rfl⟩ := h1
      rw [(e.freshN 2 (before H ncell)).2]
      have hc := ((hrin p).1 hp).1
      rw [((hskey p c).1 h1).1] at hc
      exact hTlt c _ hc (hsrlt p c hp h1))
  have e9 : runItems (sparseSearchStep cellSym M old N F) (((e.sched 8).order raw).filter keep)
      (List.replicate (ncell + 1) 0, (e.freshN 2 (before H ncell)).1) =
      some (addCounts skey (((e.sched 8).order raw).filter keep) (List.replicate (ncell + 1) 0),
        S) := by
    rw [runItems_congr (step' := fetchStep skey (fun p r s => st s (before H p.1 + r)
        (p.2 + nw p.1)) (fun _ o => some o)) (by
      intro p hp s
      obtain ⟨hc, hk⟩ := (hrin p).1 hp
      unfold sparseSearchStep fetchStep
      simp only [rd, gN p.1 hc, ho p.1 hc, Option.bind_some]
      rw [if_pos hk]
      have hsome := hmem p.1 _ (p.2 + nw p.1) (ho p.1 hc) hk
      by_cases hl : Listed npart cells layers p.1 (p.2 + nw p.1)
      · have hR := (hRiff' p.1 (p.2 + nw p.1)).2 hl
        have hs : skey p = none := by simp [skey, hR]
        rw [hs]
        simp only [M, marked, true_and, hc, hl, if_true, Option.bind_some]
        rw [if_neg (by omega)]
      · have hR : R p.1 (p.2 + nw p.1) = false := by
          rw [← Bool.not_eq_true]; exact fun h => hl ((hRiff' _ _).1 h)
        have hs : skey p = some p.1 := by simp [skey, hR]
        rw [hs]
        obtain ⟨v, hv'⟩ := Option.isSome_iff_exists.1 hsome
        have := hneg p.1 _ _ v (ho p.1 hc) hk hl hv'
        simp only [M, marked, true_and, hc, hl, if_false, hv', Option.bind_some]
        rw [if_pos (by omega)]
        simp only [gF _ (Nat.le_of_lt hc), Option.bind_some])]
    rw [runItems_fetch hndS (by
      intro p hp c hc
      rw [hskey] at hc
      have := ((hrin p).1 hp).1
      simp only [List.length_replicate]; omega)]
    rw [runItems_congr (step' := putStep (fun p => (skey p).map fun c => before H c + sr p)
        (fun p => p.2 + nw p.1)) (by
      intro p hp s
      unfold putStep
      simp only
      cases hki : skey p with
      | none => rfl
      | some c =>
        simp only [Option.map_some]
        rw [replicate_getD, ← hsr, Nat.zero_add, ((hskey p c).1 hki).1]), e8]
    rfl
  rw [e9]
  simp only [Option.bind_some]
  -- inverses
  have hex1 : ∀ i, i < before H ncell → ∃ j, j < npart ∧ kk j < nw (cc j) ∧
      before H (cc j) + rk j = i := by
    intro i hi
    obtain ⟨c, r, -, hc, ⟨x, hn1, hn2⟩, hj⟩ := before_exists (npart := H) (cs := 0) (ce := ncell)
      (by omega) (by simp [before]) hi
    rw [gH c hc] at hn1
    simp only [Option.some.injEq] at hn1
    obtain ⟨j, j1, j2, j3⟩ := rank_surj (key := hkey) hnd2 (c := c) (r := r)
      (by rw [hcount2 c hc]; omega)
    rw [hrk] at j3
    obtain ⟨rfl, j2⟩ := (hkeyc j c).1 j2
    exact ⟨j, (hin2 j).1 j1, j2, by omega⟩
  have hex2 : ∀ i, i < before H ncell → ∃ p : Nat × Nat, p ∈ ((e.sched 8).order raw).filter keep ∧
      skey p = some p.1 ∧ before H p.1 + sr p = i := by
    intro i hi
    obtain ⟨c, r, -, hc, ⟨x, hn1, hn2⟩, hj⟩ := before_exists (npart := H) (cs := 0) (ce := ncell)
      (by omega) (by simp [before]) hi
    rw [gH c hc] at hn1
    simp only [Option.some.injEq] at hn1
    obtain ⟨p, j1, j2, j3⟩ := rank_surj (key := skey) hndS (c := c) (r := r)
      (by rw [hscount c hc]; omega)
    rw [hsr] at j3
    have := ((hskey p c).1 j2).1
    subst this
    exact ⟨p, j1, j2, by omega⟩
  choose! jh hjh using hex1
  choose! ps hps using hex2
  have hcc' : ∀ i, i < before H ncell → cc (jh i) = (ps i).1 := by
    intro i hi
    obtain ⟨a1, a2, a3⟩ := hjh i hi
    obtain ⟨b1, b2, b3⟩ := hps i hi
    exact (before_inj (hTP _ _ (hv _ a1).1 (hrklt _ a1 a2))
      (hTP _ _ ((hrin _).1 b1).1 (hsrlt _ _ b1 b2)) (by omega)).1
  have hS : ∀ i, i < before H ncell → S[i]? = some ((ps i).2 + nw (ps i).1) := by
    intro i hi
    obtain ⟨b1, b2, b3⟩ := hps i hi
    exact g8 (ps i) b1 i (by rw [b2]; simp [b3])
  have hA1 : ∀ i, i < before H ncell → A1[i]? = some (cc (jh i) : Int) := by
    intro i hi
    obtain ⟨a1, a2, a3⟩ := hjh i hi
    exact s1 (jh i) ((hin6 _).2 a1) i ((hdh _ _).2 ⟨a2, a3⟩)
  have hA2 : ∀ i, i < before H ncell → A2[i]? = some (rk (jh i) : Int) := by
    intro i hi
    obtain ⟨a1, a2, a3⟩ := hjh i hi
    exact s2 (jh i) ((hin6 _).2 a1) i ((hdh _ _).2 ⟨a2, a3⟩)
  have hA3 : ∀ i, i < before H ncell → A3[i]? = some (kk (jh i) : Int) := by
    intro i hi
    obtain ⟨a1, a2, a3⟩ := hjh i hi
    exact s3 (jh i) ((hin6 _).2 a1) i ((hdh _ _).2 ⟨a2, a3⟩)
  -- resolve
  have hin9 : ∀ i, i ∈ (e.sched 9).order (List.range (before H ncell)) ↔ i < before H ncell :=
    fun i => by rw [((e.sched 9).perm _).mem_iff, List.mem_range]
  rw [runItems_congr (step' := rmw (fun i : Nat => i) (fun i (off : Int) =>
      (rd A1 i).bind fun cell => (index cell).bind fun c =>
      (rd F c).bind fun b => (index ((b : Int) + off)).bind fun ix =>
      (rd S ix).bind fun row => some (row : Int))) (by
    intro i hi s
    have hi' := (hin9 i).1 hi
    unfold sparseResolveStep rmw
    simp only [rd, hA1 i hi', Option.bind_some, index]
    rw [if_pos (by omega)]
    simp only [Option.bind_some, Int.toNat_natCast]
    cases s[i]? with
    | none => rfl
    | some off =>
      simp only [Option.bind_some, Option.bind_assoc])]
  obtain ⟨LO, e10, l10, g10, -⟩ := runItems_rmw_perm (m := A2)
    (loc := fun i : Nat => i) (f := fun i (off : Int) =>
      (rd A1 i).bind fun cell => (index cell).bind fun c =>
      (rd F c).bind fun b => (index ((b : Int) + off)).bind fun ix =>
      (rd S ix).bind fun row => some (row : Int))
    ((e.sched 9).perm (List.range (before H ncell)))
    (by rw [List.map_id']; exact List.nodup_range)
    (by
      intro i hi
      rw [List.mem_range] at hi
      obtain ⟨a1, a2, a3⟩ := hjh i hi
      refine ⟨_, (((ps i).2 + nw (ps i).1 : Nat) : Int), hA2 i hi, ?_⟩
      simp only [rd, hA1 i hi, Option.bind_some, index]
      rw [if_pos (by omega)]
      simp only [Option.bind_some, Int.toNat_natCast, gF _ (Nat.le_of_lt (hv _ a1).1)]
      rw [if_pos (by omega)]
      simp only [Option.bind_some]
      rw [show ((before H (cc (jh i)) : Int) + (rk (jh i) : Int)).toNat = i by omega, hS i hi]
      simp only [Option.bind_some])
  rw [e10]
  simp only [Option.bind_some]
  have hLO : ∀ i, i < before H ncell → LO[i]? = some (((ps i).2 + nw (ps i).1 : Nat) : Int) := by
    intro i hi
    have := g10 i (List.mem_range.2 hi)
    rw [this, hA2 i hi]
    obtain ⟨a1, a2, a3⟩ := hjh i hi
    simp only [rd, hA1 i hi, Option.bind_some, index]
    rw [if_pos (by omega)]
    simp only [Option.bind_some, Int.toNat_natCast, gF _ (Nat.le_of_lt (hv _ a1).1)]
    rw [if_pos (by omega)]
    simp only [Option.bind_some]
    rw [show ((before H (cc (jh i)) : Int) + (rk (jh i) : Int)).toNat = i by omega, hS i hi]
    simp only [Option.bind_some]
  refine ⟨_, fun i => cc (jh i), fun i => (ps i).2 + nw (ps i).1, fun i => kk (jh i), rfl, ?_⟩
  refine ⟨lN, gN, hA1, hLO, hA3, fun i hi => (hv _ (hjh i hi).1).1, ?_, ?_, ?_, ?_, ?_, ?_⟩
  · intro i hi
    obtain ⟨b1, b2, b3⟩ := hps i hi
    obtain ⟨c1, c2⟩ := (hrin _).1 b1
    rw [hcc' i hi]
    refine ⟨((hskey _ _).1 b2).2, c2, ?_⟩
    exact Nat.le_add_left _ _
  · intro i hi
    obtain ⟨a1, a2, a3⟩ := hjh i hi
    exact ⟨(hRiff _ _).2 ⟨jh i, a1, rfl, rfl⟩, a2⟩
  · intro i j hi hj h1 h2
    rw [hcc' i hi, hcc' j hj] at h1
    rw [h1] at h2
    have : ps i = ps j := Prod.ext h1 (by omega)
    rw [← (hps i hi).2.2, ← (hps j hj).2.2, this]
  · intro i j hi hj h1 h2
    have := hdistinct _ _ (hjh i hi).1 (hjh j hj).1 h1 h2
    rw [← (hjh i hi).2.2, ← (hjh j hj).2.2, this]
  · intro c k hc hk hge hR
    have hge' : nw c ≤ k := hge
    have hp : (c, k - nw c) ∈ ((e.sched 8).order raw).filter keep :=
      (hrin _).2 ⟨hc, by simp only; omega⟩
    have hsk : skey (c, k - nw c) = some c := (hskey _ _).2 ⟨rfl, by
      simp only; rw [show k - nw c + nw c = k by omega]; exact hR⟩
    have hlt' := hTlt c _ hc (hsrlt _ c hp hsk)
    obtain ⟨b1, b2, b3⟩ := hps _ hlt'
    have := hsrinj _ _ _ _ b1 hp b2 hsk b3
    refine ⟨_, hlt', ?_, ?_⟩
    · rw [hcc' _ hlt', this]
    · rw [this]
      simp only; omega
  · intro c k hc hk hR
    obtain ⟨j, j1, rfl, rfl⟩ := (hRiff c k).1 hR
    have hk' : kk j < nw (cc j) := hk
    have hlt' := hTlt _ _ hc (hrklt j j1 hk')
    obtain ⟨b1, b2, b3⟩ := hjh _ hlt'
    have := hrkinj _ _ b1 j1 b2 hk' b3
    exact ⟨_, hlt', by simp only [this], by simp only [this]⟩

end NP
