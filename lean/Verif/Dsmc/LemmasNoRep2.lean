import Verif.Dsmc.LemmasNoRep
import Verif.Pair.LemmasPush
import Verif.Pair.LemmasLoop
import Verif.Comm.LemmasExchange
import Verif.Basics.Props

/-! Lemmas for the sampling of pairs without replacement: the whole of `sample`. -/

set_option autoImplicit false

namespace NP

open Spec

/-- Work items that each write their own region of the memory. -/
theorem runItems_local {ι : Type} {step : ι → Mem → Option Mem} {items : List ι} (I : Mem → Prop)
    (Q : ι → Mem → Prop) (region : ι → Key → Prop) (hnd : items.Nodup)
    (hstep : ∀ i ∈ items, ∀ m, I m → ∃ m', step i m = some m' ∧ I m' ∧ Q i m' ∧
      ∀ key, ¬ region i key → m' key = m key)
    (hQ : ∀ i ∈ items, ∀ m m', (∀ key, region i key → m' key = m key) → Q i m → Q i m')
    (hdis : ∀ i ∈ items, ∀ j ∈ items, ∀ key, region i key → region j key → i = j)
    {m : Mem} (hm : I m) :
    ∃ m', runItems step items m = some m' ∧ I m' ∧ ∀ i ∈ items, Q i m' := by
  suffices h : ∃ m', runItems step items m = some m' ∧ I m' ∧ (∀ i ∈ items, Q i m') ∧
      ∀ key, (∀ i ∈ items, ¬ region i key) → m' key = m key by
    obtain ⟨m', h1, h2, h3, -⟩ := h
    exact ⟨m', h1, h2, h3⟩
  induction items generalizing m with
  | nil => exact ⟨m, rfl, hm, by simp, by simp⟩
  | cons i is ih =>
    rw [List.nodup_cons] at hnd
    obtain ⟨m1, a1, a2, a3, a4⟩ := hstep i (by simp) m hm
    obtain ⟨m2, b1, b2, b3, b4⟩ := ih hnd.2 (fun j hj => hstep j (by simp [hj]))
      (fun j hj => hQ j (by simp [hj]))
      (fun j hj k hk => hdis j (by simp [hj]) k (by simp [hk])) a2
    refine ⟨m2, by rw [runItems_cons, a1]; exact b1, b2, ?_, ?_⟩
    · intro j hj
      rcases List.mem_cons.1 hj with rfl | hj
      · refine hQ j (by simp) m1 m2 (fun key hk => b4 key ?_) a3
        intro k hk' hr
        have := hdis j (by simp) k (by simp [hk']) key hk hr
        subst this
        exact hnd.1 hk'
      · exact b3 j hj
    · intro key hk
      rw [b4 key (fun j hj => hk j (by simp [hj])), a4 key (hk i (by simp))]

theorem runItems_preserves {ι σ : Type} {step : ι → σ → Option σ} {items : List ι} (I : σ → Prop)
    (hstep : ∀ i ∈ items, ∀ s s', step i s = some s' → I s → I s') {s s' : σ}
    (h : runItems step items s = some s') (hs : I s) : I s' := by
  induction items generalizing s with
  | nil => cases h; exact hs
  | cons i is ih =>
    rw [runItems_cons] at h
    obtain ⟨s1, h1, h2⟩ := Option.bind_eq_some_iff.1 h
    exact ih (fun j hj => hstep j (by simp [hj])) h2 (hstep i (by simp) s s1 h1 hs)

theorem forLoop_preserves {σ : Type} {step : Nat → σ → Option σ} {a b : Nat} (I : σ → Prop)
    (hstep : ∀ i s s', step i s = some s' → I s → I s') {s s' : σ}
    (h : forLoop a b step s = some s') (hs : I s) : I s' :=
  runItems_preserves I (fun i _ => hstep i) h hs

theorem length_of_st {α : Type} {m m' : List α} {i : Nat} {v : α} (h : st m i v = some m') :
    m'.length = m.length := by
  unfold st at h
  split at h
  · cases h; simp
  · exact absurd h (by simp)

theorem isSome_of_mst {m m' : Mem} {k : Key} {v : Int} (h : mst m k v = some m') {key : Key}
    (hk : (m key).isSome = true) : (m' key).isSome = true := by
  unfold mst at h
  split at h
  · cases h
    dsimp only
    split
    · rfl
    · exact hk
  · exact absurd h (by simp)

/-- What holds of every sampler. -/
structure NoRepOk (ncell : Nat) (s : NoRep) : Prop where
  cells : s.cellCount = ncell
  mem : DatMem ncell s.mem s.dat
  sym : s.dat.sym = 0
  ncomp : s.dat.ncomp = 2
  waveCount : s.waveCount = List.replicate ncell 1
  waveOffsets : s.waveOffsets = List.replicate ncell 0
  esLen : s.pairCountsEs.length = ncell
  collLen : s.numColl.length = ncell

theorem datMem_empty (cc : Nat) :
    DatMem cc (fun _ => none) ⟨0, 2, List.replicate cc 0, List.replicate cc 0, [], []⟩ := by
  refine ⟨by simp, by simp, ?_, ?_⟩
  · intro c r a hr ha
    dsimp only at hr ha
    rw [List.getElem?_replicate] at hr ha
    split at hr
    · rw [if_pos (by assumption)] at ha
      simp only [Option.some.injEq] at hr ha
      omega
    · simp at hr
  · intro c a j k ha _ hk
    dsimp only at ha
    rw [List.getElem?_replicate] at ha
    split at ha
    · simp only [Option.some.injEq] at ha; omega
    · simp at ha

theorem noRepPair_isSome {α : Type} {conv : α → Int → Int} {part : CollPart} {x : NoRepArgs α}
    {c q o o' k : Nat} {s s' : Pools × Mem} (h : noRepPair conv part x c q o o' k s = some s')
    {key : Key} (hk : (s.2 key).isSome = true) : (s'.2 key).isSome = true := by
  unfold noRepPair at h
  obtain ⟨_, -, h⟩ := Option.bind_eq_some_iff.1 h
  obtain ⟨_, -, h⟩ := Option.bind_eq_some_iff.1 h
  obtain ⟨_, -, h⟩ := Option.bind_eq_some_iff.1 h
  obtain ⟨_, -, h⟩ := Option.bind_eq_some_iff.1 h
  obtain ⟨_, -, h⟩ := Option.bind_eq_some_iff.1 h
  obtain ⟨_, h1, h⟩ := Option.bind_eq_some_iff.1 h
  obtain ⟨_, h2, h⟩ := Option.bind_eq_some_iff.1 h
  cases h
  exact isSome_of_mst h2 (isSome_of_mst h1 hk)

theorem noRepItem_isSome {α : Type} {conv : α → Int → Int} {part : CollPart} {x : NoRepArgs α}
    {loc : Fresh Nat} {it : Nat × Nat} {m m' : Mem} (h : noRepItem conv part x loc it m = some m')
    {key : Key} (hk : (m key).isSome = true) : (m' key).isSome = true := by
  unfold noRepItem at h
  obtain ⟨_, -, h⟩ := Option.bind_eq_some_iff.1 h
  split at h
  · obtain ⟨_, -, h⟩ := Option.bind_eq_some_iff.1 h
    obtain ⟨_, -, h⟩ := Option.bind_eq_some_iff.1 h
    obtain ⟨_, -, h⟩ := Option.bind_eq_some_iff.1 h
    obtain ⟨_, -, h⟩ := Option.bind_eq_some_iff.1 h
    obtain ⟨_, -, h⟩ := Option.bind_eq_some_iff.1 h
    obtain ⟨_, -, h⟩ := Option.bind_eq_some_iff.1 h
    obtain ⟨_, -, h⟩ := Option.bind_eq_some_iff.1 h
    obtain ⟨t, h1, h⟩ := Option.bind_eq_some_iff.1 h
    cases h
    exact forLoop_preserves (fun t : Pools × Mem => (t.2 key).isSome = true)
      (fun i t t' ht hi => noRepPair_isSome ht hi) h1 hk
  · cases h; exact hk

theorem sample_keeps {α : Type} {e : Env} (he : EnvOk e) {draw : Fresh α} {conv : α → Int → Int}
    {lss : Nat} {loc : Fresh Nat} {s s' : NoRep} {part : CollPart} {a b : Int}
    {requests : List (List Nat)} {ncell : Nat} (hs : NoRepOk ncell s)
    (h : s.sample e draw conv lss loc part a b requests = some s') : NoRepOk ncell s' := by
  unfold NoRep.sample at h
  obtain ⟨la, -, h⟩ := Option.bind_eq_some_iff.1 h
  obtain ⟨lb, -, h⟩ := Option.bind_eq_some_iff.1 h
  by_cases hc : s.cellCount = part.cellCount
  · rw [if_pos hc] at h
    dsimp only at h
    obtain ⟨cs, h1, h⟩ := Option.bind_eq_some_iff.1 h
    obtain ⟨counts, h2, h⟩ := Option.bind_eq_some_iff.1 h
    obtain ⟨es, h3, h⟩ := Option.bind_eq_some_iff.1 h
    obtain ⟨ccEs, -, h⟩ := Option.bind_eq_some_iff.1 h
    obtain ⟨_, -, h⟩ := Option.bind_eq_some_iff.1 h
    obtain ⟨_, -, h⟩ := Option.bind_eq_some_iff.1 h
    obtain ⟨t, h4, h⟩ := Option.bind_eq_some_iff.1 h
    obtain ⟨_, -, h⟩ := Option.bind_eq_some_iff.1 h
    obtain ⟨m, h5, h⟩ := Option.bind_eq_some_iff.1 h
    cases h
    have l1 : cs.2.length = ncell := by
      refine forLoop_preserves (fun t : List Nat × List Nat => t.2.length = ncell) ?_ h1 hs.collLen
      intro i t t' ht hi
      unfold copyRequests at ht
      obtain ⟨_, -, ht⟩ := Option.bind_eq_some_iff.1 ht
      split at ht
      · obtain ⟨_, -, ht⟩ := Option.bind_eq_some_iff.1 ht
        obtain ⟨_, h6, ht⟩ := Option.bind_eq_some_iff.1 ht
        cases ht
        exact (length_of_st h6).trans hi
      · exact absurd ht (by simp)
    have l2 : counts.length = ncell := by
      refine runItems_preserves (fun t : List Nat => t.length = ncell) ?_ h2
        (by rw [(e.freshN 4 _).2, hs.cells])
      intro i _ t t' ht hi
      obtain ⟨_, -, ht⟩ := Option.bind_eq_some_iff.1 ht
      exact (length_of_st ht).trans hi
    have l3 : es.length = ncell := by
      obtain ⟨d, d1, d2, -⟩ := C03_exclusive_scan_blocking (e.sched 1) (e.sched 2) (e.sched 3)
        e.scanLocalSize e.computeUnits s.cellCount he.scan_pos (e.freshN 5) counts s.pairCountsEs
        (by rw [l2, hs.cells]) (by rw [hs.esLen, hs.cells])
      rw [h3] at d1
      obtain rfl := Option.some.inj d1
      rw [d2, hs.esLen]
    obtain ⟨m', d', g1, g2, g3, g4, -⟩ := growRows_spec e (cc := s.cellCount)
      (by rw [hs.cells]; exact hs.mem) (req := counts) (n := fun c => counts.getD c 0)
      (by
        intro c hc
        rw [List.getD_eq_getElem?_getD, List.getElem?_eq_getElem (by rw [l2, ← hs.cells]; exact hc)]
        rfl)
    rw [g1] at h4
    obtain rfl := Option.some.inj h4
    refine ⟨hs.cells, ?_, g3.trans hs.sym, g4.trans hs.ncomp, hs.waveCount, hs.waveOffsets, l3, l1⟩
    dsimp only at h5 ⊢
    rw [hs.cells] at g2
    refine ⟨g2.nrow_len, g2.alloc_len, g2.le, ?_⟩
    intro c a j k h6 h7 h8
    exact runItems_preserves (fun m : Mem => (m ⟨d'.sym, c, j, k⟩).isSome = true)
      (fun i _ t t' ht hi => noRepItem_isSome ht hi) h5 (g2.alloc c a j k h6 h7 h8)
  · rw [if_neg hc] at h
    exact absurd h (by simp)

theorem noRep_ok {ncell : Nat} {s : NoRep} (h : NoRepReachable ncell s) : NoRepOk ncell s := by
  induction h with
  | new e =>
    exact ⟨rfl, datMem_empty ncell, rfl, rfl, rfl, rfl, (e.freshN 1 ncell).2, (e.freshN 2 ncell).2⟩
  | sample he _ h ih => exact sample_keeps he ih h

theorem takeSum_succ {row : List Nat} {q k : Nat} (h : row[q]? = some k) :
    (row.take (q + 1)).sum = (row.take q).sum + k := by
  obtain ⟨hlt, rfl⟩ := List.getElem?_eq_some_iff.1 h
  rw [List.take_succ_eq_append_getElem hlt, List.sum_append]
  simp

theorem takeSum_mono (row : List Nat) {q q' : Nat} (h : q ≤ q') :
    (row.take q).sum ≤ (row.take q').sum := by
  induction q', h using Nat.le_induction with
  | base => exact Nat.le_refl _
  | succ n _ ih =>
    refine Nat.le_trans ih ?_
    by_cases hn : n < row.length
    · rw [takeSum_succ (List.getElem?_eq_getElem hn)]; omega
    · rw [List.take_of_length_le (by omega), List.take_of_length_le (by omega)]

theorem takeSum_le (row : List Nat) (q : Nat) : (row.take q).sum ≤ row.sum := by
  have := takeSum_mono row (q := q) (q' := max q row.length) (by omega)
  rwa [List.take_of_length_le (l := row) (i := max q row.length) (by omega)] at this

theorem copyRequests_spec {ncell M : Nat} {requests : List (List Nat)} {R : Nat → List Nat}
    (hR : ∀ c, c < ncell → requests[c]? = some (R c) ∧ (R c).length ≤ M)
    {counts numColl : List Nat} (h1 : counts.length = M * ncell) (h2 : numColl.length = ncell) :
    ∃ c n, forLoop 0 ncell (copyRequests M requests) (counts, numColl) = some (c, n) ∧
      c.length = M * ncell ∧ n.length = ncell ∧
      ∀ cx, cx < ncell → n[cx]? = some (R cx).length ∧
        ∀ q, q < (R cx).length → c[cx * M + q]? = (R cx)[q]? := by
  obtain ⟨⟨c, n⟩, a1, a2, a3, a4⟩ := forLoop_invariant (a := 0) (b := ncell)
    (step := copyRequests M requests) (s := (counts, numColl))
    (fun i s => s.1.length = M * ncell ∧ s.2.length = ncell ∧
      ∀ cx, cx < i → s.2[cx]? = some (R cx).length ∧
        ∀ q, q < (R cx).length → s.1[cx * M + q]? = (R cx)[q]?) (Nat.zero_le _)
    (by
      rintro i ⟨c, n⟩ - hi ⟨b1, b2, b3⟩
      dsimp only at b1 b2 b3
      obtain ⟨r1, r2⟩ := hR i hi
      have hle : i * M + (R i).length ≤ c.length := by
        rw [b1]
        have h5 : (i + 1) * M ≤ ncell * M := Nat.mul_le_mul_right _ (by omega)
        rw [Nat.add_mul, Nat.one_mul, Nat.mul_comm ncell] at h5
        omega
      obtain ⟨c', hc'⟩ : ∃ c', stRange c (i * M) (R i) = some c' := by
        unfold stRange; rw [if_pos hle]; exact ⟨_, rfl⟩
      refine ⟨(c', n.set i (R i).length), ?_, ?_, ?_, ?_⟩
      · unfold copyRequests
        simp only [rd]
        rw [r1, Option.bind_some, if_pos r2]
        rw [hc', Option.bind_some, st_eq_some (by omega), Option.bind_some]
      · exact (length_of_stRange hc').1.trans b1
      · simpa using b2
      · intro cx hcx
        dsimp only
        by_cases he : cx = i
        · subst he
          refine ⟨by rw [List.getElem?_set_self (by omega)], ?_⟩
          intro q hq
          rw [getElem?_of_stRange hc', if_pos (by omega)]
          congr 1; omega
        · obtain ⟨e1, e2⟩ := b3 cx (by omega)
          refine ⟨by rw [List.getElem?_set_ne (by omega)]; exact e1, ?_⟩
          intro q hq
          rw [getElem?_of_stRange hc', if_neg, e2 q hq]
          have hl := (hR cx (by omega)).2
          have h5 : (cx + 1) * M ≤ i * M := Nat.mul_le_mul_right _ (by omega)
          rw [Nat.add_mul, Nat.one_mul] at h5
          omega)
    ⟨h1, h2, by omega⟩
  exact ⟨c, n, a1, a2, a3, a4⟩

theorem groupSum_spec {ls M c : Nat} (hls : 0 < ls) {numColl counts row : List Nat}
    (h1 : numColl[c]? = some row.length)
    (h2 : ∀ q, q < row.length → counts[c * M + q]? = row[q]?) :
    groupSum ls M numColl counts c = some row.sum := by
  unfold groupSum
  simp only [rd]
  rw [h1, Option.bind_some]
  have hin : ∀ lane, ((strided lane row.length ls).mapM fun cx => counts[c * M + cx]?) =
      some ((strided lane row.length ls).map fun cx => row.getD cx 0) := by
    intro lane
    refine mapM_of_forall ?_
    intro q hq
    have hq' := ((mem_strided hls).1 hq).2.1
    rw [h2 q hq', List.getD_eq_getElem?_getD, List.getElem?_eq_getElem hq']
    rfl
  have hout : ((List.range ls).mapM fun lane => ((strided lane row.length ls).mapM fun cx =>
      counts[c * M + cx]?).map List.sum) = some ((List.range ls).map fun lane =>
        ((strided lane row.length ls).map fun cx => row.getD cx 0).sum) := by
    refine mapM_of_forall ?_
    intro lane _
    rw [hin]; rfl
  rw [hout, Option.map_some]
  congr 1
  have h3 : ((List.range ls).map fun lane =>
      ((strided lane row.length ls).map fun cx => row.getD cx 0).sum).sum =
      (((List.range ls).flatMap fun lane => strided lane row.length ls).map
        fun cx => row.getD cx 0).sum := by
    rw [List.map_flatMap, List.flatMap_def, List.sum_flatten, List.map_map]
    rfl
  rw [h3, ((strided_lanes row.length ls hls).map _).sum_eq]
  congr 1
  apply List.ext_getElem?
  intro q
  by_cases hq : q < row.length
  · rw [List.getElem?_map, List.getElem?_range hq, Option.map_some, List.getD_eq_getElem?_getD,
      List.getElem?_eq_getElem hq]
    rfl
  · rw [List.getElem?_eq_none (by simp; omega), List.getElem?_eq_none (by omega)]

/-- What the sampling kernel achieves for collision cell `q` of mesh cell `c`. -/
def CellSampled (same : Prop) (EA EB row : List Nat) (c q : Nat) (m : Mem)
    (ps : List (Nat × Nat)) : Prop :=
  some ps.length = row[q]? ∧
  (∀ y ∈ ps, y.1 < EA.length ∧ y.2 < EB.length) ∧
  (ps.map Prod.fst).Nodup ∧ (ps.map Prod.snd).Nodup ∧
  (same → (ps.map Prod.fst ++ ps.map Prod.snd).Nodup) ∧
  (∀ (r i j : Nat), ps[r]? = some (i, j) →
    m ⟨0, c, 0, (row.take q).sum + r⟩ = (EA[i]?).map Nat.cast ∧
    m ⟨0, c, 1, (row.take q).sum + r⟩ = (EB[j]?).map Nat.cast)

theorem noRep_sample_spec {α : Type} {e : Env} (he : EnvOk e) (draw : Fresh α)
    (conv : α → Int → Int) {lss : Nat} (hlss : 0 < lss) (loc : Fresh Nat) {ncell : Nat}
    (hnc : 0 < ncell) {s : NoRep} (hs : NoRepOk ncell s) {part : CollPart}
    (hpc : part.cellCount = ncell) {a b : Int} {la lb : Nat} (hla : part.linearId a = some la)
    (hlb : part.linearId b = some lb) {requests : List (List Nat)} {R : Nat → List Nat}
    (hR : ∀ c, c < ncell → requests[c]? = some (R c) ∧ (R c).length ≤ part.maxCC)
    {EA EB : Nat → Nat → List Nat}
    (hE : ∀ c q k, c < ncell → (R c)[q]? = some k →
      CellEntries part c q la (EA c q) ∧ CellEntries part c q lb (EB c q) ∧
      (la = lb → EA c q = EB c q) ∧ (EA c q).length ≤ part.maxOcc.toNat ∧
      (EB c q).length ≤ part.maxOcc.toNat ∧ Enough (la = lb) (EA c q).length (EB c q).length k) :
    ∃ s' : NoRep, ∃ ps : Nat → Nat → List (Nat × Nat),
      s.sample e draw conv lss loc part a b requests = some s' ∧ NoRepOk ncell s' ∧
      (∀ c q, c < ncell → q < (R c).length →
        CellSampled (la = lb) (EA c q) (EB c q) (R c) c q s'.mem (ps c q)) ∧
      s'.pairCounts.length = ncell ∧
      (∀ c, c < ncell → s'.pairCounts[c]? = some (R c).sum) ∧ s'.hPairCounts = s'.pairCounts ∧
      (∀ c, c < ncell → s'.pairCountsEs[c]? = some (s'.pairCounts.take c).sum) ∧
      s'.numPairs = s'.pairCounts.sum ∧ s'.maxPairCount = reduceMax s'.pairCounts ∧
      (∀ c r, c < ncell → s'.dat.nrow[c]? = some r → (R c).sum ≤ r) := by
  obtain ⟨cs, n, a1, a2, a3, a4⟩ := copyRequests_spec hR (counts := (e.freshN 3 (part.maxCC * ncell)).1)
    (numColl := s.numColl) (e.freshN 3 _).2 hs.collLen
  -- the numbers of pairs of the cells
  obtain ⟨counts, b1, b2, b3, -⟩ := runItems_put
    (items := (e.sched 0).order (List.range ncell)) (m := (e.freshN 4 ncell).1)
    (step := fun cell m => (groupSum e.loop.localSize part.maxCC n cs cell).bind fun n =>
      st m cell n) (fun c => some c) (fun c => (R c).sum)
    (by
      intro c hc m _
      rw [((e.sched 0).perm _).mem_iff, List.mem_range] at hc
      beta_reduce
      rw [groupSum_spec he.localSize_pos (a4 c hc).1 (a4 c hc).2]; rfl)
    (by
      intro i _ j _ d hi hj
      have h1 := Option.some.inj hi
      have h2 := Option.some.inj hj
      rw [h1, h2])
    (by
      intro i hi d hd
      rw [((e.sched 0).perm _).mem_iff, List.mem_range] at hi
      rw [← Option.some.inj hd, (e.freshN 4 _).2]
      exact hi)
  rw [(e.freshN 4 _).2] at b2
  have b3' : ∀ c, c < ncell → counts[c]? = some (R c).sum := by
    intro c hc
    exact b3 c (by rw [((e.sched 0).perm _).mem_iff, List.mem_range]; exact hc) c rfl
  -- the exclusive sums
  obtain ⟨es, c1, c2, c3, -⟩ := C03_exclusive_scan_blocking (e.sched 1) (e.sched 2) (e.sched 3)
    e.scanLocalSize e.computeUnits ncell he.scan_pos (e.freshN 5) counts s.pairCountsEs
    (by rw [b2]) (by rw [hs.esLen])
  have c3' : ∀ c, c < ncell → es[c]? = some (counts.take c).sum := by
    intro c hc
    have := c3 c hc
    simpa using this
  obtain ⟨ccEs, d1, d2, d3, -⟩ := C04_exclusive_scan_nm (e.sched 4) e.scanLocalSize ncell
    part.maxCC he.scan_pos cs (e.freshN 6 (part.maxCC * ncell)).1
    (by rw [a2, (e.freshN 6 _).2]) (by rw [(e.freshN 6 _).2, Nat.mul_comm])
  have d3' : ∀ c q, c < ncell → q < (R c).length →
      ccEs[c * part.maxCC + q]? = some ((R c).take q).sum := by
    intro c q hc hq
    have hle := (hR c hc).2
    have := d3 c hc q (by omega)
    rw [Nat.mul_comm] at this
    rw [this]
    congr 2
    apply List.ext_getElem?
    intro i
    by_cases hi : i < q
    · rw [List.getElem?_take_of_lt hi, List.getElem?_take_of_lt hi, List.getElem?_drop]
      exact (a4 c hc).2 i (by omega)
    · have h1 : ((cs.drop (c * part.maxCC)).take q).length ≤ q := by simp
      have h2 : ((R c).take q).length ≤ q := by simp
      rw [List.getElem?_eq_none (by omega), List.getElem?_eq_none (by omega)]
  -- the total
  have hnum : (R (ncell - 1)).sum + (counts.take (ncell - 1)).sum = counts.sum := by
    have := takeSum_succ (b3' (ncell - 1) (by omega))
    rw [Nat.sub_add_cancel hnc, List.take_of_length_le (by omega)] at this
    omega
  -- the rows
  obtain ⟨m1, dd, g1, g2, g3, g4, g5, -⟩ := growRows_spec e hs.mem (req := counts)
    (n := fun c => (R c).sum) b3'
  -- the sampling kernel
  obtain ⟨items, i1, i2, -⟩ := C06_next_multiple part.maxCC lss hlss
  set x : NoRepArgs α := ⟨la, lb, part.maxCC, n, cs, ccEs, es, (draw (2 * counts.sum)).1, counts.sum⟩
    with hx
  have hmem1 : ∀ c j r, c < ncell → j < 2 → r < (R c).sum → (m1 ⟨0, c, j, r⟩).isSome = true := by
    intro c j r hc hj hr
    obtain ⟨nr, hnr⟩ : ∃ nr, dd.nrow[c]? = some nr :=
      ⟨_, List.getElem?_eq_getElem (by rw [g2.nrow_len]; exact hc)⟩
    obtain ⟨al, hal⟩ : ∃ al, dd.alloc[c]? = some al :=
      ⟨_, List.getElem?_eq_getElem (by rw [g2.alloc_len]; exact hc)⟩
    have := g5 c nr hc hnr
    have := g2.le c nr al hnr hal
    have := g2.alloc c al j r hal (by rw [g4, hs.ncomp]; exact hj) (by omega)
    rwa [g3, hs.sym] at this
  obtain ⟨m2, k1, k2, k3⟩ := runItems_local (step := noRepItem conv part x loc)
    (items := (e.sched 5).order ((List.range ncell).flatMap fun c =>
        (List.range items).map fun q => (c, q)))
    (fun m => ∀ key, (m1 key).isSome = true → (m key).isSome = true)
    (fun it m => it.2 < (R it.1).length → ∃ ps,
      CellSampled (la = lb) (EA it.1 it.2) (EB it.1 it.2) (R it.1) it.1 it.2 m ps)
    (fun it key => ∃ k, (R it.1)[it.2]? = some k ∧ ∃ j r, r < k ∧
      key = ⟨0, it.1, j, ((R it.1).take it.2).sum + r⟩)
    (by
      rw [((e.sched 5).perm _).nodup_iff]
      apply nodup_flatMap_range
      · intro c _
        exact List.nodup_range.map (fun _ _ h => (Prod.mk.inj h).2)
      · intro i j _ _ hij y hi hj
        obtain ⟨q, -, rfl⟩ := List.mem_map.1 hi
        obtain ⟨q', -, h⟩ := List.mem_map.1 hj
        exact hij (Prod.mk.inj h).1.symm)
    (by
      rintro ⟨c, q⟩ hi m hm
      rw [((e.sched 5).perm _).mem_iff] at hi
      simp only [List.mem_flatMap, List.mem_map, List.mem_range, Prod.mk.injEq] at hi
      obtain ⟨c', hc, q', hq, rfl, rfl⟩ := hi
      dsimp only
      by_cases hq2 : q' < (R c').length
      · have hk := List.getElem?_eq_getElem hq2
        set k := (R c')[q'] with hkd
        obtain ⟨E1, E2, E3, E4, E5, E6⟩ := hE c' q' k hc hk
        have hoff := takeSum_succ hk
        have hle := takeSum_le (R c') (q' + 1)
        have hcs := takeSum_succ (b3' c' hc)
        have hle2 := takeSum_le counts (c' + 1)
        obtain ⟨m', ps, p1, p2, p3, p4, p5, p6, p7, p8, p9⟩ := noRepItem_spec conv (part := part)
          (x := x) loc (c := c') (q := q') (m := m) (EA := EA c' q') (EB := EB c' q')
          (a4 c' hc).1 hq2 E1 E2 E3 E4 E5
          (((a4 c' hc).2 q' hq2).trans hk) (c3' c' hc) (d3' c' q' hc hq2)
          (by simp only [hx]; omega) (by simp only [hx]; exact (draw _).2) E6
          (fun j r hj hr => hm _ (hmem1 c' j r hc hj (by omega)))
        refine ⟨m', p1, fun key hkey => p9 key (hm key hkey), fun _ => ⟨ps, ?_, p3, p4, p5, p6, p7⟩,
          ?_⟩
        · rw [p2, hk]
        · intro key hkey
          refine p8 key (fun j r hr heq => hkey ⟨k, hk, j, r, hr, heq⟩)
      · refine ⟨m, ?_, hm, fun h => absurd h hq2, fun _ _ => rfl⟩
        unfold noRepItem
        simp only [rd]
        rw [show x.numColl = n from rfl, (a4 c' hc).1, Option.bind_some, if_neg hq2])
    (by
      rintro ⟨c, q⟩ - m m' hmm hQ hq
      dsimp only at hq hmm hQ ⊢
      obtain ⟨ps, p1, p2, p3, p4, p5, p6⟩ := hQ hq
      refine ⟨ps, p1, p2, p3, p4, p5, ?_⟩
      intro r i j hr
      have hlt := (List.getElem?_eq_some_iff.1 hr).1
      rw [hmm _ ⟨_, p1.symm, 0, r, hlt, rfl⟩, hmm _ ⟨_, p1.symm, 1, r, hlt, rfl⟩]
      exact p6 r i j hr)
    (by
      rintro ⟨c, q⟩ - ⟨c', q'⟩ - key ⟨k, hk, j, r, hr, h1⟩ ⟨k', hk', j', r', hr', h2⟩
      dsimp only at hk hk' h1 h2
      rw [h1] at h2
      simp only [Key.mk.injEq, true_and] at h2
      obtain ⟨rfl, -, h2⟩ := h2
      have s1 := takeSum_succ hk
      have s2 := takeSum_succ hk'
      rcases Nat.lt_trichotomy q q' with h | rfl | h
      · have := takeSum_mono (R c) (show q + 1 ≤ q' from h); omega
      · rfl
      · have := takeSum_mono (R c) (show q' + 1 ≤ q from h); omega)
    (m := m1) (fun key h => h)
  have hqi : ∀ c q, c < ncell → q < (R c).length → ∃ ps,
      CellSampled (la = lb) (EA c q) (EB c q) (R c) c q m2 ps := by
    intro c q hc hq
    refine k3 (c, q) ?_ hq
    rw [((e.sched 5).perm _).mem_iff]
    simp only [List.mem_flatMap, List.mem_map, List.mem_range]
    exact ⟨c, hc, q, by have := (hR c hc).2; have := i2.1; omega, rfl⟩
  choose! ps hps using hqi
  have hrun : s.sample e draw conv lss loc part a b requests = some { s with mem := m2, dat := dd, hPairCounts := counts, pairCounts := counts, pairCountsEs := es, numColl := n, maxPairCount := reduceMax counts, numPairs := counts.sum } := by
    unfold NoRep.sample
    rw [hla, Option.bind_some, hlb, Option.bind_some, if_pos (by rw [hs.cells, hpc])]
    dsimp only
    rw [hs.cells]
    refine (congrArg (fun x => Option.bind x _) a1).trans ?_
    rw [Option.bind_some]
    refine (congrArg (fun x => Option.bind x _) b1).trans ?_
    rw [Option.bind_some]
    refine (congrArg (fun x => Option.bind x _) c1).trans ?_
    rw [Option.bind_some]
    refine (congrArg (fun x => Option.bind x _) d1).trans ?_
    rw [Option.bind_some]
    simp only [rd]
    rw [b3' _ (by omega), Option.bind_some, c3' _ (by omega), Option.bind_some]
    refine (congrArg (fun x => Option.bind x _) g1).trans ?_
    rw [Option.bind_some]
    dsimp only
    rw [i1, Option.bind_some, hnum]
    refine (congrArg (fun x => Option.bind x _) k1).trans ?_
    rfl
  exact ⟨_, ps, hrun, sample_keeps he hs hrun, hps, b2, b3', rfl, c3', rfl, rfl, g5⟩

end NP
