import Verif.Group.LemmasPlan

/-! The dense compression kernels compute a correct plan. -/

set_option autoImplicit false

namespace NP

open Spec

/-- The memory after the listed particles were marked. -/
def marked (ncell cellSym n : Nat) (cells layers : List Int) (m : Mem) : Mem := fun k =>
  if k.sym = cellSym ∧ k.comp = 0 ∧ k.cell < ncell ∧ Listed n cells layers k.cell k.row
  then some (-1) else m k

theorem listed_iff {n : Nat} {cells layers : List Int} {c k : Nat} :
    Listed n cells layers c k ↔
      ∃ i, i < n ∧ cells[i]? = some (c : Int) ∧ layers[i]? = some (k : Int) := by
  unfold Listed
  rw [List.mem_iff_getElem?]
  constructor
  · rintro ⟨i, hi⟩
    rw [List.getElem?_take] at hi
    by_cases hin : i < n
    · rw [if_pos hin, List.getElem?_zip_eq_some] at hi
      exact ⟨i, hin, hi.1, hi.2⟩
    · rw [if_neg hin] at hi; simp at hi
  · rintro ⟨i, hin, h1, h2⟩
    refine ⟨i, ?_⟩
    rw [List.getElem?_take, if_pos hin, List.getElem?_zip_eq_some]
    exact ⟨h1, h2⟩

theorem mark_spec {ncell cellSym n : Nat} {cells layers : List Int} {m : Mem} {items : List Nat}
    (hp : items.Perm (List.range n)) (hc : n ≤ cells.length) (hl : n ≤ layers.length)
    (hal : ∀ c k, c < ncell → Listed n cells layers c k → (m ⟨cellSym, c, 0, k⟩).isSome = true) :
    runItems (markStep ncell cellSym cells layers) items m =
      some (marked ncell cellSym n cells layers m) := by
  have hmem : ∀ i, i ∈ items ↔ i < n := fun i => by rw [hp.mem_iff, List.mem_range]
  let dst : Nat → Option Key := fun i =>
    if (-1 < cells.getD i 0 ∧ cells.getD i 0 < ncell) ∧ -1 < layers.getD i 0 then
      some ⟨cellSym, (cells.getD i 0).toNat, 0, (layers.getD i 0).toNat⟩ else none
  have hg : ∀ i, i < n → cells[i]? = some (cells.getD i 0) ∧ layers[i]? = some (layers.getD i 0) := by
    intro i hi
    have h1 : i < cells.length := by omega
    have h2 : i < layers.length := by omega
    simp [h1, h2]
  have hdst : ∀ i, i < n → ∀ k, dst i = some k →
      k.sym = cellSym ∧ k.comp = 0 ∧ k.cell < ncell ∧
        cells[i]? = some (k.cell : Int) ∧ layers[i]? = some (k.row : Int) := by
    intro i hi k hk
    obtain ⟨h1, h2⟩ := hg i hi
    rw [h1, h2]
    simp only [dst] at hk
    split at hk
    · rename_i hcond
      simp only [Option.some.injEq] at hk
      subst hk
      simp only [Option.some.injEq, true_and]
      omega
    · simp at hk
  have key := runItems_mem (step := markStep ncell cellSym cells layers) (items := items) (m := m)
    dst (fun _ => -1) ?_ (fun _ _ _ _ _ _ _ => rfl) ?_
  · obtain ⟨m', k1, k2, k3⟩ := key
    rw [k1]
    congr 1
    funext k
    unfold marked
    by_cases hcond : k.sym = cellSym ∧ k.comp = 0 ∧ k.cell < ncell ∧
        Listed n cells layers k.cell k.row
    · rw [if_pos hcond]
      obtain ⟨hs, hco, hce, hli⟩ := hcond
      obtain ⟨i, hi, h1, h2⟩ := listed_iff.1 hli
      refine k2 i ((hmem i).2 hi) k ?_
      simp only [dst]
      have e1 : cells.getD i 0 = (k.cell : Int) := by
        have := (hg i hi).1; rw [h1] at this; simpa using this.symm
      have e2 : layers.getD i 0 = (k.row : Int) := by
        have := (hg i hi).2; rw [h2] at this; simpa using this.symm
      rw [e1, e2, if_pos (by omega), Int.toNat_natCast, Int.toNat_natCast]
      obtain ⟨s, c, j, r⟩ := k
      simp only at hs hco
      rw [hs, hco]
    · rw [if_neg hcond]
      refine k3 k (fun i hi hd => hcond ?_)
      obtain ⟨a, b, c, d, e⟩ := hdst i ((hmem i).1 hi) k hd
      exact ⟨a, b, c, listed_iff.2 ⟨i, (hmem i).1 hi, d, e⟩⟩
  · intro i hi m' _
    obtain ⟨h1, h2⟩ := hg i ((hmem i).1 hi)
    unfold markStep
    simp only [rd, h1, h2, Option.bind_some, dst]
    by_cases hcond : (-1 < cells.getD i 0 ∧ cells.getD i 0 < ncell) ∧ -1 < layers.getD i 0
    · rw [if_pos hcond, if_pos hcond]
    · rw [if_neg hcond, if_neg hcond]
  · intro i hi k hk
    obtain ⟨a, b, c, d, e⟩ := hdst i ((hmem i).1 hi) k hk
    have := hal k.cell k.row c (listed_iff.2 ⟨i, (hmem i).1 hi, d, e⟩)
    obtain ⟨s, c', j, r⟩ := k
    simp only at a b this
    rw [a, b]
    exact this

/-- Sum of the first elements of a segment that holds indicators. -/
theorem segment_sum_eq_cnt {l : List Nat} {o n : Nat} {p : Nat → Bool}
    (h : ∀ k, k < n → l[o + k]? = some (if p k then 1 else 0)) :
    ((l.drop o).take n).sum = cnt p n := by
  rw [← sum_indicator]
  congr 1
  apply List.ext_getElem?
  intro i
  rw [List.getElem?_take, List.getElem?_map, List.getElem?_drop]
  by_cases hi : i < n
  · rw [if_pos hi, h i hi, List.getElem?_range hi]; rfl
  · rw [if_neg hi, List.getElem?_eq_none (l := List.range n) (by simp; omega)]; rfl

/-- The number of moves is at most the number of removed particles. -/
theorem sum_holes_le {ncell n : Nat} {old tf : List Nat} {cells layers : List Int}
    {R : Nat → Nat → Bool} (ho : old.length = ncell)
    (hl : (cells.zip layers).length ≥ n)
    (htf : ∀ c o, old[c]? = some o → ∃ x, x ≤ o ∧ tf[c]? = some (cnt (R c) x))
    (hR : ∀ c o k, old[c]? = some o → k < o → R c k = true → Listed n cells layers c k) :
    (tf.take ncell).sum ≤ n := by
  -- list of removed particles
  let holes : List (Int × Int) := (List.range ncell).flatMap fun c =>
    ((List.range (old.getD c 0)).filter (R c)).map fun (k : Nat) => ((c : Int), (k : Int))
  have hnd : holes.Nodup := by
    rw [List.nodup_flatMap]
    refine ⟨fun c _ => List.Nodup.map (fun a b h => by simpa using (Prod.mk.inj h).2)
      (List.nodup_range.filter _), ?_⟩
    refine List.Pairwise.imp ?_ (List.nodup_iff_pairwise_ne.1 (List.nodup_range (n := ncell)))
    intro a b hab
    rw [Function.onFun, List.disjoint_left]
    rintro ⟨x, y⟩ h1 h2
    simp only [List.mem_map, Prod.mk.injEq] at h1 h2
    obtain ⟨_, _, h1, _⟩ := h1
    obtain ⟨_, _, h2, _⟩ := h2
    exact hab (by omega)
  have hsub : ∀ z ∈ holes, z ∈ (cells.zip layers).take n := by
    intro z hz
    simp only [holes, List.mem_flatMap, List.mem_range, List.mem_map, List.mem_filter] at hz
    obtain ⟨c, hc, k, ⟨hk, hRk⟩, rfl⟩ := hz
    have hcl : c < old.length := by omega
    have : old[c]? = some (old.getD c 0) := by simp [hcl]
    exact hR c _ k this hk hRk
  have hle : holes.length ≤ n := by
    have := (hnd.subperm hsub).length_le
    rw [List.length_take] at this
    omega
  have hlen : (tf.take ncell).sum ≤ holes.length := by
    have : holes.length = ((List.range ncell).map fun c => cnt (R c) (old.getD c 0)).sum := by
      simp only [holes, List.length_flatMap, List.length_map]
      rfl
    rw [this]
    have hs : ∀ j, j ≤ ncell → (tf.take j).sum ≤
        ((List.range j).map fun c => cnt (R c) (old.getD c 0)).sum := by
      intro j
      induction j with
      | zero => simp
      | succ j ih =>
        intro hj
        have hcl : j < old.length := by omega
        have hoj : old[j]? = some (old.getD j 0) := by simp [hcl]
        obtain ⟨x, hx, htx⟩ := htf j _ hoj
        rw [List.take_add_one, htx, List.range_succ, List.map_append, List.sum_append,
          List.sum_append]
        have := ih (by omega)
        have := cnt_mono (p := R j) hx
        simp only [Option.toList_some, List.sum_cons, List.sum_nil, List.map_cons, List.map_nil]
        omega
    exact hs ncell (Nat.le_refl _)
  omega

theorem denseIndices_spec {e : Env} (hE : EnvOk e) {ncell cellSym : Nat} {old : List Nat}
    {npart : Nat} {cells layers : List Int} {m : Mem} {a : Arrays} {new : List Nat}
    (hold : old.length = ncell) (hsmall : ∀ n ∈ old, n < 2 ^ 31)
    (hcells : npart ≤ cells.length) (hlayers : npart ≤ layers.length)
    (ha1 : a.1.length = npart) (ha2 : a.2.1.length = npart) (ha3 : a.2.2.length = npart)
    (hnew : new.length = ncell)
    (hmem : ∀ c n k, old[c]? = some n → k < n → (m ⟨cellSym, c, 0, k⟩).isSome = true)
    (hlisted : ∀ c k, c < ncell → Listed npart cells layers c k → ∃ n, old[c]? = some n ∧ k < n)
    (hneg : ∀ c n k v, old[c]? = some n → k < n → ¬ Listed npart cells layers c k →
      m ⟨cellSym, c, 0, k⟩ = some v → 0 ≤ v) :
    ∃ p fc flo fln, denseIndices e ncell cellSym old npart cells layers m a new =
        some (marked ncell cellSym npart cells layers m, p) ∧
      PlanOk ncell (fun c => old.getD c 0)
        (fun c k => decide (Listed npart cells layers c k)) p fc flo fln := by
  -- abbreviations
  have ho : ∀ c, c < ncell → old[c]? = some (old.getD c 0) := by
    intro c hc
    have : c < old.length := by omega
    simp [this]
  generalize hodef : (fun c => old.getD c 0) = o
  have ho : ∀ c, c < ncell → old[c]? = some (o c) := by
    intro c hc; rw [ho c hc, ← hodef]
  have hlt : ∀ c (n : Nat), old[c]? = some n → c < ncell := by
    intro c n h
    have := (List.getElem?_eq_some_iff.1 h).1
    omega
  generalize hRdef : (fun c k => decide (Listed npart cells layers c k)) = R
  have hRiff : ∀ c k, R c k = true ↔ Listed npart cells layers c k := by
    intro c k; rw [← hRdef]; simp
  unfold denseIndices
  -- occupancies plus one
  obtain ⟨p1, e1, l1, g1, g1'⟩ := runItems_fill (step := fun c (p1 : List Nat) =>
      (rd old c).bind fun n => st p1 c (n + 1)) (m := (e.freshN 0 (ncell + 1)).1)
    ((e.sched 0).perm (List.range ncell)) (by rw [(e.freshN 0 (ncell + 1)).2]; omega)
    (fun c => o c + 1) (by intro c hc p1 _; simp only [rd, ho c hc, Option.bind_some])
  rw [(e.freshN 0 (ncell + 1)).2] at l1
  rw [e1]
  simp only [Option.bind_some]
  rw [st_eq_some (by omega)]
  simp only [Option.bind_some]
  generalize hp1 : p1.set ncell 0 = P1
  have lP1 : P1.length = ncell + 1 := by rw [← hp1]; simp [l1]
  have gP1 : ∀ c, c < ncell → P1[c]? = some (o c + 1) := by
    intro c hc
    rw [← hp1, List.getElem?_set_ne (by omega)]; exact g1 c hc
  obtain ⟨es, e2, l2, g2, -⟩ := C03_exclusive_scan_blocking (e.sched 1) (e.sched 2) (e.sched 3)
    e.scanLocalSize e.computeUnits (ncell + 1) hE.scan_pos (e.freshN 1) P1
    (List.replicate (ncell + 1) 0) (by omega) (by simp)
  rw [e2]
  simp only [Option.bind_some]
  have ges : ∀ c, c ≤ ncell → es[c]? = some (before P1 c) := by
    intro c hc
    have := g2 c (by omega)
    simpa [before] using this
  simp only [rd, ges ncell (Nat.le_refl _), Option.bind_some]
  -- mark
  rw [mark_spec ((e.sched 4).perm (List.range npart)) hcells hlayers (by
    intro c k hc hl
    obtain ⟨n, hn, hk⟩ := hlisted c k hc hl
    exact hmem c n k hn hk)]
  simp only [Option.bind_some]
  -- masks
  obtain ⟨visits, e3, hnd, hvis⟩ := allVisits_covers hE hsmall
  rw [e3]
  simp only [Option.bind_some]
  have hvis' : ∀ c k, (c, k) ∈ visits ↔ c < ncell ∧ k < o c := by
    intro c k
    rw [hvis]
    constructor
    · rintro ⟨n, hn, hk⟩
      have hc := hlt c n hn
      rw [ho c hc] at hn
      simp only [Option.some.injEq] at hn
      exact ⟨hc, by omega⟩
    · rintro ⟨hc, hk⟩; exact ⟨_, ho c hc, hk⟩
  have hPP : ∀ c k, c < ncell → k ≤ o c → IsParticle P1 c k :=
    fun c k hc hk => ⟨_, gP1 c hc, by omega⟩
  have hlinlt : ∀ c k, c < ncell → k ≤ o c → before P1 c + k < before P1 ncell :=
    fun c k hc hk => before_le (hPP c k hc hk) hc
  have hmask : ∃ masks, runItems (maskStep cellSym es
        (marked ncell cellSym npart cells layers m)) ((e.sched 5).order visits)
        ((e.freshN 2 (before P1 ncell)).1) = some masks ∧ masks.length = before P1 ncell ∧
      ∀ c k, c < ncell → k < o c →
        masks[before P1 c + k]? = some (if R c k then 1 else 0) := by
    have hin : ∀ p, p ∈ (e.sched 5).order visits ↔ p.1 < ncell ∧ p.2 < o p.1 := by
      intro p; rw [((e.sched 5).perm visits).mem_iff]; exact hvis' p.1 p.2
    obtain ⟨masks, q1, q2, q3, -⟩ := runItems_put (m := (e.freshN 2 (before P1 ncell)).1)
      (step := maskStep cellSym es (marked ncell cellSym npart cells layers m))
      (items := (e.sched 5).order visits)
      (fun p => some (before P1 p.1 + p.2)) (fun p => if R p.1 p.2 then 1 else 0)
      (by
        rintro ⟨c, k⟩ hp b -
        have hp' := (hin _).1 hp
        simp only at hp'
        unfold maskStep
        simp only [rd, ges c (by omega), Option.bind_some]
        have hsome := hmem c _ k (ho c hp'.1) hp'.2
        by_cases hl : Listed npart cells layers c k
        · simp only [marked, true_and, hp'.1, hl, if_true, Option.bind_some]
          rw [if_neg (by omega), if_pos ((hRiff c k).2 hl)]
        · simp only [marked, true_and, hp'.1, hl, if_false]
          obtain ⟨v, hv⟩ := Option.isSome_iff_exists.1 hsome
          have := hneg c _ k v (ho c hp'.1) hp'.2 hl hv
          rw [hv]
          simp only [Option.bind_some]
          rw [if_pos (by omega), if_neg (fun h => hl ((hRiff c k).1 h))])
      (by
        intro p hp q hq d h1 h2
        simp only [Option.some.injEq] at h1 h2
        have hp' := (hin _).1 hp
        have hq' := (hin _).1 hq
        obtain ⟨h3, h4⟩ := before_inj (hPP p.1 p.2 hp'.1 (by omega)) (hPP q.1 q.2 hq'.1 (by omega))
          (by omega)
        rw [h3, h4])
      (by
        intro p hp d h
        simp only [Option.some.injEq] at h
        have hp' := (hin _).1 hp
        rw [(e.freshN 2 (before P1 ncell)).2, ← h]
        exact hlinlt p.1 p.2 hp'.1 (by omega))
    refine ⟨masks, q1, by rw [q2, (e.freshN 2 (before P1 ncell)).2], ?_⟩
    intro c k hc hk
    exact q3 (c, k) ((hin _).2 ⟨hc, hk⟩) _ rfl
  obtain ⟨masks, e4, l4, g4⟩ := hmask
  rw [e4]
  simp only [Option.bind_some]
  -- sums of the masks
  obtain ⟨masksEs, e5, l5, g5, -⟩ := C04_exclusive_scan_n (e.sched 6) e.scanLocalSize ncell
    hE.scan_pos P1 es (fun c => before P1 c) (fun c => o c + 1) gP1
    (fun c hc => ges c (by omega)) masks (List.replicate (before P1 ncell) 0) (by simp [l4])
    ⟨by
      intro c hc
      have := hlinlt c (o c) hc (Nat.le_refl _)
      simp only [List.length_replicate]; omega,
     by
      intro c c' hc hc' hne k hk
      have h := before_inj (hPP c (k - before P1 c) hc (by omega))
        (hPP c' (k - before P1 c') hc' (by omega)) (by omega)
      exact hne h.1⟩
  rw [e5]
  simp only [Option.bind_some]
  have gme : ∀ c k, c < ncell → k ≤ o c → masksEs[before P1 c + k]? = some (cnt (R c) k) := by
    intro c k hc hk
    rw [g5 c hc k (by omega)]
    congr 1
    exact segment_sum_eq_cnt (fun j hj => g4 c j hc (by omega))
  -- new occupancies
  have hcle : ∀ c, cnt (R c) (o c) ≤ o c := fun c => cnt_le _ _
  let nw : Nat → Nat := fun c => o c - cnt (R c) (o c)
  have hnw : ∀ c, nw c ≤ o c := fun c => Nat.sub_le _ _
  have hinr : ∀ i, i ∈ (e.sched 7).order (List.range ncell) ↔ i < ncell := fun i => by
    rw [((e.sched 7).perm _).mem_iff, List.mem_range]
  obtain ⟨N, q1, lN, gN, -⟩ := runItems_fill (step := fun c (b : List Nat) => st b c (nw c))
    (m := new) ((e.sched 7).perm (List.range ncell)) (by omega) nw (fun _ _ _ _ => rfl)
  obtain ⟨T, q2, lT, gT, -⟩ := runItems_fill (step := fun c (b : List Nat) =>
      st b c (cnt (R c) (nw c)))
    (m := (e.freshN 3 (ncell + 1)).1) ((e.sched 7).perm (List.range ncell))
    (by rw [(e.freshN 3 (ncell + 1)).2]; omega) (fun c => cnt (R c) (nw c)) (fun _ _ _ _ => rfl)
  rw [(e.freshN 3 (ncell + 1)).2] at lT
  rw [runItems_prod (step := newCountStep es P1 old masksEs) (f := fun c b => st b c (nw c))
    (g := fun c b => st b c (cnt (R c) (nw c))) (by
      intro c hc s t
      rw [hinr] at hc
      unfold newCountStep
      simp only [rd, ges c (by omega), gP1 c hc, Option.bind_some, index]
      rw [if_pos (by omega)]
      simp only [Option.bind_some]
      rw [show (((o c + 1 : Nat) : Int) - 1).toNat = o c by omega, gme c (o c) hc (Nat.le_refl _)]
      simp only [Option.bind_some, ho c hc]
      have := hcle c
      rw [if_pos (by omega)]
      simp only [Option.bind_some]
      rw [show ((o c : Int) - (cnt (R c) (o c) : Int)).toNat = nw c by simp only [nw]; omega,
        gme c (nw c) hc (hnw c)]
      simp only [Option.bind_some]) q1 q2]
  simp only [Option.bind_some]
  obtain ⟨F, e6, l6, g6, -⟩ := C03_exclusive_scan_blocking (e.sched 8) (e.sched 9) (e.sched 10)
    e.scanLocalSize e.computeUnits (ncell + 1) hE.scan_pos (e.freshN 4) T
    (List.replicate (ncell + 1) 0) (by omega) (by simp)
  rw [e6]
  simp only [Option.bind_some]
  have gF : ∀ c, c ≤ ncell → F[c]? = some (before T c) := by
    intro c hc
    have := g6 c (by omega)
    simpa [before] using this
  simp only [gF ncell (Nat.le_refl _), Option.bind_some]
  -- bounds and bijections
  have hTP : ∀ c k, c < ncell → k < cnt (R c) (nw c) → IsParticle T c k :=
    fun c k hc hk => ⟨_, gT c hc, hk⟩
  have hTlt : ∀ c k, c < ncell → k < cnt (R c) (nw c) → before T c + k < before T ncell :=
    fun c k hc hk => before_le (hTP c k hc hk) hc
  have hn : before T ncell ≤ npart := by
    refine sum_holes_le (R := R) (cells := cells) (layers := layers) hold (by simp; omega) ?_ ?_
    · intro c n hcn
      have hc := hlt c n hcn
      rw [ho c hc] at hcn
      simp only [Option.some.injEq] at hcn
      exact ⟨nw c, by rw [← hcn]; exact hnw c, gT c hc⟩
    · intro c n k _ _ hR; exact (hRiff c k).1 hR
  -- index of a kept particle
  let ki : Nat → Nat → Nat := fun c k => (k - nw c) - (cnt (R c) k - cnt (R c) (nw c))
  have hmono : ∀ c k, nw c ≤ k → cnt (R c) (nw c) ≤ cnt (R c) k := fun c k h => cnt_mono h
  have hdiff : ∀ c k, nw c ≤ k → cnt (R c) k ≤ cnt (R c) (nw c) + (k - nw c) :=
    fun c k h => cnt_diff_le h
  let K : Nat → Nat → Bool := fun c k => !R c k
  have hcntK : ∀ c k, cnt (K c) k = k - cnt (R c) k := fun c k => cnt_not _ _
  have hki : ∀ c k, nw c ≤ k → cnt (K c) (nw c) + ki c k = cnt (K c) k := by
    intro c k hk
    rw [hcntK, hcntK]
    simp only [ki]
    have := hmono c k hk
    have := hdiff c k hk
    have := cnt_le (R c) k
    have := cnt_le (R c) (nw c)
    omega
  have hKtot : ∀ c, cnt (K c) (o c) = cnt (K c) (nw c) + cnt (R c) (nw c) := by
    intro c
    rw [hcntK, hcntK]
    have := hcle c
    have := cnt_le (R c) (nw c)
    simp only [nw] at *
    omega
  have hkilt : ∀ c k, nw c ≤ k → k < o c → R c k = false → ki c k < cnt (R c) (nw c) := by
    intro c k h1 h2 h3
    have h4 := hki c k h1
    have h5 := hKtot c
    have h6 : cnt (K c) k < cnt (K c) (o c) := cnt_lt h2 (by simp [K, h3])
    omega
  have hholelt : ∀ c k, k < nw c → R c k = true → cnt (R c) k < cnt (R c) (nw c) :=
    fun c k h1 h2 => cnt_lt h1 h2
  -- the three stores
  have hin : ∀ p, p ∈ (e.sched 11).order visits ↔ p.1 < ncell ∧ p.2 < o p.1 := by
    intro p; rw [((e.sched 11).perm visits).mem_iff]; exact hvis' p.1 p.2
  let dh : Nat × Nat → Option Nat := fun p =>
    if R p.1 p.2 = true ∧ p.2 < nw p.1 then some (before T p.1 + cnt (R p.1) p.2) else none
  let dk : Nat × Nat → Option Nat := fun p =>
    if R p.1 p.2 = false ∧ nw p.1 ≤ p.2 then some (before T p.1 + ki p.1 p.2) else none
  have hdh : ∀ p ∈ (e.sched 11).order visits, ∀ d, dh p = some d →
      p.1 < ncell ∧ R p.1 p.2 = true ∧ p.2 < nw p.1 ∧ d = before T p.1 + cnt (R p.1) p.2 := by
    intro p hp d hd
    simp only [dh] at hd
    split at hd
    · rename_i h; simp only [Option.some.injEq] at hd
      exact ⟨((hin p).1 hp).1, h.1, h.2, hd.symm⟩
    · simp at hd
  have hdk : ∀ p ∈ (e.sched 11).order visits, ∀ d, dk p = some d →
      p.1 < ncell ∧ R p.1 p.2 = false ∧ nw p.1 ≤ p.2 ∧ p.2 < o p.1 ∧
        d = before T p.1 + ki p.1 p.2 := by
    intro p hp d hd
    simp only [dk] at hd
    split at hd
    · rename_i h; simp only [Option.some.injEq] at hd
      exact ⟨((hin p).1 hp).1, h.1, h.2, ((hin p).1 hp).2, hd.symm⟩
    · simp at hd
  have hhinj : ∀ p ∈ (e.sched 11).order visits, ∀ q ∈ (e.sched 11).order visits, ∀ d,
      dh p = some d → dh q = some d → p = q := by
    intro p hp q hq d h1 h2
    obtain ⟨a1, a2, a3, a4⟩ := hdh p hp d h1
    obtain ⟨b1, b2, b3, b4⟩ := hdh q hq d h2
    obtain ⟨c1, c2⟩ := before_inj (hTP p.1 _ a1 (hholelt p.1 p.2 a3 a2))
      (hTP q.1 _ b1 (hholelt q.1 q.2 b3 b2)) (by omega)
    rw [← c1] at c2 b2
    exact Prod.ext c1 (cnt_inj a2 b2 c2)
  have hkinj : ∀ p ∈ (e.sched 11).order visits, ∀ q ∈ (e.sched 11).order visits, ∀ d,
      dk p = some d → dk q = some d → p = q := by
    intro p hp q hq d h1 h2
    obtain ⟨a1, a2, a3, a4, a5⟩ := hdk p hp d h1
    obtain ⟨b1, b2, b3, b4, b5⟩ := hdk q hq d h2
    obtain ⟨c1, c2⟩ := before_inj (hTP p.1 _ a1 (hkilt p.1 p.2 a3 a4 a2))
      (hTP q.1 _ b1 (hkilt q.1 q.2 b3 b4 b2)) (by omega)
    rw [← c1] at c2 b2 b3
    have h3 := hki p.1 p.2 a3
    have h4 := hki p.1 q.2 b3
    exact Prod.ext c1 (cnt_inj (p := K p.1) (by simp [K, a2]) (by simp [K, b2]) (by omega))
  have hhb : ∀ p ∈ (e.sched 11).order visits, ∀ d, dh p = some d → d < npart := by
    intro p hp d h1
    obtain ⟨a1, a2, a3, a4⟩ := hdh p hp d h1
    have := hTlt p.1 _ a1 (hholelt p.1 p.2 a3 a2)
    omega
  have hkb : ∀ p ∈ (e.sched 11).order visits, ∀ d, dk p = some d → d < npart := by
    intro p hp d h1
    obtain ⟨a1, a2, a3, a4, a5⟩ := hdk p hp d h1
    have := hTlt p.1 _ a1 (hkilt p.1 p.2 a3 a4 a2)
    omega
  obtain ⟨A1, r1, -, s1, -⟩ := runItems_putStep (m := a.1) (items := (e.sched 11).order visits) dh
    (fun p => (p.1 : Int)) (fun p hp q hq d h1 h2 => by rw [hhinj p hp q hq d h1 h2])
    (by rw [ha1]; exact hhb)
  obtain ⟨A2, r2, -, s2, -⟩ := runItems_putStep (m := a.2.1) (items := (e.sched 11).order visits)
    dk (fun p => (p.2 : Int)) (fun p hp q hq d h1 h2 => by rw [hkinj p hp q hq d h1 h2])
    (by rw [ha2]; exact hkb)
  obtain ⟨A3, r3, -, s3, -⟩ := runItems_putStep (m := a.2.2) (items := (e.sched 11).order visits)
    dh (fun p => (p.2 : Int)) (fun p hp q hq d h1 h2 => by rw [hhinj p hp q hq d h1 h2])
    (by rw [ha3]; exact hhb)
  have r23 := runItems_prod (step := fun p (s : List Int × List Int) =>
      (putStep dk (fun p : Nat × Nat => (p.2 : Int)) p s.1).bind fun x =>
      (putStep dh (fun p : Nat × Nat => (p.2 : Int)) p s.2).bind fun y => some (x, y))
    (fun _ _ _ _ => rfl) r2 r3
  have r123 : runItems (moveStep es masks masksEs N T F) ((e.sched 11).order visits) a =
      some (A1, A2, A3) := by
    refine runItems_prod (s := a.1) (t := a.2) ?_ r1 r23
    rintro ⟨c, k⟩ hp s t
    obtain ⟨hc, hk⟩ := (hin _).1 hp
    simp only at hc hk
    unfold moveStep
    simp only [rd, ges c (by omega), g4 c k hc hk, gN c hc, gF c (by omega),
      gme c k hc (by omega), gT c hc, Option.bind_some, putStep, dh, dk]
    cases hR : R c k with
    | true =>
      by_cases hkn : k < nw c
      · simp [hkn, Option.bind_assoc]
      · have : ¬ k < nw c := hkn
        simp [hkn]
    | false =>
      by_cases hkn : nw c ≤ k
      · have hx : ¬ k < nw c := by omega
        have h1 := hmono c k hkn
        have h2 := hdiff c k hkn
        have hcond : (0 : Int) ≤ (before T c : Int) + k - nw c -
            ((cnt (R c) k : Int) - cnt (R c) (nw c)) := by omega
        have hval : ((before T c : Int) + k - nw c -
            ((cnt (R c) k : Int) - cnt (R c) (nw c))).toNat = before T c + ki c k := by
          simp only [ki]; omega
        simp only [Bool.false_eq_true, if_false, ne_eq, not_true_eq_false, false_and,
          true_and, ge_iff_le, hkn, if_true, index, hcond, hval, Option.bind_some]
        cases st t.1 (before T c + ki c k) (k : Int) <;> rfl
      · simp [hkn]
  rw [r123]
  simp only [Option.bind_some]
  -- the plan
  have hex1 : ∀ i, i < before T ncell → ∃ c k, c < ncell ∧ R c k = true ∧ k < nw c ∧
      before T c + cnt (R c) k = i := by
    intro i hi
    obtain ⟨c, j, -, hc, ⟨n, hn1, hn2⟩, hj⟩ := before_exists (npart := T) (cs := 0) (ce := ncell)
      (by omega) (by simp [before]) hi
    rw [gT c hc] at hn1
    simp only [Option.some.injEq] at hn1
    obtain ⟨k, k1, k2, k3⟩ := cnt_surj (p := R c) (n := nw c) (r := j) (by omega)
    exact ⟨c, k, hc, k2, k1, by omega⟩
  have hex2 : ∀ i, i < before T ncell → ∃ c k, c < ncell ∧ R c k = false ∧ nw c ≤ k ∧ k < o c ∧
      before T c + ki c k = i := by
    intro i hi
    obtain ⟨c, j, -, hc, ⟨n, hn1, hn2⟩, hj⟩ := before_exists (npart := T) (cs := 0) (ce := ncell)
      (by omega) (by simp [before]) hi
    rw [gT c hc] at hn1
    simp only [Option.some.injEq] at hn1
    have htot := hKtot c
    obtain ⟨k, k1, k2, k3⟩ := cnt_surj (p := K c) (n := o c) (r := cnt (K c) (nw c) + j) (by omega)
    have hge : nw c ≤ k := by
      by_contra hcon
      have := cnt_lt (p := K c) (a := k) (b := nw c) (by omega) k2
      omega
    have := hki c k hge
    exact ⟨c, k, hc, by simpa [K] using k2, hge, k1, by omega⟩
  choose! c1 k1 hh using hex1
  choose! c2 k2 hk2 using hex2
  have hcc : ∀ i, i < before T ncell → c1 i = c2 i := by
    intro i hi
    obtain ⟨a1, a2, a3, a4⟩ := hh i hi
    obtain ⟨b1, b2, b3, b4, b5⟩ := hk2 i hi
    exact (before_inj (hTP _ _ a1 (hholelt _ _ a3 a2)) (hTP _ _ b1 (hkilt _ _ b3 b4 b2))
      (by omega)).1
  refine ⟨_, c1, k2, k1, rfl, ?_⟩
  refine ⟨by rw [lN, hnew], gN, ?_, ?_, ?_, fun i hi => (hh i hi).1, ?_, ?_, ?_, ?_, ?_, ?_⟩
  · intro i hi
    obtain ⟨a1, a2, a3, a4⟩ := hh i hi
    have hle := hnw (c1 i)
    exact s1 (c1 i, k1 i) ((hin _).2 ⟨a1, by simp only; omega⟩) i (by simp [dh, a2, a3, a4])
  · intro i hi
    obtain ⟨b1, b2, b3, b4, b5⟩ := hk2 i hi
    exact s2 (c2 i, k2 i) ((hin _).2 ⟨b1, b4⟩) i (by simp [dk, b2, b3, b5])
  · intro i hi
    obtain ⟨a1, a2, a3, a4⟩ := hh i hi
    have hle := hnw (c1 i)
    exact s3 (c1 i, k1 i) ((hin _).2 ⟨a1, by simp only; omega⟩) i (by simp [dh, a2, a3, a4])
  · intro i hi
    obtain ⟨b1, b2, b3, b4, b5⟩ := hk2 i hi
    rw [hcc i hi]
    exact ⟨b2, b4, b3⟩
  · intro i hi
    obtain ⟨a1, a2, a3, a4⟩ := hh i hi
    exact ⟨a2, a3⟩
  · intro i j hi hj h1 h2
    rw [hcc i hi, hcc j hj] at h1
    have a5 := (hk2 i hi).2.2.2.2
    have b5 := (hk2 j hj).2.2.2.2
    rw [← a5, ← b5, h1, h2]
  · intro i j hi hj h1 h2
    rw [← (hh i hi).2.2.2, ← (hh j hj).2.2.2, h1, h2]
  · intro c k hc hk hge hR
    have hlt' := hTlt c _ hc (hkilt c k hge hk hR)
    refine ⟨before T c + ki c k, hlt', ?_, ?_⟩
    · rw [hcc _ hlt']
      obtain ⟨b1, b2, b3, b4, b5⟩ := hk2 _ hlt'
      exact (before_inj (hTP _ _ b1 (hkilt _ _ b3 b4 b2)) (hTP _ _ hc (hkilt _ _ hge hk hR)) b5).1
    · obtain ⟨b1, b2, b3, b4, b5⟩ := hk2 _ hlt'
      have hcd : dk (c2 (before T c + ki c k), k2 (before T c + ki c k)) =
          some (before T c + ki c k) := by simp [dk, b2, b3, b5]
      have hck : dk (c, k) = some (before T c + ki c k) := by
        have hge' : nw c ≤ k := hge
        simp [dk, hR, hge']
      have := hkinj _ ((hin _).2 ⟨b1, b4⟩) (c, k) ((hin _).2 ⟨hc, hk⟩) _ hcd hck
      exact (Prod.mk.inj this).2
  · intro c k hc hk hR
    have hlt' := hTlt c _ hc (hholelt c k hk hR)
    obtain ⟨b1, b2, b3, b4⟩ := hh _ hlt'
    have hle := hnw c
    have hle' := hnw (c1 (before T c + cnt (R c) k))
    have hcd : dh (c1 (before T c + cnt (R c) k), k1 (before T c + cnt (R c) k)) =
        some (before T c + cnt (R c) k) := by simp [dh, b2, b3, b4]
    have hck : dh (c, k) = some (before T c + cnt (R c) k) := by
      have hk' : k < nw c := hk
      simp [dh, hR, hk']
    have hkc : k < nw c := hk
    have := hhinj _ ((hin _).2 ⟨b1, by simp only; omega⟩) (c, k)
      ((hin _).2 ⟨hc, by simp only; omega⟩) _ hcd hck
    exact ⟨_, hlt', (Prod.mk.inj this).1, (Prod.mk.inj this).2⟩

end NP
