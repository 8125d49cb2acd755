import Verif.Pair.SpecSimple
import Verif.Pair.LemmasLoop
import Verif.Group.LemmasMem
import Verif.Basics.Lemmas

/-! # Lemmas about `push_back` of device pair lists -/

set_option autoImplicit false

namespace NP

open Spec

/-- The buffers of a device pair list are large enough. -/
structure SimpleWf (cc : Nat) (s : PairSimple) : Prop where
  cells : s.cellCount = cc
  hWave : s.hWaveCount.length = cc
  dWave : s.dWaveCount.length = cc
  offsets : cc ≤ s.dWaveOffsets.length
  counts : cc ≤ s.dPairCounts.length
  es : cc ≤ s.dPairCountsEs.length
  mem : DatMem cc s.mem s.dat
  sym : s.dat.sym = 0
  ncomp : s.dat.ncomp = 2

/-- The list accepts pairs and has counted as many pairs as `A` has. -/
structure PushedCore (cc : Nat) (s : PairSimple) (A : Nat → List (Int × Int)) : Prop where
  wf : SimpleWf cc s
  mode : s.mode = 0 ∨ s.mode = 1
  hlen : s.hPairCounts.length = s.dPairCounts.length
  counts : ∀ c, c < cc → s.dPairCounts[c]? = some (A c).length

/-- The list holds the pairs `A`, all in one wave. -/
structure Pushed (cc : Nat) (s : PairSimple) (A : Nat → List (Int × Int)) : Prop
    extends PushedCore cc s A where
  offsets : ∀ c, c < cc → s.dWaveOffsets[c]? = some 0
  rows : ∀ (c r : Nat), c < cc → s.dat.nrow[c]? = some r → (A c).length ≤ r
  data : ∀ (c k : Nat) (a b : Int), c < cc → (A c)[k]? = some (a, b) →
    s.mem ⟨0, c, 0, k⟩ = some a ∧ s.mem ⟨0, c, 1, k⟩ = some b

/-- What has been counted since the last `clear`: nothing, or the device view is complete. -/
structure PushedView (cc : Nat) (s : PairSimple) (A : Nat → List (Int × Int)) : Prop where
  waves : ∀ c, c < cc → s.dWaveCount[c]? = some 1
  maxPair : 0 < s.maxPairCount
  maxWave : s.maxWaveCount = 1
  es : ∀ c, c < cc → s.dPairCountsEs[c]? =
    some ((((List.range c).map fun d => (A d).length).sum : Nat) : Int)
  total : s.pairCount = ((((List.range cc).map fun d => (A d).length).sum : Nat) : Int)
  host : s.hPairCounts = s.dPairCounts

theorem getElem?_replicate_stRange {α : Type} {m m' : List α} {n : Nat} {x : α}
    (h : stRange m 0 (List.replicate n x) = some m') {c : Nat} (hc : c < n) : m'[c]? = some x := by
  rw [getElem?_of_stRange h]
  simp [hc]

theorem clear_spec {cc : Nat} {s : PairSimple} (h : SimpleWf cc s) :
    ∃ s', s.clear = some s' ∧ SimpleWf cc s' ∧
      (∀ c, c < cc → s'.dWaveCount[c]? = some 0) ∧ s'.pairCount = -1 ∧
      (s.hPairCounts.length = s.dPairCounts.length → Pushed cc s' fun _ => []) := by
  unfold PairSimple.clear
  dsimp only
  have e1 := stRange_eq_some (m := s.dWaveCount) (a := 0) (vs := List.replicate s.cellCount 0)
    (by simp [h.cells, h.dWave])
  have e2 := stRange_eq_some (m := s.dPairCounts) (a := 0) (vs := List.replicate s.cellCount 0)
    (by simp [h.cells, h.counts])
  have e3 := stRange_eq_some (m := s.dWaveOffsets) (a := 0) (vs := List.replicate s.cellCount 0)
    (by simp [h.cells, h.offsets])
  rw [e1, e2, e3]
  simp only [Option.bind_some]
  have hwf : ∀ (mx mw pc : Int) (md : Int), SimpleWf cc
      { s with dWaveCount := (List.take 0 s.dWaveCount ++ List.replicate s.cellCount 0 ++ List.drop (0 + (List.replicate s.cellCount 0).length) s.dWaveCount), dPairCounts := (List.take 0 s.dPairCounts ++ List.replicate s.cellCount 0 ++ List.drop (0 + (List.replicate s.cellCount 0).length) s.dPairCounts), dWaveOffsets := (List.take 0 s.dWaveOffsets ++ List.replicate s.cellCount 0 ++ List.drop (0 + (List.replicate s.cellCount 0).length) s.dWaveOffsets), maxPairCount := mx, hWaveCount := List.replicate s.hWaveCount.length 0, hPairCounts := List.replicate s.hPairCounts.length 0, maxWaveCount := mw, pairCount := pc, mode := md } := by
    intro mx mw pc md
    refine ⟨h.cells, by simp [h.hWave], ?_, ?_, ?_, h.es, h.mem, h.sym, h.ncomp⟩
    · rw [(length_of_stRange e1).1, h.dWave]
    · show cc ≤ List.length _; rw [(length_of_stRange e3).1]; exact h.offsets
    · show cc ≤ List.length _; rw [(length_of_stRange e2).1]; exact h.counts
  refine ⟨_, rfl, hwf _ _ _ _, ?_, rfl, ?_⟩
  · intro c hc
    exact getElem?_replicate_stRange e1 (by rw [h.cells]; exact hc)
  · intro hl
    refine ⟨⟨hwf _ _ _ _, Or.inl rfl, ?_, ?_⟩, ?_, ?_, ?_⟩
    · show (List.replicate _ _).length = List.length _
      rw [(length_of_stRange e2).1]; simp [hl]
    · intro c hc
      exact getElem?_replicate_stRange e2 (by rw [h.cells]; exact hc)
    · intro c hc
      exact getElem?_replicate_stRange e3 (by rw [h.cells]; exact hc)
    · intro c r _ _; simp
    · intro c k a b _ hk; simp at hk

theorem new_spec (e : Env) (cc : Nat) :
    ∃ s, PairSimple.new e cc = some s ∧ SimpleWf cc s ∧ s.pairCount = -1 ∧
      Pushed cc s fun _ => [] := by
  unfold PairSimple.new
  have hd : DatMem cc (fun _ => none) ⟨0, 2, List.replicate cc 0, List.replicate cc 0, [], []⟩ := by
    refine ⟨by simp, by simp, ?_, ?_⟩
    · intro c r a hr ha
      dsimp only at hr ha
      rw [List.getElem?_replicate] at hr ha
      split at hr
      · rw [if_pos (by assumption)] at ha
        simp only [Option.some.injEq] at hr ha
        omega
      · simp at hr
    · intro c a j k ha _ hk
      dsimp only at ha
      rw [List.getElem?_replicate] at ha
      split at ha
      · simp only [Option.some.injEq] at ha; omega
      · simp at ha
  obtain ⟨s', h1, h2, -, h3, h4⟩ := clear_spec (cc := cc)
    (s := ⟨cc, List.replicate cc 0, (e.freshN 0 cc).1,
    (e.freshN 1 cc).1, fun _ => none, ⟨0, 2, List.replicate cc 0,
      List.replicate cc 0, [], []⟩, (e.freshN 2 cc).1, (e.freshI 0 cc).1,
    List.replicate cc 0, 0, 0, 0, 0⟩)
    ⟨rfl, by simp, (e.freshN 0 cc).2, by rw [(e.freshN 1 cc).2], by rw [(e.freshN 2 cc).2],
      by rw [(e.freshI 0 cc).2], hd, rfl, rfl⟩
  exact ⟨s', h1, h2, h3, h4 (by simp [(e.freshN 2 cc).2])⟩

/-! ## The layers -/

theorem pushLayers_spec (cc : Nat) : ∀ (cs : List Int) (ijs : List (Int × Int)) (h : List Nat)
    (A : Nat → List (Int × Int)) (mx : Int), ijs.length = cs.length →
    (∀ c, c < cc → h[c]? = some (A c).length) → (∀ c ∈ cs, 0 ≤ c ∧ c < cc) →
    ∃ layers h' mx', pushLayers cc cs h mx = some (layers, h', mx') ∧
      layers.length = cs.length ∧ h'.length = h.length ∧ mx ≤ mx' ∧ (cs ≠ [] → 0 < mx') ∧
      (∀ c : Nat, c < cc → h'[c]? = some (A c ++
        (((cs.zip ijs).filter fun x => x.1 == (c : Int)).map Prod.snd)).length) ∧
      (∀ x ∈ (cs.zip layers).zip ijs, 0 ≤ x.1.1 ∧ x.1.1 < cc ∧
        (A x.1.1.toNat ++ (((cs.zip ijs).filter
          fun y => y.1 == ((x.1.1.toNat : Nat) : Int)).map Prod.snd))[x.1.2]? = some x.2 ∧
        (A x.1.1.toNat).length ≤ x.1.2) ∧
      (∀ c k : Nat, c < cc → (A c).length ≤ k → k < (A c ++ (((cs.zip ijs).filter
          fun y => y.1 == (c : Int)).map Prod.snd)).length →
        ∃ x ∈ (cs.zip layers).zip ijs, x.1.1 = c ∧ x.1.2 = k) := by
  intro cs
  induction cs with
  | nil =>
    intro ijs h A mx _ hA _
    refine ⟨[], h, mx, rfl, rfl, rfl, by omega, by simp, by simpa using hA, by simp, ?_⟩
    intro c k _ h1 h2
    simp at h2
    omega
  | cons c0 cs ih =>
    intro ijs h A mx hlen hA hcs
    obtain ⟨ij, ijs, rfl⟩ : ∃ ij ijs', ijs = ij :: ijs' := by
      cases ijs with
      | nil => simp at hlen
      | cons a b => exact ⟨a, b, rfl⟩
    obtain ⟨h0, h1⟩ := hcs c0 List.mem_cons_self
    obtain ⟨n0, rfl⟩ : ∃ n : Nat, c0 = n := ⟨c0.toNat, by omega⟩
    have hn0 : n0 < cc := by omega
    have hlt : n0 < h.length := (List.getElem?_eq_some_iff.1 (hA n0 hn0)).1
    let A' : Nat → List (Int × Int) := fun d => if d = n0 then A d ++ [ij] else A d
    have hA'0 : A' n0 = A n0 ++ [ij] := by simp [A']
    have hA' : ∀ c, c < cc → (h.set n0 ((A n0).length + 1))[c]? = some (A' c).length := by
      intro c hc
      by_cases hcn : c = n0
      · subst hcn
        rw [List.getElem?_set_self hlt, hA'0]; simp
      · rw [List.getElem?_set_ne (fun hh => hcn hh.symm), hA c hc]
        simp [A', hcn]
    have hB : ∀ d : Nat, A' d ++ (((cs.zip ijs).filter fun x => x.1 == (d : Int)).map Prod.snd) =
        A d ++ (((((n0 : Int) :: cs).zip (ij :: ijs)).filter
          fun x => x.1 == (d : Int)).map Prod.snd) := by
      intro d
      rw [List.zip_cons_cons, List.filter_cons]
      by_cases hd : d = n0
      · subst hd
        simp [A']
      · have : ¬ (n0 : Int) = (d : Int) := by omega
        simp [A', hd, this]
    obtain ⟨layers, h', mx', e1, e2, e3, e4, e5, e6, e7, e8⟩ := ih ijs
      (h.set n0 ((A n0).length + 1)) A' (max mx (((A n0).length + 1 : Nat) : Int))
      (by simpa using hlen) hA' (fun c hc => hcs c (List.mem_cons_of_mem _ hc))
    refine ⟨(A n0).length :: layers, h', mx', ?_, by simp [e2], by rw [e3]; simp, by omega, ?_, ?_,
      ?_, ?_⟩
    · unfold pushLayers
      rw [if_pos ⟨h0, h1⟩]
      simp only [rd, Int.toNat_natCast, hA n0 hn0, Option.bind_some, st_eq_some hlt, e1]
    · intro _; omega
    · intro c hc
      rw [e6 c hc, hB]
    · intro x hx
      rw [List.zip_cons_cons, List.zip_cons_cons, List.mem_cons] at hx
      rcases hx with rfl | hx
      · refine ⟨h0, h1, ?_, by simp⟩
        dsimp only
        rw [Int.toNat_natCast, List.getElem?_append_right (Nat.le_refl _), Nat.sub_self,
          List.zip_cons_cons, List.filter_cons, if_pos (by simp)]
        rfl
      · obtain ⟨f1, f2, f3, f4⟩ := e7 x hx
        refine ⟨f1, f2, by rw [← hB]; exact f3, ?_⟩
        refine Nat.le_trans ?_ f4
        simp only [A']
        split <;> simp
    · intro c k hc hk1 hk2
      by_cases hck : c = n0 ∧ k = (A n0).length
      · obtain ⟨rfl, rfl⟩ := hck
        exact ⟨(((c : Int), (A c).length), ij), by simp, rfl, rfl⟩
      · rw [← hB] at hk2
        obtain ⟨x, hx, hx1, hx2⟩ := e8 c k hc (by
          by_cases hcn : c = n0
          · subst hcn
            rw [hA'0]
            simp only [List.length_append, List.length_singleton]
            have : k ≠ (A c).length := fun hh => hck ⟨rfl, hh⟩
            omega
          · simp only [A', if_neg hcn]; exact hk1) hk2
        exact ⟨x, by rw [List.zip_cons_cons, List.zip_cons_cons]; exact List.mem_cons_of_mem _ hx,
          hx1, hx2⟩

/-- Growing the cells. -/
theorem growRows_spec (e : Env) {cc : Nat} {m : Mem} {d : Dat} (hm : DatMem cc m d)
    {req : List Nat} {n : Nat → Nat} (hreq : ∀ c, c < cc → req[c]? = some (n c)) :
    ∃ m' d', forLoop 0 cc (fun cx (t : Mem × Dat) =>
        (rd t.2.nrow cx).bind fun cur => (rd req cx).bind fun req =>
        if req > cur then setNrow e cx req t else some t) (m, d) = some (m', d') ∧
      DatMem cc m' d' ∧ d'.sym = d.sym ∧ d'.ncomp = d.ncomp ∧
      (∀ (c r : Nat), c < cc → d'.nrow[c]? = some r → n c ≤ r) ∧
      (∀ (k : Key) (r : Nat), k.sym = d.sym → k.comp < d.ncomp → d.nrow[k.cell]? = some r →
        k.row < r → m' k = m k) := by
  obtain ⟨⟨m', d'⟩, h1, h2⟩ := forLoop_invariant (a := 0) (b := cc)
    (step := fun cx (t : Mem × Dat) =>
        (rd t.2.nrow cx).bind fun cur => (rd req cx).bind fun req =>
        if req > cur then setNrow e cx req t else some t) (s := (m, d))
    (fun i t => DatMem cc t.1 t.2 ∧ t.2.sym = d.sym ∧ t.2.ncomp = d.ncomp ∧
      (∀ (c r : Nat), c < i → t.2.nrow[c]? = some r → n c ≤ r) ∧
      (∀ (c r : Nat), i ≤ c → d.nrow[c]? = some r → t.2.nrow[c]? = some r) ∧
      (∀ (k : Key) (r : Nat), k.sym = d.sym → k.comp < d.ncomp → d.nrow[k.cell]? = some r →
        k.row < r → t.1 k = m k)) (Nat.zero_le _)
    (by
      rintro i ⟨m1, d1⟩ _ hi ⟨g1, g2, g3, g4, g5, g6⟩
      dsimp only at g1 g2 g3 g4 g5 g6
      have hlt : i < d1.nrow.length := by rw [g1.nrow_len]; exact hi
      have hlt0 : i < d.nrow.length := by rw [hm.nrow_len]; exact hi
      have hnr : d1.nrow[i]? = some d.nrow[i] := g5 i _ (Nat.le_refl _) (List.getElem?_eq_getElem hlt0)
      simp only [rd, hnr, hreq i hi, Option.bind_some]
      by_cases hgt : n i > d.nrow[i]
      · rw [if_pos hgt]
        obtain ⟨m2, d2, s1, s2, s3, s4, s5, -, -, s6, s7⟩ := setNrow_spec (e := e) (req := n i) g1 hi
        refine ⟨(m2, d2), s1, s2, s4.trans g2, s5.trans g3, ?_, ?_, ?_⟩
        · intro c r hc hr
          dsimp only at hr
          rw [s3] at hr
          by_cases hci : c = i
          · subst hci
            rw [List.getElem?_set_self hlt, Option.some.injEq] at hr
            omega
          · rw [List.getElem?_set_ne (fun hh => hci hh.symm)] at hr
            exact g4 c r (by omega) hr
        · intro c r hc hr
          dsimp only
          rw [s3, List.getElem?_set_ne (by omega)]
          exact g5 c r (by omega) hr
        · intro k r k1 k2 k3 k4
          dsimp only
          by_cases hki : k.cell = i
          · rw [s7 k d.nrow[i] (by rw [g2]; exact k1) hki (by rw [g3]; exact k2) hnr ?_ ?_]
            · exact g6 k r k1 k2 k3 k4
            · rw [hki, List.getElem?_eq_getElem hlt0, Option.some.injEq] at k3; omega
            · rw [hki, List.getElem?_eq_getElem hlt0, Option.some.injEq] at k3; omega
          · rw [s6 k (fun hh => hki hh.2)]
            exact g6 k r k1 k2 k3 k4
      · rw [if_neg hgt]
        refine ⟨(m1, d1), rfl, g1, g2, g3, ?_, fun c r hc hr => g5 c r (by omega) hr, g6⟩
        intro c r hc hr
        by_cases hci : c = i
        · subst hci
          dsimp only at hr
          rw [hnr, Option.some.injEq] at hr
          omega
        · exact g4 c r (by omega) hr)
    ⟨hm, rfl, rfl, by intro c r hc; omega, fun _ _ _ h => h, fun _ _ _ _ _ _ => rfl⟩
  obtain ⟨g1, g2, g3, g4, -, g6⟩ := h2
  exact ⟨m', d', h1, g1, g2, g3, g4, g6⟩

/-- Storing the pairs, in any order. -/
theorem pushStore_spec {cc : Nat} {items : List ((Int × Nat) × Int × Int)} {m : Mem}
    {B : Nat → List (Int × Int)}
    (hB : ∀ x ∈ items, 0 ≤ x.1.1 ∧ x.1.1 < (cc : Int) ∧ (B x.1.1.toNat)[x.1.2]? = some x.2)
    (hm : ∀ x ∈ items, (m ⟨0, x.1.1.toNat, 0, x.1.2⟩).isSome = true ∧
      (m ⟨0, x.1.1.toNat, 1, x.1.2⟩).isSome = true) :
    ∃ m', runItems pushStore items m = some m' ∧
      (∀ x ∈ items, m' ⟨0, x.1.1.toNat, 0, x.1.2⟩ = some x.2.1 ∧
        m' ⟨0, x.1.1.toNat, 1, x.1.2⟩ = some x.2.2) ∧
      (∀ k : Key, (∀ x ∈ items, ¬ (k.cell = x.1.1.toNat ∧ k.row = x.1.2)) → m' k = m k) ∧
      (∀ k, (m k).isSome = true → (m' k).isSome = true) := by
  obtain ⟨m', h1, h2⟩ := runItems_invariant (step := pushStore) (items := items) (s := m)
    (P := fun pre m' => (∀ x ∈ pre, m' ⟨0, x.1.1.toNat, 0, x.1.2⟩ = some x.2.1 ∧
        m' ⟨0, x.1.1.toNat, 1, x.1.2⟩ = some x.2.2) ∧
      (∀ k : Key, (∀ x ∈ pre, ¬ (k.cell = x.1.1.toNat ∧ k.row = x.1.2)) → m' k = m k) ∧
      (∀ k, (m k).isSome = true → (m' k).isSome = true))
    (by
      rintro pre x post m1 he ⟨g1, g2, g3⟩
      have hx : x ∈ items := by rw [he]; simp
      have hpre : ∀ y ∈ pre, y ∈ items := by intro y hy; rw [he]; simp [hy]
      obtain ⟨a1, a2⟩ := hm x hx
      obtain ⟨-, -, hbx⟩ := hB x hx
      have e1 := mst_eq_some (v := x.2.1) (g3 _ a1)
      have e2 := mst_eq_some (v := x.2.2) (m := fun k' => if k' = (⟨0, x.1.1.toNat, 0, x.1.2⟩ : Key)
        then some x.2.1 else m1 k') (k := ⟨0, x.1.1.toNat, 1, x.1.2⟩) (by
          rw [if_neg (by simp)]; exact g3 _ a2)
      refine ⟨_, by unfold pushStore; rw [e1, Option.bind_some, e2], ?_, ?_, ?_⟩
      · intro y hy
        rw [List.mem_append, List.mem_singleton] at hy
        have hy' : y ∈ items := by
          rcases hy with hy | rfl
          · exact hpre y hy
          · exact hx
        by_cases hsame : y.1.1.toNat = x.1.1.toNat ∧ y.1.2 = x.1.2
        · obtain ⟨-, -, hby⟩ := hB y hy'
          rw [hsame.1, hsame.2, hbx, Option.some.injEq] at hby
          rw [hsame.1, hsame.2]
          simp [hby]
        · have hyp : y ∈ pre := by
            rcases hy with hy | rfl
            · exact hy
            · exact absurd ⟨rfl, rfl⟩ hsame
          have n1 : ∀ a b : Nat, (⟨0, y.1.1.toNat, a, y.1.2⟩ : Key) ≠ ⟨0, x.1.1.toNat, b, x.1.2⟩ := by
            intro a b hh
            have := Key.mk.inj hh
            exact hsame ⟨this.2.1, this.2.2.2⟩
          rw [if_neg (n1 _ _), if_neg (n1 _ _), if_neg (n1 _ _), if_neg (n1 _ _)]
          exact g1 y hyp
      · intro k hk
        have hkx := hk x (by simp)
        have n1 : ∀ b : Nat, k ≠ ⟨0, x.1.1.toNat, b, x.1.2⟩ := by
          rintro b rfl
          exact hkx ⟨rfl, rfl⟩
        rw [if_neg (n1 _), if_neg (n1 _)]
        exact g2 k fun y hy => hk y (by simp [hy])
      · intro k hk
        split
        · rfl
        · split
          · rfl
          · exact g3 k hk)
    ⟨by simp, fun _ _ => rfl, fun _ h => h⟩
  exact ⟨m', h1, h2⟩

theorem sum_range_map_succ (f : Nat → Nat) (n : Nat) :
    ((List.range (n + 1)).map f).sum = ((List.range n).map f).sum + f n := by
  rw [List.range_succ, List.map_append, List.sum_append]
  simp

/-- One call of `push_back`, whatever the offsets and the rows in use are. -/
theorem pushBack_core (e : Env) (he : 0 < e.scanLocalSize) {cc : Nat} {s : PairSimple}
    {A : Nat → List (Int × Int)} (h : PushedCore cc s A) {x : List Int × List Int × List Int}
    (hx : ValidPush cc x) :
    ∃ s', s.pushBack e x.1 x.2.1 x.2.2 = some s' ∧
      PushedCore cc s' (fun c => A c ++ newPairs x.1 x.2.1 x.2.2 c) ∧
      (x.1 = [] → s' = { s with mode := 1 }) ∧
      (x.1 ≠ [] → PushedView cc s' (fun c => A c ++ newPairs x.1 x.2.1 x.2.2 c) ∧
        (∀ (c r : Nat), c < cc → s'.dat.nrow[c]? = some r →
          (A c ++ newPairs x.1 x.2.1 x.2.2 c).length ≤ r) ∧
        (∀ (c k : Nat) (a b : Int), c < cc → (A c).length ≤ k →
          (A c ++ newPairs x.1 x.2.1 x.2.2 c)[k]? = some (a, b) →
          s'.mem ⟨0, c, 0, k⟩ = some a ∧ s'.mem ⟨0, c, 1, k⟩ = some b) ∧
        (∀ (c j k r : Nat), c < cc → j < 2 → s.dat.nrow[c]? = some r → k < r →
          k < (A c).length → s'.mem ⟨0, c, j, k⟩ = s.mem ⟨0, c, j, k⟩)) ∧
      s'.dWaveOffsets = s.dWaveOffsets := by
  obtain ⟨cs, is, js⟩ := x
  obtain ⟨hl1, hl2, hcs⟩ := hx
  dsimp only at hl1 hl2 hcs ⊢
  unfold PairSimple.pushBack
  rw [if_pos h.mode, if_pos ⟨hl1, hl2⟩]
  by_cases hn : cs.length = 0
  · rw [if_pos hn]
    have hnil : cs = [] := List.length_eq_zero_iff.1 hn
    subst hnil
    have hsame : (fun c => A c ++ newPairs [] is js c) = A := by
      funext c; simp [newPairs]
    rw [hsame]
    refine ⟨_, rfl, ⟨⟨h.wf.cells, h.wf.hWave, h.wf.dWave, h.wf.offsets, h.wf.counts, h.wf.es, h.wf.mem,
      h.wf.sym, h.wf.ncomp⟩, Or.inr rfl, h.hlen, h.counts⟩, fun _ => rfl, by simp, rfl⟩
  rw [if_neg hn, if_pos h.hlen]
  have hne : cs ≠ [] := fun hh => hn (by rw [hh]; rfl)
  have hcc : 0 < cc := by
    obtain ⟨c, hc⟩ := List.exists_mem_of_ne_nil _ hne
    have := hcs c hc
    omega
  obtain ⟨layers, h', mx', e1, e2, e3, e4, e5, e6, e7, e8⟩ := pushLayers_spec cc cs (is.zip js)
    s.dPairCounts A (-1) (by simp; omega) h.counts hcs
  rw [h.wf.cells, e1, Option.bind_some]
  dsimp only
  obtain ⟨m1, d1, f1, f2, f3, f4, f5, f6⟩ := growRows_spec e h.wf.mem e6
  rw [f1, Option.bind_some]
  have halloc : ∀ (c k j : Nat), c < cc → j < 2 → k < (A c ++ newPairs cs is js c).length →
      (m1 ⟨0, c, j, k⟩).isSome = true := by
    intro c k j hc hj hk
    have hlt : c < d1.nrow.length := by rw [f2.nrow_len]; exact hc
    have hla : c < d1.alloc.length := by rw [f2.alloc_len]; exact hc
    have hle := f5 c _ hc (List.getElem?_eq_getElem hlt)
    have hle2 := f2.le c _ _ (List.getElem?_eq_getElem hlt) (List.getElem?_eq_getElem hla)
    have := f2.alloc c _ j k (List.getElem?_eq_getElem hla) (by rw [f4, h.wf.ncomp]; exact hj)
      (by unfold newPairs at hk; omega)
    rw [f3, h.wf.sym] at this
    exact this
  obtain ⟨m2, g1, g2, g3, g4⟩ := pushStore_spec (cc := cc) (m := m1)
    (items := (e.sched 0).order ((cs.zip layers).zip (is.zip js)))
    (B := fun c => A c ++ newPairs cs is js c)
    (by
      intro x hx
      rw [((e.sched 0).perm _).mem_iff] at hx
      obtain ⟨a1, a2, a3, -⟩ := e7 x hx
      exact ⟨a1, a2, a3⟩)
    (by
      intro x hx
      rw [((e.sched 0).perm _).mem_iff] at hx
      obtain ⟨a1, a2, a3, -⟩ := e7 x hx
      have hk := (List.getElem?_eq_some_iff.1 a3).1
      exact ⟨halloc _ _ 0 (by omega) (by omega) hk, halloc _ _ 1 (by omega) (by omega) hk⟩)
  rw [g1, Option.bind_some]
  have hs1 := slice_eq_some (m := h') (a := 0) (b := cc) (Nat.zero_le _)
    (by rw [e3]; exact h.wf.counts)
  generalize hcounts : ((h'.drop 0).take (cc - 0)) = counts at hs1
  rw [hs1, Option.bind_some]
  have hclen : counts.length = cc := by
    rw [← hcounts]
    have := h.wf.counts
    simp [e3]
    omega
  have hcget : ∀ c, c < cc → counts[c]? = some (A c ++ newPairs cs is js c).length := by
    intro c hc
    have := getElem?_of_slice hs1 c (by omega)
    rw [this, Nat.zero_add]
    exact e6 c hc
  have hceq : counts = (List.range cc).map fun c => (A c ++ newPairs cs is js c).length := by
    apply List.ext_getElem?
    intro i
    by_cases hi : i < cc
    · rw [hcget i hi]; simp [hi]
    · rw [List.getElem?_eq_none (by omega), List.getElem?_eq_none (by simp; omega)]
  obtain ⟨es, k1, k2, k3, k4⟩ := jointExclusiveScanGroup_spec he
    (counts.map fun n : Nat => (n : Int)) s.dPairCountsEs (N := cc) (by simp [hclen]) h.wf.es
  rw [k1, Option.bind_some]
  have hes : ∀ c, c < cc → es[c]? = some ((((List.range c).map
      fun d => (A d ++ newPairs cs is js d).length).sum : Nat) : Int) := by
    intro c hc
    rw [k3 c hc, hceq]
    congr 1
    rw [← List.map_take, ← List.map_take, List.take_range, Nat.min_eq_left (by omega)]
    generalize (List.range c).map (fun d => (A d ++ newPairs cs is js d).length) = l
    induction l with
    | nil => rfl
    | cons a l ih => simp [ih]
  rw [show rd es (cc - 1) = _ from hes (cc - 1) (by omega), Option.bind_some,
    if_pos (by omega), show rd h' (cc - 1) = _ from e6 (cc - 1) (by omega), Option.bind_some]
  have hw := stRange_eq_some (m := s.dWaveCount) (a := 0) (vs := List.replicate cc 1)
    (by simp [h.wf.dWave])
  rw [hw, Option.bind_some]
  refine ⟨_, rfl, ⟨⟨rfl, by simp [h.wf.hWave], ?_, h.wf.offsets, ?_, ?_, ?_, ?_, ?_⟩,
      Or.inr rfl, rfl, e6⟩, fun hh => absurd hh hne, fun _ =>
    ⟨⟨fun c hc => getElem?_replicate_stRange hw hc, e5 hne, rfl, hes, ?_, rfl⟩, f5, ?_, ?_⟩, rfl⟩
  · show List.length _ = cc
    rw [(length_of_stRange hw).1, h.wf.dWave]
  · show cc ≤ h'.length
    rw [e3]; exact h.wf.counts
  · show cc ≤ es.length
    rw [k2]; exact h.wf.es
  · exact f2.congr_isSome g4
  · exact f3.trans h.wf.sym
  · exact f4.trans h.wf.ncomp
  · obtain ⟨cc', rfl⟩ : ∃ cc', cc = cc' + 1 := ⟨cc - 1, by omega⟩
    rw [sum_range_map_succ]
    dsimp only
    rw [Nat.add_sub_cancel]
    unfold newPairs
    omega
  · intro c k a b hc hnew hk
    dsimp only
    obtain ⟨x, hx, hx1, hx2⟩ := e8 c k hc hnew (List.getElem?_eq_some_iff.1 hk).1
    obtain ⟨-, -, a3, -⟩ := e7 x hx
    have hv := g2 x (((e.sched 0).perm _).mem_iff.2 hx)
    rw [hx1, Int.toNat_natCast, hx2] at a3 hv
    have : some x.2 = some (a, b) := a3.symm.trans hk
    rw [Option.some.injEq] at this
    rw [this] at hv
    exact hv
  · intro c j k r hc hj hr hkr hk
    dsimp only
    have hno : ∀ x ∈ (e.sched 0).order ((cs.zip layers).zip (is.zip js)),
        ¬ (c = x.1.1.toNat ∧ k = x.1.2) := by
      rintro x hx ⟨hx1, hx2⟩
      rw [((e.sched 0).perm _).mem_iff] at hx
      obtain ⟨-, -, -, a4⟩ := e7 x hx
      rw [← hx1, ← hx2] at a4
      omega
    rw [g3 ⟨0, c, j, k⟩ hno, f6 ⟨0, c, j, k⟩ r h.wf.sym.symm
      (by rw [h.wf.ncomp]; exact hj) hr hkr]

/-- One call of `push_back`. -/
theorem pushBack_spec (e : Env) (he : 0 < e.scanLocalSize) {cc : Nat} {s : PairSimple}
    {A : Nat → List (Int × Int)} (h : Pushed cc s A) {x : List Int × List Int × List Int}
    (hx : ValidPush cc x) :
    ∃ s', s.pushBack e x.1 x.2.1 x.2.2 = some s' ∧
      Pushed cc s' (fun c => A c ++ newPairs x.1 x.2.1 x.2.2 c) ∧
      (x.1 ≠ [] → PushedView cc s' (fun c => A c ++ newPairs x.1 x.2.1 x.2.2 c)) ∧
      (PushedView cc s A → PushedView cc s' (fun c => A c ++ newPairs x.1 x.2.1 x.2.2 c)) := by
  obtain ⟨s', h1, h2, h3, h4, h5⟩ := pushBack_core e he h.toPushedCore hx
  refine ⟨s', h1, ?_, fun hne => (h4 hne).1, ?_⟩
  · by_cases hne : x.1 = []
    · have hsame : (fun c => A c ++ newPairs x.1 x.2.1 x.2.2 c) = A := by
        funext c; simp [newPairs, hne]
      have hs' := h3 hne
      rw [hsame] at h2 ⊢
      exact ⟨h2, by rw [hs']; exact h.offsets, by rw [hs']; exact h.rows, by rw [hs']; exact h.data⟩
    · obtain ⟨-, a1, a2, a3⟩ := h4 hne
      refine ⟨h2, by rw [h5]; exact h.offsets, a1, ?_⟩
      intro c k a b hc hk
      by_cases hnew : (A c).length ≤ k
      · exact a2 c k a b hc hnew hk
      · have hold : (A c)[k]? = some (a, b) := by
          rw [List.getElem?_append_left (by omega)] at hk
          exact hk
        have hlt : c < s.dat.nrow.length := by rw [h.wf.mem.nrow_len]; exact hc
        have hr := List.getElem?_eq_getElem hlt
        have hle := h.rows c _ hc hr
        rw [a3 c 0 k _ hc (by omega) hr (by omega) (by omega),
          a3 c 1 k _ hc (by omega) hr (by omega) (by omega)]
        exact h.data c k a b hc hold
  · intro hv
    by_cases hne : x.1 = []
    · have hsame : (fun c => A c ++ newPairs x.1 x.2.1 x.2.2 c) = A := by
        funext c; simp [newPairs, hne]
      rw [hsame, h3 hne]
      exact ⟨hv.waves, hv.maxPair, hv.maxWave, hv.es, hv.total, hv.host⟩
    · exact (h4 hne).1

end NP
