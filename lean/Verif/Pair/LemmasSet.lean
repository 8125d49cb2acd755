import Verif.Pair.LemmasPush
import Verif.Pair.PropsHost
import Verif.Comm.LemmasExchange

/-! # Lemmas about `set` of device pair lists -/

set_option autoImplicit false

namespace NP

open Spec

/-! ## Sums over a prefix -/

/-- The sum of the first `n` values. -/
def preSum (f : Nat → Nat) (n : Nat) : Nat := ((List.range n).map f).sum

theorem preSum_zero (f : Nat → Nat) : preSum f 0 = 0 := rfl

theorem preSum_succ (f : Nat → Nat) (n : Nat) : preSum f (n + 1) = preSum f n + f n :=
  sum_range_map_succ f n

theorem preSum_mono (f : Nat → Nat) {a b : Nat} (h : a ≤ b) : preSum f a ≤ preSum f b := by
  obtain ⟨n, rfl⟩ : ∃ n, b = a + n := ⟨b - a, by omega⟩
  clear h
  induction n with
  | zero => exact Nat.le_refl _
  | succ n ih => rw [← Nat.add_assoc, preSum_succ]; omega

theorem preSum_lt (f : Nat → Nat) {a b k : Nat} (h : a < b) (hk : k < f a) :
    preSum f a + k < preSum f b := by
  have := preSum_mono f (show a + 1 ≤ b from h)
  rw [preSum_succ] at this
  omega

theorem preSum_inj (f : Nat → Nat) {a b k l : Nat} (hk : k < f a) (hl : l < f b)
    (h : preSum f a + k = preSum f b + l) : a = b ∧ k = l := by
  rcases Nat.lt_trichotomy a b with hab | rfl | hab
  · have := preSum_lt f hab hk; omega
  · exact ⟨rfl, by omega⟩
  · have := preSum_lt f hab hl; omega

theorem waveIndex_inj {cc v w c d : Nat} (hc : c < cc) (hd : d < cc)
    (h : v * cc + c = w * cc + d) : v = w ∧ c = d := by
  have h1 : (v * cc + c) % cc = c := by
    rw [Nat.mul_comm, Nat.mul_add_mod, Nat.mod_eq_of_lt hc]
  have h2 : (w * cc + d) % cc = d := by
    rw [Nat.mul_comm, Nat.mul_add_mod, Nat.mod_eq_of_lt hd]
  have hcd : c = d := by rw [← h1, ← h2, h]
  subst hcd
  exact ⟨Nat.eq_of_mul_eq_mul_right (by omega) (Nat.add_right_cancel h), rfl⟩

/-! ## The host arrays -/

/-- The waves of the host list: the vectors of each wave, none of which is empty. -/
structure HostWaves (p : PairHost) (nw : Nat → Nat) (F : Nat → Nat → List (Int × Int)) : Prop where
  num : ∀ c : Nat, p.numWaves c = nw c
  wave : ∀ c w : Nat, w < nw c →
    p.waveAt c w = some ((F c w).map Prod.fst, (F c w).map Prod.snd) ∧ F c w ≠ []

theorem hostWaves_of_inv {pushes : List (Int × Int × Int)} {p : PairHost} {w : List Nat}
    (h : HostInv pushes p w) :
    HostWaves p (fun c => p.numWaves c) (fun c v => p.pairs c v) := by
  refine ⟨fun _ => rfl, ?_⟩
  intro c v hv
  obtain ⟨m, hm, -, hcont, -, -⟩ := h.waves (c : Int)
  have hmm : mapGet p.waves (c : Int) = some m := by
    rcases hm with hm | ⟨hm, rfl⟩
    · exact hm
    · unfold PairHost.numWaves at hv
      rw [hm] at hv
      simp at hv
  unfold PairHost.numWaves at hv
  rw [hmm] at hv
  obtain ⟨l, hl1, hl2, -⟩ := hcont v hv
  have hp : p.pairs (c : Int) (v : Int) = l := by
    unfold PairHost.pairs
    rw [hmm]
    dsimp only
    rw [hl2]
    dsimp only
    rw [List.zip_map']
    exact List.map_id' l
  rw [hp]
  refine ⟨?_, hl1⟩
  unfold PairHost.waveAt
  rw [hmm, Option.bind_some, hl2]

/-- The entries of the arrays of cell `c` for the waves before `w`. -/
def SetEntries (cc : Nat) (F : Nat → Nat → List (Int × Int)) (lin : Nat → Nat) (c w : Nat)
    (a : SetArrays) : Prop :=
  ∀ v, v < w → a.counts[v * cc + c]? = some (F c v).length ∧
    a.offsets[v * cc + c]? = some (preSum (fun u => (F c u).length) v) ∧
    a.es[v * cc + c]? = some ((lin c + preSum (fun u => (F c u).length) v : Nat) : Int)

/-- One element of the three arrays is the same. -/
def SameEntry (a b : SetArrays) (i : Nat) : Prop :=
  a.counts[i]? = b.counts[i]? ∧ a.offsets[i]? = b.offsets[i]? ∧ a.es[i]? = b.es[i]?

theorem setWaves_spec {p : PairHost} {nw : Nat → Nat} {F : Nat → Nat → List (Int × Int)}
    (h : HostWaves p nw F) {cc M : Nat} {c : Nat} (hc : c < cc) (hM : nw c ≤ M) {lin : Nat → Nat}
    {a : SetArrays} (h1 : a.counts.length = M * cc) (h2 : a.offsets.length = M * cc)
    (h3 : a.es.length = M * cc) (hlin : a.linear = (lin c : Nat)) :
    ∃ a', forLoop 0 (p.numWaves c) (setWave p cc c) { a with num := 0 } = some a' ∧
      a'.counts.length = M * cc ∧ a'.offsets.length = M * cc ∧ a'.es.length = M * cc ∧
      a'.num = preSum (fun u => (F c u).length) (nw c) ∧
      a'.linear = (lin c + preSum (fun u => (F c u).length) (nw c) : Nat) ∧
      SetEntries cc F lin c (nw c) a' ∧
      (∀ v d, d < cc → d ≠ c → SameEntry a' a (v * cc + d)) := by
  rw [h.num c]
  obtain ⟨a', e1, e2⟩ := forLoop_invariant (a := 0) (b := nw c) (step := setWave p cc c)
    (s := { a with num := 0 })
    (fun w a' => a'.counts.length = M * cc ∧ a'.offsets.length = M * cc ∧ a'.es.length = M * cc ∧
      a'.num = preSum (fun u => (F c u).length) w ∧
      a'.linear = (lin c + preSum (fun u => (F c u).length) w : Nat) ∧
      SetEntries cc F lin c w a' ∧
      (∀ v d, d < cc → d ≠ c → SameEntry a' a (v * cc + d))) (Nat.zero_le _)
    (by
      rintro w a1 - hw ⟨g1, g2, g3, g4, g5, g6, g7⟩
      obtain ⟨k1, -⟩ := h.wave c w hw
      have hlt : w * cc + c < M * cc := by
        have : (w + 1) * cc ≤ M * cc := Nat.mul_le_mul_right _ (by omega)
        rw [Nat.add_mul] at this
        omega
      unfold setWave
      rw [k1, Option.bind_some]
      dsimp only
      rw [st_eq_some (by omega), Option.bind_some, st_eq_some (by omega), Option.bind_some,
        st_eq_some (by omega), Option.bind_some]
      refine ⟨_, rfl, by simpa using g1, by simpa using g2, by simpa using g3, ?_, ?_, ?_, ?_⟩
      · dsimp only
        rw [preSum_succ, g4]; simp
      · dsimp only
        rw [preSum_succ, g5, List.length_map]
        omega
      · intro v hv
        dsimp only
        by_cases hvw : v = w
        · subst hvw
          rw [List.getElem?_set_self (by omega), List.getElem?_set_self (by omega),
            List.getElem?_set_self (by omega), g4, g5]
          simp
        · have hne : w * cc + c ≠ v * cc + c := fun hh => hvw (waveIndex_inj hc hc hh).1.symm
          rw [List.getElem?_set_ne hne, List.getElem?_set_ne hne, List.getElem?_set_ne hne]
          exact g6 v (by omega)
      · intro v d hd hdc
        have hne : w * cc + c ≠ v * cc + d := fun hh => hdc (waveIndex_inj hc hd hh).2.symm
        unfold SameEntry
        dsimp only
        rw [List.getElem?_set_ne hne, List.getElem?_set_ne hne, List.getElem?_set_ne hne]
        exact g7 v d hd hdc)
    ⟨h1, h2, h3, rfl, by rw [preSum_zero]; simpa using hlin, by intro v hv; omega,
      fun _ _ _ _ => ⟨rfl, rfl, rfl⟩⟩
  exact ⟨a', e1, e2⟩

/-- The first loop of `set` over the cells. -/
theorem setCells_spec (e : Env) {p : PairHost} {nw : Nat → Nat} {F : Nat → Nat → List (Int × Int)}
    (h : HostWaves p nw F) {cc M : Nat} (hM : ∀ c, c < cc → nw c ≤ M)
    {a : SetArrays} {m : Mem} {d : Dat} (h1 : a.counts.length = M * cc)
    (h2 : a.offsets.length = M * cc)
    (h3 : a.es.length = M * cc) (hlin : a.linear = 0) (hm : DatMem cc m d) :
    ∃ a' m' d', forLoop 0 cc (setCell e p cc) (a, m, d) = some (a', m', d') ∧
      a'.counts.length = M * cc ∧ a'.offsets.length = M * cc ∧ a'.es.length = M * cc ∧
      (∀ c, c < cc → SetEntries cc F (preSum fun c => preSum (fun u => (F c u).length) (nw c)) c
        (nw c) a') ∧
      DatMem cc m' d' ∧ d'.sym = d.sym ∧ d'.ncomp = d.ncomp ∧
      (∀ (c r : Nat), c < cc → d'.nrow[c]? = some r →
        preSum (fun u => (F c u).length) (nw c) ≤ r) := by
  generalize hl : (preSum fun c => preSum (fun u => (F c u).length) (nw c)) = lin
  obtain ⟨⟨a', m', d'⟩, e1, e2⟩ := forLoop_invariant (a := 0) (b := cc) (step := setCell e p cc)
    (s := (a, m, d))
    (fun i (t : SetArrays × Mem × Dat) => t.1.counts.length = M * cc ∧
      t.1.offsets.length = M * cc ∧ t.1.es.length = M * cc ∧ t.1.linear = (lin i : Nat) ∧
      (∀ c, c < i → SetEntries cc F lin c (nw c) t.1) ∧
      DatMem cc t.2.1 t.2.2 ∧ t.2.2.sym = d.sym ∧ t.2.2.ncomp = d.ncomp ∧
      (∀ (c r : Nat), c < i → t.2.2.nrow[c]? = some r →
        preSum (fun u => (F c u).length) (nw c) ≤ r)) (Nat.zero_le _)
    (by
      rintro i ⟨a1, m1, d1⟩ - hi ⟨g1, g2, g3, g4, g5, g6, g7, g8, g9⟩
      dsimp only at g1 g2 g3 g4 g5 g6 g7 g8 g9
      obtain ⟨a2, k1, k2, k3, k4, k5, k6, k7, k8⟩ := setWaves_spec h hi (hM i hi) g1 g2 g3 g4
      have hlin' : a2.linear = (lin (i + 1) : Nat) := by
        rw [k6, ← hl, preSum_succ]
      have hent : ∀ c, c < i + 1 → SetEntries cc F lin c (nw c) a2 := by
        intro c hc
        by_cases hci : c = i
        · subst hci; exact k7
        · intro v hv
          obtain ⟨s1, s2, s3⟩ := k8 v c (by omega) hci
          rw [s1, s2, s3]
          exact g5 c (by omega) v hv
      unfold setCell
      dsimp only
      rw [k1, Option.bind_some]
      by_cases hz : a2.num ≠ 0
      · rw [if_pos hz]
        obtain ⟨m2, d2, s1, s2, s3, s4, s5, -, -, -, -⟩ := setNrow_spec (e := e) (req := a2.num) g6 hi
        rw [s1, Option.bind_some]
        refine ⟨_, rfl, k2, k3, k4, hlin', hent, s2, s4.trans g7, s5.trans g8, ?_⟩
        intro c r hc hr
        dsimp only at hr
        rw [s3] at hr
        by_cases hci : c = i
        · subst hci
          rw [List.getElem?_set_self (by rw [g6.nrow_len]; exact hi), Option.some.injEq] at hr
          omega
        · rw [List.getElem?_set_ne (fun hh => hci hh.symm)] at hr
          exact g9 c r (by omega) hr
      · rw [if_neg hz]
        refine ⟨_, rfl, k2, k3, k4, hlin', hent, g6, g7, g8, ?_⟩
        intro c r hc hr
        by_cases hci : c = i
        · subst hci; omega
        · exact g9 c r (by omega) hr)
    ⟨h1, h2, h3, by rw [hlin, ← hl, preSum_zero]; rfl, by intro c hc; omega, hm, rfl, rfl,
      by intro c r hc; omega⟩
  obtain ⟨g1, g2, g3, -, g5, g6, g7, g8, g9⟩ := e2
  exact ⟨a', m', d', e1, g1, g2, g3, g5, g6, g7, g8, g9⟩

/-! ## Copying the pairs -/

theorem copyColumn_spec {sym cell comp row : Nat} {src : List Int} {m : Mem}
    (hm : ∀ k, k < src.length → (m ⟨sym, cell, comp, row + k⟩).isSome = true) :
    ∃ m', copyColumn sym cell comp row src.length src m = some m' ∧
      (∀ k x, src[k]? = some x → m' ⟨sym, cell, comp, row + k⟩ = some x) ∧
      (∀ key : Key, (∀ k, k < src.length → key ≠ ⟨sym, cell, comp, row + k⟩) → m' key = m key) ∧
      (∀ key, (m key).isSome = true → (m' key).isSome = true) := by
  unfold copyColumn
  obtain ⟨m', e1, e2, e3, e4⟩ := forLoop_invariant (a := 0) (b := src.length)
    (step := fun k m => (rd src k).bind fun x => mst m ⟨sym, cell, comp, row + k⟩ x) (s := m)
    (fun i m' => (∀ k x, k < i → src[k]? = some x → m' ⟨sym, cell, comp, row + k⟩ = some x) ∧
      (∀ key : Key, (∀ k, k < i → key ≠ ⟨sym, cell, comp, row + k⟩) → m' key = m key) ∧
      (∀ key, (m key).isSome = true → (m' key).isSome = true)) (Nat.zero_le _)
    (by
      rintro i m1 - hi ⟨g1, g2, g3⟩
      have hx : src[i]? = some src[i] := List.getElem?_eq_getElem hi
      simp only [rd, hx, Option.bind_some]
      rw [mst_eq_some (g3 _ (hm i hi))]
      refine ⟨_, rfl, ?_, ?_, ?_⟩
      · intro k x hk hkx
        by_cases hki : k = i
        · subst hki
          rw [hx] at hkx
          rw [if_pos rfl]; exact hkx
        · rw [if_neg (by intro hh; have := (Key.mk.inj hh).2.2.2; omega)]
          exact g1 k x (by omega) hkx
      · intro key hkey
        rw [if_neg (hkey i (by omega))]
        exact g2 key fun k hk => hkey k (by omega)
      · intro key hkey
        split
        · rfl
        · exact g3 key hkey)
    ⟨by intro k x hk; omega, fun _ _ => rfl, fun _ h => h⟩
  exact ⟨m', e1, fun k x hx => e2 k x (List.getElem?_eq_some_iff.1 hx).1 hx, e3, e4⟩

/-- The pairs of cell `c` in the waves before `w` are stored. -/
def StoredPairs (F : Nat → Nat → List (Int × Int)) (c w : Nat) (m : Mem) : Prop :=
  ∀ (v k : Nat) (a b : Int), v < w → (F c v)[k]? = some (a, b) →
    m ⟨0, c, 0, preSum (fun u => (F c u).length) v + k⟩ = some a ∧
    m ⟨0, c, 1, preSum (fun u => (F c u).length) v + k⟩ = some b

theorem setCopyWaves_spec {p : PairHost} {nw : Nat → Nat} {F : Nat → Nat → List (Int × Int)}
    (h : HostWaves p nw F) {c : Nat} {m : Mem} {mx tot : Int} (hmx : 0 ≤ mx)
    (hm : ∀ j k, j < 2 → k < preSum (fun u => (F c u).length) (nw c) →
      (m ⟨0, c, j, k⟩).isSome = true) :
    ∃ m' mx' tot', setCopyCell p c (m, mx, tot) = some (m', mx', tot') ∧
      StoredPairs F c (nw c) m' ∧ mx ≤ mx' ∧ (0 < nw c → 0 < mx') ∧
      tot' = tot + (preSum (fun u => (F c u).length) (nw c) : Nat) ∧
      (∀ key : Key, key.cell ≠ c → m' key = m key) ∧
      (∀ key, (m key).isSome = true → (m' key).isSome = true) := by
  obtain ⟨⟨m', r', mx', tot'⟩, e1, e2, e3, e4, e5, e6, e7, e8⟩ := forLoop_invariant (a := 0)
    (b := nw c)
    (step := setCopyWave p c) (s := (m, 0, mx, tot))
    (fun w (t : Mem × Nat × Int × Int) => StoredPairs F c w t.1 ∧
      t.2.1 = preSum (fun u => (F c u).length) w ∧ mx ≤ t.2.2.1 ∧ (0 < w → 0 < t.2.2.1) ∧
      t.2.2.2 = tot + (preSum (fun u => (F c u).length) w : Nat) ∧
      (∀ key : Key, key.cell ≠ c → t.1 key = m key) ∧
      (∀ key, (m key).isSome = true → (t.1 key).isSome = true)) (Nat.zero_le _)
    (by
      rintro w ⟨m1, r1, mx1, tot1⟩ - hw ⟨g1, g2, g3, g4, g5, g6, g7⟩
      dsimp only at g1 g2 g3 g4 g5 g6 g7
      obtain ⟨k1, k2⟩ := h.wave c w hw
      have hpos : 0 < (F c w).length := List.length_pos_of_ne_nil k2
      have hin : ∀ k, k < (F c w).length → r1 + k < preSum (fun u => (F c u).length) (nw c) := by
        intro k hk
        rw [g2]
        exact preSum_lt (fun u => (F c u).length) hw hk
      unfold setCopyWave
      rw [k1, Option.bind_some]
      dsimp only
      rw [if_pos (by rw [List.length_map]; omega)]
      obtain ⟨m2, a1, a2, a3, a4⟩ := copyColumn_spec (sym := 0) (cell := c) (comp := 0) (row := r1)
        (src := (F c w).map Prod.fst) (m := m1)
        (by intro k hk; rw [List.length_map] at hk; exact g7 _ (hm 0 _ (by omega) (hin k hk)))
      obtain ⟨m3, b1, b2, b3, b4⟩ := copyColumn_spec (sym := 0) (cell := c) (comp := 1) (row := r1)
        (src := (F c w).map Prod.snd) (m := m2)
        (by intro k hk; rw [List.length_map] at hk
            exact a4 _ (g7 _ (hm 1 _ (by omega) (hin k hk))))
      rw [a1, Option.bind_some, List.length_map]
      rw [List.length_map] at b1
      rw [b1, Option.bind_some]
      refine ⟨_, rfl, ?_, ?_, ?_, ?_, ?_, ?_, ?_⟩
      · intro v k a b hv hk
        dsimp only
        by_cases hvw : v = w
        · subst hvw
          rw [← g2]
          constructor
          · rw [b3 _ (by intro l _ hh; have := (Key.mk.inj hh).2.2.1; omega)]
            exact a2 k a (by rw [List.getElem?_map, hk]; rfl)
          · exact b2 k b (by rw [List.getElem?_map, hk]; rfl)
        · have hlt := preSum_lt (fun u => (F c u).length) (show v < w by omega)
            (List.getElem?_eq_some_iff.1 hk).1
          rw [← g2] at hlt
          have hs := g1 v k a b (by omega) hk
          constructor
          · rw [b3 _ (by intro l _ hh; have := (Key.mk.inj hh).2.2.2; omega),
              a3 _ (by intro l _ hh; have := (Key.mk.inj hh).2.2.2; omega)]
            exact hs.1
          · rw [b3 _ (by intro l _ hh; have := (Key.mk.inj hh).2.2.2; omega),
              a3 _ (by intro l _ hh; have := (Key.mk.inj hh).2.2.2; omega)]
            exact hs.2
      · dsimp only; rw [preSum_succ, g2]
      · dsimp only; omega
      · dsimp only; omega
      · dsimp only; rw [preSum_succ, g5]; omega
      · intro key hkey
        dsimp only
        rw [b3 key (by rintro l _ rfl; exact hkey rfl), a3 key (by rintro l _ rfl; exact hkey rfl)]
        exact g6 key hkey
      · intro key hkey
        exact b4 _ (a4 _ (g7 _ hkey)))
    ⟨by intro v k a b hv; omega, rfl, by simp, by omega, by simp [preSum_zero], fun _ _ => rfl,
      fun _ h => h⟩
  refine ⟨m', mx', tot', ?_, e2, e4, e5, e6, e7, e8⟩
  unfold setCopyCell
  rw [h.num c]
  dsimp only
  rw [e1]
  rfl

/-- The second loop of `set` over the cells. -/
theorem setCopyCells_spec {p : PairHost} {nw : Nat → Nat} {F : Nat → Nat → List (Int × Int)}
    (h : HostWaves p nw F) {cc : Nat} {m : Mem}
    (hm : ∀ c j k, c < cc → j < 2 → k < preSum (fun u => (F c u).length) (nw c) →
      (m ⟨0, c, j, k⟩).isSome = true) :
    ∃ m' mx' tot', forLoop 0 cc (setCopyCell p) (m, 0, 0) = some (m', mx', tot') ∧
      (∀ c, c < cc → StoredPairs F c (nw c) m') ∧ (∀ c, c < cc → 0 < nw c → 0 < mx') ∧
      tot' = (preSum (fun c => preSum (fun u => (F c u).length) (nw c)) cc : Nat) ∧
      (∀ key, (m key).isSome = true → (m' key).isSome = true) := by
  obtain ⟨⟨m', mx', tot'⟩, e1, e2, -, e3, e4, e5⟩ := forLoop_invariant (a := 0) (b := cc)
    (step := setCopyCell p) (s := (m, 0, 0))
    (fun i (t : Mem × Int × Int) => (∀ c, c < i → StoredPairs F c (nw c) t.1) ∧ 0 ≤ t.2.1 ∧
      (∀ c, c < i → 0 < nw c → 0 < t.2.1) ∧
      t.2.2 = (preSum (fun c => preSum (fun u => (F c u).length) (nw c)) i : Nat) ∧
      (∀ key, (m key).isSome = true → (t.1 key).isSome = true)) (Nat.zero_le _)
    (by
      rintro i ⟨m1, mx1, tot1⟩ - hi ⟨g1, g2, g3, g4, g5⟩
      dsimp only at g1 g2 g3 g4 g5
      obtain ⟨m2, mx2, tot2, a1, a2, a3, a4, a5, a6, a7⟩ := setCopyWaves_spec h (c := i) (m := m1)
        (tot := tot1) g2 (fun j k hj hk => g5 _ (hm i j k hi hj hk))
      refine ⟨_, a1, ?_, by dsimp only; omega, ?_, ?_, fun key hk => a7 _ (g5 _ hk)⟩
      · intro c hc
        by_cases hci : c = i
        · subst hci; exact a2
        · intro v k a b hv hk
          dsimp only
          rw [a6 _ (by exact hci), a6 _ (by exact hci)]
          exact g1 c (by omega) v k a b hv hk
      · intro c hc hnw
        dsimp only
        by_cases hci : c = i
        · subst hci; exact a4 hnw
        · have := g3 c (by omega) hnw
          omega
      · dsimp only
        rw [a5, g4, preSum_succ]
        omega)
    ⟨by intro c hc; omega, by simp, by intro c hc; omega, by simp [preSum_zero], fun _ h => h⟩
  exact ⟨m', mx', tot', e1, e2, e3, e4, e5⟩

theorem length_reallocNoCopy {α : Type} (f : Fresh α) (b : List α) (n : Nat) :
    b.length ≤ (reallocNoCopy f b n).length ∧ n ≤ (reallocNoCopy f b n).length := by
  unfold reallocNoCopy
  split
  · omega
  · split
    · rw [(f n).2]; omega
    · omega

theorem numPairs_eq (cc : Nat) (L : WaveList) :
    numPairs cc L = preSum (fun c => (L c).flatten.length) cc := by
  unfold numPairs preSum
  rw [List.length_flatMap]

theorem length_flatten_waves (F : Nat → List (Int × Int)) (n : Nat) :
    (((List.range n).map F).flatten).length = preSum (fun u => (F u).length) n := by
  unfold preSum
  rw [List.length_flatten, List.map_map]
  rfl

theorem getHostWave_spec {s : PairSimple} {cc c w : Nat} {F : Nat → Nat → List (Int × Int)}
    (hcc : s.cellCount = cc) (hsym : s.dat.sym = 0) {r : Nat} (hr : s.dat.nrow[c]? = some r)
    (hle : preSum (fun u => (F c u).length) (w + 1) ≤ r)
    (hcounts : ∀ v, v < w + 1 → s.hPairCounts[v * cc + c]? = some (F c v).length)
    (hst : StoredPairs F c (w + 1) s.mem) : s.getHostWave c w = some (F c w) := by
  unfold PairSimple.getHostWave
  rw [hcc]
  have h1 : (List.range w).mapM (fun w => rd s.hPairCounts (w * cc + c)) =
      some ((List.range w).map fun v => (F c v).length) := by
    apply mapM_of_forall
    intro v hv
    exact hcounts v (by rw [List.mem_range] at hv; omega)
  rw [h1, Option.bind_some, show rd s.hPairCounts (w * cc + c) = _ from hcounts w (by omega),
    Option.bind_some, show rd s.dat.nrow c = _ from hr, Option.bind_some, hsym]
  have h2 : (List.range (F c w).length).mapM (fun k =>
      if ((List.range w).map fun v => (F c v).length).sum + k < r then
        (s.mem ⟨0, c, 0, ((List.range w).map fun v => (F c v).length).sum + k⟩).bind fun a =>
        (s.mem ⟨0, c, 1, ((List.range w).map fun v => (F c v).length).sum + k⟩).bind fun b =>
          some (a, b)
      else none) = some ((List.range (F c w).length).map fun k => ((F c w)[k]?).getD (0, 0)) := by
    apply mapM_of_forall
    intro k hk
    rw [List.mem_range] at hk
    have hx : (F c w)[k]? = some (F c w)[k] := List.getElem?_eq_getElem hk
    obtain ⟨a1, a2⟩ := hst w k _ _ (by omega) hx
    unfold preSum at a1 a2
    rw [preSum_succ] at hle
    unfold preSum at hle
    rw [if_pos (by omega), a1, a2, hx]
    rfl
  rw [h2]
  congr 1
  apply List.ext_getElem?
  intro k
  by_cases hk : k < (F c w).length
  · rw [List.getElem?_map, List.getElem?_range hk, Option.map_some, List.getElem?_eq_getElem hk]
    rfl
  · rw [List.getElem?_eq_none (by simpa using hk), List.getElem?_eq_none (by omega)]

/-- `set`, for any list of waves. -/
theorem set_spec (e : Env) {cc : Nat} {s : PairSimple} (hs : SimpleWf cc s) {p : PairHost}
    (hp : p.cellCount = cc) {nw : Nat → Nat} {F : Nat → Nat → List (Int × Int)}
    (h : HostWaves p nw F) :
    ∃ s', s.set e p = some s' ∧ SimpleWf cc s' ∧
      ViewOk s'.getPairList cc (fun c => (List.range (nw c)).map (F c)) ∧
      s'.pairCount = (numPairs cc (fun c => (List.range (nw c)).map (F c)) : Nat) ∧
      s'.mode = s.mode ∧
      (∀ c w, c < cc → w < nw c → s'.getHostWave c w = some (F c w)) := by
  have hnum : ∀ c : Nat, p.numWaves (c : Int) = nw c := h.num
  unfold PairSimple.set
  rw [if_pos (by rw [hs.cells, hp])]
  dsimp only
  rw [hs.cells]
  rw [show (fun c : Nat => p.numWaves (c : Int)) = nw from funext hnum]
  generalize hM : ((List.range cc).map nw).foldl max 0 = M
  have hle : ∀ c, c < cc → nw c ≤ M := by
    intro c hc
    rw [← hM]
    exact (le_foldl_max_nat _ 0).2 _ (List.mem_map.2 ⟨c, List.mem_range.2 hc, rfl⟩)
  have ew := stRange_eq_some (m := s.dWaveCount) (a := 0) (vs := (List.range cc).map nw)
    (by simp [hs.dWave])
  rw [ew, Option.bind_some]
  obtain ⟨a, m1, d1, c1, c2, c3, c4, c5, c6, c7, c8, c9⟩ := setCells_spec e h (cc := cc) (M := M) hle
    (a := ⟨List.replicate (M * cc) 0, List.replicate (M * cc) 0, (e.freshI 1 (M * cc)).1, 0, 0⟩)
    (by simp) (by simp) (e.freshI 1 (M * cc)).2 rfl hs.mem
  rw [c1, Option.bind_some]
  dsimp only
  have lo := length_reallocNoCopy (e.freshN 3) s.dWaveOffsets (M * cc)
  have lc := length_reallocNoCopy (e.freshN 4) s.dPairCounts (M * cc)
  have le' := length_reallocNoCopy (e.freshI 2) s.dPairCountsEs (M * cc)
  have eo := stRange_eq_some (m := reallocNoCopy (e.freshN 3) s.dWaveOffsets (M * cc)) (a := 0)
    (vs := a.offsets) (by rw [c3]; omega)
  have ec := stRange_eq_some (m := reallocNoCopy (e.freshN 4) s.dPairCounts (M * cc)) (a := 0)
    (vs := a.counts) (by rw [c2]; omega)
  have ee := stRange_eq_some (m := reallocNoCopy (e.freshI 2) s.dPairCountsEs (M * cc)) (a := 0)
    (vs := a.es) (by rw [c4]; omega)
  rw [eo, Option.bind_some, ec, Option.bind_some, ee, Option.bind_some]
  obtain ⟨m2, mx, tot, k1, k2, k3, k4, k5⟩ := setCopyCells_spec h (cc := cc) (m := m1) (by
    intro c j k hc hj hk
    have hlt : c < d1.nrow.length := by rw [c6.nrow_len]; exact hc
    have hla : c < d1.alloc.length := by rw [c6.alloc_len]; exact hc
    have hle := c9 c _ hc (List.getElem?_eq_getElem hlt)
    have hle2 := c6.le c _ _ (List.getElem?_eq_getElem hlt) (List.getElem?_eq_getElem hla)
    have := c6.alloc c _ j k (List.getElem?_eq_getElem hla) (by rw [c8, hs.ncomp]; exact hj)
      (by omega)
    rw [c7, hs.sym] at this
    exact this)
  rw [k1, Option.bind_some]
  have hidx : ∀ c w, c < cc → w < nw c → w * cc + c < M * cc := by
    intro c w hc hw
    have : (w + 1) * cc ≤ M * cc := Nat.mul_le_mul_right _ (by have := hle c hc; omega)
    rw [Nat.add_mul] at this
    omega
  have hget : ∀ {α : Type} {b b' l : List α}, stRange b 0 l = some b' → ∀ i, i < l.length →
      b'[i]? = l[i]? := by
    intro α b b' l hst i hi
    rw [getElem?_of_stRange hst]
    simp [hi]
  have hLget : ∀ (c w : Nat) (ps : List (Int × Int)), ((List.range (nw c)).map (F c))[w]? = some ps →
      w < nw c ∧ ps = F c w := by
    intro c w ps hw
    have hlt := (List.getElem?_eq_some_iff.1 hw).1
    simp only [List.length_map, List.length_range] at hlt
    rw [List.getElem?_map, List.getElem?_range hlt] at hw
    exact ⟨hlt, by simpa using hw.symm⟩
  have hnp : numPairs cc (fun c => (List.range (nw c)).map (F c)) =
      preSum (fun c => preSum (fun u => (F c u).length) (nw c)) cc := by
    rw [numPairs_eq]
    congr 1
    funext c
    exact length_flatten_waves (F c) (nw c)
  refine ⟨_, rfl, ⟨rfl, by simp, ?_, ?_, ?_, ?_, ?_, ?_, ?_⟩, ⟨rfl, ?_, ?_, ?_, ?_, ?_, ?_⟩, ?_, rfl, ?_⟩
  · show List.length _ = cc
    rw [(length_of_stRange ew).1, hs.dWave]
  · show cc ≤ List.length _
    rw [(length_of_stRange eo).1]; have := hs.offsets; omega
  · show cc ≤ List.length _
    rw [(length_of_stRange ec).1]; have := hs.counts; omega
  · show cc ≤ List.length _
    rw [(length_of_stRange ee).1]; have := hs.es; omega
  · exact c6.congr_isSome k5
  · exact c7.trans hs.sym
  · exact c8.trans hs.ncomp
  · intro c hc
    refine (hget ew c (by simpa using hc)).trans ?_
    simp [hc]
  · intro c w ps hc hw
    obtain ⟨hlt, rfl⟩ := hLget c w ps hw
    refine (hget ec _ (by rw [c2]; exact hidx c w hc hlt)).trans ?_
    exact (c5 c hc w hlt).1
  · intro c w ps k a' b' hc hw hk
    obtain ⟨hlt, rfl⟩ := hLget c w ps hw
    refine ⟨_, (hget eo _ (by rw [c3]; exact hidx c w hc hlt)).trans (c5 c hc w hlt).2.1, ?_⟩
    have := k2 c hc w k a' b' hlt hk
    show m2 ⟨d1.sym, _, _, _⟩ = _ ∧ m2 ⟨d1.sym, _, _, _⟩ = _
    rw [c7, hs.sym]
    exact this
  · refine ⟨fun c w k => preSum (fun c => preSum (fun u => (F c u).length) (nw c)) c +
      (preSum (fun u => (F c u).length) w + k), ?_, ?_⟩
    · intro c w ps k hc hw hk
      obtain ⟨hlt, rfl⟩ := hLget c w ps hw
      refine ⟨_, (hget ee _ (by rw [c4]; exact hidx c w hc hlt)).trans (c5 c hc w hlt).2.2, ?_, ?_⟩
      · dsimp only; omega
      · rw [hnp]
        exact preSum_lt (fun c => preSum (fun u => (F c u).length) (nw c)) hc
          (preSum_lt (fun u => (F c u).length) hlt hk)
    · intro c w ps k c' w' ps' k' hc hw hk hc' hw' hk' heq
      obtain ⟨hlt, rfl⟩ := hLget c w ps hw
      obtain ⟨hlt', rfl⟩ := hLget c' w' ps' hw'
      obtain ⟨rfl, h2⟩ := preSum_inj (fun c => preSum (fun u => (F c u).length) (nw c))
        (preSum_lt (fun u => (F c u).length) hlt hk)
        (preSum_lt (fun u => (F c' u).length) hlt' hk') heq
      obtain ⟨rfl, h3⟩ := preSum_inj (fun u => (F c u).length) hk hk' h2
      exact ⟨rfl, rfl, h3⟩
  · intro c hc _
    have := hle c hc
    show ((List.map _ _).length : Int) ≤ (M : Int)
    simp only [List.length_map, List.length_range]
    omega
  · intro c w ps hc hw hne
    obtain ⟨hlt, -⟩ := hLget c w ps hw
    exact k3 c hc (by omega)
  · rw [hnp]
    exact k4
  · intro c w hc hw
    have hlt : c < d1.nrow.length := by rw [c6.nrow_len]; exact hc
    have hr := List.getElem?_eq_getElem hlt
    refine getHostWave_spec (cc := cc) rfl (c7.trans hs.sym) hr ?_ ?_ ?_
    · exact Nat.le_trans (preSum_mono _ hw) (c9 c _ hc hr)
    · intro v hv
      exact (c5 c hc v (by omega)).1
    · intro v k a b hv hk
      exact k2 c hc v k a b (by omega) hk

end NP
