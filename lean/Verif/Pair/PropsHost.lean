import Verif.Pair.SpecHost
import Verif.Common.KernelLemmas
import Mathlib.Data.List.Basic
import Mathlib.Data.List.Perm.Basic

/-!
# C54: host pair list
-/

set_option autoImplicit false

namespace NP

open Spec

/-! ## Lemmas about `std::map` -/

section
variable {κ β : Type} [DecidableEq κ]

theorem mapGet_mapUpd_self (d : β) (f : β → β) (m : List (κ × β)) (k : κ) :
    mapGet (mapUpd d f m k) k = some (f ((mapGet m k).getD d)) := by
  induction m with
  | nil => simp [mapUpd, mapGet]
  | cons e m ih =>
    unfold mapUpd
    by_cases h : e.1 = k
    · simp [mapGet, h]
    · simp [mapGet, h, ih]

theorem mapGet_mapUpd_ne (d : β) (f : β → β) (m : List (κ × β)) {k k' : κ} (h : k' ≠ k) :
    mapGet (mapUpd d f m k) k' = mapGet m k' := by
  induction m with
  | nil => simp [mapUpd, mapGet, Ne.symm h]
  | cons e m ih =>
    unfold mapUpd
    by_cases he : e.1 = k
    · have : ¬ k = k' := fun hc => h hc.symm
      simp [mapGet, he, this]
    · simp only [he, if_false, mapGet, ih]

theorem length_mapUpd (d : β) (f : β → β) (m : List (κ × β)) (k : κ) :
    (mapUpd d f m k).length = m.length + if (mapGet m k).isSome then 0 else 1 := by
  induction m with
  | nil => simp [mapUpd, mapGet]
  | cons e m ih =>
    unfold mapUpd
    by_cases h : e.1 = k
    · simp [mapGet, h]
    · simp only [h, if_false, mapGet, List.length_cons, ih]
      omega

end

/-! ## The invariant -/

/-- What holds after the calls `pushes`, if `w` are the waves that were chosen. -/
structure HostInv (pushes : List (Int × Int × Int)) (p : PairHost) (w : List Nat) : Prop where
  len : w.length = pushes.length
  waves : ∀ cell, ∃ m : WaveMap, (mapGet p.waves cell = some m ∨
      mapGet p.waves cell = none ∧ m = []) ∧
    (∀ v : Int, (mapGet m v).isSome ↔ 0 ≤ v ∧ v < m.length) ∧
    (∀ (v : Nat), v < m.length → ∃ l : List (Int × Int), l ≠ [] ∧
      mapGet m v = some (l.map Prod.fst, l.map Prod.snd) ∧
      l = ((pushes.zip w).filter fun x => x.1.1 == cell && x.2 == v).map
        fun x => orderedPair x.1) ∧
    (∀ x ∈ pushes.zip w, x.1.1 = cell → x.2 < m.length) ∧
    (∀ layer : Int, ∀ n : Int, mapGet p.nextWave (cell, layer) = some n → 0 ≤ n ∧ n ≤ m.length)
  next : ∀ x ∈ pushes.zip w, ∀ layer : Int, layer = x.1.2.1 ∨ layer = x.1.2.2 →
    ∃ n : Int, mapGet p.nextWave (x.1.1, layer) = some n ∧ (x.2 : Int) < n
  order : ∀ (a b : Nat) (x y : Int × Int × Int) (v u : Nat), a < b → pushes[a]? = some x →
    pushes[b]? = some y → x.1 = y.1 → Share (orderedPair x) (orderedPair y) →
    w[a]? = some v → w[b]? = some u → v < u

theorem hostInv_nil (n : Int) : HostInv [] (PairHost.new n) [] := by
  refine ⟨rfl, ?_, by simp, by simp⟩
  intro cell
  refine ⟨[], Or.inr ⟨rfl, rfl⟩, ?_, by simp, by simp, ?_⟩
  · intro v; simp [mapGet]
  · intro layer n hn; simp [PairHost.new, mapGet] at hn

theorem share_layers {x y : Int × Int × Int} (h : Share (orderedPair x) (orderedPair y)) :
    ∃ layer, (layer = x.2.1 ∨ layer = x.2.2) ∧ (layer = y.2.1 ∨ layer = y.2.2) := by
  unfold Share orderedPair at h
  dsimp only at h
  rcases h with h | h | h | h
  · exact ⟨min x.2.1 x.2.2, by omega, by omega⟩
  · exact ⟨min x.2.1 x.2.2, by omega, by omega⟩
  · exact ⟨max x.2.1 x.2.2, by omega, by omega⟩
  · exact ⟨max x.2.1 x.2.2, by omega, by omega⟩

theorem hostInv_push {pushes : List (Int × Int × Int)} {p : PairHost} {w : List Nat}
    (h : HostInv pushes p w) {cell i j : Int} (hc : 0 ≤ cell ∧ cell < p.cellCount) :
    ∃ (p' : PairHost) (u : Nat), p.pushBack cell i j = some p' ∧ p'.cellCount = p.cellCount ∧
      HostInv (pushes ++ [(cell, i, j)]) p' (w ++ [u]) := by
  obtain ⟨m, hm, hkeys, hcont, hlt, hnb⟩ := h.waves cell
  -- the wave
  have hnext : ∀ layer, ∃ n : Nat, p.getNextWave cell layer = some (n : Int) ∧ n ≤ m.length ∧
      ∀ z : Int, mapGet p.nextWave (cell, layer) = some z → z = n := by
    intro layer
    unfold PairHost.getNextWave
    rw [if_pos hc]
    cases hg : mapGet p.nextWave (cell, layer) with
    | none => exact ⟨0, rfl, by omega, by simp⟩
    | some z =>
      have := hnb layer z hg
      refine ⟨z.toNat, by simp; omega, by omega, ?_⟩
      intro z' hz'
      simp only [Option.some.injEq] at hz'
      omega
  obtain ⟨ni, hi1, hi2, hi3⟩ := hnext i
  obtain ⟨nj, hj1, hj2, hj3⟩ := hnext j
  let u := max ni nj
  have hu : (max (ni : Int) (nj : Int)) = ((u : Nat) : Int) := by simp only [u]; omega
  have hul : u ≤ m.length := by simp only [u]; omega
  let oi := if i < j then i else j
  let oj := if i < j then j else i
  let fw : WaveMap → WaveMap := fun m =>
    mapUpd ([], []) (fun v => (v.1 ++ [oi], v.2 ++ [oj])) m (u : Int)
  have hmd : (mapGet p.waves cell).getD [] = m := by
    rcases hm with hm | ⟨hm, rfl⟩
    · rw [hm]; rfl
    · rw [hm]; rfl
  let p1 : PairHost := { p with waves := mapUpd [] fw p.waves cell }
  have hp1 : mapGet p1.waves cell = some (fw m) := by
    simp only [p1]; rw [mapGet_mapUpd_self, hmd]
  have hlen : (fw m).length = m.length + if u = m.length then 1 else 0 := by
    simp only [fw]
    rw [length_mapUpd]
    have := hkeys (u : Int)
    by_cases he : u = m.length
    · have hn : ¬ (mapGet m (u : Int)).isSome = true := by rw [this]; omega
      rw [if_neg hn, if_pos he]
    · have hn : (mapGet m (u : Int)).isSome = true := by rw [this]; omega
      rw [if_pos hn, if_neg he]
  have hset : ∀ (q : PairHost) (layer : Int), q.cellCount = p.cellCount →
      mapGet q.waves cell = some (fw m) → ∃ ws, mapGet ws cell = some (fw m) ∧
        (∀ c, c ≠ cell → mapGet ws c = mapGet q.waves c) ∧
        q.setNextWave cell layer ((u : Int) + 1) = some (PairHost.mk q.cellCount
          (mapUpd 0 (fun _ => (u : Int) + 1) q.nextWave (cell, layer)) ws) := by
    intro q layer hq1 hq2
    refine ⟨mapUpd [] id q.waves cell, ?_, fun c hne => mapGet_mapUpd_ne _ _ _ hne, ?_⟩
    · rw [mapGet_mapUpd_self, hq2]; rfl
    · unfold PairHost.setNextWave
      dsimp only
      rw [hq1, if_pos hc, mapGet_mapUpd_self, hq2]
      simp only [Option.getD_some, id_eq, Option.bind_some]
      rw [if_pos]
      rw [hlen]
      by_cases he : u = m.length
      · rw [if_pos he]; omega
      · rw [if_neg he]; omega
  obtain ⟨ws1, s1, s2, s3⟩ := hset p1 i rfl hp1
  let nw1 := mapUpd 0 (fun _ => (u : Int) + 1) p1.nextWave (cell, i)
  let p2 : PairHost := { p1 with waves := ws1, nextWave := nw1 }
  obtain ⟨ws2, t1, t2, t3⟩ := hset p2 j rfl s1
  refine ⟨PairHost.mk p.cellCount (mapUpd 0 (fun _ => (u : Int) + 1) nw1 (cell, j)) ws2, u,
    ?_, ?_, ?_⟩
  · unfold PairHost.pushBack
    rw [if_pos hc, hi1, hj1]
    simp only [Option.bind_some, hu]
    exact (congrArg (fun o => Option.bind o _) s3).trans t3
  · rfl
  have hord : (oi, oj) = orderedPair (cell, i, j) := by
    simp only [oi, oj, orderedPair]
    by_cases hij : i < j
    · simp [hij]; omega
    · simp [hij]; omega
  have hwv : ∀ c, c ≠ cell → mapGet ws2 c = mapGet p.waves c := by
    intro c hne
    rw [t2 c hne]
    show mapGet ws1 c = _
    rw [s2 c hne]
    exact mapGet_mapUpd_ne _ _ _ hne
  have hzip : (pushes ++ [(cell, i, j)]).zip (w ++ [u]) = pushes.zip w ++ [((cell, i, j), u)] := by
    rw [List.zip_append h.len.symm]; rfl
  -- counters
  let nw := mapUpd 0 (fun _ => (u : Int) + 1) (mapUpd 0 (fun _ => (u : Int) + 1) p.nextWave (cell, i))
    (cell, j)
  have hnw : ∀ (c layer : Int), mapGet nw (c, layer) =
      if c = cell ∧ (layer = i ∨ layer = j) then some ((u : Int) + 1)
      else mapGet p.nextWave (c, layer) := by
    intro c layer
    simp only [nw]
    by_cases h1 : (c, layer) = (cell, j)
    · rw [h1, mapGet_mapUpd_self]
      rw [if_pos ⟨(Prod.mk.inj h1).1, Or.inr (Prod.mk.inj h1).2⟩]
    · rw [mapGet_mapUpd_ne _ _ _ h1]
      by_cases h2 : (c, layer) = (cell, i)
      · rw [h2, mapGet_mapUpd_self]
        rw [if_pos ⟨(Prod.mk.inj h2).1, Or.inl (Prod.mk.inj h2).2⟩]
      · rw [mapGet_mapUpd_ne _ _ _ h2, if_neg]
        rintro ⟨a, b | b⟩
        · exact h2 (by rw [a, b])
        · exact h1 (by rw [a, b])
  refine ⟨by simp [h.len], ?_, ?_, ?_⟩
  · -- the waves of a cell
    intro c
    by_cases hcc : c = cell
    · subst hcc
      refine ⟨fw m, Or.inl t1, ?_, ?_, ?_, ?_⟩
      · intro v
        by_cases hv : v = (u : Int)
        · subst hv
          simp only [fw]
          rw [mapGet_mapUpd_self]
          have : (u : Int) < ((fw m).length : Int) := by
            rw [hlen]; split <;> omega
          simp only [Option.isSome_some, true_iff]
          exact ⟨by omega, this⟩
        · have : mapGet (fw m) v = mapGet m v := mapGet_mapUpd_ne _ _ _ hv
          rw [this, hkeys, hlen]
          split <;> omega
      · intro v hv
        rw [hzip, List.filter_append, List.map_append]
        by_cases hvu : v = u
        · subst hvu
          have hone : ((([((c, i, j), u)] : List ((Int × Int × Int) × Nat)).filter
              fun x => x.1.1 == c && x.2 == u).map fun x => orderedPair x.1) = [(oi, oj)] := by
            simp [hord]
          rw [hone]
          refine ⟨_, by simp, ?_, rfl⟩
          simp only [fw]
          rw [mapGet_mapUpd_self]
          by_cases hum : u < m.length
          · obtain ⟨l, -, hl1, hl2⟩ := hcont u hum
            rw [hl1, ← hl2]
            simp
          · have hnone : mapGet m (u : Int) = none := by
              have := hkeys (u : Int)
              rw [← Option.not_isSome_iff_eq_none, this]
              omega
            have hnil : ((pushes.zip w).filter fun x => x.1.1 == c && x.2 == u) = [] := by
              rw [List.filter_eq_nil_iff]
              intro x hx
              simp only [Bool.and_eq_true, beq_iff_eq, not_and]
              intro hxc hxu
              have := hlt x hx hxc
              omega
            rw [hnone, hnil]
            rfl
        · have hvm : v < m.length := by
            rw [hlen] at hv
            split at hv <;> omega
          obtain ⟨l, hl0, hl1, hl2⟩ := hcont v hvm
          have hone : ((([((c, i, j), u)] : List ((Int × Int × Int) × Nat)).filter
              fun x => x.1.1 == c && x.2 == v).map fun x => orderedPair x.1) = [] := by
            have : ¬ u = v := fun hh => hvu hh.symm
            simp [this]
          rw [hone, List.append_nil]
          refine ⟨l, hl0, ?_, hl2⟩
          have : mapGet (fw m) (v : Int) = mapGet m (v : Int) :=
            mapGet_mapUpd_ne _ _ _ (by omega)
          rw [this, hl1]
      · intro x hx hxc
        rw [hzip, List.mem_append, List.mem_singleton] at hx
        rcases hx with hx | rfl
        · have := hlt x hx hxc
          rw [hlen]; omega
        · dsimp only
          rw [hlen]; split <;> omega
      · intro layer n hn
        have hn' : mapGet nw (c, layer) = some n := hn
        rw [hnw] at hn'
        by_cases hh : c = c ∧ (layer = i ∨ layer = j)
        · rw [if_pos hh, Option.some.injEq] at hn'
          rw [hlen]
          split <;> omega
        · rw [if_neg hh] at hn'
          have := hnb layer n hn'
          rw [hlen]
          split <;> omega
    · obtain ⟨m', a1, a2, a3, a4, a5⟩ := h.waves c
      refine ⟨m', ?_, a2, ?_, ?_, ?_⟩
      · show mapGet ws2 c = _ ∨ mapGet ws2 c = _ ∧ _
        rw [hwv c hcc]
        exact a1
      · intro v hv
        rw [hzip, List.filter_append, List.map_append]
        have hone : ((([((cell, i, j), u)] : List ((Int × Int × Int) × Nat)).filter
            fun x => x.1.1 == c && x.2 == v).map fun x => orderedPair x.1) = [] := by
          have : ¬ cell = c := fun hh => hcc hh.symm
          simp [this]
        rw [hone, List.append_nil]
        exact a3 v hv
      · intro x hx hxc
        rw [hzip, List.mem_append, List.mem_singleton] at hx
        rcases hx with hx | rfl
        · exact a4 x hx hxc
        · exact absurd hxc.symm hcc
      · intro layer n hn
        have hn' : mapGet nw (c, layer) = some n := hn
        rw [hnw, if_neg (fun hh => hcc hh.1)] at hn'
        exact a5 layer n hn'
  · -- the counters
    intro x hx layer hl
    show ∃ n, mapGet nw (x.1.1, layer) = some n ∧ _
    rw [hzip, List.mem_append, List.mem_singleton] at hx
    rw [hnw]
    rcases hx with hx | rfl
    · obtain ⟨n, hn1, hn2⟩ := h.next x hx layer hl
      by_cases hh : x.1.1 = cell ∧ (layer = i ∨ layer = j)
      · refine ⟨_, if_pos hh, ?_⟩
        have hle : n ≤ (u : Int) := by
          rw [hh.1] at hn1
          rcases hh.2 with rfl | rfl
          · have := hi3 n hn1; simp only [u]; omega
          · have := hj3 n hn1; simp only [u]; omega
        omega
      · exact ⟨n, by rw [if_neg hh]; exact hn1, hn2⟩
    · exact ⟨_, if_pos ⟨rfl, hl⟩, by dsimp only; omega⟩
  · -- the order
    intro a b x y v z hab hx hy hxy hs hv hz
    by_cases hb : b < pushes.length
    · rw [List.getElem?_append_left (by omega)] at hx
      rw [List.getElem?_append_left hb] at hy
      rw [List.getElem?_append_left (by rw [h.len]; omega)] at hv
      rw [List.getElem?_append_left (by rw [h.len]; omega)] at hz
      exact h.order a b x y v z hab hx hy hxy hs hv hz
    · have hb' := (List.getElem?_eq_some_iff.1 hy).1
      rw [List.length_append, List.length_singleton] at hb'
      have hbe : b = pushes.length := by omega
      subst hbe
      rw [List.getElem?_append_right (Nat.le_refl _)] at hy
      simp only [Nat.sub_self, List.getElem?_cons_zero, Option.some.injEq] at hy
      rw [← h.len, List.getElem?_append_right (Nat.le_refl _)] at hz
      simp only [Nat.sub_self, List.getElem?_cons_zero, Option.some.injEq] at hz
      subst hy hz
      rw [List.getElem?_append_left hab] at hx
      rw [List.getElem?_append_left (by rw [h.len]; exact hab)] at hv
      have hmem : (x, v) ∈ pushes.zip w :=
        List.mem_of_getElem? (List.getElem?_zip_eq_some.2 ⟨hx, hv⟩)
      obtain ⟨layer, hl1, hl2⟩ := share_layers hs
      obtain ⟨n, hn1, hn2⟩ := h.next (x, v) hmem layer hl1
      dsimp only at hn1 hn2 hxy hl2
      rw [hxy] at hn1
      rcases hl2 with rfl | rfl
      · have := hi3 n hn1; simp only [u]; omega
      · have := hj3 n hn1; simp only [u]; omega

theorem hostInv_all {n : Int} {pushes : List (Int × Int × Int)}
    (h : ∀ x ∈ pushes, 0 ≤ x.1 ∧ x.1 < n) :
    ∃ (p : PairHost) (w : List Nat), (PairHost.new n).pushAll pushes = some p ∧
      p.cellCount = n ∧ HostInv pushes p w := by
  obtain ⟨p, h1, h2⟩ := runItems_invariant (items := pushes) (s := PairHost.new n)
    (step := fun x (p : PairHost) => p.pushBack x.1 x.2.1 x.2.2)
    (P := fun pre p => p.cellCount = n ∧ ∃ w, HostInv pre p w)
    (by
      rintro pre ⟨c, i, j⟩ post p he ⟨hc, w, hw⟩
      have := h (c, i, j) (by rw [he]; simp)
      obtain ⟨p', u, a1, a2, a3⟩ := hostInv_push hw (cell := c) (i := i) (j := j)
        (by rw [hc]; exact this)
      exact ⟨p', a1, a2.trans hc, w ++ [u], a3⟩)
    ⟨rfl, [], hostInv_nil n⟩
  exact ⟨p, h2.2.choose, h1, h2.1, h2.2.choose_spec⟩

/-! ## The properties -/

theorem waveOf_of_inv {pushes : List (Int × Int × Int)} {p : PairHost} {w : List Nat}
    (h : HostInv pushes p w) : WaveOf pushes p w := by
  have key : ∀ (cell : Int) (v : Nat), p.pairs cell v =
      (((pushes.zip w).filter fun x => x.1.1 == cell && x.2 == v).map
        fun x => orderedPair x.1) ∧ (v < p.numWaves cell ↔ p.pairs cell v ≠ []) := by
    intro cell v
    obtain ⟨m, hm, hk, hc, hlt, -⟩ := h.waves cell
    have hpairs : p.pairs cell v = match mapGet m (v : Int) with
        | none => []
        | some l => l.1.zip l.2 := by
      unfold PairHost.pairs
      rcases hm with hm | ⟨hm, rfl⟩
      · rw [hm]
        show (match mapGet m (v : Int) with | none => [] | some v => v.1.zip v.2) = _
        cases mapGet m (v : Int) <;> rfl
      · rw [hm]; rfl
    have hnum : p.numWaves cell = m.length := by
      unfold PairHost.numWaves
      rcases hm with hm | ⟨hm, rfl⟩
      · rw [hm]
      · rw [hm]; rfl
    rw [hpairs, hnum]
    by_cases hv : v < m.length
    · obtain ⟨l, hl0, hl1, hl2⟩ := hc v hv
      rw [hl1]
      dsimp only
      have hz : (l.map Prod.fst).zip (l.map Prod.snd) = l := by
        clear hl0 hl1 hl2
        induction l with
        | nil => rfl
        | cons a l ih => simp [ih]
      rw [hz]
      exact ⟨hl2, by simp [hv, hl0]⟩
    · have hnone : mapGet m (v : Int) = none := by
        rw [← Option.not_isSome_iff_eq_none, hk]; omega
      rw [hnone]
      refine ⟨?_, by simpa using hv⟩
      have : ((pushes.zip w).filter fun x => x.1.1 == cell && x.2 == v) = [] := by
        rw [List.filter_eq_nil_iff]
        intro x hx
        simp only [Bool.and_eq_true, beq_iff_eq, not_and]
        intro hxc hxu
        have := hlt x hx hxc
        omega
      rw [this]
      rfl
  exact ⟨h.len, fun c v => (key c v).1, h.order, fun c v => (key c v).2⟩

/-- After any sequence of `push_back` calls with valid cells there is a wave for every call such
that the waves hold exactly these pairs, are numbered contiguously, and calls that share a
particle are in the waves in the order of the calls. -/
theorem C54_waves {n : Int} {pushes : List (Int × Int × Int)}
    (h : ∀ x ∈ pushes, 0 ≤ x.1 ∧ x.1 < n) :
    ∃ (p : PairHost) (w : List Nat), (PairHost.new n).pushAll pushes = some p ∧
      WaveOf pushes p w := by
  obtain ⟨p, w, h1, -, h2⟩ := hostInv_all h
  exact ⟨p, w, h1, waveOf_of_inv h2⟩

/-- `clear` gives the list that the constructor gives. -/
theorem C54_clear {n : Int} {pushes : List (Int × Int × Int)} {p : PairHost}
    (h : ∀ x ∈ pushes, 0 ≤ x.1 ∧ x.1 < n) (hp : (PairHost.new n).pushAll pushes = some p) :
    p.clear = PairHost.new n := by
  obtain ⟨p', w, h1, h2, -⟩ := hostInv_all h
  rw [hp, Option.some.injEq] at h1
  subst h1
  unfold PairHost.clear PairHost.new
  rw [h2]

/-- Two pairs of one wave of a cell share no particle. -/
theorem C54_conflict_free {n : Int} {pushes : List (Int × Int × Int)} {p : PairHost}
    (h : ∀ x ∈ pushes, 0 ≤ x.1 ∧ x.1 < n) (hp : (PairHost.new n).pushAll pushes = some p)
    (cell : Int) (v : Nat) : (p.pairs cell v).Pairwise fun a b => ¬ Share a b := by
  obtain ⟨p', w, h1, h2⟩ := C54_waves h
  rw [hp, Option.some.injEq] at h1
  subst h1
  rw [h2.content, List.pairwise_map]
  have hpos : (pushes.zip w).Pairwise fun a b => ∃ i j : Nat, i < j ∧
      (pushes.zip w)[i]? = some a ∧ (pushes.zip w)[j]? = some b := by
    rw [List.pairwise_iff_getElem]
    intro i j hi hj hij
    exact ⟨i, j, hij, List.getElem?_eq_getElem hi, List.getElem?_eq_getElem hj⟩
  refine (hpos.filter _).imp_of_mem ?_
  · rintro a b ha hb ⟨i, j, hij, hi, hj⟩ hs
    rw [List.mem_filter] at ha hb
    simp only [Bool.and_eq_true, beq_iff_eq] at ha hb
    obtain ⟨a1, a2⟩ := List.getElem?_zip_eq_some.1 hi
    obtain ⟨b1, b2⟩ := List.getElem?_zip_eq_some.1 hj
    have := h2.order i j _ _ _ _ hij a1 b1 (ha.2.1.trans hb.2.1.symm) hs a2 b2
    omega

/-- Every pushed pair is in exactly one wave of its cell: the waves together are the pushed pairs
up to order. -/
theorem C54_each_once {n : Int} {pushes : List (Int × Int × Int)} {p : PairHost}
    (h : ∀ x ∈ pushes, 0 ≤ x.1 ∧ x.1 < n) (hp : (PairHost.new n).pushAll pushes = some p)
    (cell : Int) : ((List.range (p.numWaves cell)).flatMap fun v : Nat => p.pairs cell v).Perm
      (pushedFor pushes cell) := by
  obtain ⟨p', w, h1, h2⟩ := C54_waves h
  rw [hp, Option.some.injEq] at h1
  subst h1
  have hlt : ∀ x ∈ pushes.zip w, x.1.1 = cell → x.2 < p.numWaves cell := by
    intro x hx hxc
    rw [h2.contiguous, h2.content]
    intro hc
    rw [List.map_eq_nil_iff, List.filter_eq_nil_iff] at hc
    exact hc x hx (by simp [hxc])
  have hsrc : pushedFor pushes cell = ((pushes.zip w).filter fun x => x.1.1 == cell).map
      fun x => orderedPair x.1 := by
    have hz : (pushes.zip w).map Prod.fst = pushes :=
      List.map_fst_zip (Nat.le_of_eq h2.len.symm)
    have : pushedFor ((pushes.zip w).map Prod.fst) cell =
        ((pushes.zip w).filter fun x => x.1.1 == cell).map fun x => orderedPair x.1 := by
      unfold pushedFor
      rw [List.filter_map, List.map_map]
      rfl
    rw [hz] at this
    exact this
  have hf : (fun v : Nat => p.pairs cell v) = fun v : Nat => ((pushes.zip w).filter
      fun x => x.1.1 == cell && x.2 == v).map fun x => orderedPair x.1 := by
    funext v; exact h2.content cell v
  rw [hf, hsrc, ← List.map_flatMap]
  apply List.Perm.map
  generalize hz : pushes.zip w = z at hlt
  clear hsrc hf hz h2 hp
  induction z with
  | nil =>
    have : ((List.range (p.numWaves cell)).flatMap fun v =>
      ([] : List ((Int × Int × Int) × Nat)).filter fun x => x.1.1 == cell && x.2 == v) = [] := by
      simp
    rw [this]
    exact List.Perm.refl _
  | cons x z ih =>
    have ih' := ih fun y hy => hlt y (List.mem_cons_of_mem _ hy)
    by_cases hx : x.1.1 = cell
    · have hxl := hlt x List.mem_cons_self hx
      have hsplit : ((List.range (p.numWaves cell)).flatMap fun v =>
          (x :: z).filter fun y => y.1.1 == cell && y.2 == v) =
          ((List.range (p.numWaves cell)).flatMap fun v => (if v = x.2 then [x] else []) ++
            z.filter fun y => y.1.1 == cell && y.2 == v) := by
        apply List.flatMap_congr
        intro v _
        rw [List.filter_cons]
        by_cases hv : v = x.2
        · simp [hv, hx]
        · have hv' : ¬ x.2 = v := fun hh => hv hh.symm
          simp [hv, hv', hx]
      rw [hsplit]
      refine (List.flatMap_append_perm _ _ _).symm.trans ?_
      have hone : ((List.range (p.numWaves cell)).flatMap fun v =>
          if v = x.2 then [x] else []) = [x] := by
        have : ∀ k, ((List.range k).flatMap fun v => if v = x.2 then [x] else []) =
            if x.2 < k then [x] else [] := by
          intro k
          induction k with
          | zero => simp
          | succ k ih =>
            rw [List.range_succ, List.flatMap_append, ih]
            by_cases h1 : x.2 < k
            · have : k ≠ x.2 := by omega
              simp [h1, this, Nat.lt_succ_of_lt h1]
            · by_cases h2 : k = x.2
              · simp [h2]
              · have : ¬ x.2 < k + 1 := by omega
                simp [h1, h2, this]
        rw [this, if_pos hxl]
      rw [hone, List.filter_cons, if_pos (by simpa using hx)]
      exact ih'.cons x
    · have hsplit : ((List.range (p.numWaves cell)).flatMap fun v =>
          (x :: z).filter fun y => y.1.1 == cell && y.2 == v) =
          ((List.range (p.numWaves cell)).flatMap fun v =>
            z.filter fun y => y.1.1 == cell && y.2 == v) := by
        apply List.flatMap_congr
        intro v _
        rw [List.filter_cons]
        simp [hx]
      rw [hsplit, List.filter_cons, if_neg (by simpa using hx)]
      exact ih'

/-- A call with a cell that does not exist fails. -/
theorem C54_rejects (p : PairHost) {cell : Int} (h : ¬ (0 ≤ cell ∧ cell < p.cellCount))
    (i j : Int) : p.pushBack cell i j = none := by
  unfold PairHost.pushBack
  rw [if_neg h]

/-! ## Examples -/

namespace Ex

def pushes : List (Int × Int × Int) := [(0, 1, 2), (0, 3, 4), (1, 1, 2), (0, 2, 3), (0, 5, 1)]

example : ∀ x ∈ pushes, 0 ≤ x.1 ∧ x.1 < 2 := by decide

example : ((PairHost.new 2).pushAll Ex.pushes).map (fun p => (p.numWaves 0, p.numWaves 1)) =
    some (2, 1) := by decide

example : ((PairHost.new 2).pushAll Ex.pushes).map (fun p => (p.pairs 0 0, p.pairs 0 1)) =
    some ([(1, 2), (3, 4)], [(2, 3), (1, 5)]) := by decide

example : (PairHost.new 2).pushAll [(0, 1, 2), (2, 1, 2)] = none := by decide

end Ex

end NP
