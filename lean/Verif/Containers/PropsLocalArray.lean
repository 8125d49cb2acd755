import Verif.Containers.PropsArray

/-!
# C73: `LocalArray` in particle loops

Model: Containers/ModelArray.lean. Specification: Containers/SpecArray.lean.
-/

set_option autoImplicit false

namespace NP

open Spec

variable {α : Type}

theorem laVal_eq {g : LaRank α} (h : LaOk g) {i : Nat} (hi : i < g.size) :
    laVal g i = g.buf[i]? := by
  unfold laVal laGet
  rw [slice_eq_some (by omega) h, Option.bind_some]
  have := getElem?_of_slice (slice_eq_some (m := g.buf) (a := 0) (b := g.size) (by omega) h) i
    (by omega)
  rw [this, Nat.zero_add]

theorem stRange_front {m vs : List α} (h : vs.length ≤ m.length) :
    ∃ b, stRange m 0 vs = some b ∧ b.length = m.length ∧ ∀ i < vs.length, b[i]? = vs[i]? := by
  have hs := stRange_eq_some (m := m) (a := 0) (vs := vs) (by omega)
  refine ⟨_, hs, (length_of_stRange hs).1, fun i hi => ?_⟩
  rw [getElem?_of_stRange hs, if_pos (by omega)]
  rfl

theorem launchCalls_eq (L : GaLaunch α) :
    (requestedList L).flatMap (fun v => L.adds v.1 v.2) = launchCalls L := by
  unfold requestedList launchCalls
  rw [List.flatMap_assoc]
  congr 1
  funext nc
  rw [List.flatMap_map]

/-- `fetch_add` changes the array as `add` does. -/
theorem arrayFetchAdds_run [AddCommMonoid α] {calls : List (Int × α)} {m : List α}
    (h : ∀ a ∈ calls, 0 ≤ a.1 ∧ a.1 < m.length) (out : List ((Int × α) × α)) :
    ∃ m' t, runItems arrayFetchAdd calls (m, out) = some (m', out ++ t) ∧
      runItems arrayAdd calls m = some m' ∧ t.map (·.1) = calls ∧
      ∀ (i : Nat) x, m[i]? = some x → FetchTrace i x t := by
  induction calls generalizing m out with
  | nil => exact ⟨m, [], by simp, rfl, rfl, fun _ _ _ => trivial⟩
  | cons a calls ih =>
    obtain ⟨v, h1, h2⟩ := arrayAdd_spec (h a List.mem_cons_self)
    have ha := (h a List.mem_cons_self).1
    have hl := (List.getElem?_eq_some_iff.1 h1).1
    obtain ⟨m', t, e1, e2, e3, e4⟩ := ih (m := m.set a.1.toNat (v + a.2)) (by
      intro b hb; rw [List.length_set]; exact h b (List.mem_cons_of_mem _ hb)) (out ++ [(a, v)])
    have hf : arrayFetchAdd a (m, out) =
        some (m.set a.1.toNat (v + a.2), out ++ [(a, v)]) := by
      simp only [arrayFetchAdd, index, if_pos ha, rd, Option.bind_some, h1, st_eq_some hl]
    refine ⟨m', (a, v) :: t, ?_, ?_, by rw [List.map_cons, e3], ?_⟩
    · rw [runItems_cons, hf, Option.bind_some, e1, List.append_assoc]
      rfl
    · rw [runItems_cons, h2, Option.bind_some, e2]
    · intro i x hx
      unfold FetchTrace
      by_cases hi : a.1 = (i : Int)
      · have hin : a.1.toNat = i := by omega
        rw [hin] at h1 hl e4
        rw [hx, Option.some.injEq] at h1
        subst h1
        rw [if_pos hi]
        exact ⟨rfl, e4 i _ (List.getElem?_set_self hl)⟩
      · rw [if_neg hi]
        apply e4
        rw [List.getElem?_set_ne (by omega)]
        exact hx

theorem laSubmit_spec [AddCommMonoid α] {l : Nat} {L : GaLaunch α} {g : LaRank α}
    (hL : GaLaunchOk g.size L) (hg : LaOk g) (hr : ¬ (g.running l = true ∧ L.cs = none)) :
    ∃ g' t, laSubmit l L g = some (g', t) ∧ g'.size = g.size ∧ LaOk g' ∧
      (g'.running = fun m => m == l || g.running m) ∧
      (∀ i, g'.buf[i]? = (g.buf[i]?).map (· + launchSum L i)) ∧
      (t.map (·.1)).Perm (launchCalls L) ∧
      ∀ (i : Nat) x, g.buf[i]? = some x → FetchTrace i x t := by
  obtain ⟨vs, m', h1, h2, h3, h4⟩ := launch_adds hL hg
  obtain ⟨vs', h1', hv⟩ := C07_each_particle_once hL.launch hL.cells
  rw [h1, Option.some.injEq] at h1'
  subst h1'
  have hp := L.ord.perm (vs.flatMap fun v => L.adds v.1 v.2)
  obtain ⟨m'', t, e1, e2, e3, e4⟩ := arrayFetchAdds_run (m := g.buf)
    (calls := L.ord.order (vs.flatMap fun v => L.adds v.1 v.2)) (by
      intro a ha
      rw [hp.mem_iff, List.mem_flatMap] at ha
      obtain ⟨⟨c, k⟩, hv', ha⟩ := ha
      have := hL.comps c k ((hv.2 c k).1 hv').2 a ha
      unfold LaOk at hg
      omega) []
  rw [h2, Option.some.injEq] at e2
  subst e2
  refine ⟨⟨g.size, m', fun m => m == l || g.running m⟩, t, ?_, rfl, ?_, rfl, h4, ?_, e4⟩
  · unfold laSubmit
    rw [if_neg hr, h1, Option.bind_some, e1]
    rfl
  · unfold LaOk at *
    dsimp only
    omega
  · rw [e3, ← launchCalls_eq]
    exact hp.trans ((visits_perm hv).flatMap_right _)

/-- **C73** After every accepted history of submissions, waits and calls of `fill` and
`set` on one rank, with any number of loops in flight and any number of submissions
before a wait, every component of a `LocalArray` is the value it was last set to plus
everything the kernels of this rank passed to `fetch_add` since. -/
theorem C73_local_history [AddCommMonoid α] {cs : List (LaCall α)} {g g' : LaRank α}
    (hg : LaOk g) (hcs : ∀ c ∈ cs, LaCallOk g.size c) (h : laRun cs g = some g') :
    g'.size = g.size ∧ LaOk g' ∧
      ∀ i < g.size, laVal g' i = cs.foldl (localStep i) (laVal g i) := by
  induction cs generalizing g with
  | nil =>
    unfold laRun at h
    rw [runItems_nil, Option.some.injEq] at h
    subst h
    exact ⟨rfl, hg, fun _ _ => rfl⟩
  | cons c cs ih =>
    unfold laRun at h ih
    rw [runItems_cons, Option.bind_eq_some_iff] at h
    obtain ⟨g1, h1, h2⟩ := h
    have step : g1.size = g.size ∧ LaOk g1 ∧
        ∀ i < g.size, laVal g1 i = localStep i (laVal g i) c := by
      cases c with
      | submit l L =>
        simp only [laCall] at h1
        have hr : ¬ (g.running l = true ∧ L.cs = none) := by
          intro hh
          unfold laSubmit at h1
          rw [if_pos hh] at h1
          simp at h1
        obtain ⟨g2, t, e1, e2, e3, _, e5, _⟩ :=
          laSubmit_spec (hcs (.submit l L) List.mem_cons_self) hg hr
        rw [e1, Option.bind_some, Option.some.injEq] at h1
        dsimp only at h1
        subst h1
        refine ⟨e2, e3, fun i hi => ?_⟩
        rw [laVal_eq e3 (by omega), laVal_eq hg hi, e5]
        rfl
      | wait l =>
        simp only [laCall, laWait] at h1
        split at h1
        · simp at h1
        · rw [Option.some.injEq] at h1
          subst h1
          exact ⟨rfl, hg, fun i _ => rfl⟩
      | fill v =>
        simp only [laCall, laFill] at h1
        split at h1
        · obtain ⟨b, hs, e1, e2⟩ := stRange_front (m := g.buf) (vs := List.replicate g.size v)
            (by rw [List.length_replicate]; exact hg)
          rw [hs, Option.bind_some, Option.some.injEq] at h1
          subst h1
          have hok : LaOk (⟨g.size, b, g.running⟩ : LaRank α) := by
            unfold LaOk at *; dsimp only; omega
          refine ⟨rfl, hok, fun i hi => ?_⟩
          rw [laVal_eq hok hi]
          dsimp only
          rw [e2 i (by simpa using hi), List.getElem?_replicate, if_pos hi]
          rfl
        · rw [Option.some.injEq] at h1
          subst h1
          exact ⟨rfl, hg, fun i hi => by omega⟩
      | set d =>
        simp only [laCall, laSet] at h1
        split at h1
        · simp at h1
        · rename_i hd
          have hd : d.length = g.size := by omega
          obtain ⟨b, hs, e1, e2⟩ := stRange_front (m := g.buf) (vs := d)
            (by unfold LaOk at hg; omega)
          rw [hs, Option.bind_some, Option.some.injEq] at h1
          subst h1
          have hok : LaOk (⟨g.size, b, g.running⟩ : LaRank α) := by
            unfold LaOk at *; dsimp only; omega
          refine ⟨rfl, hok, fun i hi => ?_⟩
          rw [laVal_eq hok hi]
          dsimp only
          rw [e2 i (by omega)]
          rfl
      | realloc n f => exact absurd (hcs _ List.mem_cons_self) id
    obtain ⟨s1, s2, s3⟩ := step
    obtain ⟨t1, t2, t3⟩ := ih s2 (fun c hc => by rw [s1]; exact hcs c (List.mem_cons_of_mem _ hc)) h2
    refine ⟨by omega, t2, fun i hi => ?_⟩
    rw [t3 i (by omega), s3 i hi, List.foldl_cons]

theorem laCall_running [AddCommMonoid α] {c : LaCall α} {g g' : LaRank α}
    (h : laCall c g = some g') (l : Nat) : g'.running l = flightStep l (g.running l) c := by
  cases c with
  | submit m L =>
    simp only [laCall, laSubmit] at h
    split at h
    · simp at h
    · simp only [Option.bind_eq_some_iff, Option.some.injEq] at h
      obtain ⟨r, ⟨vs, -, s, -, h3⟩, h4⟩ := h
      subst h4 h3
      show (l == m || g.running l) = (m == l || g.running l)
      rw [BEq.comm]
  | wait m =>
    simp only [laCall, laWait] at h
    split at h
    · simp at h
    · rw [Option.some.injEq] at h
      subst h
      show (l != m && g.running l) = (m != l && g.running l)
      rw [bne, bne, BEq.comm]
  | fill v =>
    simp only [laCall, laFill] at h
    split at h
    · simp only [Option.bind_eq_some_iff, Option.some.injEq] at h
      obtain ⟨b, -, h⟩ := h
      subst h; rfl
    · rw [Option.some.injEq] at h; subst h; rfl
  | set d =>
    simp only [laCall, laSet] at h
    split at h
    · simp at h
    · simp only [Option.bind_eq_some_iff, Option.some.injEq] at h
      obtain ⟨b, -, h⟩ := h
      subst h; rfl
  | realloc n f =>
    simp only [laCall, Option.some.injEq] at h
    subst h; rfl

/-- **C73** Which calls succeed depends on the history alone: after every accepted history a loop
is in flight if it was submitted and not waited for since, a call succeeds exactly if it is not a
second submission of a loop over all cells, not a wait for a loop that is not in flight, and not
data of another size. -/
theorem C73_local_accepts [AddCommMonoid α] {cs : List (LaCall α)} {g g' : LaRank α}
    (hg : LaOk g) (hcs : ∀ c ∈ cs, LaCallOk g.size c) (h : laRun cs g = some g')
    {c : LaCall α} (hc : LaCallOk g.size c) :
    (laCall c g').isSome = true ↔
      LaAccepts g.size (fun l => cs.foldl (flightStep l) (g.running l)) c := by
  have hrun : ∀ l, g'.running l = cs.foldl (flightStep l) (g.running l) := by
    intro l
    clear hcs hg hc
    unfold laRun at h
    induction cs generalizing g with
    | nil =>
      rw [runItems_nil, Option.some.injEq] at h
      subst h; rfl
    | cons x xs ih =>
      rw [runItems_cons, Option.bind_eq_some_iff] at h
      obtain ⟨g1, h1, h2⟩ := h
      rw [List.foldl_cons, ← laCall_running h1]
      exact ih h2
  obtain ⟨hs, hg', -⟩ := C73_local_history hg hcs h
  rw [← hs] at hc ⊢
  have hf : (fun l => cs.foldl (flightStep l) (g.running l)) = g'.running :=
    funext fun l => (hrun l).symm
  rw [hf]
  cases c with
  | submit l L =>
    show _ ↔ ¬ (g'.running l = true ∧ L.cs = none)
    by_cases hr : g'.running l = true ∧ L.cs = none
    · refine ⟨fun hh => ?_, fun hh => absurd hr hh⟩
      simp only [laCall, laSubmit, hr, and_self, if_true] at hh
      simp at hh
    · refine ⟨fun _ => hr, fun _ => ?_⟩
      obtain ⟨g2, t, e1, -⟩ := laSubmit_spec (l := l) hc hg' hr
      simp only [laCall, e1, Option.bind_some, Option.isSome_some]
  | wait l =>
    show _ ↔ g'.running l = true
    simp only [laCall, laWait]
    cases g'.running l <;> simp
  | fill v =>
    refine ⟨fun _ => trivial, fun _ => ?_⟩
    simp only [laCall, laFill]
    split
    · obtain ⟨b, e1, -⟩ := stRange_front (m := g'.buf) (vs := List.replicate g'.size v)
        (by rw [List.length_replicate]; exact hg')
      rw [e1]; rfl
    · rfl
  | set d =>
    show _ ↔ d.length = g'.size
    simp only [laCall, laSet]
    by_cases hd : d.length = g'.size
    · rw [if_neg (by omega)]
      obtain ⟨b, e1, -⟩ := stRange_front (m := g'.buf) (vs := d)
        (by unfold LaOk at hg'; omega)
      rw [e1]
      exact ⟨fun _ => hd, fun _ => rfl⟩
    · rw [if_pos hd]
      exact ⟨fun hh => by simp at hh, fun hh => absurd hh hd⟩
  | realloc n f => exact absurd hc id

/-- **C73** A new `LocalArray` holds the initial value, and every size change leaves the
array usable: it has the new size. -/
theorem C73_local_new (fresh : Fresh α) (size : Nat) (init : α) :
    ∃ g, laNew fresh size init = some g ∧ g.size = size ∧ LaOk g ∧
      (∀ i < size, laVal g i = some init) ∧
      ∀ fresh' size' g', LaOk g' → (laRealloc fresh' size' g').size = size' ∧
        LaOk (α := α) (laRealloc fresh' size' g') := by
  have hre : ∀ (fresh' : Fresh α) size' g', LaOk g' → (laRealloc fresh' size' g').size = size' ∧
        LaOk (α := α) (laRealloc fresh' size' g') := by
    intro fresh' size' g' _
    refine ⟨rfl, ?_⟩
    unfold LaOk laRealloc bufRealloc
    dsimp only
    split
    · omega
    · split
      · rw [(fresh' size').2]
      · omega
  unfold laNew laFill
  by_cases h0 : size ≠ 0
  · obtain ⟨b, hs, e1, e2⟩ := stRange_front (m := (fresh size).1)
      (vs := List.replicate size init) (by rw [(fresh size).2]; simp)
    rw [(fresh size).2] at e1
    rw [if_pos h0]
    dsimp only
    rw [hs]
    have hok : LaOk (⟨size, b, fun _ => false⟩ : LaRank α) := by
      unfold LaOk; dsimp only; omega
    refine ⟨_, rfl, rfl, hok, fun i hi => ?_, hre⟩
    rw [laVal_eq hok hi]
    dsimp only
    rw [e2 i (by simpa using hi), List.getElem?_replicate, if_pos hi]
  · rw [if_neg h0]
    refine ⟨_, rfl, rfl, ?_, fun i hi => by omega, hre⟩
    unfold LaOk; dsimp only; rw [(fresh size).2]

/-- **C73** What `fetch_add` returns: there is an order of all calls made by the kernel
(each particle of the requested cells making its calls once) such that each call returns
the value of its component before it, starting from the old value of the array. -/
theorem C73_fetch_add [AddCommMonoid α] {l : Nat} {L : GaLaunch α} {g : LaRank α}
    (hL : GaLaunchOk g.size L) (hg : LaOk g) (hr : ¬ (g.running l = true ∧ L.cs = none)) :
    ∃ g' t, laSubmit l L g = some (g', t) ∧ (t.map (·.1)).Perm (launchCalls L) ∧
      ∀ i < g.size, ∃ x, laVal g i = some x ∧ FetchTrace i x t := by
  obtain ⟨g', t, h1, h2, h3, h4, h5, h6, h7⟩ := laSubmit_spec hL hg hr
  refine ⟨g', t, h1, h6, fun i hi => ?_⟩
  have hl : i < g.buf.length := by unfold LaOk at hg; omega
  rw [laVal_eq hg hi]
  exact ⟨g.buf[i], List.getElem?_eq_getElem hl, h7 i _ (List.getElem?_eq_getElem hl)⟩

theorem fetchTrace_counter {i : Nat} {t : List ((Int × Int) × Int)} {x : Int}
    (h : FetchTrace i x t) (h1 : ∀ p ∈ t, p.1.1 = (i : Int) → p.1.2 = 1) :
    (t.filter fun p => p.1.1 = (i : Int)).map (·.2) =
      (List.range (t.filter fun p => p.1.1 = (i : Int)).length).map fun (k : Nat) => x + (k : Int) := by
  induction t generalizing x with
  | nil => rfl
  | cons p t ih =>
    obtain ⟨a, v⟩ := p
    unfold FetchTrace at h
    by_cases hi : a.1 = (i : Int)
    · rw [if_pos hi] at h
      have ha := h1 (a, v) List.mem_cons_self hi
      dsimp only at ha
      have := ih h.2 fun p hp => h1 p (List.mem_cons_of_mem _ hp)
      rw [List.filter_cons, if_pos (by simpa using hi), List.map_cons, this, List.length_cons,
        List.range_succ_eq_map, List.map_cons, List.map_map]
      congr 1
      · rw [h.1]; simp
      · apply List.map_congr_left
        intro k _
        simp only [Function.comp_apply, ha]
        push_cast
        omega
    · rw [if_neg hi] at h
      rw [List.filter_cons, if_neg (by simpa using hi)]
      exact ih h fun p hp => h1 p (List.mem_cons_of_mem _ hp)

/-- **C73** If all calls for component `i` add one, the values returned by them are
`x, x + 1, ..., x + n - 1`, each once, where `x` is the old value and `n` the number of
calls: `fetch_add` hands out unique indices. -/
theorem C73_unique_indices {l : Nat} {L : GaLaunch Int} {g : LaRank Int}
    (hL : GaLaunchOk g.size L) (hg : LaOk g) (hr : ¬ (g.running l = true ∧ L.cs = none))
    {i : Nat} (hi : i < g.size)
    (hone : ∀ a ∈ launchCalls L, a.1 = (i : Int) → a.2 = 1) :
    ∃ g' t x, laSubmit l L g = some (g', t) ∧ laVal g i = some x ∧
      ((t.filter fun p => p.1.1 = (i : Int)).map (·.2)).Perm
        ((List.range ((launchCalls L).filter fun a => a.1 = (i : Int)).length).map
          fun (k : Nat) => x + (k : Int)) := by
  obtain ⟨g', t, h1, h2, h3⟩ := C73_fetch_add hL hg hr
  obtain ⟨x, h4, h5⟩ := h3 i hi
  refine ⟨g', t, x, h1, h4, ?_⟩
  rw [fetchTrace_counter h5 (by
    intro p hp
    exact hone p.1 (h2.mem_iff.1 (List.mem_map_of_mem hp)))]
  have : (t.filter fun p => p.1.1 = (i : Int)).length =
      ((launchCalls L).filter fun a => a.1 = (i : Int)).length := by
    rw [← (h2.filter _).length_eq, List.filter_map, List.length_map]
    rfl
  rw [this]

end NP
