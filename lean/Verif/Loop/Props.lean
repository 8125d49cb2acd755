import Verif.Loop.LemmasProtocol

/-!
# Properties C07 – C10: particle loops
-/

set_option autoImplicit false

namespace NP

open Spec

/-! ## C07 -/

/-- **C07** Executing a particle loop calls the kernel exactly once for every particle
(of the loop bounds) in the requested cells and for nothing else, whatever the
occupancies, the local size, the number of bins and the requested cells are. -/
theorem C07_each_particle_once {P : LoopParams} {npartLb : List Nat} {hasGroup : Bool}
    {npartLocal : Nat} (h : LaunchOk P npartLb hasGroup npartLocal)
    {cs ce : Option Int} (hc : CellArgsOk npartLb.length cs ce) :
    ∃ l, submitVisits P npartLb hasGroup npartLocal cs ce = some l ∧
      VisitsExactlyOnce l (fun c k => CellRequested cs ce c ∧ IsParticle npartLb c k) := by
  obtain ⟨bs, a, b, h1, h2, h3⟩ := submitBlocks_covers h Nat.one_pos hc
  obtain ⟨l, hl1, hl2, hl3⟩ := collect_covers h2 (visit := blockVisits npartLb)
    (fun b hb => blockVisits_covers (h2.ok b hb) (h2.stride_eq b hb))
  refine ⟨l, ?_, hl2, fun c k => (hl3 c k).trans (h3 c k)⟩
  unfold submitVisits
  rw [h1]; exact hl1

/-- **C07** Cell arguments outside of the mesh, or an end without a start, are
rejected: no kernel is called. -/
theorem C07_bad_cells_rejected (P : LoopParams) (npartLb : List Nat) (hasGroup : Bool)
    (npartLocal : Nat) {cs ce : Option Int} (hc : ¬ CellArgsOk npartLb.length cs ce) :
    submitVisits P npartLb hasGroup npartLocal cs ce = none := by
  cases cs with
  | none =>
    cases ce with
    | none => exact absurd trivial hc
    | some e => rfl
  | some s =>
    cases ce with
    | none =>
      simp only [CellArgsOk] at hc
      simp only [submitVisits, submitBlocks, iterationSetIsEmpty, determineIterationSet,
        Option.bind_some]
      rw [if_pos (by simp), if_neg (by omega)]
      rfl
    | some e =>
      simp only [CellArgsOk] at hc
      simp only [submitVisits, submitBlocks, iterationSetIsEmpty, determineIterationSet,
        Option.bind_some]
      have hf : (s == 0 && e == (npartLb.length : Int)) = false := by
        by_contra hh
        simp at hh
        omega
      rw [hf, if_pos (by simp), if_neg (by omega)]
      rfl

/-- Concrete launch: 5 cells, one of them empty, two bins, local size 4, so there is a
main block without bounds check and a peel block per bin. -/
example : LaunchOk ⟨1024, 2, 4⟩ [5, 9, 4, 0, 6] true 24 :=
  ⟨by decide, by decide, by decide, by decide, by decide⟩

example : submitBlocks ⟨1024, 2, 4⟩ [0, 9, 4, 6, 0] true 19 1 none none =
    some [⟨1, 0, 1, false, 4, 3, 4⟩, ⟨1, 4, 1, true, 4, 2, 8⟩, ⟨3, 4, 1, true, 4, 1, 4⟩] := by
  decide

example : submitVisits ⟨1024, 2, 4⟩ [0, 3, 2] true 5 (some 1) none =
    some [(1, 0), (1, 1), (1, 2)] := by decide

/-- **C07** The iteration sets used by the library's own kernels (which may use local
memory): `get_all_cells`, `get_single_cell` and `get_range_cell` split the particles
of their cells into launches that visit each particle exactly once. -/
theorem C07_iteration_set {lmem ls nbytes ls' : Nat} {npart : List Nat} {nbin cs ce : Nat}
    (hls : loopLocalSize lmem ls nbytes 1 = some ls') (hls' : 0 < ls') (hnbin : 0 < nbin)
    (hce : ce ≤ npart.length) (hb : ∀ n ∈ npart, n < 2 ^ 31) :
    ∃ bs l, getGeneric lmem npart cs ce nbin ls nbytes 1 = some bs ∧
      collectM (blockVisits npart) bs = some l ∧
      VisitsExactlyOnce l (fun c k => cs ≤ c ∧ c < ce ∧ IsParticle npart c k) := by
  obtain ⟨bs, h1, h2, _⟩ := getGeneric_covers hls hls' Nat.one_pos hnbin hce hb (cs := cs)
  obtain ⟨l, hl1, hl2⟩ := collect_covers h2 (visit := blockVisits npart)
    (fun b hb => blockVisits_covers (h2.ok b hb) (h2.stride_eq b hb))
  exact ⟨bs, l, h1, hl1, hl2⟩

example : loopLocalSize 1024 256 16 1 = some 64 := by decide

/-! ## C08 -/

/-- **C08** A strided (reduction) loop also calls its kernel exactly once for every
particle in the requested cells, for every stride. -/
theorem C08_strided_each_particle_once {P : LoopParams} {npartLb : List Nat} {hasGroup : Bool}
    {npartLocal : Nat} (h : LaunchOk P npartLb hasGroup npartLocal) {stride : Nat}
    (hstride : 0 < stride) {cs ce : Option Int} (hc : CellArgsOk npartLb.length cs ce) :
    ∃ l, submitVisitsReduction P npartLb hasGroup npartLocal stride cs ce = some l ∧
      VisitsExactlyOnce l (fun c k => CellRequested cs ce c ∧ IsParticle npartLb c k) := by
  obtain ⟨bs, a, b, h1, h2, h3⟩ := submitBlocks_covers h hstride hc
  obtain ⟨l, hl1, hl2, hl3⟩ := collect_covers h2 (visit := blockVisitsStrided npartLb)
    (fun b hb => blockVisitsStrided_covers (h2.ok b hb))
  refine ⟨l, ?_, hl2, fun c k => (hl3 c k).trans (h3 c k)⟩
  unfold submitVisitsReduction
  rw [h1]; exact hl1

/-- **C08** The same for the iteration sets of kernels that use `nbytes` bytes of local
memory per work item, and the local memory of a work group fits the device. -/
theorem C08_strided_iteration_set {lmem ls nbytes ls' : Nat} {npart : List Nat}
    {nbin cs ce stride : Nat} (hstride : 0 < stride)
    (hls : loopLocalSize lmem ls nbytes stride = some ls') (hls' : 0 < ls') (hnbin : 0 < nbin)
    (hce : ce ≤ npart.length) (hb : ∀ n ∈ npart, n < 2 ^ 31) :
    ∃ bs l, getGeneric lmem npart cs ce nbin ls nbytes stride = some bs ∧
      collectM (blockVisitsStrided npart) bs = some l ∧
      VisitsExactlyOnce l (fun c k => cs ≤ c ∧ c < ce ∧ IsParticle npart c k) ∧
      ∀ b ∈ bs, b.localSize * stride * nbytes ≤ lmem := by
  obtain ⟨bs, h1, h2, h3⟩ := getGeneric_covers hls hls' hstride hnbin hce hb (cs := cs)
  obtain ⟨l, hl1, hl2⟩ := collect_covers h2 (visit := blockVisitsStrided npart)
    (fun b hb => blockVisitsStrided_covers (h2.ok b hb))
  refine ⟨bs, l, h1, hl1, hl2, ?_⟩
  intro b hb'
  have hfit : ls' * stride * nbytes ≤ lmem := by
    unfold loopLocalSize at hls
    simp only at hls
    split at hls
    · simp at hls
    · rw [Option.bind_eq_some_iff] at hls
      obtain ⟨_, _, hls⟩ := hls
      rw [Option.bind_eq_some_iff] at hls
      obtain ⟨p, _, hls⟩ := hls
      split at hls
      · simp only [Option.some.injEq] at hls
        subst hls; assumption
      · simp at hls
  exact Nat.le_trans (Nat.mul_le_mul_right _ (Nat.mul_le_mul_right _ (h3 b hb'))) hfit

example : submitVisitsReduction ⟨1024, 2, 2⟩ [0, 9, 1] true 10 4 none none =
    some [(1, 0), (1, 2), (1, 4), (1, 6), (1, 1), (1, 3), (1, 5), (1, 7), (1, 8), (2, 0)] := by
  decide

/-! ## C09 -/

/-- **C09** The local linear index maps the particles one-to-one onto
`0 .. N - 1`, in order of cell and row. -/
theorem C09_local_linear_index (npart : List Nat) :
    (∀ c k, IsParticle npart c k → ∃ i, localLinearIndex npart c k = some i ∧ i < npart.sum) ∧
    (∀ i, i < npart.sum → ∃ c k, IsParticle npart c k ∧ localLinearIndex npart c k = some i) ∧
    (∀ p q i j, IsParticle npart p.1 p.2 → IsParticle npart q.1 q.2 →
      localLinearIndex npart p.1 p.2 = some i → localLinearIndex npart q.1 q.2 = some j →
      (Before p q ↔ i < j)) := by
  have e : ∀ c k, IsParticle npart c k → localLinearIndex npart c k =
      some (before npart c + k) := by
    intro c k hp
    unfold localLinearIndex
    rw [rd_npartCellEs (lt_length_of_isParticle hp)]; rfl
  refine ⟨?_, ?_, ?_⟩
  · intro c k hp
    refine ⟨_, e c k hp, ?_⟩
    rw [← before_all]
    exact before_le hp (lt_length_of_isParticle hp)
  · intro i hi
    obtain ⟨c, k, _, _, hp, he⟩ := before_exists (npart := npart) (cs := 0)
      (ce := npart.length) (i := i) (Nat.le_refl _) (by simp [before]) (by rw [before_all]; exact hi)
    exact ⟨c, k, hp, by rw [e c k hp, he]⟩
  · intro p q i j hp hq hi hj
    rw [e _ _ hp] at hi
    rw [e _ _ hq] at hj
    simp only [Option.some.injEq] at hi hj
    subst hi hj
    exact before_order hp hq

/-- **C09** For a loop over cells `[cs, ce)` the loop linear index maps the visited
particles one-to-one onto `0 .. n - 1` in order of cell and row, where `n` is the
number of particles the loop reports (and the number of kernel calls). -/
theorem C09_loop_linear_index (npart : List Nat) {cs ce : Nat} (hcs : cs ≤ ce)
    (hce : ce ≤ npart.length) :
    ∃ n, getLoopNpart npart npart.sum cs ce (cs == 0 && ce == npart.length) = some n ∧
    (∀ c k, cs ≤ c → c < ce → IsParticle npart c k →
      ∃ i : Nat, loopLinearIndex npart cs c k = some (i : Int) ∧ i < n) ∧
    (∀ i : Nat, i < n → ∃ c k, cs ≤ c ∧ c < ce ∧ IsParticle npart c k ∧
      loopLinearIndex npart cs c k = some (i : Int)) ∧
    (∀ p q i j, cs ≤ p.1 → p.1 < ce → cs ≤ q.1 → q.1 < ce →
      IsParticle npart p.1 p.2 → IsParticle npart q.1 q.2 →
      loopLinearIndex npart cs p.1 p.2 = some i → loopLinearIndex npart cs q.1 q.2 = some j →
      (Before p q ↔ i < j)) ∧
    (∀ l, VisitsExactlyOnce l (fun c k => cs ≤ c ∧ c < ce ∧ IsParticle npart c k) →
      l.length = n) := by
  have hn : getLoopNpart npart npart.sum cs ce (cs == 0 && ce == npart.length) =
      some (before npart ce - before npart cs) := by
    unfold getLoopNpart
    split
    · rename_i hw
      simp at hw
      obtain ⟨rfl, rfl⟩ := hw
      simp [before]
    · exact loopNpart_sum hcs hce
  have e : ∀ c k, cs ≤ c → IsParticle npart c k → loopLinearIndex npart cs c k =
      some (((before npart c + k - before npart cs : Nat)) : Int) := by
    intro c k h1 hp
    have hl := lt_length_of_isParticle hp
    unfold loopLinearIndex
    rw [rd_npartCellEs hl, rd_npartCellEs (by omega)]
    simp only [Option.bind_some, Option.some.injEq]
    have := before_mono (npart := npart) h1
    omega
  have hdown : ∀ c k, cs ≤ c → c < ce → IsParticle npart c k →
      before npart c + k - before npart cs < before npart ce - before npart cs := by
    intro c k h1 h2 hp
    have := before_le hp h2
    have := before_mono (npart := npart) h1
    omega
  have hup : ∀ i, i < before npart ce - before npart cs → ∃ c k, cs ≤ c ∧ c < ce ∧
      IsParticle npart c k ∧ before npart c + k - before npart cs = i := by
    intro i hi
    obtain ⟨c, k, h1, h2, h3, h4⟩ := before_exists (npart := npart) (cs := cs) (ce := ce)
      (i := before npart cs + i) hce (by omega) (by omega)
    exact ⟨c, k, h1, h2, h3, by omega⟩
  have hord : ∀ p q : Nat × Nat, cs ≤ p.1 → cs ≤ q.1 → IsParticle npart p.1 p.2 →
      IsParticle npart q.1 q.2 → (Before p q ↔ before npart p.1 + p.2 - before npart cs <
        before npart q.1 + q.2 - before npart cs) := by
    intro p q h1 h3 hp hq
    rw [before_order hp hq]
    have := before_mono (npart := npart) h1
    have := before_mono (npart := npart) h3
    omega
  refine ⟨_, hn, ?_, ?_, ?_, ?_⟩
  · intro c k h1 h2 hp
    exact ⟨_, e c k h1 hp, hdown c k h1 h2 hp⟩
  · intro i hi
    obtain ⟨c, k, h1, h2, h3, h4⟩ := hup i hi
    exact ⟨c, k, h1, h2, h3, by rw [e c k h1 h3, h4]⟩
  · intro p q i j h1 h2 h3 h4 hp hq hi hj
    rw [e _ _ h1 hp] at hi
    rw [e _ _ h3 hq] at hj
    simp only [Option.some.injEq] at hi hj
    rw [hord p q h1 h3 hp hq]
    omega
  · rintro l ⟨hnd, hl⟩
    have := length_of_nodup_range
      (l := l.map (fun p => before npart p.1 + p.2 - before npart cs))
      (n := before npart ce - before npart cs) ?_ ?_
    · simpa using this
    · apply List.Nodup.map_on _ hnd
      intro p hp q hq heq
      obtain ⟨a1, a2, a3⟩ := (hl p.1 p.2).1 hp
      obtain ⟨b1, b2, b3⟩ := (hl q.1 q.2).1 hq
      have o1 := hord p q a1 b1 a3 b3
      have o2 := hord q p b1 a1 b3 a3
      unfold Before at o1 o2
      ext <;> omega
    · intro i
      simp only [List.mem_map]
      constructor
      · rintro ⟨p, hp, rfl⟩
        obtain ⟨a1, a2, a3⟩ := (hl p.1 p.2).1 hp
        exact hdown _ _ a1 a2 a3
      · intro hi
        obtain ⟨c, k, h1, h2, h3, h4⟩ := hup i hi
        exact ⟨(c, k), (hl c k).2 ⟨h1, h2, h3⟩, h4⟩

/-- **C09** The sub linear index numbers the particles of the loop bounds
independently of the cells the loop visits: it is the local linear index with respect
to the counts of the loop bounds. -/
theorem C09_sub_linear_index (npartLb : List Nat) :
    (∀ c k, IsParticle npartLb c k →
      ∃ i, subLinearIndex npartLb c k = some i ∧ i < npartLb.sum) ∧
    (∀ i, i < npartLb.sum → ∃ c k, IsParticle npartLb c k ∧
      subLinearIndex npartLb c k = some i) ∧
    (∀ p q i j, IsParticle npartLb p.1 p.2 → IsParticle npartLb q.1 q.2 →
      subLinearIndex npartLb p.1 p.2 = some i → subLinearIndex npartLb q.1 q.2 = some j →
      (Before p q ↔ i < j)) :=
  C09_local_linear_index npartLb

example : IsParticle [2, 0, 3] 2 1 ∧ localLinearIndex [2, 0, 3] 2 1 = some 3 ∧
    loopLinearIndex [2, 0, 3] 1 2 1 = some 1 ∧ getLoopNpart [2, 0, 3] 5 1 3 false = some 3 := by
  refine ⟨⟨3, by decide, by decide⟩, by decide, by decide, by decide⟩

/-! ## C10 -/

/-- **C10** After every accepted history of calls on a loop: each start ran the pre
loop hooks once and each wait ran the post loop hooks once; a launch directly
follows the pre loop hooks and the post loop hooks directly follow the completion of
all launched kernels; if all starts are for the whole loop the hooks alternate. -/
theorem C10_protocol {cs : List LoopCall} {s : LoopState} (h : loopRun cs .init = some s) :
    occurs LoopEvent.pre s.trace = numStarts cs ∧
    occurs LoopEvent.post s.trace = numWaits cs ∧
    (∀ a n b, s.trace = a ++ .launch n :: b → a.getLast? = some .pre) ∧
    (∀ a b, s.trace = a ++ .post :: b → a.getLast? = some .complete) ∧
    (WholeLoop cs → Alternates (hooksOf s.trace)) :=
  let i := loopInv_run h
  ⟨i.pres, i.posts, i.launch_after_pre, i.post_after_complete, fun w => (i.alternates w).1⟩

/-- **C10** After every accepted history: a wait is accepted exactly if the last hook
that ran is a pre loop hook; a start of the whole loop is accepted exactly if it is
not; a start for given cells is always accepted. -/
theorem C10_accepted_calls {cs : List LoopCall} {s : LoopState} (h : loopRun cs .init = some s) :
    ((loopCall .wait s).isSome ↔ (hooksOf s.trace).getLast? = some .pre) ∧
    (∀ k, (loopCall (.submit false k) s).isSome ↔ (hooksOf s.trace).getLast? ≠ some .pre) ∧
    (∀ k, (loopCall (.execute false k) s).isSome ↔ (hooksOf s.trace).getLast? ≠ some .pre) ∧
    (∀ k, (loopCall (.submit true k) s).isSome ∧ (loopCall (.execute true k) s).isSome) := by
  have i := (loopInv_run h).running
  refine ⟨?_, ?_, ?_, ?_⟩
  · rw [← i]; simp [loopCall, loopWait]
  · intro k; rw [ne_eq, ← i]; simp [loopCall, loopSubmit]
  · intro k; rw [ne_eq, ← i]
    cases hr : s.running <;> simp [loopCall, loopSubmit, loopWait, hr]
  · intro k; simp [loopCall, loopSubmit, loopWait]

/-- **C10** After an accepted `wait` or `execute` the loop is not running and no
launched kernel is outstanding. -/
theorem C10_idle_after_wait {cs : List LoopCall} {s s' : LoopState} {c : LoopCall}
    (h : loopRun cs .init = some s) (hc : c = .wait ∨ ∃ cw k, c = .execute cw k)
    (h' : loopCall c s = some s') : s'.running = false ∧ launchedSince s'.trace 0 = 0 := by
  have hall : loopRun (cs ++ [c]) .init = some s' := by
    unfold loopRun at *
    rw [runItems_append, h, Option.bind_some, runItems_cons, h']
    rfl
  have i := loopInv_run hall
  have hr : s'.running = false := by
    rcases hc with rfl | ⟨cw, k, rfl⟩
    · simp only [loopCall, loopWait] at h'
      split at h'
      · simp at h'
      · simp only [Option.some.injEq] at h'; subst h'; rfl
    · simp only [loopCall, Option.bind_eq_some_iff] at h'
      obtain ⟨sm, _, h5⟩ := h'
      unfold loopWait at h5
      split at h5
      · simp at h5
      · simp only [Option.some.injEq] at h5; subst h5; rfl
  exact ⟨hr, by rw [← i.pending]; exact i.idle hr⟩

example : loopRun [.execute false 3, .submit true 1, .submit true 2, .wait] .init =
    some ⟨false, 0, [.pre, .launch 3, .complete, .post, .pre, .launch 1, .pre, .launch 2,
      .complete, .post]⟩ := by decide

example : loopRun [.submit false 1, .submit false 1] .init = none := by decide

end NP
