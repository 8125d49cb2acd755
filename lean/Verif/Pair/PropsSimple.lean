import Verif.Pair.LemmasSet
import Verif.Pair.PropsLoop
import Verif.Group.Examples

/-! # Device pair lists (C58) -/

set_option autoImplicit false

namespace NP

open Spec

/-- The states of a device pair list for `cc` cells that a program can reach. -/
inductive SimpleReachable (cc : Nat) : PairSimple → Prop
  | new (e : Env) {s : PairSimple} : PairSimple.new e cc = some s → SimpleReachable cc s
  | clear {s s' : PairSimple} : SimpleReachable cc s → s.clear = some s' → SimpleReachable cc s'
  | set (e : Env) {s s' : PairSimple} {pushes : List (Int × Int × Int)} {p : PairHost} :
      SimpleReachable cc s → (PairHost.new cc).pushAll pushes = some p → s.set e p = some s' →
      SimpleReachable cc s'
  | pushBack (e : Env) {s s' : PairSimple} {c i j : List Int} : 0 < e.scanLocalSize →
      SimpleReachable cc s → s.pushBack e c i j = some s' → SimpleReachable cc s'

theorem pushAll_valid {n : Int} {pushes : List (Int × Int × Int)} {p : PairHost}
    (h : (PairHost.new n).pushAll pushes = some p) : ∀ x ∈ pushes, 0 ≤ x.1 ∧ x.1 < n := by
  suffices hs : ∀ (pushes : List (Int × Int × Int)) (q p : PairHost), q.cellCount = n →
      q.pushAll pushes = some p → ∀ x ∈ pushes, 0 ≤ x.1 ∧ x.1 < n from hs pushes _ p rfl h
  intro pushes
  induction pushes with
  | nil => intro q p _ _ x hx; simp at hx
  | cons y ys ih =>
    intro q p hq hp x hx
    unfold PairHost.pushAll at hp
    rw [runItems_cons] at hp
    cases h1 : q.pushBack y.1 y.2.1 y.2.2 with
    | none => rw [h1] at hp; simp at hp
    | some q' =>
      rw [h1, Option.bind_some] at hp
      have hy : 0 ≤ y.1 ∧ y.1 < n := by
        by_contra hc
        rw [C54_rejects q (by rw [hq]; exact hc)] at h1
        simp at h1
      have hq' : q'.cellCount = n := by
        unfold PairHost.pushBack at h1
        rw [if_pos (by rw [hq]; exact hy)] at h1
        simp only [Option.bind_eq_some_iff] at h1
        obtain ⟨wi, -, wj, -, p2, h2, h3⟩ := h1
        unfold PairHost.setNextWave at h2 h3
        simp only [Option.bind_eq_some_iff, Option.ite_none_right_eq_some] at h2 h3
        obtain ⟨-, m, -, -, h2⟩ := h2
        obtain ⟨-, m', -, -, h3⟩ := h3
        rw [Option.some.injEq] at h2 h3
        rw [← h3, ← h2]
        exact hq
      rcases List.mem_cons.1 hx with rfl | hx
      · exact hy
      · exact ih q' p hq' hp x hx

theorem pushLayers_valid {cc : Nat} : ∀ {cs : List Int} {h : List Nat} {mx : Int}
    {r : List Nat × List Nat × Int}, pushLayers cc cs h mx = some r →
    ∀ c ∈ cs, 0 ≤ c ∧ c < (cc : Int) := by
  intro cs
  induction cs with
  | nil => intro h mx r _ c hc; simp at hc
  | cons c0 cs ih =>
    intro h mx r hr c hc
    unfold pushLayers at hr
    split at hr
    · rename_i hok
      simp only [Option.bind_eq_some_iff] at hr
      obtain ⟨_, -, _, -, _, hrec, -⟩ := hr
      rcases List.mem_cons.1 hc with rfl | hc
      · exact hok
      · exact ih hrec c hc
    · simp at hr

/-- `push_back` keeps the buffers large enough. -/
theorem pushBack_wf (e : Env) (he : 0 < e.scanLocalSize) {cc : Nat} {s s' : PairSimple}
    (h : SimpleWf cc s) {c i j : List Int} (hp : s.pushBack e c i j = some s') :
    SimpleWf cc s' := by
  have hp0 := hp
  unfold PairSimple.pushBack at hp
  by_cases hmode : s.mode = 0 ∨ s.mode = 1
  swap
  · rw [if_neg hmode] at hp; simp at hp
  by_cases hlens : c.length = i.length ∧ c.length = j.length
  swap
  · rw [if_pos hmode, if_neg hlens] at hp; simp at hp
  rw [if_pos hmode, if_pos hlens] at hp
  by_cases hz : c.length = 0
  · rw [if_pos hz, Option.some.injEq] at hp
    rw [← hp]
    exact ⟨h.cells, h.hWave, h.dWave, h.offsets, h.counts, h.es, h.mem, h.sym, h.ncomp⟩
  rw [if_neg hz] at hp
  by_cases hsize : s.hPairCounts.length = s.dPairCounts.length
  swap
  · rw [if_neg hsize] at hp; simp at hp
  rw [if_pos hsize, h.cells] at hp
  obtain ⟨r, hr, -⟩ := Option.bind_eq_some_iff.1 hp
  have hcore : PushedCore cc s
      (fun c => List.replicate ((s.dPairCounts[c]?).getD 0) (0, 0)) := by
    refine ⟨h, hmode, hsize, ?_⟩
    intro c hc
    have hlt : c < s.dPairCounts.length := Nat.lt_of_lt_of_le hc h.counts
    rw [List.getElem?_eq_getElem hlt]
    simp
  obtain ⟨s1, h1, h2, -⟩ := pushBack_core e he hcore (x := (c, i, j))
    ⟨hlens.1, hlens.2, pushLayers_valid hr⟩
  rw [hp0, Option.some.injEq] at h1
  rw [h1]
  exact h2.wf

theorem reachable_wf {cc : Nat} {s : PairSimple} (h : SimpleReachable cc s) : SimpleWf cc s := by
  induction h with
  | new e h =>
    obtain ⟨s', h1, h2, -⟩ := new_spec e cc
    rw [h, Option.some.injEq] at h1
    rw [h1]; exact h2
  | clear _ h ih =>
    obtain ⟨s', h1, h2, -⟩ := clear_spec ih
    rw [h, Option.some.injEq] at h1
    rw [h1]; exact h2
  | set e _ hp h ih =>
    obtain ⟨p', w, a1, a2, a3⟩ := hostInv_all (pushAll_valid hp)
    rw [hp, Option.some.injEq] at a1
    subst a1
    obtain ⟨s', h1, h2, -⟩ := set_spec e ih a2 (hostWaves_of_inv a3)
    rw [h, Option.some.injEq] at h1
    rw [h1]; exact h2
  | pushBack e he _ h ih => exact pushBack_wf e he ih h

/-! ## `set` -/

/-- **`set`.** In every state of a device pair list, `set` with a host pair list for the same
number of cells gives a list that describes exactly the waves of the host list, reports its number
of pairs, and gives the waves of the host list back with `get_host_pair_list`. -/
theorem C58_list_set {cc : Nat} {s : PairSimple} (hs : SimpleReachable cc s) (e : Env)
    {pushes : List (Int × Int × Int)} {p : PairHost}
    (hp : (PairHost.new cc).pushAll pushes = some p) :
    ∃ s', s.set e p = some s' ∧ ViewOk s'.getPairList cc (hostWaves p) ∧
      s'.getPairList.pairCount = numPairs cc (hostWaves p) ∧
      ∀ c w : Nat, c < cc → w < p.numWaves c → s'.getHostWave c w = some (p.pairs c w) := by
  obtain ⟨p', w, a1, a2, a3⟩ := hostInv_all (pushAll_valid hp)
  rw [hp, Option.some.injEq] at a1
  subst a1
  obtain ⟨s', h1, -, h3, h4, -, h6⟩ := set_spec e (reachable_wf hs) a2 (hostWaves_of_inv a3)
  exact ⟨s', h1, h3, h4, h6⟩

/-- `set` with a host pair list for another number of cells is rejected. -/
theorem C58_list_set_rejects {cc : Nat} {s : PairSimple} (hs : SimpleReachable cc s) (e : Env)
    {p : PairHost} (hp : p.cellCount ≠ cc) : s.set e p = none := by
  unfold PairSimple.set
  rw [if_neg]
  rw [(reachable_wf hs).cells]
  exact fun hh => hp hh.symm

/-! ## `clear` -/

/-- **`clear`.** In every state of a device pair list, `clear` gives a list without pairs. -/
theorem C58_list_clear {cc : Nat} {s : PairSimple} (hs : SimpleReachable cc s) :
    ∃ s', s.clear = some s' ∧ ViewOk s'.getPairList cc (fun _ => []) := by
  obtain ⟨s', h1, h2, h3, -, -⟩ := clear_spec (reachable_wf hs)
  refine ⟨s', h1, ⟨h2.cells, h3, by simp, by simp, ⟨fun _ _ _ => 0, by simp, by simp⟩, ?_, by simp⟩⟩
  intro c hc hne
  exact absurd rfl hne

/-! ## `push_back` -/

/-- The calls of `push_back`, with the environments of the calls. -/
def PairSimple.pushSeq (s : PairSimple) (l : List (Env × List Int × List Int × List Int)) :
    Option PairSimple :=
  runItems (fun x (s : PairSimple) => s.pushBack x.1 x.2.1 x.2.2.1 x.2.2.2) l s

theorem pushSeq_spec {cc : Nat} : ∀ (l : List (Env × List Int × List Int × List Int))
    (s : PairSimple) (A : Nat → List (Int × Int)), Pushed cc s A →
    (∀ x ∈ l, 0 < x.1.scanLocalSize ∧ ValidPush cc x.2) →
    ∃ s', s.pushSeq l = some s' ∧
      Pushed cc s' (fun c => A c ++ pushedPairs (l.map Prod.snd) c) ∧
      ((∃ x ∈ l, x.2.1 ≠ []) ∨ PushedView cc s A →
        PushedView cc s' (fun c => A c ++ pushedPairs (l.map Prod.snd) c)) := by
  intro l
  induction l with
  | nil =>
    intro s A h _
    refine ⟨s, rfl, ?_, ?_⟩
    · simpa [pushedPairs] using h
    · rintro (⟨x, hx, -⟩ | hv)
      · simp at hx
      · simpa [pushedPairs] using hv
  | cons x l ih =>
    intro s A h hl
    obtain ⟨v1, v2⟩ := hl x List.mem_cons_self
    obtain ⟨s1, h1, h2, h3, h4⟩ := pushBack_spec x.1 v1 h v2
    obtain ⟨s2, k1, k2, k3⟩ := ih s1 _ h2 (fun y hy => hl y (List.mem_cons_of_mem _ hy))
    have hfun : (fun c => A c ++ newPairs x.2.1 x.2.2.1 x.2.2.2 c ++ pushedPairs (l.map Prod.snd) c) =
        (fun c => A c ++ pushedPairs ((x :: l).map Prod.snd) c) := by
      funext c
      simp [pushedPairs]
    rw [hfun] at k2 k3
    refine ⟨s2, ?_, k2, ?_⟩
    · unfold PairSimple.pushSeq at k1 ⊢
      rw [runItems_cons, h1, Option.bind_some, k1]
    · rintro (⟨y, hy, hne⟩ | hv)
      · rcases List.mem_cons.1 hy with rfl | hy
        · exact k3 (Or.inr (h3 hne))
        · exact k3 (Or.inl ⟨y, hy, hne⟩)
      · exact k3 (Or.inr (h4 hv))

theorem pushed_viewOk {cc : Nat} {s : PairSimple} {A : Nat → List (Int × Int)}
    (h : Pushed cc s A) (hv : PushedView cc s A) :
    ViewOk s.getPairList cc (fun c => [A c]) ∧
      s.getPairList.pairCount = numPairs cc (fun c => [A c]) ∧
      (∀ c, c < cc → s.getHostWave c 0 = some (A c)) := by
  have hnp : numPairs cc (fun c => [A c]) = preSum (fun c => (A c).length) cc := by
    rw [numPairs_eq]
    congr 1
    funext c
    simp
  have hL : ∀ (c w : Nat) (ps : List (Int × Int)), [A c][w]? = some ps → w = 0 ∧ ps = A c := by
    intro c w ps hw
    cases w with
    | zero => simp at hw; exact ⟨rfl, hw.symm⟩
    | succ w => simp at hw
  refine ⟨⟨h.wf.cells, ?_, ?_, ?_, ?_, ?_, ?_⟩, ?_, ?_⟩
  · intro c hc; exact hv.waves c hc
  · intro c w ps hc hw
    obtain ⟨rfl, rfl⟩ := hL c w ps hw
    rw [Nat.zero_mul, Nat.zero_add]
    exact h.counts c hc
  · intro c w ps k a b hc hw hk
    obtain ⟨rfl, rfl⟩ := hL c w ps hw
    refine ⟨0, ?_, ?_⟩
    · rw [Nat.zero_mul, Nat.zero_add]; exact h.offsets c hc
    · show s.mem ⟨s.dat.sym, _, _, _⟩ = _ ∧ s.mem ⟨s.dat.sym, _, _, _⟩ = _
      rw [h.wf.sym, Nat.zero_add]
      exact h.data c k a b hc hk
  · refine ⟨fun c _ k => preSum (fun c => (A c).length) c + k, ?_, ?_⟩
    · intro c w ps k hc hw hk
      obtain ⟨rfl, rfl⟩ := hL c w ps hw
      refine ⟨((preSum (fun c => (A c).length) c : Nat) : Int), ?_, ?_, ?_⟩
      · rw [Nat.zero_mul, Nat.zero_add]; exact hv.es c hc
      · dsimp only; omega
      · rw [hnp]
        exact preSum_lt (fun c => (A c).length) hc hk
    · intro c w ps k c' w' ps' k' hc hw hk hc' hw' hk' heq
      obtain ⟨rfl, rfl⟩ := hL c w ps hw
      obtain ⟨rfl, rfl⟩ := hL c' w' ps' hw'
      obtain ⟨rfl, h2⟩ := preSum_inj (fun c => (A c).length) hk hk' heq
      exact ⟨rfl, rfl, h2⟩
  · intro c _ _
    show (([A c].length : Nat) : Int) ≤ s.maxWaveCount
    rw [hv.maxWave]
    simp
  · intro c w ps _ _ _
    exact hv.maxPair
  · rw [hnp]; exact hv.total
  · intro c hc
    have hlt : c < s.dat.nrow.length := by rw [h.wf.mem.nrow_len]; exact hc
    have hr := List.getElem?_eq_getElem hlt
    refine getHostWave_spec (F := fun c _ => A c) h.wf.cells h.wf.sym hr ?_ ?_ ?_
    · rw [preSum_succ, preSum_zero]
      have := h.rows c _ hc hr
      omega
    · intro v hv'
      obtain rfl : v = 0 := by omega
      rw [hv.host, Nat.zero_mul, Nat.zero_add]
      exact h.counts c hc
    · intro v k a b hv' hk
      obtain rfl : v = 0 := by omega
      rw [preSum_zero, Nat.zero_add]
      exact h.data c k a b hc hk

/-- **`push_back`.** After any sequence of calls of `push_back` on a new list, at least one of them
with a pair, for every order of the work items of the kernels: the list describes one wave for each
cell that holds exactly the pushed pairs of the cell in the order of the calls, reports the number
of pairs, and gives the pairs back with `get_host_pair_list`. -/
theorem C58_list_push (cc : Nat) (e : Env) (l : List (Env × List Int × List Int × List Int))
    (hl : ∀ x ∈ l, 0 < x.1.scanLocalSize ∧ ValidPush cc x.2) (hne : ∃ x ∈ l, x.2.1 ≠ []) :
    ∃ s s', PairSimple.new e cc = some s ∧ s.pushSeq l = some s' ∧
      ViewOk s'.getPairList cc (fun c => [pushedPairs (l.map Prod.snd) c]) ∧
      s'.getPairList.pairCount = numPairs cc (fun c => [pushedPairs (l.map Prod.snd) c]) ∧
      ∀ c, c < cc → s'.getHostWave c 0 = some (pushedPairs (l.map Prod.snd) c) := by
  obtain ⟨s, h1, -, -, h2⟩ := new_spec e cc
  obtain ⟨s', k1, k2, k3⟩ := pushSeq_spec l s _ h2 hl
  simp only [List.nil_append] at k2 k3
  obtain ⟨a1, a2, a3⟩ := pushed_viewOk k2 (k3 (Or.inl hne))
  exact ⟨s, s', h1, k1, a1, a2, a3⟩

/-- The states of a device pair list that a program can reach without `set`. -/
inductive SimplePushed (cc : Nat) : PairSimple → Prop
  | new (e : Env) {s : PairSimple} : PairSimple.new e cc = some s → SimplePushed cc s
  | clear {s s' : PairSimple} : SimplePushed cc s → s.clear = some s' → SimplePushed cc s'
  | pushBack (e : Env) {s s' : PairSimple} {x : List Int × List Int × List Int} :
      0 < e.scanLocalSize → SimplePushed cc s → ValidPush cc x →
      s.pushBack e x.1 x.2.1 x.2.2 = some s' → SimplePushed cc s'

theorem simplePushed_spec {cc : Nat} {s : PairSimple} (h : SimplePushed cc s) :
    ∃ A, Pushed cc s A := by
  induction h with
  | new e h =>
    obtain ⟨s', h1, -, -, h2⟩ := new_spec e cc
    rw [h, Option.some.injEq] at h1
    exact ⟨_, by rw [h1]; exact h2⟩
  | clear _ h ih =>
    obtain ⟨A, hA⟩ := ih
    obtain ⟨s', h1, -, -, -, h2⟩ := clear_spec hA.wf
    rw [h, Option.some.injEq] at h1
    exact ⟨_, by rw [h1]; exact h2 hA.hlen⟩
  | pushBack e he _ hx h ih =>
    obtain ⟨A, hA⟩ := ih
    obtain ⟨s', h1, h2, -⟩ := pushBack_spec e he hA hx
    rw [h, Option.some.injEq] at h1
    exact ⟨_, by rw [h1]; exact h2⟩

/-- **`push_back` after `clear`**, if the list was never the target of `set`: only the pairs
pushed since `clear` are in the list. After `set`, `clear` is not enough to use `push_back` again,
see `C58_push_after_set_aborts`; this is what is missing. -/
theorem C58_list_clear_push_partial {cc : Nat} {s : PairSimple} (hs : SimplePushed cc s)
    (l : List (Env × List Int × List Int × List Int))
    (hl : ∀ x ∈ l, 0 < x.1.scanLocalSize ∧ ValidPush cc x.2) (hne : ∃ x ∈ l, x.2.1 ≠ []) :
    ∃ s₁ s', s.clear = some s₁ ∧ s₁.pushSeq l = some s' ∧
      ViewOk s'.getPairList cc (fun c => [pushedPairs (l.map Prod.snd) c]) ∧
      s'.getPairList.pairCount = numPairs cc (fun c => [pushedPairs (l.map Prod.snd) c]) ∧
      ∀ c, c < cc → s'.getHostWave c 0 = some (pushedPairs (l.map Prod.snd) c) := by
  obtain ⟨A, hA⟩ := simplePushed_spec hs
  obtain ⟨s₁, h1, -, -, -, h2⟩ := clear_spec hA.wf
  obtain ⟨s', k1, k2, k3⟩ := pushSeq_spec l s₁ _ (h2 hA.hlen) hl
  simp only [List.nil_append] at k2 k3
  obtain ⟨a1, a2, a3⟩ := pushed_viewOk k2 (k3 (Or.inl hne))
  exact ⟨s₁, s', h1, k1, a1, a2, a3⟩

/-- `push_back` with a cell that does not exist is rejected. -/
theorem C58_list_push_rejects {cc : Nat} {s : PairSimple} (hs : SimpleReachable cc s) (e : Env)
    {c i j : List Int} (hc : ∃ x ∈ c, ¬ (0 ≤ x ∧ x < (cc : Int))) : s.pushBack e c i j = none := by
  obtain ⟨x, hx, hbad⟩ := hc
  have hn : ¬ c.length = 0 := by
    intro hh
    rw [List.length_eq_zero_iff.1 hh] at hx
    simp at hx
  unfold PairSimple.pushBack
  by_cases hmode : s.mode = 0 ∨ s.mode = 1
  swap
  · rw [if_neg hmode]
  by_cases hlens : c.length = i.length ∧ c.length = j.length
  swap
  · rw [if_pos hmode, if_neg hlens]
  by_cases hsize : s.hPairCounts.length = s.dPairCounts.length
  swap
  · rw [if_pos hmode, if_pos hlens, if_neg hn, if_neg hsize]
  rw [if_pos hmode, if_pos hlens, if_neg hn, if_pos hsize, (reachable_wf hs).cells]
  cases hl : pushLayers cc c s.dPairCounts (-1) with
  | none => rfl
  | some r => exact absurd (pushLayers_valid hl x hx) hbad

/-! ## A loop over a list made from a host list -/

theorem share_comm {p q : Int × Int} (h : Share p q) : Share q p := by
  unfold Share at h ⊢
  omega

theorem loopPairs_hostWaves {n : Int} {pushes : List (Int × Int × Int)} {p : PairHost}
    (hp : (PairHost.new n).pushAll pushes = some p) (start stop : Nat) :
    ((loopPairs [hostWaves p] start stop).map fun x => (x.1.2.1, x.2)).Perm
      ((List.range' start (stop - start)).flatMap fun c : Nat =>
        (pushedFor pushes c).map fun q => (c, q)) := by
  unfold loopPairs
  rw [List.map_flatMap]
  apply List.Perm.flatMap_left
  intro c _
  have h1 : ((([hostWaves p] : List WaveList).zipIdx.flatMap fun L =>
      ((L.1 c).zipIdx).flatMap fun ps => ps.1.zipIdx.map fun p : (Int × Int) × Nat =>
        (((L.2, c, 0, ps.2, p.2), p.1) : (Nat × Nat × Nat × Nat × Nat) × Int × Int)).map
        fun x => (x.1.2.1, x.2)) =
      ((hostWaves p c).flatten).map fun q => (c, q) := by
    rw [show ([hostWaves p] : List WaveList).zipIdx = [(hostWaves p, 0)] from rfl,
      List.flatMap_singleton, List.map_flatMap, List.map_flatten, List.flatMap_def]
    congr 1
    have hz := congrArg (List.map (List.map fun q : Int × Int => (c, q)))
      (List.zipIdx_map_fst 0 (hostWaves p c))
    rw [List.map_map] at hz
    rw [← hz]
    apply List.map_congr_left
    intro ps _
    rw [List.map_map]
    have hz2 := congrArg (List.map fun q : Int × Int => (c, q)) (List.zipIdx_map_fst 0 ps.1)
    rw [List.map_map] at hz2
    exact hz2
  rw [h1]
  apply List.Perm.map
  have := C54_each_once (pushAll_valid hp) hp (c : Int)
  rw [List.flatMap_def] at this
  exact this

/-- **From the pushed pairs to the kernel calls.** Pairs are pushed to a host pair list, the list
is passed to `set` of a device pair list in any state, and a pair loop runs over it, for every
cell range, local size, kind of device and order of execution. The kernel is called exactly once
for every pushed pair of these cells. Of two calls for the same cell that share a particle, the
earlier one belongs to an earlier wave: they are separated by a barrier or by the end of a
launch. -/
theorem C58_host_loop {cc : Nat} {s s' : PairSimple} (hs : SimpleReachable cc s) (e : Env)
    {pushes : List (Int × Int × Int)} {p : PairHost}
    (hp : (PairHost.new cc).pushAll pushes = some p) (hset : s.set e p = some s')
    {ls : Nat} (hls : 0 < ls) (cpu : Bool)
    (sched : Nat → Nat → Nat → Sched) (cellStart cellEnd : Option Int)
    {start stop : Nat} (hr : pairLoopRange cc cellStart cellEnd = ((start : Int), (stop : Int)))
    (hstop : stop ≤ cc) :
    ∃ gs, pairLoopSubmit [s'.getPairList] cc ls cpu sched cellStart cellEnd = some gs ∧
      ∀ t, Interleave gs t →
        (t.map fun x => (x.cell, x.a, x.b)).Perm
          ((List.range' start (stop - start)).flatMap fun c : Nat =>
            (pushedFor pushes c).map fun q => (c, q)) ∧
        t.Pairwise fun x y => x.cell = y.cell → Share (x.a, x.b) (y.a, y.b) →
          x.wave < y.wave := by
  obtain ⟨s1, h1, hv, -⟩ := C58_list_set hs e hp
  rw [hset, Option.some.injEq] at h1
  subst h1
  have hok : ListsOk [s'.getPairList] cc [hostWaves p] := by
    refine ⟨rfl, ?_⟩
    intro i v L hv' hL
    cases i with
    | zero =>
      simp only [List.getElem?_cons_zero, Option.some.injEq] at hv' hL
      rw [← hv', ← hL]
      exact hv
    | succ i => simp at hv'
  obtain ⟨gs, g1, g2⟩ := C58_calls hok hls cpu sched cellStart cellEnd hr hstop
  refine ⟨gs, g1, fun t ht => ?_⟩
  obtain ⟨t1, t2⟩ := g2 t ht
  obtain ⟨gs', g1', g2'⟩ := pairLoop_groups hok hls cpu sched cellStart cellEnd hr hstop
  rw [g1, Option.some.injEq] at g1'
  subst g1'
  obtain ⟨u1, -⟩ := g2' t ht
  constructor
  · have := (t1.map fun x => (x.1.2.1, x.2)).trans (loopPairs_hostWaves hp start stop)
    rw [List.map_map] at this
    exact this
  · have hnd : t.Pairwise (· ≠ ·) := u1.nodup_iff.2 (nodup_groupCalls hok start stop)
    have key : ∀ x ∈ t, ∃ v o, x = callOf v (hostWaves p) 0 o x.cell x.wave x.pos ∧
        v = s'.getPairList ∧
        (listOffsets 0 ([s'.getPairList].map (·.pairCount)))[0]? = some o ∧
        (p.pairs x.cell x.wave)[x.pos]? = some (x.a, x.b) ∧ x.list = 0 ∧ x.block = 0 := by
      intro x hx
      rw [u1.mem_iff, List.mem_flatMap] at hx
      obtain ⟨g, hg, hx⟩ := hx
      obtain ⟨a1, a2, a3⟩ := mem_pairGroups.1 hg
      obtain ⟨v, L, o, b1, b2, b3, b4, b5⟩ := listsOk_at hok a3
      have hg0 : g.2 = 0 := by simp at a3; omega
      have hb5 := b5 g.1
      rw [show ((g.1, g.2) : Nat × Nat) = g from rfl] at hb5
      rw [hb5, List.mem_flatMap] at hx
      obtain ⟨w, hw, hx⟩ := hx
      rw [hg0] at b1 b2 b4 hx
      simp only [List.getElem?_cons_zero, Option.some.injEq] at b1 b2
      subst b1 b2
      rw [List.mem_range] at hw
      obtain ⟨c1, c2, c3, c4, c5, c6⟩ := mem_waveCalls hx
      have hw' : w < p.numWaves (g.1 : Int) := by simpa [hostWaves] using hw
      have hps : (hostWaves p g.1)[w]? = some (p.pairs g.1 w) := by
        unfold hostWaves
        rw [List.getElem?_map, List.getElem?_range hw']
        rfl
      rw [hps, Option.getD_some] at c5
      refine ⟨_, o, by rw [c2, c4]; exact c6, rfl, b4, ?_, c1, c3⟩
      have e1 : x.a = ((p.pairs g.1 w)[x.pos]).1 := by
        refine (congrArg PairCall.a c6).trans ?_
        unfold callOf; dsimp only
        rw [hps, Option.getD_some, List.getElem?_eq_getElem c5]
        rfl
      have e2 : x.b = ((p.pairs g.1 w)[x.pos]).2 := by
        refine (congrArg PairCall.b c6).trans ?_
        unfold callOf; dsimp only
        rw [hps, Option.getD_some, List.getElem?_eq_getElem c5]
        rfl
      rw [c2, c4, List.getElem?_eq_getElem c5, e1, e2]
    unfold InWaveOrder at t2
    refine (hnd.and t2).imp_of_mem ?_
    rintro x y hx hy ⟨hne, hord⟩ hcell hshare
    obtain ⟨v, o, k1, k2, k3, k4, k5, k6⟩ := key x hx
    obtain ⟨v', o', l1, l2, l3, l4, l5, l6⟩ := key y hy
    have hle : x.wave ≤ y.wave := by
      rcases hord (k5.trans l5.symm) hcell with h | ⟨-, h⟩
      · omega
      · exact h
    rcases Nat.lt_or_eq_of_le hle with hlt | heq
    · exact hlt
    · exfalso
      rw [k3, Option.some.injEq] at l3
      subst k2 l2 l3
      have hpos : x.pos ≠ y.pos := by
        intro hpos
        apply hne
        rw [k1, l1, hcell, heq, hpos]
      have hcf := List.pairwise_iff_getElem.1 (C54_conflict_free (pushAll_valid hp) hp x.cell x.wave)
      rw [← hcell, ← heq] at l4
      obtain ⟨m1, m2⟩ := List.getElem?_eq_some_iff.1 k4
      obtain ⟨m3, m4⟩ := List.getElem?_eq_some_iff.1 l4
      rcases Nat.lt_or_gt_of_ne hpos with hlt | hlt
      · have := hcf x.pos y.pos m1 m3 hlt
        rw [m2, m4] at this
        exact this hshare
      · have := hcf y.pos x.pos m3 m1 hlt
        rw [m2, m4] at this
        exact this (share_comm hshare)

/-! ## Examples and defects -/

namespace Ex

/-- Two cells, two calls. -/
def simplePushes : List (Env × List Int × List Int × List Int) :=
  [(env, [0, 1, 0], [1, 4, 3], [2, 5, 2]), (env, [], [], []), (env, [1], [0], [7])]

example : ∀ x ∈ simplePushes, 0 < x.1.scanLocalSize ∧ ValidPush 2 x.2 := by
  intro x hx
  simp only [simplePushes, List.mem_cons, List.not_mem_nil, or_false] at hx
  rcases hx with rfl | rfl | rfl <;> exact ⟨by decide, by unfold ValidPush; decide⟩

example : ∃ x ∈ simplePushes, x.2.1 ≠ [] := ⟨_, List.mem_cons_self, by decide⟩

example : pushedPairs (simplePushes.map Prod.snd) 0 = [(1, 2), (3, 2)] := by decide

example : pushedPairs (simplePushes.map Prod.snd) 1 = [(4, 5), (0, 7)] := by decide

example : ((PairSimple.new env 2).bind fun s => (s.pushSeq simplePushes).bind fun s =>
    (s.getHostWave 1 0).map fun h => (h, s.pairCount)) = some ([(4, 5), (0, 7)], 4) := by
  decide +kernel

/-- The pairs of `pushes`, in a device list. -/
def setState : Option PairSimple :=
  (PairSimple.new env 2).bind fun s => ((PairHost.new 2).pushAll pushes).bind fun p => s.set env p

example : (setState.bind fun s => (s.getHostWave 0 0).bind fun a => (s.getHostWave 0 1).bind fun b =>
    (s.getHostWave 1 0).map fun c => (a, b, c)) =
    some ([(1, 2), (3, 4)], [(2, 3), (1, 5)], [(1, 2)]) := by
  decide +kernel

/-- The calls of a loop over this list in one launch for each wave: cell, wave, particles and pair
index. -/
example : (setState.bind fun s => (pairLoopSubmit [s.getPairList] 2 2 true (fun _ _ _ => Sched.reversed)
    none none).map fun gs => gs.flatten.map fun x => ((x.cell, x.wave), (x.a, x.b), x.index)) =
    some [((1, 0), (1, 2), 4), ((0, 0), (3, 4), 1), ((0, 0), (1, 2), 0), ((0, 1), (1, 5), 3),
      ((0, 1), (2, 3), 2)] := by
  decide +kernel

/-- The same in one launch for all waves, only for cell 0, as the groups of calls. -/
example : (setState.bind fun s => (pairLoopSubmit [s.getPairList] 2 2 false (fun _ _ _ => Sched.inOrder)
    (some 0) (some 1)).map fun gs => gs.map fun g => g.map fun x => (x.wave, (x.a, x.b), x.index)) =
    some [[(0, (1, 2), 0), (0, (3, 4), 1), (1, (2, 3), 2), (1, (1, 5), 3)]] := by
  decide +kernel

example : pairLoopRange 2 (some 0) (some 1) = (((0 : Nat) : Int), ((1 : Nat) : Int)) := rfl

end Ex

/-- **Defect.** A pair list without pairs reports `-1` pairs, so that the pair indices of the next
list are shifted: the first call of this loop over two lists, the first of which is empty, has the
pair index `-1`. -/
theorem C58_empty_list_shifts :
    ((PairSimple.new Ex.env 2).bind fun s₁ => Ex.setState.bind fun s₂ =>
      (pairLoopSubmit [s₁.getPairList, s₂.getPairList] 2 2 true (fun _ _ _ => Sched.inOrder)
        none none).map fun gs => gs.flatten.map fun x => (x.list, x.index)) =
      some [(1, -1), (1, 0), (1, 3), (1, 1), (1, 2)] := by
  decide +kernel

/-- **Defect.** After `set`, the host copy of the pair counts and the device buffer can have
different sizes, and `push_back` asserts although the list was cleared. Here `set` was called with
a host pair list without pairs. -/
theorem C58_push_after_set_aborts :
    ∃ s s₁, SimpleReachable 1 s ∧ s.clear = some s₁ ∧ ValidPush 1 ([0], [0], [1]) ∧
      s₁.pushBack Ex.env [0] [0] [1] = none := by
  obtain ⟨s0, h0⟩ : ∃ s0, PairSimple.new Ex.env 1 = some s0 := ⟨_, rfl⟩
  obtain ⟨s, h1⟩ : ∃ s, s0.set Ex.env (PairHost.new 1) = some s := by
    obtain ⟨s', h, -⟩ := C58_list_set (.new Ex.env h0) Ex.env (p := PairHost.new 1) (pushes := []) rfl
    exact ⟨s', h⟩
  have hr : SimpleReachable 1 s := .set Ex.env (.new Ex.env h0) (pushes := []) rfl h1
  obtain ⟨s₁, h2, -⟩ := C58_list_clear hr
  refine ⟨s, s₁, hr, h2, by unfold ValidPush; decide, ?_⟩
  have key : ((PairSimple.new Ex.env 1).bind fun s => (s.set Ex.env (PairHost.new 1)).bind fun s =>
      s.clear.bind fun s => (s.pushBack Ex.env [0] [0] [1]).map fun s => s.pairCount) = none := by
    decide +kernel
  rw [h0, Option.bind_some, h1, Option.bind_some, h2, Option.bind_some, Option.map_eq_none_iff] at key
  exact key

/-- **Defect.** `push_back` after `set` without `clear` is accepted and loses the waves after the
first one: the list holds five pairs before the call, and a loop over it makes four calls after
another pair was pushed. -/
theorem C58_push_after_set_loses :
    (Ex.setState.bind fun s => (s.pushBack Ex.env [1] [8] [9]).bind fun s =>
      (pairLoopSubmit [s.getPairList] 2 2 true (fun _ _ _ => Sched.inOrder) none none).map
        fun gs => gs.flatten.map fun x => (x.cell, x.a, x.b)) =
      some [(0, 1, 2), (0, 3, 4), (1, 1, 2), (1, 8, 9)] := by
  decide +kernel

end NP
