import Verif.Loop.LemmasIndex
import Verif.Loop.SpecLaunch

/-! Helper lemmas: blocks of a launch, and the invariant of the submit/wait protocol. -/

set_option autoImplicit false

namespace NP

open Spec

/-- The blocks of a launch cover the requested particles. -/
theorem submitBlocks_covers {P : LoopParams} {npartLb : List Nat} {hasGroup : Bool}
    {npartLocal : Nat} (h : LaunchOk P npartLb hasGroup npartLocal) {S : Nat} (hS : 0 < S)
    {cs ce : Option Int} (hc : CellArgsOk npartLb.length cs ce) :
    ∃ bs a b, submitBlocks P npartLb hasGroup npartLocal S cs ce = some bs ∧
      BlocksCover npartLb a b S bs ∧
      ∀ c k, (a ≤ c ∧ c < b ∧ IsParticle npartLb c k) ↔
        (CellRequested cs ce c ∧ IsParticle npartLb c k) := by
  have hall : (hasGroup = true ∧ npartLocal = 0) ∨
      ¬ (hasGroup = true ∧ npartLocal = 0) := Classical.em _
  obtain ⟨ls', hls, hls1, _⟩ := loopLocalSize_zero (lmem := P.localMemSize) (S := S)
    h.localSize_pos h.localSize_int
  -- the launch over all cells
  have allCase : ∃ bs, (iterationSetIsEmpty npartLb hasGroup npartLocal none none).bind
      (fun empty => if empty then some [] else
        getAllCells P.localMemSize npartLb P.nbin P.localSize 0 S) = some bs ∧
      BlocksCover npartLb 0 npartLb.length S bs := by
    simp only [iterationSetIsEmpty, determineIterationSet, Option.bind_some, not_true_eq_false,
      if_false]
    obtain ⟨bs, hbs1, hbs2, _⟩ := getGeneric_covers (cs := 0) (ce := npartLb.length) hls hls1 hS
      h.nbin_pos (Nat.le_refl _) h.counts_int
    by_cases hg : hasGroup = true
    · by_cases hn : npartLocal = 0
      · refine ⟨[], by simp [hg, hn], ⟨by simp, by simp, by simp, by simp, ?_⟩⟩
        rintro c k - - ⟨n, hn', hk⟩
        have := h.local_count hg hn n (List.mem_of_getElem? hn')
        omega
      · exact ⟨bs, by simpa [hg, hn, getAllCells] using hbs1, hbs2⟩
    · exact ⟨bs, by simpa [hg, getAllCells] using hbs1, hbs2⟩
  -- the launch over a range of cells
  have rangeCase : ∀ s e : Int, 0 ≤ s → s ≤ npartLb.length → 0 ≤ e → e ≤ npartLb.length →
      ∃ bs, ((if -1 < s ∧ s ≤ npartLb.length ∧ -1 < e ∧ e ≤ npartLb.length then
          (forLoop s.toNat e.toNat (fun c s =>
            (rd npartLb c).bind fun n => some (max s n)) 0).bind fun m => some (m == 0)
        else none).bind fun empty => if empty then some [] else
          getRangeCell P.localMemSize P.nbin npartLb s.toNat e.toNat P.localSize 0 S) = some bs ∧
      BlocksCover npartLb s.toNat e.toNat S bs := by
    intro s e h1 h2 h3 h4
    rw [if_pos (by omega)]
    obtain ⟨m, hm1, hm2, _⟩ := maxOcc_spec (npart := npartLb) (s := s.toNat) (e := e.toNat)
      (by omega)
    rw [hm1]
    simp only [Option.bind_some]
    by_cases h0 : m = 0
    · subst h0
      refine ⟨[], by simp, ⟨by simp, by simp, by simp, by simp, ?_⟩⟩
      rintro c k a b ⟨n, hn', hk⟩
      have := hm2 c n a b hn'
      omega
    · obtain ⟨bs, hbs1, hbs2, _⟩ := getGeneric_covers (cs := s.toNat) (ce := e.toNat) hls hls1 hS
        h.nbin_pos (show e.toNat ≤ npartLb.length by omega) h.counts_int
      exact ⟨bs, by simpa [h0, getRangeCell] using hbs1, hbs2⟩
  cases cs with
  | none =>
    cases ce with
    | none =>
      obtain ⟨bs, h1, h2⟩ := allCase
      refine ⟨bs, 0, npartLb.length, ?_, h2, ?_⟩
      · simpa [submitBlocks, determineIterationSet] using h1
      · intro c k
        constructor
        · rintro ⟨_, _, hp⟩; exact ⟨trivial, hp⟩
        · rintro ⟨_, hp⟩; exact ⟨Nat.zero_le _, lt_length_of_isParticle hp, hp⟩
    | some e => exact absurd hc (by simp [CellArgsOk])
  | some s =>
    cases ce with
    | none =>
      obtain ⟨hs1, hs2⟩ := hc
      obtain ⟨bs, h1, h2⟩ := rangeCase s (s + 1) (by omega) (by omega) (by omega) (by omega)
      refine ⟨bs, s.toNat, (s + 1).toNat, ?_, h2, ?_⟩
      · simpa [submitBlocks, determineIterationSet, iterationSetIsEmpty] using h1
      · intro c k
        simp only [CellRequested]
        constructor
        · rintro ⟨_, _, hp⟩; exact ⟨by omega, hp⟩
        · rintro ⟨_, hp⟩; exact ⟨by omega, by omega, hp⟩
    | some e =>
      obtain ⟨hs1, hs2, he1, he2⟩ := hc
      by_cases hwhole : s = 0 ∧ e = npartLb.length
      · obtain ⟨rfl, rfl⟩ := hwhole
        obtain ⟨bs, h1, h2⟩ := allCase
        refine ⟨bs, 0, npartLb.length, ?_, h2, ?_⟩
        · simpa [submitBlocks, determineIterationSet, iterationSetIsEmpty] using h1
        · intro c k
          simp only [CellRequested]
          constructor
          · rintro ⟨_, _, hp⟩; exact ⟨by omega, hp⟩
          · rintro ⟨_, hp⟩; exact ⟨by omega, by omega, hp⟩
      · obtain ⟨bs, h1, h2⟩ := rangeCase s e hs1 hs2 he1 he2
        refine ⟨bs, s.toNat, e.toNat, ?_, h2, ?_⟩
        · have hf : (s == 0 && e == (npartLb.length : Int)) = false := by
            by_contra hh
            simp at hh
            exact hwhole hh
          simpa [submitBlocks, determineIterationSet, iterationSetIsEmpty, hf] using h1
        · intro c k
          simp only [CellRequested]
          constructor
          · rintro ⟨_, _, hp⟩; exact ⟨by omega, hp⟩
          · rintro ⟨_, hp⟩; exact ⟨by omega, by omega, hp⟩

theorem launchedSince_append (a b : List LoopEvent) (n : Nat) :
    launchedSince (a ++ b) n = launchedSince b (launchedSince a n) := by
  induction a generalizing n with
  | nil => rfl
  | cons e a ih => cases e <;> simp [launchedSince, ih]

/-- Everything that is true of a loop after a history. -/
structure LoopInv (cs : List LoopCall) (s : LoopState) : Prop where
  pres : occurs LoopEvent.pre s.trace = numStarts cs
  posts : occurs LoopEvent.post s.trace = numWaits cs
  running : s.running = true ↔ (hooksOf s.trace).getLast? = some .pre
  pending : s.pending = launchedSince s.trace 0
  idle : s.running = false → s.pending = 0
  launch_after_pre : ∀ a n b, s.trace = a ++ .launch n :: b → a.getLast? = some .pre
  post_after_complete : ∀ a b, s.trace = a ++ .post :: b → a.getLast? = some .complete
  alternates : WholeLoop cs → Alternates (hooksOf s.trace) ∧
    ((hooksOf s.trace).length % 2 = 1 ↔ s.running = true)

theorem split_append_cons {α : Type} {a b t u : List α} {e : α} (h : t ++ u = a ++ e :: b) :
    (∃ b', t = a ++ e :: b') ∨ (∃ a', a = t ++ a' ∧ u = a' ++ e :: b) := by
  rw [List.append_eq_append_iff] at h
  rcases h with ⟨a', h1, h2⟩ | ⟨c', h1, h2⟩
  · exact Or.inr ⟨a', h1, h2⟩
  · cases c' with
    | nil =>
      right
      exact ⟨[], by simp at h1; simp [h1], by simpa using h2.symm⟩
    | cons x xs =>
      left
      simp only [List.cons_append, List.cons.injEq] at h2
      exact ⟨xs, by rw [h1, h2.1]⟩

theorem alternates_append_pre {l : List LoopEvent} (h : Alternates l) (hl : l.length % 2 = 0) :
    Alternates (l ++ [.pre]) := by
  intro i e he
  by_cases hi : i < l.length
  · rw [List.getElem?_append_left hi] at he; exact h i e he
  · rw [List.getElem?_append_right (by omega)] at he
    have hi2 : i - l.length = 0 := by
      have := (List.getElem?_eq_some_iff.1 he).1
      simpa using this
    rw [hi2] at he
    simp at he
    subst he
    simp; omega

theorem alternates_append_post {l : List LoopEvent} (h : Alternates l) (hl : l.length % 2 = 1) :
    Alternates (l ++ [.post]) := by
  intro i e he
  by_cases hi : i < l.length
  · rw [List.getElem?_append_left hi] at he; exact h i e he
  · rw [List.getElem?_append_right (by omega)] at he
    have hi2 : i - l.length = 0 := by
      have := (List.getElem?_eq_some_iff.1 he).1
      simpa using this
    rw [hi2] at he
    simp at he
    subst he
    simp; omega

theorem loopInv_submit {cs : List LoopCall} {s s' : LoopState} {cw : Bool} {k : Nat}
    (h : LoopInv cs s) (hs : loopSubmit cw k s = some s') :
    LoopInv (cs ++ [.submit cw k]) s' := by
  unfold loopSubmit at hs
  split at hs
  · simp at hs
  rename_i hok
  simp only [Option.some.injEq] at hs
  subst hs
  have hhook : hooksOf (s.trace ++ [LoopEvent.pre] ++
      if k = 0 then [] else [.launch k]) = hooksOf s.trace ++ [.pre] := by
    unfold hooksOf
    split <;> simp
  refine ⟨?_, ?_, ?_, ?_, by simp, ?_, ?_, ?_⟩
  · have := h.pres
    unfold occurs numStarts at *
    split <;> simp [List.filter_append, this]
  · have := h.posts
    unfold occurs numWaits at *
    split <;> simp [List.filter_append, this]
  · rw [hhook]; simp
  · simp only [launchedSince_append, h.pending]
    split
    · rename_i h0; simp [launchedSince, h0]
    · simp [launchedSince]
  · intro a n b he
    rw [List.append_assoc] at he
    rcases split_append_cons he with ⟨b', h1⟩ | ⟨a', h1, h2⟩
    · exact h.launch_after_pre a n b' h1
    · cases a' with
      | nil => simp at h2
      | cons x xs =>
        simp only [List.cons_append, List.nil_append, List.cons.injEq] at h2
        obtain ⟨rfl, h2⟩ := h2
        cases xs with
        | nil => rw [h1]; simp
        | cons y ys =>
          split at h2
          · simp at h2
          · simp at h2
  · intro a b he
    rw [List.append_assoc] at he
    rcases split_append_cons he with ⟨b', h1⟩ | ⟨a', h1, h2⟩
    · exact h.post_after_complete a b' h1
    · exfalso
      have : LoopEvent.post ∈ [LoopEvent.pre] ++ if k = 0 then [] else [.launch k] := by
        rw [h2]; simp
      split at this <;> simp at this
  · intro hw
    have hw1 : WholeLoop cs := fun c hc => hw c (by simp [hc])
    have hcw : cw = false := hw (.submit cw k) (by simp)
    obtain ⟨h1, h2⟩ := h.alternates hw1
    have hnr : s.running = false := by
      cases hr : s.running with
      | false => rfl
      | true => exact absurd ⟨hr, by simp [hcw]⟩ hok
    have hlen : (hooksOf s.trace).length % 2 = 0 := by
      by_contra hc
      have : s.running = true := h2.1 (by omega)
      rw [hnr] at this; exact absurd this (by simp)
    rw [hhook]
    refine ⟨alternates_append_pre h1 hlen, ?_⟩
    simp; omega

theorem loopInv_wait {cs : List LoopCall} {s s' : LoopState}
    (h : LoopInv cs s) (hs : loopWait s = some s') :
    LoopInv (cs ++ [.wait]) s' := by
  unfold loopWait at hs
  split at hs
  · simp at hs
  rename_i hok
  simp only [Option.some.injEq] at hs
  subst hs
  have hhook : hooksOf (s.trace ++ [LoopEvent.complete, .post]) = hooksOf s.trace ++ [.post] := by
    unfold hooksOf
    simp
  refine ⟨?_, ?_, ?_, ?_, by simp, ?_, ?_, ?_⟩
  · have := h.pres
    unfold occurs numStarts at *
    simp [List.filter_append, this]
  · have := h.posts
    unfold occurs numWaits at *
    simp [List.filter_append, this]
  · rw [hhook]; simp
  · simp only [launchedSince_append]
    simp [launchedSince]
  · intro a n b he
    rcases split_append_cons he with ⟨b', h1⟩ | ⟨a', h1, h2⟩
    · exact h.launch_after_pre a n b' h1
    · exfalso
      have : LoopEvent.launch n ∈ [LoopEvent.complete, .post] := by rw [h2]; simp
      simp at this
  · intro a b he
    rcases split_append_cons he with ⟨b', h1⟩ | ⟨a', h1, h2⟩
    · exact h.post_after_complete a b' h1
    · cases a' with
      | nil => simp at h2
      | cons x xs =>
        simp only [List.cons_append, List.cons.injEq] at h2
        obtain ⟨rfl, h2⟩ := h2
        cases xs with
        | nil => rw [h1]; simp
        | cons y ys => simp at h2
  · intro hw
    have hw1 : WholeLoop cs := fun c hc => hw c (by simp [hc])
    obtain ⟨h1, h2⟩ := h.alternates hw1
    have hr : s.running = true := by simpa using hok
    have hlen := h2.2 hr
    rw [hhook]
    refine ⟨alternates_append_post h1 hlen, ?_⟩
    simp; omega

theorem numStarts_execute (cs : List LoopCall) (cw : Bool) (k : Nat) :
    numStarts (cs ++ [.submit cw k] ++ [.wait]) = numStarts (cs ++ [.execute cw k]) := by
  simp [numStarts, List.filter_append]

theorem numWaits_execute (cs : List LoopCall) (cw : Bool) (k : Nat) :
    numWaits (cs ++ [.submit cw k] ++ [.wait]) = numWaits (cs ++ [.execute cw k]) := by
  simp [numWaits, List.filter_append]

theorem loopInv_run {cs : List LoopCall} {s : LoopState}
    (h : loopRun cs .init = some s) : LoopInv cs s := by
  have gen : ∀ (post pre : List LoopCall) s0, LoopInv pre s0 → loopRun post s0 = some s →
      LoopInv (pre ++ post) s := by
    intro post
    induction post with
    | nil =>
      intro pre s0 h0 h1
      simp [loopRun] at h1
      subst h1; simpa using h0
    | cons c post ih =>
      intro pre s0 h0 h1
      unfold loopRun at h1
      rw [runItems_cons, Option.bind_eq_some_iff] at h1
      obtain ⟨s1, h2, h3⟩ := h1
      rw [show pre ++ c :: post = (pre ++ [c]) ++ post by simp]
      refine ih (pre ++ [c]) s1 ?_ h3
      cases c with
      | submit cw k => exact loopInv_submit h0 h2
      | wait => exact loopInv_wait h0 h2
      | execute cw k =>
        simp only [loopCall, Option.bind_eq_some_iff] at h2
        obtain ⟨sm, h4, h5⟩ := h2
        have hi := loopInv_wait (loopInv_submit h0 h4) h5
        refine ⟨?_, ?_, hi.running, hi.pending, hi.idle, hi.launch_after_pre,
          hi.post_after_complete, ?_⟩
        · rw [hi.pres, numStarts_execute]
        · rw [hi.posts, numWaits_execute]
        · intro hw
          apply hi.alternates
          intro c hc
          simp only [List.mem_append, List.mem_singleton] at hc
          rcases hc with (hc | rfl) | rfl
          · exact hw c (by simp [hc])
          · exact hw (.execute cw k) (by simp)
          · trivial
  have := gen cs [] .init ?_ h
  · simpa using this
  · refine ⟨by simp [occurs, LoopState.init, numStarts], by simp [occurs, LoopState.init, numWaits],
      by simp [LoopState.init, hooksOf], by simp [LoopState.init, launchedSince],
      by simp [LoopState.init], by simp [LoopState.init], by simp [LoopState.init], ?_⟩
    intro _
    exact ⟨by intro i e he; simp [LoopState.init, hooksOf] at he,
      by simp [LoopState.init, hooksOf]⟩

end NP
