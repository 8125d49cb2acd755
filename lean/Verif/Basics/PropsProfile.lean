import Verif.Basics.LemmasProfile

/-!
# C109: profiling reports what happened while it was enabled
-/

set_option autoImplicit false

namespace NP
open NP.Spec

/-- **C109** Entries. From any state, if no call sets the entry of a key or resets the profile, its values grow by the sums of the
increments made to this key while profiling was enabled. A set while profiling is enabled gives the value, one while it is
disabled does nothing, and a reset gives zero. -/
theorem C109_entries {s s' : ProfUse} (k1 k2 : Nat) :
    (∀ ops, s.run ops = some s' → (∀ x ∈ ops, ¬ overwrites k1 k2 x.2) →
      s'.prof.ints k1 k2 =
        s.prof.ints k1 k2 + ((whileEnabled s.prof.enabled ops).map fun o => (incOf k1 k2 o).1).sum ∧
      s'.prof.reals k1 k2 =
        s.prof.reals k1 k2 + ((whileEnabled s.prof.enabled ops).map fun o => (incOf k1 k2 o).2).sum) ∧
    (∀ t v r, s.step t (.set k1 k2 v r) = some s' → (s'.prof.ints k1 k2, s'.prof.reals k1 k2) =
      if s.prof.enabled then (v, r) else (s.prof.ints k1 k2, s.prof.reals k1 k2)) ∧
    (∀ t, s.step t .reset = some s' → (s'.prof.ints k1 k2, s'.prof.reals k1 k2) = (0, 0)) := by
  refine ⟨fun ops h hr => (profRun_all ops h).2.2 k1 k2 hr, fun t v r h => ?_, fun t h => ?_⟩
  · simp only [ProfUse.step, Option.some.injEq] at h
    subst h
    cases he : s.prof.enabled <;> simp [Prof.set, Prof.putEntry, he]
  · simp only [ProfUse.step, Option.some.injEq] at h
    subst h
    simp [Prof.reset]

/-- **C109** Events. The events are those made while profiling was enabled, in their order and with their times. -/
theorem C109_events {s' : ProfUse} {t : Int} {ops : List (Int × ProfOp)}
    (h : (ProfUse.mk (Prof.init t) []).run ops = some s') :
    s'.prof.events = (whileEnabled false ops).filterMap eventOf := by
  have := (profRun_all ops h).1
  simpa [Prof.init, Prof.reset] using this

/-- **C109** Regions. Without resets, there is one region for each call that ended one while profiling was enabled, in the
order of these calls and with their times. -/
theorem C109_regions {s' : ProfUse} {t : Int} {ops : List (Int × ProfOp)}
    (h : (ProfUse.mk (Prof.init t) []).run ops = some s') (hr : ∀ x ∈ ops, x.2 ≠ .reset) :
    s'.prof.regions.map (·.tEnd) = (whileEnabled false ops).filterMap stopOf := by
  have := (profRun_all ops h).2.1 hr
  simpa [Prof.init, Prof.reset] using this

/-- **C109** Every region has the keys, the level and the time of a call that started it, before the call that ended it. So if
the clock does not go back, regions do not end before they start. -/
theorem C109_region_times {s' : ProfUse} {t : Int} {ops : List (Int × ProfOp)}
    (h : (ProfUse.mk (Prof.init t) []).run ops = some s') (r : ProfRegion) (hr : r ∈ s'.prof.regions) :
    (∃ pre mid post idx,
      ops = pre ++ (r.tStart, .start r.key1 r.key2 r.level) :: mid ++ (r.tEnd, .stop idx) :: post) ∧
    ((ops.map Prod.fst).Pairwise (· ≤ ·) → r.tStart ≤ r.tEnd) := by
  have hi : ProfOrigin [] (ProfUse.mk (Prof.init t) []) := ⟨by simp, by simp [Prof.init, Prof.reset]⟩
  obtain ⟨pre, mid, post, idx, e⟩ := (profRun_origin ops [] hi h).2 r hr
  rw [List.nil_append] at e
  refine ⟨⟨pre, mid, post, idx, e⟩, fun hp => ?_⟩
  subst e
  simp only [List.map_append, List.map_cons, List.append_assoc, List.cons_append] at hp
  have := (List.pairwise_append.mp hp).2.1
  exact (List.pairwise_cons.mp this).1 _ (by simp)

/-- **C109** A call fails exactly if it ends a region that was never started, or, while profiling is enabled, one for which
`start_region` returned nothing. -/
theorem C109_fails (s : ProfUse) (t : Int) (o : ProfOp) :
    s.step t o = none ↔ ∃ idx, o = .stop idx ∧
      (s.opened[idx]? = none ∨ (s.prof.enabled = true ∧ s.opened[idx]? = some none)) := profStep_none s t o

/-- So enabling profiling between the start and the end of a region makes the end throw. -/
theorem C109_enable_inside (t a b c : Int) (k1 k2 : Nat) (level : Int) :
    (ProfUse.mk (Prof.init t) []).run [(a, .start k1 k2 level), (b, .enable), (c, .stop 0)] = none := by
  simp [ProfUse.run, ProfUse.step, Prof.init, Prof.reset, Prof.startRegion, Prof.endRegion]

/-- A reset keeps the events, which are then before the reference time. -/
theorem C109_reset_keeps_events (t : Int) :
    ((ProfUse.mk (Prof.init t) []).run [(t, .enable), (t + 1, .event 3 4), (t + 2, .reset)]).map
      (fun s => (s.prof.t0, s.prof.events)) = some (t + 2, [(3, 4, t + 1)]) := by
  simp [ProfUse.run, ProfUse.step, Prof.init, Prof.reset, Prof.event]

/-- **C109** The lists in the JSON file have separators between the lines and none at the end; they are empty for no lines. -/
theorem C109_json_lines (ls : List (List Char)) :
    writeLines ls.length 0 ls =
      if ls = [] then [] else List.intercalate ",\n".toList ls ++ "\n".toList := by
  cases ls with
  | nil => rfl
  | cons l ls =>
    have := writeLines_eq ls l 0
    simpa using this

/-- **C109** If keys have no quotes, the line of an event determines its keys and its time. -/
theorem C109_json_keys {a b t a' b' t' : List Char} (ha : '"' ∉ a) (hb : '"' ∉ b) (ha' : '"' ∉ a') (hb' : '"' ∉ b')
    (h : eventLine a b t = eventLine a' b' t') : a = a' ∧ b = b' ∧ t = t' := eventLine_inj ha hb ha' hb' h

/-- Keys are not escaped: events with other keys can give the same line. -/
theorem C109_json_quotes : eventLine "a\",\"b".toList "c".toList "1".toList = eventLine "a".toList "b\",\"c".toList "1".toList ∧
    "a\",\"b".toList ≠ "a".toList := by decide +kernel

namespace Ex

/-- Two nested regions, one event while disabled, one while enabled, and increments. -/
def profOps : List (Int × ProfOp) :=
  [(1, .event 9 9), (2, .enable), (3, .start 1 2 0), (4, .start 1 3 1), (5, .inc 7 8 2 (1/2)), (6, .stop 1), (7, .event 5 6),
   (8, .inc 7 8 3 1), (9, .stop 0), (10, .disable), (11, .inc 7 8 100 1)]

example : ((ProfUse.mk (Prof.init 0) []).run profOps).map (fun s => (s.prof.ints 7 8, s.prof.reals 7 8)) =
    some (5, 3/2) := by decide +kernel

example : ((ProfUse.mk (Prof.init 0) []).run profOps).map (fun s => s.prof.events) = some [(5, 6, 7)] := by decide +kernel

example : ((ProfUse.mk (Prof.init 0) []).run profOps).map (fun s =>
    s.prof.regions.map fun r => (r.key2, r.tStart, r.tEnd)) = some [(3, 4, 6), (2, 3, 9)] := by decide +kernel

/-- The hypotheses of the theorems on histories. -/
example : ((ProfUse.mk (Prof.init 0) []).run profOps).isSome ∧ (profOps.map Prod.fst).Pairwise (· ≤ ·) := by decide +kernel

example : (∀ x ∈ profOps, x.2 ≠ .reset) ∧ ∀ x ∈ profOps, ¬ overwrites 7 8 x.2 := by
  constructor <;> simp [profOps, overwrites]

example : writeLines 2 0 ["x".toList, "y".toList] = "x,\ny\n".toList := by decide +kernel

end Ex

end NP
