import Verif.Containers.PropsLocalArray

/-! Concrete cases for C73. -/

set_option autoImplicit false

namespace NP.Ex

open Spec

/-- New memory full of sevens. -/
def sevens : Fresh Int := fun n => ⟨List.replicate n 7, by simp⟩

/-- A launch on a rank with two cells holding 2 and 3 particles; every particle adds one to
component 0, and ten times its cell plus its row to component 1; the reused buffer
has one element, so it is reallocated. -/
def arrLaunch (npart : List Nat) (cs ce : Option Int) : GaLaunch Int where
  P := ⟨1024, 2, 4⟩
  npart := npart
  hasGroup := true
  npartLocal := npart.sum
  cs := cs
  ce := ce
  adds := fun c k => [(0, 1), (1, 10 * c + k)]
  ord := .reversed
  res := [99]
  fresh := sevens

/-- Three ranks; rank 1 has no particles. -/
def arrOn (cs ce : Option Int) : Nat → GaLaunch Int
  | 0 => arrLaunch [2, 3] cs ce
  | 1 => arrLaunch [0, 0] cs ce
  | _ => arrLaunch [0, 1] cs ce

def arrEnv : Nat → GaEnv Int := fun _ => ⟨[4, 5, 6], sevens, .reversed⟩

theorem arrLaunch_ok {npart : List Nat} {cs ce : Option Int}
    (hb : ∀ n ∈ npart, n < 2 ^ 31)
    (h0 : npart.sum = 0 → ∀ n ∈ npart, n = 0) (hc : CellArgsOk npart.length cs ce) :
    GaLaunchOk 2 (arrLaunch npart cs ce) where
  launch := ⟨by show 0 < 4; decide, by show 4 < 2 ^ 31; decide, by show 0 < 2; decide, hb,
    fun _ => h0⟩
  cells := hc
  comps := by
    intro c k _ a ha
    simp only [arrLaunch, List.mem_cons, List.not_mem_nil, or_false] at ha
    rcases ha with rfl | rfl <;> simp

theorem arrOn_ok {cs ce : Option Int} (hc : CellArgsOk 2 cs ce) (r : Nat) :
    GaLaunchOk 2 (arrOn cs ce r) := by
  unfold arrOn
  split
  · exact arrLaunch_ok (by decide) (by decide) hc
  · exact arrLaunch_ok (by decide) (by decide) hc
  · exact arrLaunch_ok (by decide) (by decide) hc

/-- The array on three ranks, all zero. -/
def arrWorld : List (GaRank Int) :=
  [⟨2, [0, 0], none, fun _ => false⟩, ⟨2, [0, 0], none, fun _ => false⟩,
   ⟨2, [0, 5], none, fun _ => false⟩]

example : GaOk 2 arrWorld ∧ GaIdle arrWorld := by
  constructor
  · intro g hg
    simp only [arrWorld, List.mem_cons, List.not_mem_nil, or_false] at hg
    rcases hg with rfl | rfl | rfl <;> exact ⟨rfl, rfl⟩
  · intro g hg
    simp only [arrWorld, List.mem_cons, List.not_mem_nil, or_false] at hg
    rcases hg with rfl | rfl | rfl <;> exact fun _ => rfl

/-- C73_execute, C73_history: the hypotheses hold for a whole loop and for a cell. -/
example : ∀ r < arrWorld.length, GaLaunchOk 2 (arrOn none none r) := fun r _ =>
  arrOn_ok (cs := none) (ce := none) trivial r

example : ∀ s ∈ [ArrayStep.execute 0 (arrOn none none) arrEnv, .fill 1 (3 : Int),
    .execute 1 (arrOn (some 1) none) arrEnv], ArrayStepOk 3 2 s := by
  intro s hs
  simp only [List.mem_cons, List.not_mem_nil, or_false] at hs
  rcases hs with rfl | rfl | rfl
  · exact fun r _ => arrOn_ok (cs := none) (ce := none) trivial r
  · show 1 < 3; decide
  · exact fun r _ => arrOn_ok (cs := some 1) (ce := none) ⟨by decide, by decide⟩ r

example : totalSum 3 (arrOn none none) 0 = 6 ∧ totalSum 3 (arrOn none none) 1 = 44 := by
  decide +kernel

/-- After one execution each rank holds the sum over all ranks. -/
example : (gaRun [.submit 0 (arrOn none none), .wait 0 arrEnv] arrWorld).map
    (fun w => w.map GaRank.buf) = some [[6, 44], [6, 44], [6, 49]] := by decide +kernel

example : (gaNew 2 (fun _ => sevens) 2 (3 : Int)).map (fun w => w.map GaRank.buf) =
    some [[3, 3], [3, 3]] := by decide +kernel

end NP.Ex

namespace NP

open Spec Ex

/-- **C73** The contributions of two submissions before one `wait` are not added up: a
loop submitted for cell 0 and for cell 1 misses the particles of cell 0, although the
same submissions with a `wait` each count them. -/
theorem C73_contributions_lost :
    ∃ (on on' : Nat → GaLaunch Int) (env : Nat → GaEnv Int) (w w1 w2 : List (GaRank Int)),
      GaOk 2 w ∧ GaIdle w ∧ (∀ r < w.length, GaLaunchOk 2 (on r) ∧ GaLaunchOk 2 (on' r)) ∧
      gaRun [.submit 0 on, .submit 0 on', .wait 0 env] w = some w1 ∧
      gaRun [.submit 0 on, .wait 0 env, .submit 0 on', .wait 0 env] w = some w2 ∧
      gaVal w1 0 0 = some 4 ∧ gaVal w2 0 0 = some 6 := by
  have hok : GaOk 2 arrWorld ∧ GaIdle arrWorld := by
    constructor
    · intro g hg
      simp only [arrWorld, List.mem_cons, List.not_mem_nil, or_false] at hg
      rcases hg with rfl | rfl | rfl <;> exact ⟨rfl, rfl⟩
    · intro g hg
      simp only [arrWorld, List.mem_cons, List.not_mem_nil, or_false] at hg
      rcases hg with rfl | rfl | rfl <;> exact fun _ => rfl
  have h1 : ((gaRun [.submit 0 (arrOn (some 0) none), .submit 0 (arrOn (some 1) none),
      .wait 0 arrEnv] arrWorld).bind fun w => gaVal w 0 0) = some 4 := by decide +kernel
  have h2 : ((gaRun [.submit 0 (arrOn (some 0) none), .wait 0 arrEnv,
      .submit 0 (arrOn (some 1) none), .wait 0 arrEnv] arrWorld).bind fun w => gaVal w 0 0) =
      some 6 := by decide +kernel
  obtain ⟨w1, e1, e2⟩ := Option.bind_eq_some_iff.1 h1
  obtain ⟨w2, e3, e4⟩ := Option.bind_eq_some_iff.1 h2
  exact ⟨_, _, _, _, w1, w2, hok.1, hok.2, fun r _ =>
    ⟨arrOn_ok (cs := some 0) (ce := none) ⟨by decide, by decide⟩ r,
      arrOn_ok (cs := some 1) (ce := none) ⟨by decide, by decide⟩ r⟩, e1, e3, e2, e4⟩

end NP

namespace NP.Ex

open Spec

/-- A `LocalArray` of two components in a buffer with room for three. -/
def locArr : LaRank Int := ⟨2, [100, 0, 55], fun _ => false⟩

example : LaOk locArr := by unfold LaOk; decide

/-- C73_local_history: two submissions of loop 0 and one of loop 1 are in flight. -/
example : ∀ c ∈ [LaCall.submit 0 (arrLaunch [2, 3] (some 0) none),
    .submit 0 (arrLaunch [2, 3] (some 1) none), .submit 1 (arrLaunch [2, 3] none none), .wait 1,
    .wait 0, .set [1, 2]], LaCallOk locArr.size c := by
  intro c hc
  simp only [List.mem_cons, List.not_mem_nil, or_false] at hc
  rcases hc with rfl | rfl | rfl | rfl | rfl | rfl
  · exact arrLaunch_ok (by decide) (by decide) ⟨by decide, by decide⟩
  · exact arrLaunch_ok (by decide) (by decide) ⟨by decide, by decide⟩
  · exact arrLaunch_ok (by decide) (by decide) trivial
  · trivial
  · trivial
  · trivial

example : (laRun [.submit 0 (arrLaunch [2, 3] (some 0) none),
    .submit 0 (arrLaunch [2, 3] (some 1) none), .submit 1 (arrLaunch [2, 3] none none), .wait 1,
    .wait 0] locArr).map LaRank.buf = some [110, 68, 55] := by decide +kernel

/-- C73_local_accepts: with loop 0 in flight it may not be submitted again for all cells. -/
example : ((laRun [.submit 0 (arrLaunch [2, 3] (some 0) none)] locArr).map fun g =>
    ((laCall (.submit 0 (arrLaunch [2, 3] none none)) g).isSome,
      (laCall (.submit 1 (arrLaunch [2, 3] none none)) g).isSome,
      (laCall (.wait 0) g).isSome, (laCall (.wait 1) g).isSome)) =
    some (false, true, true, false) := by decide +kernel

/-- C73_unique_indices: all calls for component 0 add one. -/
example : ∀ a ∈ launchCalls (arrLaunch [2, 3] none none), a.1 = ((0 : Nat) : Int) → a.2 = 1 := by
  decide +kernel

example : (laSubmit 0 (arrLaunch [1, 2] none none) locArr).map (·.2) =
    some [((1, 11), 0), ((0, 1), 100), ((1, 10), 11), ((0, 1), 101), ((1, 0), 21),
      ((0, 1), 102)] := by decide +kernel

end NP.Ex
