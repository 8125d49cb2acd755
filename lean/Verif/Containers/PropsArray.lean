import Verif.Containers.LemmasArray

/-!
# C73: arrays in particle loops

Model: Containers/ModelArray.lean. Specification: Containers/SpecArray.lean.
-/

set_option autoImplicit false

namespace NP

open Spec

variable {α : Type}

theorem gaSubmit_ok [AddCommMonoid α] {size l : Nat} {on : Nat → GaLaunch α}
    {w w' : List (GaRank α)} (hok : GaOk size w) (hl : w'.length = w.length)
    (h : ∀ (r : Nat) g, w[r]? = some g → ∃ s, w'[r]? =
        some { g with stage := some s, running := fun m => m == l || g.running m } ∧
        size ≤ s.length ∧ ∀ i < size, s[i]? = some (launchSum (on r) i)) :
    GaOk size w' ∧ (∀ g ∈ w', g.running l = true) ∧
      (∀ (r : Nat) g, w'[r]? = some g → ∃ s, g.stage = some s ∧
        ∀ i < size, s[i]? = some (launchSum (on r) i)) ∧
      ∀ r i, gaVal w' r i = gaVal w r i := by
  have key : ∀ (r : Nat) g', w'[r]? = some g' → ∃ g s, w[r]? = some g ∧ g' =
      { g with stage := some s, running := fun m => m == l || g.running m } ∧
      ∀ i < size, s[i]? = some (launchSum (on r) i) := by
    intro r g' hg'
    have hr := (List.getElem?_eq_some_iff.1 hg').1
    have hg := List.getElem?_eq_getElem (l := w) (i := r) (by omega)
    obtain ⟨s, h1, _, h2⟩ := h r _ hg
    rw [hg', Option.some.injEq] at h1
    exact ⟨_, s, hg, h1, h2⟩
  refine ⟨?_, ?_, ?_, ?_⟩
  · intro g' hg'
    obtain ⟨r, hr⟩ := List.mem_iff_getElem?.1 hg'
    obtain ⟨g, s, h1, rfl, _⟩ := key r g' hr
    exact hok g (List.mem_of_getElem? h1)
  · intro g' hg'
    obtain ⟨r, hr⟩ := List.mem_iff_getElem?.1 hg'
    obtain ⟨g, s, h1, rfl, _⟩ := key r g' hr
    simp
  · intro r g' hr
    obtain ⟨g, s, h1, rfl, h2⟩ := key r g' hr
    exact ⟨s, rfl, h2⟩
  · intro r i
    unfold gaVal gaGet
    cases hg : w[r]? with
    | none =>
      have : w'[r]? = none := by
        rw [List.getElem?_eq_none_iff] at hg ⊢; omega
      simp only [rd, hg, this]
    | some g =>
      obtain ⟨s, h1, _⟩ := h r g hg
      simp only [rd, hg, h1, Option.bind_some]

/-- A wait adds the sum of the values in the stage buffers of all ranks. -/
theorem gaWait_ok [AddCommMonoid α] {size l : Nat} {env : Nat → GaEnv α} {f : Nat → Nat → α}
    {w : List (GaRank α)} (hok : GaOk size w) (hrun : ∀ g ∈ w, g.running l = true)
    (hst : ∀ (r : Nat) g, w[r]? = some g → ∃ s, g.stage = some s ∧
      ∀ i < size, s[i]? = some (f r i)) :
    ∃ w', gaWait l env w = some w' ∧ w'.length = w.length ∧ GaOk size w' ∧
      (∀ (r : Nat) g', w'[r]? = some g' → ∃ g, w[r]? = some g ∧ g'.stage = none ∧
        ∀ m, g'.running m = (m != l && g.running m)) ∧
      ∀ r < w.length, ∀ i < size, ∃ x, gaVal w r i = some x ∧
        gaVal w' r i = some (x + ((List.range w.length).map fun r => f r i).sum) := by
  obtain ⟨w', h1, h2, h3⟩ := gaWait_spec (env := env) hok hrun hst
  have key : ∀ (r : Nat) g', w'[r]? = some g' → ∃ g b, w[r]? = some g ∧ g' =
      { g with buf := b, stage := none, running := fun m => m != l && g.running m } ∧
      b.length = size := by
    intro r g' hg'
    have hr := (List.getElem?_eq_some_iff.1 hg').1
    have hg := List.getElem?_eq_getElem (l := w) (i := r) (by omega)
    obtain ⟨b, e1, e2, _⟩ := h3 r _ hg
    rw [hg', Option.some.injEq] at e1
    exact ⟨_, b, hg, e1, e2⟩
  refine ⟨w', h1, h2, ?_, ?_, ?_⟩
  · intro g' hg'
    obtain ⟨r, hr⟩ := List.mem_iff_getElem?.1 hg'
    obtain ⟨g, b, e1, rfl, e2⟩ := key r g' hr
    exact ⟨(hok g (List.mem_of_getElem? e1)).1, e2⟩
  · intro r g' hr
    obtain ⟨g, b, e1, rfl, e2⟩ := key r g' hr
    exact ⟨g, e1, rfl, fun m => rfl⟩
  · intro r hr i hi
    have hg := List.getElem?_eq_getElem hr
    have hm := hok _ (List.getElem_mem hr)
    obtain ⟨b, e1, e2, e3⟩ := h3 r _ hg
    rw [gaVal_eq hg hm.1 hm.2 hi, gaVal_eq e1 hm.1 e2 hi, e3]
    have hb : i < w[r].buf.length := by omega
    exact ⟨w[r].buf[i], List.getElem?_eq_getElem hb, by rw [List.getElem?_eq_getElem hb]; rfl⟩

/-! ## `GlobalArray` -/

/-- **C73** Executing a loop with add access to a `GlobalArray` adds, on every rank, the
sum of all values that the kernels of all ranks passed to `add`, each exactly once;
whatever the particles, the requested cells of each rank (also if there is nothing to
visit on some or all ranks), the order of the additions and the contents of the reused
buffers are. -/
theorem C73_execute [AddCommMonoid α] {size l : Nat} {on : Nat → GaLaunch α}
    {env : Nat → GaEnv α} {w : List (GaRank α)} (hok : GaOk size w)
    (hon : ∀ r < w.length, GaLaunchOk size (on r)) (hidle : ∀ g ∈ w, g.running l = false) :
    ∃ w', gaRun [.submit l on, .wait l env] w = some w' ∧ w'.length = w.length ∧
      GaOk size w' ∧ (GaIdle w → GaIdle w') ∧
      ∀ r < w.length, ∀ i < size, ∃ x, gaVal w r i = some x ∧
        gaVal w' r i = some (x + totalSum w.length on i) := by
  obtain ⟨w1, h1, h2, h3⟩ := gaSubmit_spec (l := l) hon (fun g hg => (hok g hg).1) (by
    intro r g hg hh
    rw [hidle g (List.mem_of_getElem? hg)] at hh
    exact absurd hh.1 (by simp))
  obtain ⟨k1, k2, k3, k4⟩ := gaSubmit_ok hok h2 h3
  obtain ⟨w2, e1, e2, e3, e4, e5⟩ := gaWait_ok (env := env) k1 k2 k3
  refine ⟨w2, ?_, by omega, e3, ?_, ?_⟩
  · unfold gaRun
    rw [runItems_cons]
    simp only [gaCall]
    rw [h1, Option.bind_some, runItems_cons]
    simp only [gaCall]
    rw [e1]
    rfl
  · intro hi g' hg' m
    obtain ⟨r, hr⟩ := List.mem_iff_getElem?.1 hg'
    obtain ⟨g1, q1, _, q2⟩ := e4 r g' hr
    rw [q2]
    have hr1 := (List.getElem?_eq_some_iff.1 q1).1
    have hg := List.getElem?_eq_getElem (l := w) (i := r) (by omega)
    obtain ⟨s, p1, _⟩ := h3 r _ hg
    rw [q1, Option.some.injEq] at p1
    subst p1
    simp only [hi _ (List.mem_of_getElem? hg) m, Bool.or_false]
    cases hml : (m == l) <;> simp [bne, hml]
  · intro r hr i hi
    obtain ⟨x, q1, q2⟩ := e5 r (by omega) i hi
    rw [h2] at q2
    exact ⟨x, by rw [← k4]; exact q1, q2⟩

theorem gaFill_ok {size r : Nat} {v : α} {w : List (GaRank α)} (hok : GaOk size w)
    (hr : r < w.length) :
    ∃ w', gaFill r v w = some w' ∧ w'.length = w.length ∧ GaOk size w' ∧
      (GaIdle w → GaIdle w') ∧
      ∀ r' < w.length, ∀ i < size,
        gaVal w' r' i = if r = r' then some v else gaVal w r' i := by
  have hg := List.getElem?_eq_getElem hr
  have hm := hok _ (List.getElem_mem hr)
  have hfill : ∃ b, gaFillRank v w[r] = some { (w[r]) with buf := b } ∧ b.length = size ∧
      ∀ i < size, b[i]? = some v := by
    unfold gaFillRank
    by_cases h0 : 0 < w[r].size
    · have hs := stRange_eq_some (m := w[r].buf) (a := 0) (vs := List.replicate w[r].size v)
        (by simp; omega)
      refine ⟨_, by rw [if_pos h0, hs]; rfl, ?_, ?_⟩
      · rw [(length_of_stRange hs).1]; exact hm.2
      · intro i hi
        rw [getElem?_of_stRange hs, if_pos (by simp; omega)]
        rw [List.getElem?_replicate, if_pos (by omega)]
    · exact ⟨w[r].buf, by rw [if_neg h0], hm.2, fun i hi => by omega⟩
  obtain ⟨b, h1, h2, h3⟩ := hfill
  refine ⟨w.set r { (w[r]) with buf := b }, ?_, by simp, ?_, ?_, ?_⟩
  · unfold gaFill
    simp only [rd, hg, Option.bind_some, h1, st_eq_some hr]
  · intro g hgm
    rcases List.mem_or_eq_of_mem_set hgm with h | rfl
    · exact hok g h
    · exact ⟨hm.1, h2⟩
  · intro hi g hgm m
    rcases List.mem_or_eq_of_mem_set hgm with h | rfl
    · exact hi g h m
    · exact hi _ (List.getElem_mem hr) m
  · intro r' hr' i hi
    by_cases e : r = r'
    · subst e
      rw [if_pos rfl, gaVal_eq (g := { (w[r]) with buf := b }) (List.getElem?_set_self hr)
        hm.1 h2 hi, h3 i hi]
    · rw [if_neg e]
      unfold gaVal gaGet
      simp only [rd, List.getElem?_set_ne e]

/-- **C73** After any sequence of loop executions with add access and calls of `fill`
(by individual ranks), `get` on each rank returns for every component the initial value,
or the value of the last `fill` on that rank, plus the contributions of all ranks to all
loops since. -/
theorem C73_history [AddCommMonoid α] {n size : Nat} {init : α} (fresh : Nat → Fresh α)
    {steps : List (ArrayStep α)} (h : ∀ s ∈ steps, ArrayStepOk n size s) :
    ∃ w0 w, gaNew n fresh size init = some w0 ∧
      gaRun (steps.flatMap arrayCalls) w0 = some w ∧
      ∀ r < n, ∀ i < size, gaVal w r i = some (steps.foldl (arrayStep n i r) init) := by
  have hnew : ∃ w0, gaNew n fresh size init = some w0 ∧ w0.length = n ∧ GaOk size w0 ∧
      GaIdle w0 ∧ ∀ r < n, ∀ i < size, gaVal w0 r i = some init := by
    obtain ⟨w0, a1, a2, a3⟩ := mapM_range_exists (n := n)
      (f := fun r => gaNewRank (fresh r) size init)
      (R := fun _ g => g.size = size ∧ g.buf.length = size ∧ (∀ l, g.running l = false) ∧
        ∀ i < size, g.buf[i]? = some init) (by
      intro r _
      unfold gaNewRank gaFillRank
      by_cases h0 : 0 < size
      · have hs := stRange_eq_some (m := (fresh r size).1) (a := 0)
          (vs := List.replicate size init) (by rw [(fresh r size).2]; simp)
        refine ⟨_, by rw [if_pos h0]; dsimp only; rw [hs]; rfl, rfl, ?_, fun _ => rfl, ?_⟩
        · rw [(length_of_stRange hs).1, (fresh r size).2]
        · intro i hi
          rw [getElem?_of_stRange hs, if_pos (by simp; omega)]
          rw [List.getElem?_replicate, if_pos (by omega)]
      · exact ⟨_, by rw [if_neg h0], rfl, (fresh r size).2, fun _ => rfl, fun i hi => by omega⟩)
    have key : ∀ g ∈ w0, g.size = size ∧ g.buf.length = size ∧ (∀ l, g.running l = false) ∧
        ∀ i < size, g.buf[i]? = some init := by
      intro g hg
      obtain ⟨r, hr⟩ := List.mem_iff_getElem?.1 hg
      obtain ⟨g', e1, e2⟩ := a3 r (by
        have := (List.getElem?_eq_some_iff.1 hr).1; omega)
      rw [hr, Option.some.injEq] at e1
      subst e1; exact e2
    refine ⟨w0, a1, a2, fun g hg => ⟨(key g hg).1, (key g hg).2.1⟩,
      fun g hg => (key g hg).2.2.1, ?_⟩
    intro r hr i hi
    have hg := List.getElem?_eq_getElem (l := w0) (i := r) (by omega)
    obtain ⟨k1, k2, _, k3⟩ := key _ (List.mem_of_getElem? hg)
    rw [gaVal_eq hg k1 k2 hi]
    exact k3 i hi
  obtain ⟨w0, b1, b2, b3, b4, b5⟩ := hnew
  refine ⟨w0, ?_⟩
  suffices hs : ∀ (x : Nat → Nat → α) (w0 : List (GaRank α)), w0.length = n → GaOk size w0 →
      GaIdle w0 → (∀ r < n, ∀ i < size, gaVal w0 r i = some (x r i)) →
      ∃ w, gaRun (steps.flatMap arrayCalls) w0 = some w ∧
        ∀ r < n, ∀ i < size, gaVal w r i = some (steps.foldl (arrayStep n i r) (x r i)) by
    obtain ⟨w, c1, c2⟩ := hs (fun _ _ => init) w0 b2 b3 b4 b5
    exact ⟨w, b1, c1, c2⟩
  clear b1 b2 b3 b4 b5 w0
  induction steps with
  | nil => exact fun x w0 _ _ _ hx => ⟨w0, rfl, hx⟩
  | cons s steps ih =>
    intro x w0 hl hok hidle hx
    have hs := h s List.mem_cons_self
    have ih := ih fun s hs => h s (List.mem_cons_of_mem _ hs)
    have step : ∃ w1, gaRun (arrayCalls s) w0 = some w1 ∧ w1.length = n ∧ GaOk size w1 ∧
        GaIdle w1 ∧ ∀ r < n, ∀ i < size, gaVal w1 r i = some (arrayStep n i r (x r i) s) := by
      cases s with
      | execute l on env =>
        obtain ⟨w1, d1, d2, d3, d4, d5⟩ := C73_execute (l := l) (env := env) hok
          (by rw [hl]; exact hs) (fun g hg => hidle g hg l)
        refine ⟨w1, d1, by omega, d3, d4 hidle, ?_⟩
        intro r hr i hi
        obtain ⟨y, e1, e2⟩ := d5 r (by omega) i hi
        rw [hx r hr i hi, Option.some.injEq] at e1
        rw [e2, hl, ← e1]
        rfl
      | fill r v =>
        obtain ⟨w1, d1, d2, d3, d4, d5⟩ := gaFill_ok (v := v) hok (by rw [hl]; exact hs)
        refine ⟨w1, ?_, by omega, d3, d4 hidle, ?_⟩
        · unfold gaRun arrayCalls
          rw [runItems_cons]
          simp only [gaCall]
          rw [d1]; rfl
        · intro r' hr' i hi
          rw [d5 r' (by omega) i hi, hx r' hr' i hi]
          unfold arrayStep
          by_cases e : r = r' <;> simp [e]
    obtain ⟨w1, d1, d2, d3, d4, d5⟩ := step
    obtain ⟨w, e1, e2⟩ := ih (fun r i => arrayStep n i r (x r i) s) w1 d2 d3 d4 d5
    refine ⟨w, ?_, e2⟩
    rw [List.flatMap_cons]
    unfold gaRun at *
    rw [runItems_append, d1, Option.bind_some, e1]

/-- **C73** If only loops are executed (no `fill`), all ranks hold the same values. -/
theorem C73_ranks_agree [AddCommMonoid α] {n size : Nat} {init : α} (fresh : Nat → Fresh α)
    {steps : List (ArrayStep α)} (h : ∀ s ∈ steps, ArrayStepOk n size s)
    (hex : ∀ s ∈ steps, ∃ l on env, s = .execute l on env) :
    ∃ w0 w, gaNew n fresh size init = some w0 ∧
      gaRun (steps.flatMap arrayCalls) w0 = some w ∧
      ∀ r < n, ∀ r' < n, ∀ i < size, gaVal w r i = gaVal w r' i := by
  obtain ⟨w0, w, h1, h2, h3⟩ := C73_history (init := init) fresh h
  refine ⟨w0, w, h1, h2, fun r hr r' hr' i hi => ?_⟩
  rw [h3 r hr i hi, h3 r' hr' i hi]
  congr 1
  clear h1 h2 h3 h
  generalize init = x
  induction steps generalizing x with
  | nil => rfl
  | cons s steps ih =>
    obtain ⟨l, on, env, rfl⟩ := hex s List.mem_cons_self
    rw [List.foldl_cons, List.foldl_cons, ih fun s hs => hex s (List.mem_cons_of_mem _ hs)]
    rfl

/-- Submissions of one loop, one after the other. -/
theorem gaSubmits_ok [AddCommMonoid α] {size l : Nat} {ons : List (Nat → GaLaunch α)}
    {on : Nat → GaLaunch α} {w : List (GaRank α)} (hok : GaOk size w)
    (hon : ∀ on' ∈ on :: ons, ∀ r < w.length, GaLaunchOk size (on' r))
    (hfirst : (∀ g ∈ w, g.running l = false) ∨ ∀ r < w.length, (on r).cs ≠ none)
    (hcs : ∀ on' ∈ ons, ∀ r < w.length, (on' r).cs ≠ none) :
    ∃ w1, gaRun ((on :: ons).map fun on => .submit l on) w = some w1 ∧ w1.length = w.length ∧
      GaOk size w1 ∧ (∀ g ∈ w1, g.running l = true) ∧
      (∀ (r : Nat) g, w1[r]? = some g → ∃ s, g.stage = some s ∧ ∀ i < size,
        s[i]? = some (launchSum ((on :: ons).getLast (List.cons_ne_nil _ _) r) i)) ∧
      ∀ r i, gaVal w1 r i = gaVal w r i := by
  induction ons generalizing on w with
  | nil =>
    obtain ⟨w1, h1, h2, h3⟩ := gaSubmit_spec (l := l)
      (hon on List.mem_cons_self) (fun g hg => (hok g hg).1) (by
      intro r g hg hh
      rcases hfirst with hf | hf
      · rw [hf g (List.mem_of_getElem? hg)] at hh
        exact absurd hh.1 (by simp)
      · exact hf r (List.getElem?_eq_some_iff.1 hg).1 hh.2)
    obtain ⟨k1, k2, k3, k4⟩ := gaSubmit_ok hok h2 h3
    refine ⟨w1, ?_, h2, k1, k2, k3, k4⟩
    unfold gaRun
    rw [List.map_cons, runItems_cons]
    simp only [gaCall]
    rw [h1]; rfl
  | cons on2 ons ih =>
    obtain ⟨w1, h1, h2, h3⟩ := gaSubmit_spec (l := l)
      (hon on List.mem_cons_self) (fun g hg => (hok g hg).1) (by
      intro r g hg hh
      rcases hfirst with hf | hf
      · rw [hf g (List.mem_of_getElem? hg)] at hh
        exact absurd hh.1 (by simp)
      · exact hf r (List.getElem?_eq_some_iff.1 hg).1 hh.2)
    obtain ⟨k1, k2, k3, k4⟩ := gaSubmit_ok hok h2 h3
    obtain ⟨w2, e1, e2, e3, e4, e5, e6⟩ := ih (on := on2) (w := w1) k1
      (by rw [h2]; exact fun o ho => hon o (List.mem_cons_of_mem _ ho))
      (Or.inr (by rw [h2]; exact hcs on2 List.mem_cons_self))
      (by rw [h2]; exact fun o ho => hcs o (List.mem_cons_of_mem _ ho))
    refine ⟨w2, ?_, by omega, e3, e4, ?_, fun r i => by rw [e6, k4]⟩
    · unfold gaRun at *
      rw [List.map_cons, runItems_cons]
      simp only [gaCall]
      rw [h1, Option.bind_some]
      exact e1
    · rw [List.getLast_cons (List.cons_ne_nil _ _)]
      exact e5

/-- **C73** What the code does if a loop is submitted for several ranges of cells before
one `wait` (which the loop accepts): only the values added by the *last* submission
arrive; those of the earlier ones are lost. -/
theorem C73_only_last_submission [AddCommMonoid α] {size l : Nat}
    {on : Nat → GaLaunch α} {ons : List (Nat → GaLaunch α)} {env : Nat → GaEnv α}
    {w : List (GaRank α)} (hok : GaOk size w) (hidle : ∀ g ∈ w, g.running l = false)
    (hon : ∀ on' ∈ on :: ons, ∀ r < w.length, GaLaunchOk size (on' r))
    (hcs : ∀ on' ∈ ons, ∀ r < w.length, (on' r).cs ≠ none) :
    ∃ w', gaRun ((on :: ons).map (fun on => GaCall.submit l on) ++ [.wait l env]) w = some w' ∧
      ∀ r < w.length, ∀ i < size, ∃ x, gaVal w r i = some x ∧ gaVal w' r i =
        some (x + totalSum w.length ((on :: ons).getLast (List.cons_ne_nil _ _)) i) := by
  obtain ⟨w1, h1, h2, k1, k2, k3, k4⟩ := gaSubmits_ok hok hon (Or.inl hidle) hcs
  obtain ⟨w2, e1, e2, e3, e4, e5⟩ := gaWait_ok (env := env) k1 k2 k3
  refine ⟨w2, ?_, ?_⟩
  · unfold gaRun at *
    rw [runItems_append, h1, Option.bind_some, runItems_cons]
    simp only [gaCall]
    rw [e1]; rfl
  · intro r hr i hi
    obtain ⟨x, q1, q2⟩ := e5 r (by omega) i hi
    rw [h2] at q2
    exact ⟨x, by rw [← k4]; exact q1, q2⟩

/-- **C73** What the code does if two loops with add access to the same array are
submitted before either is waited for: the `wait` of the first adds what the *second*
loop added, and the `wait` of the second fails. -/
theorem C73_two_loops_in_flight [AddCommMonoid α] {size l m : Nat} (hlm : l ≠ m)
    {on on' : Nat → GaLaunch α} {env env' : Nat → GaEnv α} {w : List (GaRank α)}
    (hne : w ≠ []) (hok : GaOk size w) (hidle : GaIdle w)
    (hon : ∀ r < w.length, GaLaunchOk size (on r))
    (hon' : ∀ r < w.length, GaLaunchOk size (on' r)) :
    ∃ w', gaRun [.submit l on, .submit m on', .wait l env] w = some w' ∧
      (∀ r < w.length, ∀ i < size, ∃ x, gaVal w r i = some x ∧
        gaVal w' r i = some (x + totalSum w.length on' i)) ∧
      gaCall (.wait m env') w' = none := by
  obtain ⟨w1, h1, h2, h3⟩ := gaSubmit_spec (l := l) hon (fun g hg => (hok g hg).1) (by
    intro r g hg hh
    rw [hidle g (List.mem_of_getElem? hg)] at hh
    exact absurd hh.1 (by simp))
  obtain ⟨k1, k2, k3, k4⟩ := gaSubmit_ok hok h2 h3
  obtain ⟨w2, h1', h2', h3'⟩ := gaSubmit_spec (l := m) (on := on') (w := w1)
    (by rw [h2]; exact hon') (fun g hg => (k1 g hg).1) (by
    intro r g1 hg1 hh
    have hr := (List.getElem?_eq_some_iff.1 hg1).1
    have hg := List.getElem?_eq_getElem (l := w) (i := r) (by omega)
    obtain ⟨s, p1, _⟩ := h3 r _ hg
    rw [hg1, Option.some.injEq] at p1
    subst p1
    have := hidle _ (List.mem_of_getElem? hg) m
    simp [this, Ne.symm hlm] at hh)
  obtain ⟨k1', k2', k3', k4'⟩ := gaSubmit_ok k1 h2' h3'
  have hrun : ∀ g ∈ w2, g.running l = true := by
    intro g2 hg2
    obtain ⟨r, hr⟩ := List.mem_iff_getElem?.1 hg2
    have hrl := (List.getElem?_eq_some_iff.1 hr).1
    have hg := List.getElem?_eq_getElem (l := w1) (i := r) (by omega)
    obtain ⟨s, p1, _⟩ := h3' r _ hg
    rw [hr, Option.some.injEq] at p1
    subst p1
    simp [k2 _ (List.mem_of_getElem? hg)]
  obtain ⟨w3, e1, e2, e3, e4, e5⟩ := gaWait_ok (env := env) k1' hrun k3'
  refine ⟨w3, ?_, ?_, ?_⟩
  · unfold gaRun
    rw [runItems_cons]
    simp only [gaCall]
    rw [h1, Option.bind_some, runItems_cons]
    simp only [gaCall]
    rw [h1', Option.bind_some, runItems_cons]
    simp only [gaCall]
    rw [e1]; rfl
  · intro r hr i hi
    obtain ⟨x, q1, q2⟩ := e5 r (by omega) i hi
    rw [h2', h2] at q2
    exact ⟨x, by rw [← k4, ← k4']; exact q1, q2⟩
  · simp only [gaCall]
    unfold gaWait
    split
    · rfl
    · split
      · rfl
      · have hw3 : w3 ≠ [] := by
          intro h
          have : w.length = 0 := by rw [← h2, ← h2', ← e2, h]; rfl
          exact hne (List.length_eq_zero_iff.1 this)
        obtain ⟨g, t, rfl⟩ := List.exists_cons_of_ne_nil hw3
        obtain ⟨_, _, q, _⟩ := e4 0 g rfl
        rw [List.mapM_cons, q]
        rfl

end NP
