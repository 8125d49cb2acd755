import Verif.Sub.SpecVersion
import Verif.Common.KernelLemmas
import Mathlib.Tactic.Set
import Mathlib.Data.List.Basic
import Mathlib.Data.Nat.Init

/-! Invariants of the version tracking. -/

set_option autoImplicit false

namespace NP

open Spec

variable {D S X : Type}

/-- The particle properties of a tracker. -/
def deps (n : SubNode D S X) : List Nat := n.tracker.map Prod.fst

/-- The tracked versions are the current ones. -/
def UpTo (w : GroupWorld D S X) (n : SubNode D S X) : Prop :=
  (∀ sv ∈ n.tracker, sv.2 = (w.version sv.1).1) ∧ n.groupVersion = w.groupVersion

/-- Up to date and not to be made anew always. -/
def Clean (w : GroupWorld D S X) (n : SubNode D S X) : Prop :=
  UpTo w n ∧ ∀ s ∈ deps n, (w.version s).2 = false

theorem checkDats_fst (version : Nat → Int × Bool) (t : List (Nat × Int)) :
    (checkDats version t).1 = t.map fun sv => (sv.1, (version sv.1).1) := by
  induction t with
  | nil => rfl
  | cons a t ih =>
    obtain ⟨s, v⟩ := a
    simp only [checkDats, ih, List.map_cons]
    by_cases h : (version s).1 ≠ v
    · rw [if_pos h]
    · rw [if_neg h]; simp at h; rw [h]

theorem checkDats_snd (version : Nat → Int × Bool) (t : List (Nat × Int)) :
    (checkDats version t).2 = false ↔
      ∀ sv ∈ t, sv.2 = (version sv.1).1 ∧ (version sv.1).2 = false := by
  induction t with
  | nil => simp [checkDats]
  | cons a t ih =>
    obtain ⟨s, v⟩ := a
    simp only [checkDats, Bool.or_eq_false_iff, ih, List.mem_cons, forall_eq_or_imp,
      decide_eq_false_iff_not, not_not]
    constructor
    · rintro ⟨⟨h1, h2⟩, h3⟩; exact ⟨⟨h1.symm, h2⟩, h3⟩
    · rintro ⟨⟨h1, h2⟩, h3⟩; exact ⟨⟨h1.symm, h2⟩, h3⟩

theorem checkGroup_fst (a b : Int) : (checkGroup a b).1 = a := by
  unfold checkGroup
  by_cases h : a ≠ b
  · simp [h]
  · simp at h; simp [h]

theorem checkGroup_snd (a b : Int) : (checkGroup a b).2 = false ↔ b = a := by
  simp only [checkGroup, decide_eq_false_iff_not, not_not]
  exact eq_comm

/-- The same particles and the same sub groups, apart from refreshing. -/
structure Struct (w w' : GroupWorld D S X) : Prop where
  data : w'.data = w.data
  cells : w'.cells = w.cells
  version : w'.version = w.version
  groupVersion : w'.groupVersion = w.groupVersion
  length : w'.subs.length = w.subs.length
  node : ∀ (j : Nat) (n n' : SubNode D S X), w.subs[j]? = some n → w'.subs[j]? = some n' →
    n'.parents = n.parents ∧ n'.own = n.own ∧ n'.make = n.make ∧ n'.static = n.static ∧
    deps n' = deps n ∧ (n.static = true → n' = n)

theorem Struct.get {w w' : GroupWorld D S X} (h : Struct w w') {j : Nat} {n : SubNode D S X}
    (hn : w.subs[j]? = some n) : ∃ n', w'.subs[j]? = some n' := by
  have := (List.getElem?_eq_some_iff.1 hn).1
  exact ⟨_, List.getElem?_eq_getElem (by rw [h.length]; exact this)⟩

theorem Struct.get' {w w' : GroupWorld D S X} (h : Struct w w') {j : Nat} {n : SubNode D S X}
    (hn : w'.subs[j]? = some n) : ∃ n', w.subs[j]? = some n' := by
  have := (List.getElem?_eq_some_iff.1 hn).1
  exact ⟨_, List.getElem?_eq_getElem (by rw [← h.length]; exact this)⟩

theorem Struct.refl (w : GroupWorld D S X) : Struct w w := by
  refine ⟨rfl, rfl, rfl, rfl, rfl, ?_⟩
  intro j n n' h h'
  rw [h] at h'
  obtain rfl := Option.some.inj h'
  exact ⟨rfl, rfl, rfl, rfl, rfl, fun _ => rfl⟩

theorem Struct.trans {w w' w'' : GroupWorld D S X} (h : Struct w w') (h' : Struct w' w'') :
    Struct w w'' := by
  refine ⟨h'.data.trans h.data, h'.cells.trans h.cells, h'.version.trans h.version,
    h'.groupVersion.trans h.groupVersion, h'.length.trans h.length, ?_⟩
  intro j n n'' hn hn''
  obtain ⟨n', hn'⟩ := h.get hn
  obtain ⟨a1, a2, a3, a4, a5, a6⟩ := h.node j n n' hn hn'
  obtain ⟨b1, b2, b3, b4, b5, b6⟩ := h'.node j n' n'' hn' hn''
  refine ⟨b1.trans a1, b2.trans a2, b3.trans a3, b4.trans a4, b5.trans a5, ?_⟩
  intro hs
  have := a6 hs
  subst this
  exact b6 hs

theorem recomputed_struct {w w' : GroupWorld D S X} (h : Struct w w') {i : Nat} {x : X}
    (hr : Recomputed w i x) : Recomputed w' i x := by
  induction hr with
  | @static i n x hn hs hx =>
    obtain ⟨n', hn'⟩ := h.get hn
    have := (h.node i n n' hn hn').2.2.2.2.2 hs
    subst this
    exact .static hn' hs hx
  | @made i n run xs hn hs hl hp ih =>
    obtain ⟨n', hn'⟩ := h.get hn
    obtain ⟨a1, -, a3, a4, -, -⟩ := h.node i n n' hn hn'
    rw [← h.data, ← h.cells, ← a3]
    refine .made run xs hn' (by rw [a4, hs]) (by rw [a1, hl]) ?_
    intro k p x hk hx
    rw [a1] at hk
    exact ih k p x hk hx

/-- Only sub groups that were out of date were changed, and these are now up to date. -/
def Refreshed (w w' : GroupWorld D S X) : Prop :=
  ∀ (j : Nat) (n n' : SubNode D S X), w.subs[j]? = some n → w'.subs[j]? = some n' →
    n' = n ∨ (¬ Clean w n ∧ n.static = false ∧ UpTo w' n' ∧
      ∃ x, n'.sel = some x ∧ Recomputed w' j x)

theorem clean_congr {w w' : GroupWorld D S X} (h : Struct w w') {n : SubNode D S X} :
    Clean w' n ↔ Clean w n := by
  unfold Clean UpTo
  rw [h.version, h.groupVersion]

theorem upTo_congr {w w' : GroupWorld D S X} (h : Struct w w') {n : SubNode D S X} :
    UpTo w' n ↔ UpTo w n := by
  unfold UpTo
  rw [h.version, h.groupVersion]

theorem Refreshed.refl (w : GroupWorld D S X) : Refreshed w w := by
  intro j n n' h h'
  rw [h] at h'
  exact .inl (Option.some.inj h').symm

theorem Refreshed.trans {w w' w'' : GroupWorld D S X} (hs : Struct w w') (hs' : Struct w' w'')
    (h : Refreshed w w') (h' : Refreshed w' w'') : Refreshed w w'' := by
  intro j n n'' hn hn''
  obtain ⟨n', hn'⟩ := hs.get hn
  rcases h' j n' n'' hn' hn'' with e | ⟨b1, b2, b3, b4⟩
  · subst e
    rcases h j n n'' hn hn' with e | ⟨a1, a2, a3, x, a4, a5⟩
    · exact .inl e
    · exact .inr ⟨a1, a2, (upTo_congr hs').2 a3, x, a4, recomputed_struct hs' a5⟩
  · rcases h j n n' hn hn' with e | ⟨a1, a2, -, -⟩
    · subst e
      exact .inr ⟨fun c => b1 ((clean_congr hs).2 c), b2, b3, b4⟩
    · exact .inr ⟨a1, a2, b3, b4⟩

/-- The sub groups are well formed. -/
structure SubWF (w : GroupWorld D S X) : Prop where
  parents : ∀ (i : Nat) (n : SubNode D S X), w.subs[i]? = some n → ∀ p ∈ n.parents, p < i
  deps : ∀ (i : Nat) (n : SubNode D S X), w.subs[i]? = some n → ∀ p ∈ n.parents,
    ∀ m, w.subs[p]? = some m → ∀ s ∈ NP.deps m, s ∈ NP.deps n
  own : ∀ (i : Nat) (n : SubNode D S X), w.subs[i]? = some n → ∀ s ∈ n.own, s ∈ NP.deps n
  reads : ∀ (i : Nat) (n : SubNode D S X), w.subs[i]? = some n →
    ∀ (run : Nat) (xs : List X) (d d' : Nat → D) (c : S),
      (∀ s ∈ n.own, d s = d' s) → n.make run xs d c = n.make run xs d' c
  le : ∀ (i : Nat) (n : SubNode D S X), w.subs[i]? = some n →
    (∀ sv ∈ n.tracker, sv.2 ≤ (w.version sv.1).1) ∧ n.groupVersion ≤ w.groupVersion
  group : 1 ≤ w.groupVersion
  made : ∀ (i : Nat) (n : SubNode D S X), w.subs[i]? = some n → n.static = true →
    ∃ x, n.sel = some x

/-- A clean sub group has a selection made from the selections its parents have. -/
def MadeAt (w : GroupWorld D S X) (i : Nat) : Prop :=
  ∀ n : SubNode D S X, w.subs[i]? = some n → Clean w n →
    (∃ run xs, n.sel = some (n.make run xs w.data w.cells) ∧ parentSels w n.parents = some xs) ∧
    ∀ p ∈ n.parents, ∀ m, w.subs[p]? = some m → m.static = true ∨ Clean w m

theorem upTo_le {w : GroupWorld D S X} {n : SubNode D S X} (h : UpTo w n) :
    (∀ sv ∈ n.tracker, sv.2 ≤ (w.version sv.1).1) ∧ n.groupVersion ≤ w.groupVersion :=
  ⟨fun sv hsv => Int.le_of_eq (h.1 sv hsv), Int.le_of_eq h.2⟩

theorem SubWF.refreshed {w w' : GroupWorld D S X} (h : SubWF w) (hs : Struct w w')
    (hr : Refreshed w w') : SubWF w' := by
  have back : ∀ {i : Nat} {n' : SubNode D S X}, w'.subs[i]? = some n' → ∃ n, w.subs[i]? = some n ∧
      n'.parents = n.parents ∧ n'.own = n.own ∧ n'.make = n.make ∧ n'.static = n.static ∧
      NP.deps n' = NP.deps n ∧ (n.static = true → n' = n) := by
    intro i n' hn'
    obtain ⟨n, hn⟩ := hs.get' hn'
    exact ⟨n, hn, hs.node i n n' hn hn'⟩
  constructor
  · intro i n' hn' p hp
    obtain ⟨n, hn, a1, -⟩ := back hn'
    rw [a1] at hp
    exact h.parents i n hn p hp
  · intro i n' hn' p hp m' hm' s hsm
    obtain ⟨n, hn, a1, -, -, -, a5, -⟩ := back hn'
    obtain ⟨m, hm, -, -, -, -, b5, -⟩ := back hm'
    rw [a5]; rw [b5] at hsm; rw [a1] at hp
    exact h.deps i n hn p hp m hm s hsm
  · intro i n' hn' s hsm
    obtain ⟨n, hn, -, a2, -, -, a5, -⟩ := back hn'
    rw [a5]; rw [a2] at hsm
    exact h.own i n hn s hsm
  · intro i n' hn'
    obtain ⟨n, hn, -, a2, a3, -⟩ := back hn'
    rw [a2, a3]
    exact h.reads i n hn
  · intro i n' hn'
    obtain ⟨n, hn, -⟩ := back hn'
    rcases hr i n n' hn hn' with rfl | ⟨-, -, hu, -⟩
    · rw [hs.version, hs.groupVersion]; exact h.le i n' hn
    · exact upTo_le hu
  · rw [hs.groupVersion]; exact h.group
  · intro i n' hn' hst
    obtain ⟨n, hn, -, -, -, a4, -, a6⟩ := back hn'
    rw [a4] at hst
    rw [a6 hst]
    exact h.made i n hn hst

theorem parentSels_congr {w w' : GroupWorld D S X} {ps : List Nat}
    (h : ∀ p ∈ ps, w'.subs[p]? = w.subs[p]?) : parentSels w' ps = parentSels w ps := by
  induction ps with
  | nil => rfl
  | cons p ps ih =>
    simp only [parentSels, rd, h p List.mem_cons_self,
      ih (fun q hq => h q (List.mem_cons_of_mem _ hq))]

theorem parentSels_get {w : GroupWorld D S X} {ps : List Nat} {xs : List X}
    (h : parentSels w ps = some xs) : xs.length = ps.length ∧ ∀ (k p : Nat) (x : X),
      ps[k]? = some p → xs[k]? = some x → ∃ n, w.subs[p]? = some n ∧ n.sel = some x := by
  induction ps generalizing xs with
  | nil => simp [parentSels] at h; subst h; simp
  | cons p ps ih =>
    simp only [parentSels, rd, Option.bind_eq_some_iff] at h
    obtain ⟨n, hn, x, hx, ys, hys, e⟩ := h
    simp only [Option.some.injEq] at e
    subst e
    obtain ⟨i1, i2⟩ := ih hys
    refine ⟨by simp [i1], ?_⟩
    intro k q y hq hy
    cases k with
    | zero =>
      simp at hq hy
      subst hq hy
      exact ⟨n, hn, hx⟩
    | succ k => exact i2 k q y (by simpa using hq) (by simpa using hy)

theorem parentSels_some {w : GroupWorld D S X} {ps : List Nat}
    (h : ∀ p ∈ ps, ∃ n x, w.subs[p]? = some n ∧ n.sel = some x) : ∃ xs, parentSels w ps = some xs := by
  induction ps with
  | nil => exact ⟨[], rfl⟩
  | cons p ps ih =>
    obtain ⟨xs, hxs⟩ := ih (fun q hq => h q (List.mem_cons_of_mem _ hq))
    obtain ⟨n, x, hn, hx⟩ := h p List.mem_cons_self
    exact ⟨x :: xs, by simp [parentSels, rd, hn, hx, hxs]⟩

/-- A clean or static sub group holds a recomputed selection. -/
theorem clean_recomputed {w : GroupWorld D S X} (hwf : SubWF w) {k : Nat}
    (hm : ∀ i, i < k → MadeAt w i) : ∀ i, i < k → ∀ n, w.subs[i]? = some n →
    (n.static = true ∨ Clean w n) → ∃ x, n.sel = some x ∧ Recomputed w i x := by
  intro i
  induction i using Nat.strongRecOn with
  | _ i ih =>
    intro hi n hn hsc
    cases hst : n.static with
    | true =>
      obtain ⟨x, hx⟩ := hwf.made i n hn hst
      exact ⟨x, hx, .static hn hst hx⟩
    | false =>
      have hc : Clean w n := by
        rcases hsc with h | h
        · rw [hst] at h; cases h
        · exact h
      obtain ⟨⟨run, xs, h1, h2⟩, h3⟩ := hm i hi n hn hc
      obtain ⟨g1, g2⟩ := parentSels_get h2
      refine ⟨_, h1, .made run xs hn hst g1 ?_⟩
      intro k p x hk hx
      obtain ⟨m, hmm, hms⟩ := g2 k p x hk hx
      have hpm := List.mem_of_getElem? hk
      have hpi := hwf.parents i n hn p hpm
      obtain ⟨y, hy, hy2⟩ := ih p hpi (by omega) m hmm (h3 p hpm m hmm)
      rw [hms] at hy
      obtain rfl := Option.some.inj hy
      exact hy2

/-- Sub groups above the changed ones keep their selections right. -/
theorem madeAt_extend {w w' : GroupWorld D S X} {j : Nat} (h : MadeAt w j)
    (hs : Struct w w') (hr : Refreshed w w') (he : w'.subs[j]? = w.subs[j]?) : MadeAt w' j := by
  intro n hn hc
  rw [he] at hn
  have hc' := (clean_congr hs).1 hc
  obtain ⟨⟨run, xs, h1, h2⟩, h3⟩ := h n hn hc'
  have same : ∀ p ∈ n.parents, w'.subs[p]? = w.subs[p]? := by
    intro p hp
    cases hm : w.subs[p]? with
    | none =>
      cases hm' : w'.subs[p]? with
      | none => rfl
      | some m' =>
        obtain ⟨m, hmm⟩ := hs.get' hm'
        rw [hm] at hmm; cases hmm
    | some m =>
      obtain ⟨m', hm'⟩ := hs.get hm
      rw [hm']
      rcases hr p m m' hm hm' with rfl | ⟨a1, a2, -⟩
      · rfl
      · rcases h3 p hp m hm with h | h
        · rw [a2] at h; cases h
        · exact absurd h a1
  refine ⟨⟨run, xs, by rw [hs.data, hs.cells]; exact h1, ?_⟩, ?_⟩
  · rw [parentSels_congr same]; exact h2
  · intro p hp m hm
    rw [same p hp] at hm
    rcases h3 p hp m hm with h | h
    · exact .inl h
    · exact .inr ((clean_congr hs).2 h)

theorem getElem?_setSub (w : GroupWorld D S X) (i j : Nat) (n : SubNode D S X)
    (hi : i < w.subs.length) :
    (setSub w i n).subs[j]? = if j = i then some n else w.subs[j]? := by
  unfold setSub
  simp only [List.getElem?_set]
  by_cases h : i = j
  · subst h; simp [hi]
  · rw [if_neg h, if_neg (fun e => h e.symm)]

/-- What refreshing sub group `i` achieves. -/
structure RefreshPost (i : Nat) (w w' : GroupWorld D S X) : Prop where
  struct : Struct w w'
  refreshed : Refreshed w w'
  above : ∀ j, i < j → w'.subs[j]? = w.subs[j]?
  made : ∀ j, j ≤ i → MadeAt w' j
  ok : ∀ n, w'.subs[i]? = some n → (n.static = true ∨ UpTo w' n) ∧
    ∃ x, n.sel = some x ∧ Recomputed w' i x

theorem refresh_post {d : Nat} : ∀ {i : Nat} {w w' : GroupWorld D S X}, SubWF w →
    (∀ j, j ≤ i → MadeAt w j) → refresh d i w = some w' → RefreshPost i w w' := by
  induction d with
  | zero => intro i w w' _ _ h; simp [refresh] at h
  | succ d ih =>
    intro i w w' hwf hmade h
    unfold refresh at h
    rw [Option.bind_eq_some_iff] at h
    obtain ⟨n, hn, h⟩ := h
    change w.subs[i]? = some n at hn
    have hi : i < w.subs.length := (List.getElem?_eq_some_iff.1 hn).1
    by_cases hv : isValid w n = true
    swap
    · rw [if_neg hv] at h; cases h
    rw [if_pos hv] at h
    by_cases hst : n.static = true
    · rw [if_pos hst] at h
      obtain rfl := Option.some.inj h
      refine ⟨Struct.refl _, Refreshed.refl _, fun _ _ => rfl, hmade, ?_⟩
      intro m hm
      rw [hn] at hm
      obtain rfl := Option.some.inj hm
      exact ⟨.inl hst, clean_recomputed hwf (k := i + 1) (fun j hj => hmade j (by omega)) i
        (by omega) n hn (.inl hst)⟩
    rw [if_neg hst] at h
    have hst' : n.static = false := by simpa using hst
    dsimp only at h
    set dats := checkDats w.version n.tracker with hdats
    set grp := checkGroup w.groupVersion n.groupVersion with hgrp
    have hd1 : dats.1 = n.tracker.map fun sv => (sv.1, (w.version sv.1).1) := checkDats_fst _ _
    have hg1 : grp.1 = w.groupVersion := checkGroup_fst _ _
    by_cases hup : (dats.2 || grp.2) = true
    swap
    · -- up to date: nothing changes
      rw [if_neg hup] at h
      simp only [Bool.not_eq_true, Bool.or_eq_false_iff] at hup
      have hdd := (checkDats_snd _ _).1 hup.1
      have hgg := (checkGroup_snd _ _).1 hup.2
      have hc : Clean w n := by
        refine ⟨⟨fun sv hsv => (hdd sv hsv).1, hgg⟩, ?_⟩
        intro s hs
        obtain ⟨sv, hsv, rfl⟩ := List.mem_map.1 hs
        exact (hdd sv hsv).2
      have htr : dats.1 = n.tracker := by
        rw [hd1]
        conv_rhs => rw [← List.map_id n.tracker]
        apply List.map_congr_left
        intro sv hsv
        rw [← (hdd sv hsv).1]; rfl
      have hsame : ({ n with tracker := dats.1, groupVersion := grp.1 } : SubNode D S X) = n := by
        rw [htr, hg1, ← hgg]
      rw [hsame] at h
      have hww : setSub w i n = w := by
        unfold setSub
        have : w.subs.set i n = w.subs := by
          apply List.ext_getElem?
          intro j
          rw [List.getElem?_set]
          by_cases hij : i = j
          · subst hij; rw [if_pos rfl, if_pos hi, hn]
          · rw [if_neg hij]
        rw [this]
      rw [hww] at h
      obtain rfl := Option.some.inj h
      refine ⟨Struct.refl _, Refreshed.refl _, fun _ _ => rfl, hmade, ?_⟩
      intro m hm
      rw [hn] at hm
      obtain rfl := Option.some.inj hm
      exact ⟨.inr hc.1, clean_recomputed hwf (k := i + 1) (fun j hj => hmade j (by omega)) i
        (by omega) n hn (.inr hc)⟩
    -- out of date
    rw [if_pos hup] at h
    rw [Option.bind_eq_some_iff] at h
    obtain ⟨w2, h2, h⟩ := h
    rw [Option.bind_eq_some_iff] at h
    obtain ⟨xs, hxs, h⟩ := h
    have hnc : ¬ Clean w n := by
      rintro ⟨⟨c1, c2⟩, c3⟩
      have e1 : dats.2 = false := (checkDats_snd _ _).2 (fun sv hsv =>
        ⟨c1 sv hsv, c3 _ (List.mem_map.2 ⟨sv, hsv, rfl⟩)⟩)
      have e2 : grp.2 = false := (checkGroup_snd _ _).2 c2
      rw [e1, e2] at hup
      cases hup
    set n1 : SubNode D S X := { n with tracker := dats.1, groupVersion := grp.1 } with hn1
    set w1 := setSub w i n1 with hw1
    have hget1 : ∀ j, w1.subs[j]? = if j = i then some n1 else w.subs[j]? := fun j =>
      getElem?_setSub w i j n1 hi
    have hdeps1 : deps n1 = deps n := by
      simp only [deps, hn1, hd1, List.map_map]
      apply List.map_congr_left
      intro sv _; rfl
    have hs1 : Struct w w1 := by
      refine ⟨rfl, rfl, rfl, rfl, by simp [hw1, setSub], ?_⟩
      intro j m m' hm hm'
      rw [hget1] at hm'
      by_cases hj : j = i
      · subst hj
        rw [if_pos rfl] at hm'
        rw [hn] at hm
        obtain rfl := Option.some.inj hm
        obtain rfl := Option.some.inj hm'
        exact ⟨rfl, rfl, rfl, rfl, hdeps1, fun hh => absurd hh hst⟩
      · rw [if_neg hj, hm] at hm'
        obtain rfl := Option.some.inj hm'
        exact ⟨rfl, rfl, rfl, rfl, rfl, fun _ => rfl⟩
    have hup1 : UpTo w1 n1 := by
      refine ⟨?_, hg1⟩
      intro sv hsv
      simp only [hn1, hd1] at hsv
      obtain ⟨tv, -, rfl⟩ := List.mem_map.1 hsv
      rfl
    have hwf1 : SubWF w1 := by
      constructor
      · intro j m hm p hp
        rw [hget1] at hm
        by_cases hj : j = i
        · rw [if_pos hj] at hm
          obtain rfl := Option.some.inj hm
          subst hj
          exact hwf.parents j n hn p hp
        · rw [if_neg hj] at hm
          exact hwf.parents j m hm p hp
      · intro j m hm p hp q hq s hs
        obtain ⟨m0, hm0⟩ := hs1.get' hm
        obtain ⟨q0, hq0⟩ := hs1.get' hq
        obtain ⟨a1, -, -, -, a5, -⟩ := hs1.node j m0 m hm0 hm
        obtain ⟨-, -, -, -, b5, -⟩ := hs1.node p q0 q hq0 hq
        rw [a5]; rw [b5] at hs; rw [a1] at hp
        exact hwf.deps j m0 hm0 p hp q0 hq0 s hs
      · intro j m hm s hs
        obtain ⟨m0, hm0⟩ := hs1.get' hm
        obtain ⟨-, a2, -, -, a5, -⟩ := hs1.node j m0 m hm0 hm
        rw [a5]; rw [a2] at hs
        exact hwf.own j m0 hm0 s hs
      · intro j m hm
        obtain ⟨m0, hm0⟩ := hs1.get' hm
        obtain ⟨-, a2, a3, -, -, -⟩ := hs1.node j m0 m hm0 hm
        rw [a2, a3]
        exact hwf.reads j m0 hm0
      · intro j m hm
        rw [hget1] at hm
        by_cases hj : j = i
        · rw [if_pos hj] at hm
          obtain rfl := Option.some.inj hm
          exact upTo_le hup1
        · rw [if_neg hj] at hm
          exact hwf.le j m hm
      · exact hwf.group
      · intro j m hm hs
        rw [hget1] at hm
        by_cases hj : j = i
        · rw [if_pos hj] at hm
          obtain rfl := Option.some.inj hm
          exact absurd hs hst
        · rw [if_neg hj] at hm
          exact hwf.made j m hm hs
    have hmade1 : ∀ j, j < i → MadeAt w1 j := by
      intro j hj m hm hc
      rw [hget1, if_neg (by omega)] at hm
      have hc' : Clean w m := (clean_congr hs1).1 hc
      obtain ⟨⟨run, ys, a1, a2⟩, a3⟩ := hmade j (by omega) m hm hc'
      have hpar : ∀ p ∈ m.parents, w1.subs[p]? = w.subs[p]? := by
        intro p hp
        have := hwf.parents j m hm p hp
        rw [hget1, if_neg (by omega)]
      refine ⟨⟨run, ys, a1, ?_⟩, ?_⟩
      · rw [parentSels_congr hpar]; exact a2
      · intro p hp q hq
        rw [hpar p hp] at hq
        rcases a3 p hp q hq with h | h
        · exact .inl h
        · exact .inr ((clean_congr hs1).2 h)
    -- the parents
    obtain ⟨w2', hw2', hs2, hr2, hab2, hmade2, hok2⟩ : ∃ w2', runItems (refresh d) n.parents w1 =
        some w2' ∧ Struct w1 w2' ∧ Refreshed w1 w2' ∧ (∀ j, i ≤ j → w2'.subs[j]? = w1.subs[j]?) ∧
        (∀ j, j < i → MadeAt w2' j) ∧ (∀ p ∈ n.parents, ∀ m, w2'.subs[p]? = some m →
          (m.static = true ∨ UpTo w2' m) ∧ ∃ x, m.sel = some x ∧ Recomputed w2' p x) := by
      have key : ∀ (ps : List Nat) (v v' : GroupWorld D S X), (∀ p ∈ ps, p < i) →
          SubWF v → (∀ j, j < i → MadeAt v j) → runItems (refresh d) ps v = some v' →
          Struct v v' ∧ Refreshed v v' ∧ (∀ j, i ≤ j → v'.subs[j]? = v.subs[j]?) ∧
          (∀ j, j < i → MadeAt v' j) ∧ (∀ p ∈ ps, ∀ m, v'.subs[p]? = some m →
            (m.static = true ∨ UpTo v' m) ∧ ∃ x, m.sel = some x ∧ Recomputed v' p x) := by
        intro ps
        induction ps with
        | nil =>
          intro v v' _ _ hm hv
          obtain rfl := Option.some.inj hv
          exact ⟨Struct.refl _, Refreshed.refl _, fun _ _ => rfl, hm, by simp⟩
        | cons p ps ihp =>
          intro v v' hps hvwf hm hv
          rw [runItems_cons, Option.bind_eq_some_iff] at hv
          obtain ⟨u, hu, hv⟩ := hv
          have hpi := hps p List.mem_cons_self
          have r := ih hvwf (fun j hj => hm j (by omega)) hu
          have huwf := hvwf.refreshed r.struct r.refreshed
          have hum : ∀ j, j < i → MadeAt u j := by
            intro j hj
            by_cases hjp : j ≤ p
            · exact r.made j hjp
            · exact madeAt_extend (hm j hj) r.struct r.refreshed (r.above j (by omega))
          obtain ⟨a1, a2, a3, a4, a5⟩ := ihp u v' (fun q hq => hps q (List.mem_cons_of_mem _ hq))
            huwf hum hv
          refine ⟨r.struct.trans a1, Refreshed.trans r.struct a1 r.refreshed a2, ?_, a4, ?_⟩
          · intro j hj
            rw [a3 j hj, r.above j (by omega)]
          · intro q hq m hmq
            rcases List.mem_cons.1 hq with rfl | hq
            · obtain ⟨m0, hm0⟩ := a1.get' hmq
              obtain ⟨b1, x, b2, b3⟩ := r.ok m0 hm0
              rcases a2 q m0 m hm0 hmq with rfl | ⟨-, -, c3, c4⟩
              · refine ⟨?_, x, b2, recomputed_struct a1 b3⟩
                rcases b1 with b1 | b1
                · exact .inl b1
                · exact .inr ((upTo_congr a1).2 b1)
              · exact ⟨.inr c3, c4⟩
            · exact a5 q hq m hmq
      exact ⟨w2, h2, key n.parents w1 w2 (hwf.parents i n hn) hwf1 hmade1 h2⟩
    rw [h2] at hw2'
    obtain rfl := Option.some.inj hw2'
    have h2i : w2.subs[i]? = some n1 := by rw [hab2 i (Nat.le_refl _), hget1, if_pos rfl]
    have hi2 : i < w2.subs.length := (List.getElem?_eq_some_iff.1 h2i).1
    set n2 : SubNode D S X := { n1 with sel := some (n.make w2.runs xs w2.data w2.cells) } with hn2
    have hw' : w' = { setSub w2 i n2 with runs := w2.runs + 1 } := (Option.some.inj h).symm
    have hgetf : ∀ j, w'.subs[j]? = if j = i then some n2 else w2.subs[j]? := by
      intro j
      rw [hw']
      exact getElem?_setSub w2 i j n2 hi2
    have hs3 : Struct w2 w' := by
      refine ⟨by rw [hw']; rfl, by rw [hw']; rfl, by rw [hw']; rfl, by rw [hw']; rfl,
        by rw [hw']; simp [setSub], ?_⟩
      intro j m m' hm hm'
      rw [hgetf] at hm'
      by_cases hj : j = i
      · subst hj
        rw [if_pos rfl] at hm'
        rw [h2i] at hm
        obtain rfl := Option.some.inj hm
        obtain rfl := Option.some.inj hm'
        exact ⟨rfl, rfl, rfl, rfl, rfl, fun hh => absurd hh hst⟩
      · rw [if_neg hj, hm] at hm'
        obtain rfl := Option.some.inj hm'
        exact ⟨rfl, rfl, rfl, rfl, rfl, fun _ => rfl⟩
    have hsAll : Struct w w' := hs1.trans (hs2.trans hs3)
    obtain ⟨g1, g2⟩ := parentSels_get hxs
    have hparw' : ∀ p ∈ n.parents, w'.subs[p]? = w2.subs[p]? := by
      intro p hp
      have := hwf.parents i n hn p hp
      rw [hgetf, if_neg (by omega)]
    have hrec : Recomputed w' i (n.make w2.runs xs w2.data w2.cells) := by
      have : Recomputed w' i (n2.make w2.runs xs w'.data w'.cells) := by
        refine .made w2.runs xs (by rw [hgetf, if_pos rfl]) hst' g1 ?_
        intro k p x hk hx
        obtain ⟨m, hm, hms⟩ := g2 k p x hk hx
        obtain ⟨-, y, hy, hy2⟩ := hok2 p (List.mem_of_getElem? hk) m hm
        rw [hms] at hy
        obtain rfl := Option.some.inj hy
        exact recomputed_struct hs3 hy2
      rw [hs3.data, hs3.cells] at this
      exact this
    have hupf : UpTo w' n2 := (upTo_congr (hs2.trans hs3)).2 hup1
    refine ⟨hsAll, ?_, ?_, ?_, ?_⟩
    · intro j m m' hm hm'
      rw [hgetf] at hm'
      by_cases hj : j = i
      · subst hj
        rw [if_pos rfl] at hm'
        rw [hn] at hm
        obtain rfl := Option.some.inj hm
        obtain rfl := Option.some.inj hm'
        exact .inr ⟨hnc, hst', hupf, _, rfl, hrec⟩
      · rw [if_neg hj] at hm'
        have hm1 : w1.subs[j]? = some m := by rw [hget1, if_neg hj, hm]
        rcases hr2 j m m' hm1 hm' with e | ⟨b1, b2, b3, x, b4, b5⟩
        · exact .inl e
        · exact .inr ⟨fun c => b1 ((clean_congr hs1).2 c), b2, (upTo_congr hs3).2 b3, x, b4,
            recomputed_struct hs3 b5⟩
    · intro j hj
      rw [hgetf, if_neg (by omega), hab2 j (by omega), hget1, if_neg (by omega)]
    · intro j hj
      by_cases hji : j = i
      · subst hji
        intro m hm hc
        rw [hgetf, if_pos rfl] at hm
        obtain rfl := Option.some.inj hm
        refine ⟨⟨w2.runs, xs, ?_, ?_⟩, ?_⟩
        · rw [hs3.data, hs3.cells]
        · rw [parentSels_congr hparw']; exact hxs
        · intro p hp m hm
          rw [hparw' p hp] at hm
          obtain ⟨b1, -⟩ := hok2 p hp m hm
          rcases b1 with b1 | b1
          · exact .inl b1
          · refine .inr ⟨(upTo_congr hs3).2 b1, ?_⟩
            intro s hs
            refine hc.2 s ?_
            have hm1 := hs2.get' hm
            obtain ⟨m1, hm1⟩ := hm1
            obtain ⟨-, -, -, -, b5, -⟩ := hs2.node p m1 m hm1 hm
            rw [b5] at hs
            have := hwf1.deps j n1 (by rw [hget1, if_pos rfl]) p hp m1 hm1 s hs
            exact this
      · intro m hm hc
        rw [hgetf, if_neg hji] at hm
        have hc2 : Clean w2 m := (clean_congr hs3).1 hc
        obtain ⟨⟨run, ys, a1, a2⟩, a3⟩ := hmade2 j (by omega) m hm hc2
        have hwf2 := hwf1.refreshed hs2 hr2
        have hpar : ∀ p ∈ m.parents, w'.subs[p]? = w2.subs[p]? := by
          intro p hp
          have := hwf2.parents j m hm p hp
          rw [hgetf, if_neg (by omega)]
        refine ⟨⟨run, ys, by rw [hs3.data, hs3.cells]; exact a1, ?_⟩, ?_⟩
        · rw [parentSels_congr hpar]; exact a2
        · intro p hp q hq
          rw [hpar p hp] at hq
          rcases a3 p hp q hq with h | h
          · exact .inl h
          · exact .inr ((clean_congr hs3).2 h)
    · intro m hm
      rw [hgetf, if_pos rfl] at hm
      obtain rfl := Option.some.inj hm
      exact ⟨.inr hupf, _, rfl, hrec⟩

/-- The invariant of histories. -/
structure SubInv (w : GroupWorld D S X) : Prop where
  wf : SubWF w
  made : ∀ j, MadeAt w j

theorem refresh_inv {d i : Nat} {w w' : GroupWorld D S X} (h : SubInv w)
    (hr : refresh d i w = some w') : SubInv w' ∧ RefreshPost i w w' := by
  have r := refresh_post h.wf (fun j _ => h.made j) hr
  refine ⟨⟨h.wf.refreshed r.struct r.refreshed, ?_⟩, r⟩
  intro j
  by_cases hj : j ≤ i
  · exact r.made j hj
  · exact madeAt_extend (h.made j) r.struct r.refreshed (r.above j (by omega))

theorem subInv_init (data : Nat → D) (cells : S) :
    SubInv (GroupWorld.init data cells : GroupWorld D S X) := by
  refine ⟨?_, ?_⟩
  · constructor <;> simp [GroupWorld.init]
  · intro j n hn
    simp [GroupWorld.init] at hn

/-- Changes of data and versions, such that each property that changes has a new version or is
marked as always changing. -/
theorem subInv_data {w : GroupWorld D S X} (h : SubInv w) (data : Nat → D)
    (version : Nat → Int × Bool)
    (hle : ∀ n ∈ w.subs, ∀ s ∈ deps n, (w.version s).1 ≤ (version s).1)
    (hch : ∀ n ∈ w.subs, ∀ s ∈ deps n, (data s = w.data s ∧ version s = w.version s) ∨ (version s).2 = true ∨
      (w.version s).1 < (version s).1) :
    SubInv { w with data := data, version := version } := by
  refine ⟨?_, ?_⟩
  · obtain ⟨a1, a2, a3, a4, a5, a6, a7⟩ := h.wf
    refine ⟨a1, a2, a3, a4, ?_, a6, a7⟩
    intro i n hn
    refine ⟨fun sv hsv => Int.le_trans ((a5 i n hn).1 sv hsv)
      (hle n (List.mem_of_getElem? hn) _ (List.mem_map.2 ⟨sv, hsv, rfl⟩)), (a5 i n hn).2⟩
  · intro j n hn hc
    change w.subs[j]? = some n at hn
    have hsame : ∀ s ∈ deps n, data s = w.data s ∧ version s = w.version s := by
      intro s hs
      rcases hch n (List.mem_of_getElem? hn) s hs with hh | hh | hh
      · exact hh
      · have := hc.2 s hs
        change (version s).2 = false at this
        rw [hh] at this; cases this
      · obtain ⟨sv, hsv, rfl⟩ := List.mem_map.1 hs
        have h1 := hc.1.1 sv hsv
        change sv.2 = (version sv.1).1 at h1
        have h2 := (h.wf.le j n hn).1 sv hsv
        omega
    have hc' : Clean w n := by
      refine ⟨⟨?_, hc.1.2⟩, ?_⟩
      · intro sv hsv
        rw [← (hsame sv.1 (List.mem_map.2 ⟨sv, hsv, rfl⟩)).2]
        exact hc.1.1 sv hsv
      · intro s hs
        rw [← (hsame s hs).2]
        exact hc.2 s hs
    obtain ⟨⟨run, xs, b1, b2⟩, b3⟩ := h.made j n hn hc'
    refine ⟨⟨run, xs, ?_, ?_⟩, ?_⟩
    · rw [b1]
      congr 1
      exact (h.wf.reads j n hn run xs _ _ _ (fun s hs =>
        ((hsame s (h.wf.own j n hn s hs)).1))).symm
    · rw [← b2]; exact parentSels_congr (fun p _ => rfl)
    · intro p hp m hm
      rcases b3 p hp m hm with hh | hh
      · exact .inl hh
      · refine .inr ⟨⟨?_, hh.1.2⟩, ?_⟩
        · intro sv hsv
          have := (hsame sv.1 (h.wf.deps j n hn p hp m hm _ (List.mem_map.2 ⟨sv, hsv, rfl⟩))).2
          change sv.2 = (version sv.1).1
          rw [this]
          exact hh.1.1 sv hsv
        · intro s hs
          have := (hsame s (h.wf.deps j n hn p hp m hm _ hs)).2
          change (version s).2 = false
          rw [this]
          exact hh.2 s hs

theorem bumpGroup_lt (v : Int) : v < bumpGroup v := by
  unfold bumpGroup
  split <;> omega

theorem newTracker_spec {w : GroupWorld D S X} {parents own : List Nat} {t : List (Nat × Int)}
    (h : newTracker w parents own = some t) :
    (∀ p ∈ parents, ∃ n, w.subs[p]? = some n ∧ ∀ s ∈ deps n, s ∈ t.map Prod.fst) ∧
    (∀ s ∈ own, s ∈ t.map Prod.fst) ∧ ∀ sv ∈ t, sv.2 = 0 := by
  unfold newTracker at h
  rw [Option.bind_eq_some_iff] at h
  obtain ⟨ds, h1, h2⟩ := h
  simp only [Option.some.injEq] at h2
  subst h2
  have hmem : ∀ s, s ∈ (((ds ++ own).eraseDups).map fun s => (s, (0 : Int))).map Prod.fst ↔
      s ∈ ds ++ own := by
    intro s
    simp [List.map_map, Function.comp_def]
  refine ⟨?_, ?_, ?_⟩
  · have : ∀ (ps : List Nat) (ds : List Nat), collectM (fun p => (rd w.subs p).bind fun n =>
        some (n.tracker.map Prod.fst)) ps = some ds →
        ∀ p ∈ ps, ∃ n, w.subs[p]? = some n ∧ ∀ s ∈ deps n, s ∈ ds := by
      intro ps
      induction ps with
      | nil => simp
      | cons q ps ih =>
        intro ds hds p hp
        simp only [collectM, Option.bind_eq_some_iff, Option.some.injEq] at hds
        obtain ⟨a, ⟨n, hn, rfl⟩, b, hb, rfl⟩ := hds
        rcases List.mem_cons.1 hp with rfl | hp
        · exact ⟨n, hn, fun s hs => List.mem_append_left _ hs⟩
        · obtain ⟨m, hm, hm2⟩ := ih b hb p hp
          exact ⟨m, hm, fun s hs => List.mem_append_right _ (hm2 s hs)⟩
    intro p hp
    obtain ⟨n, hn, hn2⟩ := this parents ds h1 p hp
    exact ⟨n, hn, fun s hs => (hmem s).2 (List.mem_append_left _ (hn2 s hs))⟩
  · intro s hs
    exact (hmem s).2 (List.mem_append_right _ hs)
  · intro sv hsv
    obtain ⟨s, -, rfl⟩ := List.mem_map.1 hsv
    rfl

theorem getElem?_snoc {α : Type} {l : List α} {a b : α} {i : Nat} (h : (l ++ [a])[i]? = some b) :
    l[i]? = some b ∨ (i = l.length ∧ b = a) := by
  by_cases hi : i < l.length
  · rw [List.getElem?_append_left hi] at h; exact .inl h
  · rw [List.getElem?_append_right (by omega)] at h
    have : i - l.length = 0 := by
      have := (List.getElem?_eq_some_iff.1 h).1
      simpa using this
    rw [this] at h
    simp at h
    exact .inr ⟨by omega, h.symm⟩

theorem subInv_add {w : GroupWorld D S X} (h : SubInv w) (hv : ∀ s, 0 ≤ (w.version s).1)
    {parents own : List Nat} {make : Nat → List X → (Nat → D) → S → X} {t : List (Nat × Int)}
    (ht : newTracker w parents own = some t)
    (hm : ∀ (run : Nat) (xs : List X) (d d' : Nat → D) (c : S),
      (∀ s ∈ own, d s = d' s) → make run xs d c = make run xs d' c) :
    SubInv { w with subs := w.subs ++ [⟨parents, own, make, t, 0, false, none⟩] } := by
  obtain ⟨t1, t2, t3⟩ := newTracker_spec ht
  have hold : ∀ {p : Nat} {m : SubNode D S X}, w.subs[p]? = some m → ∀ a : SubNode D S X,
      (w.subs ++ [a])[p]? = some m := by
    intro p m hp a
    rw [List.getElem?_append_left (List.getElem?_eq_some_iff.1 hp).1]; exact hp
  refine ⟨⟨?_, ?_, ?_, ?_, ?_, h.wf.group, ?_⟩, ?_⟩
  · intro i n hn p hp
    rcases getElem?_snoc hn with hn | ⟨rfl, rfl⟩
    · exact h.wf.parents i n hn p hp
    · obtain ⟨m, hm, -⟩ := t1 p hp
      exact (List.getElem?_eq_some_iff.1 hm).1
  · intro i n hn p hp m hm s hs
    rcases getElem?_snoc hn with hn | ⟨rfl, rfl⟩
    · rcases getElem?_snoc hm with hm | ⟨rfl, rfl⟩
      · exact h.wf.deps i n hn p hp m hm s hs
      · have := h.wf.parents i n hn _ hp
        have := (List.getElem?_eq_some_iff.1 hn).1
        omega
    · obtain ⟨m', hm', hd⟩ := t1 p hp
      rw [hold hm'] at hm
      obtain rfl := Option.some.inj hm
      exact hd s hs
  · intro i n hn s hs
    rcases getElem?_snoc hn with hn | ⟨rfl, rfl⟩
    · exact h.wf.own i n hn s hs
    · exact t2 s hs
  · intro i n hn
    rcases getElem?_snoc hn with hn | ⟨rfl, rfl⟩
    · exact h.wf.reads i n hn
    · exact hm
  · intro i n hn
    rcases getElem?_snoc hn with hn | ⟨rfl, rfl⟩
    · exact h.wf.le i n hn
    · refine ⟨?_, ?_⟩
      · intro sv hsv
        rw [t3 sv hsv]; exact hv _
      · have := h.wf.group
        change (0 : Int) ≤ w.groupVersion
        omega
  · intro i n hn hs
    rcases getElem?_snoc hn with hn | ⟨rfl, rfl⟩
    · exact h.wf.made i n hn hs
    · cases hs
  · intro j n hn hc
    rcases getElem?_snoc hn with hn | ⟨rfl, rfl⟩
    · obtain ⟨⟨run, xs, b1, b2⟩, b3⟩ := h.made j n hn hc
      have hpar : ∀ p ∈ n.parents,
          (w.subs ++ [⟨parents, own, make, t, 0, false, none⟩])[p]? = w.subs[p]? := by
        intro p hp
        have := h.wf.parents j n hn p hp
        have := (List.getElem?_eq_some_iff.1 hn).1
        rw [List.getElem?_append_left (by omega)]
      refine ⟨⟨run, xs, b1, ?_⟩, ?_⟩
      · rw [← b2]; exact parentSels_congr hpar
      · intro p hp m hm
        change (w.subs ++ _)[p]? = some m at hm
        rw [hpar p hp] at hm
        exact b3 p hp m hm
    · have := hc.1.2
      have := h.wf.group
      change (0 : Int) = w.groupVersion at *
      omega

theorem subInv_change {w : GroupWorld D S X} (h : SubInv w) (data : Nat → D) (cells : S) :
    SubInv { w with data := data, cells := cells, groupVersion := bumpGroup w.groupVersion } := by
  have hlt := bumpGroup_lt w.groupVersion
  refine ⟨⟨h.wf.parents, h.wf.deps, h.wf.own, h.wf.reads, ?_, ?_, h.wf.made⟩, ?_⟩
  · intro i n hn
    have := h.wf.le i n hn
    refine ⟨this.1, ?_⟩
    change n.groupVersion ≤ bumpGroup w.groupVersion
    omega
  · have := h.wf.group
    change 1 ≤ bumpGroup w.groupVersion
    omega
  · intro j n hn hc
    have h1 := hc.1.2
    have h2 := (h.wf.le j n hn).2
    change n.groupVersion = bumpGroup w.groupVersion at h1
    omega

theorem subInv_static {w : GroupWorld D S X} (h : SubInv w) {i : Nat} {n : SubNode D S X}
    (hn : w.subs[i]? = some n) (b : Bool) (hx : ∃ x, n.sel = some x)
    (hb : b = false → ∀ m ∈ w.subs, i ∉ m.parents) :
    SubInv (setSub w i { n with static := b }) := by
  have hi := (List.getElem?_eq_some_iff.1 hn).1
  have hget := fun j => getElem?_setSub w i j { n with static := b } hi
  -- every sub group is as before apart from the flag
  have hback : ∀ {j : Nat} {m : SubNode D S X}, (setSub w i { n with static := b }).subs[j]? = some m →
      ∃ m0, w.subs[j]? = some m0 ∧ m.parents = m0.parents ∧ m.own = m0.own ∧ m.make = m0.make ∧
        m.tracker = m0.tracker ∧ m.groupVersion = m0.groupVersion ∧ m.sel = m0.sel ∧
        (j ≠ i → m = m0) := by
    intro j m hm
    rw [hget] at hm
    by_cases hj : j = i
    · rw [if_pos hj] at hm
      obtain rfl := Option.some.inj hm
      subst hj
      exact ⟨n, hn, rfl, rfl, rfl, rfl, rfl, rfl, fun hh => absurd rfl hh⟩
    · rw [if_neg hj] at hm
      exact ⟨m, hm, rfl, rfl, rfl, rfl, rfl, rfl, fun _ => rfl⟩
  refine ⟨⟨?_, ?_, ?_, ?_, ?_, h.wf.group, ?_⟩, ?_⟩
  · intro j m hm p hp
    obtain ⟨m0, hm0, a1, -⟩ := hback hm
    rw [a1] at hp
    exact h.wf.parents j m0 hm0 p hp
  · intro j m hm p hp q hq s hs
    obtain ⟨m0, hm0, a1, -, -, a4, -⟩ := hback hm
    obtain ⟨q0, hq0, -, -, -, b4, -⟩ := hback hq
    unfold deps at hs ⊢
    rw [a4]; rw [b4] at hs; rw [a1] at hp
    exact h.wf.deps j m0 hm0 p hp q0 hq0 s hs
  · intro j m hm s hs
    obtain ⟨m0, hm0, -, a2, -, a4, -⟩ := hback hm
    unfold deps
    rw [a4]; rw [a2] at hs
    exact h.wf.own j m0 hm0 s hs
  · intro j m hm
    obtain ⟨m0, hm0, -, a2, a3, -⟩ := hback hm
    rw [a2, a3]
    exact h.wf.reads j m0 hm0
  · intro j m hm
    obtain ⟨m0, hm0, -, -, -, a4, a5, -⟩ := hback hm
    rw [a4, a5]
    exact h.wf.le j m0 hm0
  · intro j m hm hs
    by_cases hj : j = i
    · subst hj
      rw [hget, if_pos rfl] at hm
      obtain rfl := Option.some.inj hm
      exact hx
    · rw [hget, if_neg hj] at hm
      exact h.wf.made j m hm hs
  · intro j m hm hc
    obtain ⟨m0, hm0, a1, a2, a3, a4, a5, a6, a7⟩ := hback hm
    have hc0 : Clean w m0 := by
      refine ⟨⟨?_, ?_⟩, ?_⟩
      · rw [← a4]; exact hc.1.1
      · rw [← a5]; exact hc.1.2
      · unfold deps; rw [← a4]; exact hc.2
    obtain ⟨⟨run, xs, b1, b2⟩, b3⟩ := h.made j m0 hm0 hc0
    refine ⟨⟨run, xs, ?_, ?_⟩, ?_⟩
    · rw [a6, a3]; exact b1
    · rw [a1, ← b2]
      clear b2 b3 a1
      generalize m0.parents = ps
      induction ps with
      | nil => rfl
      | cons p ps ih =>
        simp only [parentSels, rd, ih]
        rw [hget]
        by_cases hp : p = i
        · rw [if_pos hp, hp, hn]; rfl
        · rw [if_neg hp]
    · intro p hp q hq
      rw [a1] at hp
      obtain ⟨q0, hq0, -, -, -, c4, c5, -, c7⟩ := hback hq
      rcases b3 p hp q0 hq0 with hh | hh
      · by_cases hpi : p = i
        · cases b with
          | true =>
            subst hpi
            rw [hget, if_pos rfl] at hq
            obtain rfl := Option.some.inj hq
            exact .inl rfl
          | false =>
            exact absurd (hpi ▸ hp) (hb rfl m0 (List.mem_of_getElem? hm0))
        · rw [c7 hpi]; exact .inl hh
      · refine .inr ⟨⟨?_, ?_⟩, ?_⟩
        · rw [c4]; exact hh.1.1
        · rw [c5]; exact hh.1.2
        · unfold deps; rw [c4]; exact hh.2

theorem update_cases {α : Type} (f : Nat → α) (s : Nat) (v : α) (t : Nat) :
    (t = s ∧ Function.update f s v t = v) ∨ (t ≠ s ∧ Function.update f s v t = f t) := by
  by_cases h : t = s
  · subst h; exact .inl ⟨rfl, Function.update_self _ _ _⟩
  · exact .inr ⟨h, Function.update_of_ne h _ _⟩

theorem subInv_step {live : Nat → Bool} {w w' : GroupWorld D S X} (h : SubInv w)
    (hv : ∀ s, 0 ≤ (w.version s).1) (hl : ∀ s, live s = true → (w.version s).2 = true)
    (op : SubOp D S X) (ha : OpAllowed live w op) (hs : stepSub op w = some w') :
    SubInv w' ∧ ∀ s, 0 ≤ (w'.version s).1 := by
  cases op with
  | add parents own make =>
    simp only [stepSub, Option.bind_eq_some_iff] at hs
    obtain ⟨t, ht, e⟩ := hs
    obtain rfl := Option.some.inj e
    exact ⟨subInv_add h hv ht ha, hv⟩
  | write s v =>
    obtain rfl := Option.some.inj hs
    refine ⟨subInv_data h _ _ ?_ ?_, ?_⟩
    · intro _ _ t _
      rcases update_cases w.version s (bumpVersion (w.version s) 0) t with ⟨rfl, e⟩ | ⟨-, e⟩
      · rw [e]; simp only [bumpVersion]; omega
      · rw [e]; exact Int.le_refl _
    · intro _ _ t _
      rcases update_cases w.version s (bumpVersion (w.version s) 0) t with ⟨rfl, e⟩ | ⟨ne, e⟩
      · right; right; rw [e]; simp only [bumpVersion]; omega
      · left; exact ⟨Function.update_of_ne ne _ _, e⟩
    · intro t
      rcases update_cases w.version s (bumpVersion (w.version s) 0) t with ⟨rfl, e⟩ | ⟨-, e⟩
      · dsimp only; rw [e]; have := hv t; simp only [bumpVersion]; omega
      · dsimp only; rw [e]; exact hv t
  | takePointer s =>
    obtain rfl := Option.some.inj hs
    refine ⟨subInv_data h w.data _ ?_ ?_, ?_⟩
    · intro _ _ t _
      rcases update_cases w.version s (bumpVersion (w.version s) 1) t with ⟨rfl, e⟩ | ⟨-, e⟩
      · rw [e]; simp only [bumpVersion]; omega
      · rw [e]; exact Int.le_refl _
    · intro _ _ t _
      rcases update_cases w.version s (bumpVersion (w.version s) 1) t with ⟨rfl, e⟩ | ⟨ne, e⟩
      · right; right; rw [e]; simp only [bumpVersion]; omega
      · left; exact ⟨rfl, e⟩
    · intro t
      rcases update_cases w.version s (bumpVersion (w.version s) 1) t with ⟨rfl, e⟩ | ⟨-, e⟩
      · dsimp only; rw [e]; have := hv t; simp only [bumpVersion]; omega
      · dsimp only; rw [e]; exact hv t
  | poke s v =>
    obtain rfl := Option.some.inj hs
    replace ha := hl s ha
    refine ⟨subInv_data h _ w.version (fun _ _ _ _ => Int.le_refl _) ?_, hv⟩
    intro _ _ t _
    by_cases ht : t = s
    · subst ht; exact .inr (.inl ha)
    · exact .inl ⟨Function.update_of_ne ht _ _, rfl⟩
  | replace s v =>
    obtain rfl := Option.some.inj hs
    have hne : ∀ n ∈ w.subs, ∀ t ∈ deps n, t ≠ s := by
      rintro n hn t ht rfl
      exact ha n hn ht
    refine ⟨subInv_data h _ _ ?_ ?_, ?_⟩
    · intro n hn t ht
      rw [Function.update_of_ne (hne n hn t ht)]; exact Int.le_refl _
    · intro n hn t ht
      exact .inl ⟨Function.update_of_ne (hne n hn t ht) _ _,
        Function.update_of_ne (hne n hn t ht) _ _⟩
    · intro t
      dsimp only
      rcases update_cases w.version s (1, false) t with ⟨rfl, e⟩ | ⟨-, e⟩
      · rw [e]; decide
      · rw [e]; exact hv t
  | change data cells =>
    obtain rfl := Option.some.inj hs
    exact ⟨subInv_change h data cells, hv⟩
  | use i =>
    obtain ⟨a, b⟩ := refresh_inv h hs
    exact ⟨a, by rw [b.struct.version]; exact hv⟩
  | setStatic i b =>
    simp only [stepSub, Option.bind_eq_some_iff] at hs
    obtain ⟨n, hn, hs⟩ := hs
    by_cases hb : n.static = b
    · rw [if_pos hb] at hs
      obtain rfl := Option.some.inj hs
      exact ⟨h, hv⟩
    · rw [if_neg hb] at hs
      cases b with
      | true =>
        simp only [if_true, Option.bind_eq_some_iff] at hs
        obtain ⟨w1, h1, n1, hn1, e⟩ := hs
        obtain rfl := Option.some.inj e
        obtain ⟨a, r⟩ := refresh_inv h h1
        obtain ⟨-, x, hx, -⟩ := r.ok n1 hn1
        refine ⟨subInv_static a hn1 true ⟨x, hx⟩ (by simp), ?_⟩
        change ∀ s, 0 ≤ (w1.version s).1
        rw [r.struct.version]; exact hv
      | false =>
        simp only [Bool.false_eq_true, if_false, Option.bind_some, Option.bind_eq_some_iff] at hs
        obtain ⟨n1, hn1, e⟩ := hs
        obtain rfl := Option.some.inj e
        change w.subs[i]? = some n at hn
        change w.subs[i]? = some n1 at hn1
        rw [hn] at hn1
        obtain rfl := Option.some.inj hn1
        refine ⟨subInv_static h hn false (h.wf.made i n hn (by simpa using hb)) (fun _ => ha), hv⟩

theorem live_step {live : Nat → Bool} {w w' : GroupWorld D S X} (h : SubInv w)
    (hl : ∀ s, live s = true → (w.version s).2 = true)
    (op : SubOp D S X) (hs : stepSub op w = some w') :
    ∀ s, livePointers live op s = true → (w'.version s).2 = true := by
  intro t ht
  cases op with
  | add parents own make =>
    simp only [stepSub, Option.bind_eq_some_iff] at hs
    obtain ⟨_, -, e⟩ := hs
    obtain rfl := Option.some.inj e
    exact hl t ht
  | write s v =>
    obtain rfl := Option.some.inj hs
    simp only [livePointers] at ht
    by_cases hts : t = s
    · rw [if_pos hts] at ht; cases ht
    · rw [if_neg hts] at ht
      dsimp only
      rw [Function.update_of_ne hts]; exact hl t ht
  | takePointer s =>
    obtain rfl := Option.some.inj hs
    simp only [livePointers] at ht
    dsimp only
    by_cases hts : t = s
    · subst hts; rw [Function.update_self]; rfl
    · rw [if_neg hts] at ht
      rw [Function.update_of_ne hts]; exact hl t ht
  | poke s v => obtain rfl := Option.some.inj hs; exact hl t ht
  | replace s v =>
    obtain rfl := Option.some.inj hs
    simp only [livePointers] at ht
    by_cases hts : t = s
    · rw [if_pos hts] at ht; cases ht
    · rw [if_neg hts] at ht
      dsimp only
      rw [Function.update_of_ne hts]; exact hl t ht
  | change data cells => obtain rfl := Option.some.inj hs; exact hl t ht
  | use i =>
    obtain ⟨-, b⟩ := refresh_inv h hs
    rw [b.struct.version]; exact hl t ht
  | setStatic i b =>
    simp only [stepSub, Option.bind_eq_some_iff] at hs
    obtain ⟨n, hn, hs⟩ := hs
    by_cases hb : n.static = b
    · rw [if_pos hb] at hs
      obtain rfl := Option.some.inj hs
      exact hl t ht
    · rw [if_neg hb] at hs
      cases b with
      | true =>
        simp only [if_true, Option.bind_eq_some_iff] at hs
        obtain ⟨w1, h1, n1, hn1, e⟩ := hs
        obtain rfl := Option.some.inj e
        obtain ⟨-, r⟩ := refresh_inv h h1
        change (w1.version t).2 = true
        rw [r.struct.version]; exact hl t ht
      | false =>
        simp only [Bool.false_eq_true, if_false, Option.bind_some, Option.bind_eq_some_iff] at hs
        obtain ⟨n1, hn1, e⟩ := hs
        obtain rfl := Option.some.inj e
        exact hl t ht

theorem run_inv {live : Nat → Bool} {w : GroupWorld D S X} (h : SubRun live w) :
    SubInv w ∧ (∀ s, 0 ≤ (w.version s).1) ∧ ∀ s, live s = true → (w.version s).2 = true := by
  induction h with
  | init data cells => exact ⟨subInv_init data cells, by simp [GroupWorld.init], by simp⟩
  | step op _ ha hs ih =>
    obtain ⟨a, b⟩ := subInv_step ih.1 ih.2.1 ih.2.2 op ha hs
    exact ⟨a, b, live_step ih.1 ih.2.2 op hs⟩

theorem history_inv {w : GroupWorld D S X} (h : SubHistory w) :
    SubInv w ∧ ∀ s, 0 ≤ (w.version s).1 := by
  obtain ⟨live, h⟩ := h
  exact ⟨(run_inv h).1, (run_inv h).2.1⟩

/-- What is needed for refreshing to succeed without static sub groups. -/
def CanRefresh (k : Nat) (w : GroupWorld D S X) : Prop :=
  ∀ (j : Nat) (n : SubNode D S X), j < k → w.subs[j]? = some n →
    (∀ p ∈ n.parents, p < j) ∧ n.static = false ∧ (Clean w n → ∃ x, n.sel = some x)

/-- Refreshing keeps versions and never loses a selection. -/
structure Kept (i : Nat) (w w' : GroupWorld D S X) : Prop where
  version : w'.version = w.version
  groupVersion : w'.groupVersion = w.groupVersion
  length : w'.subs.length = w.subs.length
  above : ∀ j, i < j → w'.subs[j]? = w.subs[j]?
  sel : ∀ (j : Nat) (n n' : SubNode D S X), w.subs[j]? = some n → w'.subs[j]? = some n' →
    (∃ x, n.sel = some x) → ∃ x, n'.sel = some x

theorem refresh_total {d : Nat} : ∀ {i : Nat} {w : GroupWorld D S X}, CanRefresh (i + 1) w →
    i < d → i < w.subs.length → ∃ w', refresh d i w = some w' ∧ CanRefresh (i + 1) w' ∧
      Kept i w w' ∧ ∃ n x, w'.subs[i]? = some n ∧ n.sel = some x := by
  induction d with
  | zero => intro i w _ h; omega
  | succ d ih =>
    intro i w hc hid hi
    obtain ⟨n, hn⟩ : ∃ n, w.subs[i]? = some n := ⟨_, List.getElem?_eq_getElem hi⟩
    obtain ⟨c1, c2, c3⟩ := hc i n (by omega) hn
    have hv : isValid w n = true := by simp [isValid, c2]
    unfold refresh
    simp only [rd, hn, Option.bind_some, hv, if_true, c2, Bool.false_eq_true, if_false]
    set dats := checkDats w.version n.tracker with hdats
    set grp := checkGroup w.groupVersion n.groupVersion with hgrp
    have hd1 : dats.1 = n.tracker.map fun sv => (sv.1, (w.version sv.1).1) := checkDats_fst _ _
    have hg1 : grp.1 = w.groupVersion := checkGroup_fst _ _
    set n1 : SubNode D S X := { n with tracker := dats.1, groupVersion := grp.1 } with hn1
    have hn1' : ({ parents := n.parents, own := n.own, make := n.make, tracker := dats.1, groupVersion := grp.1, static := false, sel := n.sel } : SubNode D S X) = n1 := by
      rw [hn1, ← c2]
    rw [hn1']
    set w1 := setSub w i n1 with hw1
    have hget1 : ∀ j, w1.subs[j]? = if j = i then some n1 else w.subs[j]? := fun j =>
      getElem?_setSub w i j n1 hi
    have hc1 : CanRefresh i w1 := by
      intro j m hj hm
      rw [hget1, if_neg (by omega)] at hm
      exact hc j m (by omega) hm
    have hlen1 : w1.subs.length = w.subs.length := by simp [hw1, setSub]
    by_cases hup : (dats.2 || grp.2) = true
    · rw [if_pos hup]
      have key : ∀ (ps : List Nat) (v : GroupWorld D S X), (∀ p ∈ ps, p < i) → CanRefresh i v →
          i < v.subs.length → ∃ v', runItems (refresh d) ps v = some v' ∧ CanRefresh i v' ∧
            v'.version = v.version ∧ v'.groupVersion = v.groupVersion ∧
            v'.subs.length = v.subs.length ∧ (∀ j, i ≤ j → v'.subs[j]? = v.subs[j]?) ∧
            (∀ (j : Nat) (n n' : SubNode D S X), v.subs[j]? = some n → v'.subs[j]? = some n' →
              (∃ x, n.sel = some x) → ∃ x, n'.sel = some x) ∧
            ∀ p ∈ ps, ∃ n x, v'.subs[p]? = some n ∧ n.sel = some x := by
        intro ps
        induction ps with
        | nil =>
          intro v _ hcv _
          refine ⟨v, rfl, hcv, rfl, rfl, rfl, fun _ _ => rfl, ?_, by simp⟩
          intro j a b ha hb hx
          rw [ha] at hb
          obtain rfl := Option.some.inj hb
          exact hx
        | cons p ps ihp =>
          intro v hps hcv hiv
          have hp := hps p List.mem_cons_self
          obtain ⟨u, hu, hcu, ku, m, x, hm, hx⟩ := ih (i := p) (w := v)
            (fun j a hj ha => hcv j a (by omega) ha) (by omega) (by omega)
          have hcu' : CanRefresh i u := by
            intro j a hj ha
            by_cases hjp : j < p + 1
            · exact hcu j a hjp ha
            · rw [ku.above j (by omega)] at ha
              obtain ⟨e1, e2, e3⟩ := hcv j a hj ha
              refine ⟨e1, e2, fun hcl => e3 ?_⟩
              unfold Clean UpTo at hcl ⊢
              rw [ku.version, ku.groupVersion] at hcl
              exact hcl
          obtain ⟨v', h1, h2, h3, h4, h5, h6, h7, h8⟩ := ihp u
            (fun q hq => hps q (List.mem_cons_of_mem _ hq)) hcu' (by rw [ku.length]; exact hiv)
          refine ⟨v', by rw [runItems_cons, hu]; exact h1, h2, h3.trans ku.version,
            h4.trans ku.groupVersion, h5.trans ku.length, ?_, ?_, ?_⟩
          · intro j hj
            rw [h6 j hj, ku.above j (by omega)]
          · intro j a b ha hb hx
            obtain ⟨c, hcc⟩ : ∃ c, u.subs[j]? = some c := ⟨_, List.getElem?_eq_getElem (by
              rw [ku.length]; exact (List.getElem?_eq_some_iff.1 ha).1)⟩
            exact h7 j c b hcc hb (ku.sel j a c ha hcc hx)
          · intro q hq
            rcases List.mem_cons.1 hq with rfl | hq
            · obtain ⟨b, hb⟩ : ∃ b, v'.subs[q]? = some b := ⟨_, List.getElem?_eq_getElem (by
                rw [h5]; exact (List.getElem?_eq_some_iff.1 hm).1)⟩
              obtain ⟨y, hy⟩ := h7 q m b hm hb ⟨x, hx⟩
              exact ⟨b, y, hb, hy⟩
            · exact h8 q hq
      obtain ⟨w2, h1, h2, h3, h4, h5, h6, h7, h8⟩ := key n.parents w1 c1 hc1 (by omega)
      obtain ⟨xs, hxs⟩ := parentSels_some h8
      rw [h1]
      simp only [Option.bind_some, hxs]
      have hi2 : i < w2.subs.length := by omega
      refine ⟨_, rfl, ?_, ?_, ?_⟩
      · intro j m hj hm
        have hm' := (getElem?_setSub w2 i j _ hi2).symm.trans hm
        by_cases hji : j = i
        · rw [if_pos hji] at hm'
          obtain rfl := Option.some.inj hm'
          subst hji
          exact ⟨c1, rfl, fun _ => ⟨_, rfl⟩⟩
        · rw [if_neg hji] at hm'
          exact h2 j m (by omega) hm'
      · refine ⟨h3, h4, ?_, ?_, ?_⟩
        · simp [setSub, h5, hlen1]
        · intro j hj
          refine (getElem?_setSub w2 i j _ hi2).trans ?_
          rw [if_neg (by omega), h6 j (by omega), hget1, if_neg (by omega)]
        · intro j a b ha hb hx
          have hb' := (getElem?_setSub w2 i j _ hi2).symm.trans hb
          by_cases hji : j = i
          · rw [if_pos hji] at hb'
            obtain rfl := Option.some.inj hb'
            exact ⟨_, rfl⟩
          · rw [if_neg hji] at hb'
            exact h7 j a b (by rw [hget1, if_neg hji]; exact ha) hb' hx
      · exact ⟨_, _, (getElem?_setSub w2 i i _ hi2).trans (if_pos rfl), rfl⟩
    · rw [if_neg hup]
      simp only [Bool.not_eq_true, Bool.or_eq_false_iff] at hup
      have hdd := (checkDats_snd _ _).1 hup.1
      have hgg := (checkGroup_snd _ _).1 hup.2
      have hcl : Clean w n := by
        refine ⟨⟨fun sv hsv => (hdd sv hsv).1, hgg⟩, ?_⟩
        intro s hs
        obtain ⟨sv, hsv, rfl⟩ := List.mem_map.1 hs
        exact (hdd sv hsv).2
      obtain ⟨x, hx⟩ := c3 hcl
      refine ⟨w1, rfl, ?_, ⟨rfl, rfl, hlen1, ?_, ?_⟩, n1, x, by rw [hget1, if_pos rfl], hx⟩
      · intro j m hj hm
        by_cases hji : j = i
        · rw [hget1, if_pos hji] at hm
          obtain rfl := Option.some.inj hm
          subst hji
          exact ⟨c1, c2, fun _ => ⟨x, hx⟩⟩
        · exact hc1 j m (by omega) hm
      · intro j hj
        rw [hget1, if_neg (by omega)]
      · intro j a b ha hb hx'
        rw [hget1] at hb
        by_cases hji : j = i
        · rw [if_pos hji] at hb
          obtain rfl := Option.some.inj hb
          exact ⟨x, hx⟩
        · rw [if_neg hji, ha] at hb
          obtain rfl := Option.some.inj hb
          exact hx'

theorem canRefresh_of {w : GroupWorld D S X} (h : SubInv w)
    (hs : ∀ n ∈ w.subs, n.static = false) (k : Nat) : CanRefresh k w := by
  intro j n _ hn
  refine ⟨h.wf.parents j n hn, hs n (List.mem_of_getElem? hn), fun hc => ?_⟩
  obtain ⟨⟨run, xs, h1, -⟩, -⟩ := h.made j n hn hc
  exact ⟨_, h1⟩

end NP
