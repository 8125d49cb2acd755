import Verif.Basics.SpecProfile
import Mathlib.Algebra.Order.Field.Rat
import Mathlib.Algebra.BigOperators.Group.List.Basic
import Mathlib.Tactic.Ring

/-!
# Lemmas on profiling
-/

set_option autoImplicit false

namespace NP
open NP.Spec

theorem profStep_enabled {s s' : ProfUse} {t : Int} {o : ProfOp} (h : s.step t o = some s') :
    s'.prof.enabled = enabledAfter s.prof.enabled o := by
  cases o <;> simp only [ProfUse.step, Option.some.injEq, Option.bind_eq_some_iff] at h
  case stop idx =>
    obtain ⟨r, -, ⟨p, r'⟩, h2, rfl⟩ := h
    unfold Prof.endRegion at h2
    split at h2
    · simp only [Option.bind_eq_some_iff, Option.some.injEq, Prod.mk.injEq] at h2
      obtain ⟨q, -, rfl, -⟩ := h2
      rfl
    · simp only [Option.some.injEq, Prod.mk.injEq] at h2
      rw [← h2.1]; rfl
  all_goals subst h
  all_goals simp only [enabledAfter, Prof.set, Prof.inc, Prof.event, Prof.reset, Prof.putEntry]
  all_goals split <;> rfl

theorem profStep_events {s s' : ProfUse} {t : Int} {o : ProfOp} (h : s.step t o = some s') :
    s'.prof.events = s.prof.events ++ (if s.prof.enabled then [(t, o)] else []).filterMap eventOf := by
  cases o <;> simp only [ProfUse.step, Option.some.injEq, Option.bind_eq_some_iff] at h
  case stop idx =>
    obtain ⟨r, -, ⟨p, r'⟩, h2, rfl⟩ := h
    unfold Prof.endRegion at h2
    split at h2
    · rename_i he
      simp only [Option.bind_eq_some_iff, Option.some.injEq, Prod.mk.injEq] at h2
      obtain ⟨q, -, rfl, -⟩ := h2
      simp [he, eventOf]
    · rename_i he
      simp only [Option.some.injEq, Prod.mk.injEq] at h2
      rw [← h2.1]; simp [he]
  all_goals subst h
  all_goals cases he : s.prof.enabled <;>
    simp [Prof.set, Prof.inc, Prof.event, Prof.reset, Prof.putEntry, eventOf, he]

theorem profStep_regions {s s' : ProfUse} {t : Int} {o : ProfOp} (h : s.step t o = some s') (hr : o ≠ .reset) :
    s'.prof.regions.map (·.tEnd) =
      s.prof.regions.map (·.tEnd) ++ (if s.prof.enabled then [(t, o)] else []).filterMap stopOf := by
  cases o <;> simp only [ProfUse.step, Option.some.injEq, Option.bind_eq_some_iff] at h
  case stop idx =>
    obtain ⟨r, -, ⟨p, r'⟩, h2, rfl⟩ := h
    unfold Prof.endRegion at h2
    split at h2
    · rename_i he
      simp only [Option.bind_eq_some_iff, Option.some.injEq, Prod.mk.injEq] at h2
      obtain ⟨q, -, rfl, -⟩ := h2
      simp [he, stopOf]
    · rename_i he
      simp only [Option.some.injEq, Prod.mk.injEq] at h2
      rw [← h2.1]; simp [he]
  case reset => exact absurd rfl hr
  all_goals subst h
  all_goals cases he : s.prof.enabled <;>
    simp [Prof.set, Prof.inc, Prof.event, Prof.putEntry, stopOf, he]

theorem profStep_entry {s s' : ProfUse} {t : Int} {o : ProfOp} (h : s.step t o = some s') (k1 k2 : Nat)
    (hr : ¬ overwrites k1 k2 o) :
    s'.prof.ints k1 k2 = s.prof.ints k1 k2 + ((if s.prof.enabled then [(t, o)] else []).map fun o => (incOf k1 k2 o).1).sum ∧
    s'.prof.reals k1 k2 =
      s.prof.reals k1 k2 + ((if s.prof.enabled then [(t, o)] else []).map fun o => (incOf k1 k2 o).2).sum := by
  cases o <;> simp only [ProfUse.step, Option.some.injEq, Option.bind_eq_some_iff] at h
  case stop idx =>
    obtain ⟨r, -, ⟨p, r'⟩, h2, rfl⟩ := h
    unfold Prof.endRegion at h2
    split at h2
    · rename_i he
      simp only [Option.bind_eq_some_iff, Option.some.injEq, Prod.mk.injEq] at h2
      obtain ⟨q, -, rfl, -⟩ := h2
      simp [he, incOf]
    · rename_i he
      simp only [Option.some.injEq, Prod.mk.injEq] at h2
      rw [← h2.1]; simp [he]
  case reset => exact absurd trivial hr
  case set a b v r =>
    subst h
    have hne : ¬ (k1 = a ∧ k2 = b) := fun e => hr ⟨e.1.symm, e.2.symm⟩
    cases he : s.prof.enabled <;> simp [Prof.set, Prof.putEntry, incOf, he, hne]
  case inc a b v r =>
    subst h
    by_cases e : k1 = a ∧ k2 = b
    · obtain ⟨rfl, rfl⟩ := e
      cases he : s.prof.enabled <;> simp [Prof.inc, Prof.putEntry, incOf, he]
    · have e' : ¬ (a = k1 ∧ b = k2) := fun x => e ⟨x.1.symm, x.2.symm⟩
      cases he : s.prof.enabled <;> simp [Prof.inc, Prof.putEntry, incOf, he, e, e']
  all_goals subst h
  all_goals cases he : s.prof.enabled <;> simp [Prof.event, incOf, he]

theorem profStep_none (s : ProfUse) (t : Int) (o : ProfOp) :
    s.step t o = none ↔ ∃ idx, o = .stop idx ∧
      (s.opened[idx]? = none ∨ (s.prof.enabled = true ∧ s.opened[idx]? = some none)) := by
  cases o
  case stop idx =>
    cases h : s.opened[idx]? with
    | none => exact iff_of_true (by simp [ProfUse.step, h]) ⟨idx, rfl, Or.inl h⟩
    | some r =>
      cases he : s.prof.enabled <;> cases r
      case true.none => exact iff_of_true (by simp [ProfUse.step, h, Prof.endRegion, he]) ⟨idx, rfl, Or.inr ⟨rfl, h⟩⟩
      all_goals
        refine iff_of_false (by simp [ProfUse.step, h, Prof.endRegion, he]) ?_
        rintro ⟨i, e, h'⟩
        cases e
        rw [h] at h'
        simp at h'
  all_goals
    refine iff_of_false (by simp [ProfUse.step]) ?_
    rintro ⟨i, e, -⟩
    cases e

/-- Where regions come from. -/
def ProfOrigin (done : List (Int × ProfOp)) (s : ProfUse) : Prop :=
  (∀ r, some r ∈ s.opened → ∃ pre post, done = pre ++ (r.tStart, .start r.key1 r.key2 r.level) :: post) ∧
  (∀ r ∈ s.prof.regions, ∃ pre mid post idx,
    done = pre ++ (r.tStart, .start r.key1 r.key2 r.level) :: mid ++ (r.tEnd, .stop idx) :: post)

theorem profStep_origin {done : List (Int × ProfOp)} {s s' : ProfUse} {t : Int} {o : ProfOp} (hi : ProfOrigin done s)
    (h : s.step t o = some s') : ProfOrigin (done ++ [(t, o)]) s' := by
  obtain ⟨i1, i2⟩ := hi
  have j1 : ∀ r, some r ∈ s.opened →
      ∃ pre post, done ++ [(t, o)] = pre ++ (r.tStart, .start r.key1 r.key2 r.level) :: post := by
    intro r hr
    obtain ⟨pre, post, e⟩ := i1 r hr
    exact ⟨pre, post ++ [(t, o)], by simp [e]⟩
  have j2 : ∀ r ∈ s.prof.regions, ∃ pre mid post idx, done ++ [(t, o)] =
      pre ++ (r.tStart, .start r.key1 r.key2 r.level) :: mid ++ (r.tEnd, .stop idx) :: post := by
    intro r hr
    obtain ⟨pre, mid, post, idx, e⟩ := i2 r hr
    exact ⟨pre, mid, post ++ [(t, o)], idx, by simp [e]⟩
  cases o <;> simp only [ProfUse.step, Option.some.injEq, Option.bind_eq_some_iff] at h
  case stop idx =>
    obtain ⟨r, h1, ⟨p, r'⟩, h2, rfl⟩ := h
    have hmem := List.mem_of_getElem? h1
    unfold Prof.endRegion at h2
    split at h2
    · simp only [Option.bind_eq_some_iff, Option.some.injEq, Prod.mk.injEq] at h2
      obtain ⟨q, rfl, rfl, rfl⟩ := h2
      refine ⟨fun x hx => ?_, fun x hx => ?_⟩
      · rcases List.mem_or_eq_of_mem_set hx with hx | hx
        · exact j1 x hx
        · rw [Option.some.injEq] at hx
          subst hx
          exact j1 q hmem
      · rcases List.mem_append.mp hx with hx | hx
        · exact j2 x hx
        · rw [List.mem_singleton] at hx
          subst hx
          obtain ⟨pre, post, e⟩ := i1 q hmem
          exact ⟨pre, post, [], idx, by simp [e]⟩
    · simp only [Option.some.injEq, Prod.mk.injEq] at h2
      obtain ⟨rfl, rfl⟩ := h2
      refine ⟨fun x hx => ?_, j2⟩
      rcases List.mem_or_eq_of_mem_set hx with hx | hx
      · exact j1 x hx
      · exact j1 x (hx ▸ hmem)
  case start k1 k2 level =>
    subst h
    refine ⟨fun x hx => ?_, j2⟩
    rcases List.mem_append.mp hx with hx | hx
    · exact j1 x hx
    · rw [List.mem_singleton] at hx
      unfold Prof.startRegion at hx
      split at hx
      · rw [Option.some.injEq] at hx
        subst hx
        exact ⟨done, [], rfl⟩
      · cases hx
  case reset => subst h; exact ⟨j1, by simp [Prof.reset]⟩
  all_goals subst h
  all_goals refine ⟨j1, ?_⟩
  all_goals simp only [Prof.set, Prof.inc, Prof.event, Prof.putEntry]
  all_goals first
    | exact j2
    | (split <;> exact j2)

theorem profRun_origin (ops done : List (Int × ProfOp)) {s s' : ProfUse} (hi : ProfOrigin done s)
    (h : s.run ops = some s') : ProfOrigin (done ++ ops) s' := by
  induction ops generalizing done s with
  | nil => simp only [ProfUse.run, Option.some.injEq] at h; subst h; simpa using hi
  | cons o os ih =>
    obtain ⟨t, o⟩ := o
    simp only [ProfUse.run, Option.bind_eq_some_iff] at h
    obtain ⟨u, h1, h2⟩ := h
    have := ih (done ++ [(t, o)]) (profStep_origin hi h1) h2
    simpa using this

theorem profRun_all (ops : List (Int × ProfOp)) {s s' : ProfUse} (h : s.run ops = some s') :
    s'.prof.events = s.prof.events ++ (whileEnabled s.prof.enabled ops).filterMap eventOf ∧
    ((∀ x ∈ ops, x.2 ≠ .reset) → s'.prof.regions.map (·.tEnd) =
      s.prof.regions.map (·.tEnd) ++ (whileEnabled s.prof.enabled ops).filterMap stopOf) ∧
    ∀ k1 k2, (∀ x ∈ ops, ¬ overwrites k1 k2 x.2) →
      s'.prof.ints k1 k2 =
        s.prof.ints k1 k2 + ((whileEnabled s.prof.enabled ops).map fun o => (incOf k1 k2 o).1).sum ∧
      s'.prof.reals k1 k2 =
        s.prof.reals k1 k2 + ((whileEnabled s.prof.enabled ops).map fun o => (incOf k1 k2 o).2).sum := by
  induction ops generalizing s with
  | nil => simp only [ProfUse.run, Option.some.injEq] at h; subst h; simp [whileEnabled]
  | cons o os ih =>
    obtain ⟨t, o⟩ := o
    simp only [ProfUse.run, Option.bind_eq_some_iff] at h
    obtain ⟨u, h1, h2⟩ := h
    obtain ⟨a1, a2, a3⟩ := ih h2
    rw [profStep_enabled h1] at a1 a2 a3
    simp only [whileEnabled, List.filterMap_append, List.map_append, List.sum_append]
    refine ⟨by rw [a1, profStep_events h1, List.append_assoc], fun hr => ?_, fun k1 k2 hr => ?_⟩
    · rw [a2 (fun x hx => hr x (List.mem_cons_of_mem _ hx)), profStep_regions h1 (hr (t, o) List.mem_cons_self),
        List.append_assoc]
    · obtain ⟨b1, b2⟩ := a3 k1 k2 (fun x hx => hr x (List.mem_cons_of_mem _ hx))
      obtain ⟨c1, c2⟩ := profStep_entry h1 k1 k2 (hr (t, o) List.mem_cons_self)
      exact ⟨by rw [b1, c1, add_assoc], by rw [b2, c2, add_assoc]⟩

theorem writeLines_eq (ls : List (List Char)) (l : List Char) (i : Nat) :
    writeLines (i + (ls.length + 1)) i (l :: ls) = List.intercalate ",\n".toList (l :: ls) ++ "\n".toList := by
  induction ls generalizing l i with
  | nil => simp [writeLines, List.intercalate]
  | cons m ls ih =>
    rw [writeLines, if_pos (by simp only [List.length_cons]; omega)]
    have := ih m (i + 1)
    rw [show i + 1 + (ls.length + 1) = i + ((m :: ls).length + 1) by simp only [List.length_cons]; omega] at this
    rw [this]
    simp [List.intercalate]

theorem quote_split {a a' r r' : List Char} (ha : '"' ∉ a) (ha' : '"' ∉ a') (h : a ++ '"' :: r = a' ++ '"' :: r') :
    a = a' ∧ r = r' := by
  induction a generalizing a' with
  | nil =>
    cases a' with
    | nil => simpa using h
    | cons c a' =>
      simp only [List.nil_append, List.cons_append, List.cons.injEq] at h
      exact absurd (h.1 ▸ List.mem_cons_self) ha'
  | cons c a ih =>
    cases a' with
    | nil =>
      simp only [List.nil_append, List.cons_append, List.cons.injEq] at h
      exact absurd (h.1 ▸ List.mem_cons_self) ha
    | cons c' a' =>
      simp only [List.cons_append, List.cons.injEq] at h
      obtain ⟨e, f⟩ := ih (fun x => ha (List.mem_cons_of_mem _ x)) (fun x => ha' (List.mem_cons_of_mem _ x)) h.2
      exact ⟨by rw [h.1, e], f⟩

theorem eventLine_inj {a b t a' b' t' : List Char} (ha : '"' ∉ a) (hb : '"' ∉ b) (ha' : '"' ∉ a') (hb' : '"' ∉ b')
    (h : eventLine a b t = eventLine a' b' t') : a = a' ∧ b = b' ∧ t = t' := by
  have h' : '[' :: '"' :: (a ++ '"' :: (',' :: '"' :: (b ++ '"' :: (',' :: (t ++ [']']))))) =
      '[' :: '"' :: (a' ++ '"' :: (',' :: '"' :: (b' ++ '"' :: (',' :: (t' ++ [']']))))) := by
    simpa [eventLine] using h
  simp only [List.cons.injEq, true_and] at h'
  obtain ⟨e1, h'⟩ := quote_split ha ha' h'
  simp only [List.cons.injEq, true_and] at h'
  obtain ⟨e2, h'⟩ := quote_split hb hb' h'
  simp only [List.cons.injEq, true_and] at h'
  exact ⟨e1, e2, List.append_cancel_right h'⟩

end NP
