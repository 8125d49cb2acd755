import Verif.Containers.SpecTupleRng

/-!
# Lemmas on tuples of random number generators
-/

set_option autoImplicit false

namespace NP
open NP.Spec

theorem rngPre_some {a : RngArg} {s s' : RngPool} (h : s.pre a = some s') :
    (rngsIn a).Nodup ∧ (∀ i ∈ rngsIn a, s.state i = 0) ∧
    (∀ j, s'.state j = if j ∈ rngsIn a then 1 else s.state j) ∧
    (∀ j, s'.draws j = if j ∈ rngsIn a then s.draws j + 1 else s.draws j) := by
  induction a generalizing s s' with
  | rng i =>
    unfold RngPool.pre at h
    split at h
    · rename_i h0
      rw [Option.some.injEq] at h
      subst h
      refine ⟨by simp [rngsIn], by simpa [rngsIn] using h0, ?_, ?_⟩ <;> intro j <;>
        by_cases hj : j = i <;> simp [RngPool.setState, RngPool.draw, rngsIn, hj]
    · cases h
  | null => simp only [RngPool.pre, Option.some.injEq] at h; subst h; simp [rngsIn]
  | unit => simp only [RngPool.pre, Option.some.injEq] at h; subst h; simp [rngsIn]
  | pair a b iha ihb =>
    simp only [RngPool.pre, Option.bind_eq_some_iff] at h
    obtain ⟨t, h1, h2⟩ := h
    obtain ⟨a1, a2, a3, a4⟩ := iha h1
    obtain ⟨b1, b2, b3, b4⟩ := ihb h2
    have hdis : ∀ i ∈ rngsIn b, i ∉ rngsIn a := by
      intro i hi ha
      have := b2 i hi
      rw [a3, if_pos ha] at this
      cases this
    refine ⟨?_, ?_, ?_, ?_⟩
    · rw [rngsIn, List.nodup_append]
      refine ⟨a1, b1, fun x hx y hy e => hdis y hy (e ▸ hx)⟩
    · intro i hi
      rcases List.mem_append.mp hi with hi | hi
      · exact a2 i hi
      · have := b2 i hi
        rwa [a3, if_neg (hdis i hi)] at this
    · intro j
      rw [b3, a3]
      by_cases hb : j ∈ rngsIn b <;> by_cases ha : j ∈ rngsIn a <;> simp [rngsIn, ha, hb]
    · intro j
      rw [b4, a4]
      by_cases hb : j ∈ rngsIn b
      · simp [rngsIn, hb, hdis j hb]
      · by_cases ha : j ∈ rngsIn a <;> simp [rngsIn, ha, hb]

theorem rngPre_ok {a : RngArg} {s : RngPool} (hn : (rngsIn a).Nodup) (h0 : ∀ i ∈ rngsIn a, s.state i = 0) :
    ∃ s', s.pre a = some s' := by
  induction a generalizing s with
  | rng i => exact ⟨_, if_pos (h0 i (by simp [rngsIn]))⟩
  | null => exact ⟨s, rfl⟩
  | unit => exact ⟨s, rfl⟩
  | pair a b iha ihb =>
    rw [rngsIn, List.nodup_append] at hn
    obtain ⟨t, ht⟩ := iha hn.1 (fun i hi => h0 i (by simp [rngsIn, hi]))
    obtain ⟨u, hu⟩ := ihb (s := t) hn.2.1 (fun i hi => by
      rw [(rngPre_some ht).2.2.1, if_neg (fun ha => hn.2.2 i ha i hi rfl)]
      exact h0 i (by simp [rngsIn, hi]))
    exact ⟨u, by simp [RngPool.pre, ht, hu]⟩

/-- What the kernel is given. -/
def kernelOf (draws : Nat → Nat) : RngArg → KRng
  | .rng i => .rng i (draws i)
  | .null => .null
  | .unit => .unit
  | .pair a b => .pair (kernelOf draws a) (kernelOf draws b)

theorem rngGetConst_ok {a : RngArg} {s : RngPool} (h : ∀ i ∈ rngsIn a, s.state i = 1 ∨ s.state i = 2) :
    ∃ s', s.getConst a = some (kernelOf s.draws a, s') ∧ s'.draws = s.draws ∧
      ∀ j, s'.state j = if j ∈ rngsIn a then 2 else s.state j := by
  induction a generalizing s with
  | rng i =>
    refine ⟨_, if_pos (h i (by simp [rngsIn])), rfl, fun j => ?_⟩
    by_cases hj : j = i <;> simp [RngPool.setState, rngsIn, hj]
  | null => exact ⟨s, rfl, rfl, by simp [rngsIn]⟩
  | unit => exact ⟨s, rfl, rfl, by simp [rngsIn]⟩
  | pair a b iha ihb =>
    obtain ⟨t, t1, t2, t3⟩ := iha (s := s) (fun i hi => h i (by simp [rngsIn, hi]))
    obtain ⟨u, u1, u2, u3⟩ := ihb (s := t) (fun i hi => by
      rw [t3]
      split
      · exact Or.inr rfl
      · exact h i (by simp [rngsIn, hi]))
    refine ⟨u, by simp [RngPool.getConst, t1, u1, kernelOf, t2], by rw [u2, t2], fun j => ?_⟩
    rw [u3, t3]
    by_cases hb : j ∈ rngsIn b <;> by_cases ha : j ∈ rngsIn a <;> simp [rngsIn, ha, hb]

theorem rngBlocks_ok {a : RngArg} (n : Nat) {s : RngPool} (h : ∀ i ∈ rngsIn a, s.state i = 1 ∨ s.state i = 2) :
    ∃ s', s.blocks a n = some (List.replicate n (kernelOf s.draws a), s') ∧ s'.draws = s.draws ∧
      (∀ j ∈ rngsIn a, s'.state j = 1 ∨ s'.state j = 2) ∧ ∀ j ∉ rngsIn a, s'.state j = s.state j := by
  induction n generalizing s with
  | zero => exact ⟨s, rfl, rfl, h, fun _ _ => rfl⟩
  | succ n ih =>
    obtain ⟨t, t1, t2, t3⟩ := rngGetConst_ok h
    obtain ⟨u, u1, u2, u3, u4⟩ := ih (s := t) (fun i hi => by rw [t3, if_pos hi]; exact Or.inr rfl)
    refine ⟨u, by simp [RngPool.blocks, t1, u1, t2, List.replicate_succ], by rw [u2, t2], u3, fun j hj => ?_⟩
    rw [u4 j hj, t3, if_neg hj]

theorem rngSubmit_spec {a : RngArg} (n : Nat) (s : RngPool) :
    ((∃ r, s.submit a n = some r) ↔ (rngsIn a).Nodup ∧ ∀ i ∈ rngsIn a, s.state i = 0) ∧
    ∀ ks s', s.submit a n = some (ks, s') →
      (∀ j, s'.draws j = if j ∈ rngsIn a then s.draws j + 1 else s.draws j) ∧
      ks = List.replicate n (kernelOf s'.draws a) ∧
      (∀ j ∈ rngsIn a, s'.state j ≠ 0) ∧ ∀ j ∉ rngsIn a, s'.state j = s.state j := by
  have key : ∀ t, s.pre a = some t → ∃ s', s.submit a n = some (List.replicate n (kernelOf s'.draws a), s') ∧
      s'.draws = t.draws ∧ (∀ j ∈ rngsIn a, s'.state j ≠ 0) ∧ ∀ j ∉ rngsIn a, s'.state j = s.state j := by
    intro t ht
    obtain ⟨-, -, p3, p4⟩ := rngPre_some ht
    obtain ⟨u, u1, u2, u3, u4⟩ := rngBlocks_ok n (a := a) (s := t) (fun i hi => by rw [p3, if_pos hi]; exact Or.inl rfl)
    refine ⟨u, by simp [RngPool.submit, ht, u1, u2], u2, fun j hj => ?_, fun j hj => ?_⟩
    · rcases u3 j hj with e | e <;> simp [e]
    · rw [u4 j hj, p3, if_neg hj]
  refine ⟨⟨?_, ?_⟩, ?_⟩
  · rintro ⟨r, hr⟩
    simp only [RngPool.submit, Option.bind_eq_some_iff] at hr
    obtain ⟨t, ht, -⟩ := hr
    exact ⟨(rngPre_some ht).1, (rngPre_some ht).2.1⟩
  · rintro ⟨hn, h0⟩
    obtain ⟨t, ht⟩ := rngPre_ok hn h0
    obtain ⟨s', h1, -⟩ := key t ht
    exact ⟨_, h1⟩
  · intro ks s' h
    have h' := h
    simp only [RngPool.submit, Option.bind_eq_some_iff] at h'
    obtain ⟨t, ht, -⟩ := h'
    obtain ⟨u, h1, h2, h3, h4⟩ := key t ht
    rw [h, Option.some.injEq, Prod.mk.injEq] at h1
    obtain ⟨rfl, rfl⟩ := h1
    exact ⟨fun j => by rw [h2]; exact (rngPre_some ht).2.2.2 j, rfl, h3, h4⟩

theorem rngPost_spec (a : RngArg) (s : RngPool) :
    (s.post a).draws = s.draws ∧ ∀ j, (s.post a).state j = if j ∈ rngsIn a then 0 else s.state j := by
  induction a generalizing s with
  | rng i =>
    refine ⟨rfl, fun j => ?_⟩
    by_cases hj : j = i <;> simp [RngPool.post, RngPool.setState, rngsIn, hj]
  | null => exact ⟨rfl, by simp [RngPool.post, rngsIn]⟩
  | unit => exact ⟨rfl, by simp [RngPool.post, rngsIn]⟩
  | pair a b iha ihb =>
    refine ⟨by rw [RngPool.post, (ihb _).1, (iha _).1], fun j => ?_⟩
    rw [RngPool.post, (ihb _).2, (iha _).2]
    by_cases hb : j ∈ rngsIn b <;> by_cases ha : j ∈ rngsIn a <;> simp [rngsIn, ha, hb]

theorem loopsReach_inv {s : RngPool} {running : List RngArg} (h : LoopsReach s running) :
    (running.flatMap rngsIn).Nodup ∧ ∀ i, s.state i = 0 ↔ i ∉ running.flatMap rngsIn := by
  induction h with
  | init => exact ⟨by simp, by simp [RngPool.init]⟩
  | @submit s s' running a n ks _ hs ih =>
    obtain ⟨i1, i2⟩ := ih
    obtain ⟨k1, k2⟩ := rngSubmit_spec (a := a) n s
    obtain ⟨hn, h0⟩ := k1.mp ⟨_, hs⟩
    obtain ⟨-, -, h3, h4⟩ := k2 ks s' hs
    rw [List.flatMap_cons]
    refine ⟨List.nodup_append.mpr ⟨hn, i1, fun x hx y hy e => (i2 x).mp (h0 x hx) (e ▸ hy)⟩, fun i => ?_⟩
    by_cases ha : i ∈ rngsIn a
    · exact iff_of_false (h3 i ha) (fun hh => hh (List.mem_append_left _ ha))
    · rw [h4 i ha, i2, List.mem_append]
      simp [ha]
  | @wait s l₁ l₂ a _ ih =>
    obtain ⟨i1, i2⟩ := ih
    have hp : ((l₁ ++ a :: l₂).flatMap rngsIn).Perm (rngsIn a ++ (l₁ ++ l₂).flatMap rngsIn) := by
      simp only [List.flatMap_append, List.flatMap_cons]
      rw [← List.append_assoc, ← List.append_assoc]
      exact (List.perm_append_comm).append_right _
    have hnd := hp.nodup_iff.mp i1
    rw [List.nodup_append] at hnd
    refine ⟨hnd.2.1, fun i => ?_⟩
    rw [(rngPost_spec a s).2]
    by_cases ha : i ∈ rngsIn a
    · rw [if_pos ha]
      exact iff_of_true rfl (fun hh => hnd.2.2 i ha i hh rfl)
    · rw [if_neg ha, i2, hp.mem_iff, List.mem_append]
      simp [ha]

theorem kernelOf_at {a : RngArg} {p : List Nat} {i : Nat} (draws : Nat → Nat) (h : Component a p i) :
    (kernelOf draws a).at p = some (.rng i (draws i)) := by
  induction h with
  | here i => simp [kernelOf, KRng.at]
  | first _ ih => simpa [kernelOf, KRng.at] using ih
  | rest _ ih => simpa [kernelOf, KRng.at] using ih

theorem component_mem {a : RngArg} {p : List Nat} {i : Nat} (h : Component a p i) : i ∈ rngsIn a := by
  induction h with
  | here i => simp [rngsIn]
  | first _ ih => simp [rngsIn, ih]
  | rest _ ih => simp [rngsIn, ih]

end NP
