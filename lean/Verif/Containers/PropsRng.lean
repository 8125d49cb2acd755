import Verif.Containers.LemmasRng
import Verif.Loop.Props

/-!
# C51, C52: random numbers

See `SpecRng.lean` for the vocabulary and `ModelRng.lean` for the model.
-/

set_option autoImplicit false

namespace NP

/-! ## C51 -/

open Spec in
/-- **C51** Over a whole run of loops, with the atomic operations of all kernel calls
interleaved in any way, no drawn sample is returned as valid twice, and everything returned
as valid is a drawn sample (samples are told apart by the injectivity of `gen`). -/
theorem C51_no_sample_twice {T : Type} (cfg : RngConfig T) (hinj : Function.Injective cfg.gen)
    (hbs : 0 < cfg.blockSize) (hn : 0 < cfg.numComponents) (ls : List (RngLoop T))
    (hp : ∀ l ∈ ls, PossibleLoop l) {res : List (AtResult T)} {r : AtomicRng T}
    (h : AtomicRng.loops cfg ls .init = some (res, r)) :
    (validValues res).Nodup ∧ ∀ v ∈ validValues res, ∃ k, k < r.drawn ∧ v = cfg.gen k := by
  obtain ⟨h1, _, _⟩ := loops_some hinj hbs hn ls [] _ r res hp (rngInv_init cfg) h
  rw [List.nil_append] at h1
  exact ⟨h1.usedNodup, h1.usedDrawn⟩

open Spec in
/-- **C51** The generator reports a valid state after a run exactly if no call of the run was
told that its sample is invalid. -/
theorem C51_invalid_iff_reported {T : Type} (cfg : RngConfig T)
    (hinj : Function.Injective cfg.gen) (hbs : 0 < cfg.blockSize) (hn : 0 < cfg.numComponents)
    (ls : List (RngLoop T)) (hp : ∀ l ∈ ls, PossibleLoop l) {res : List (AtResult T)}
    {r : AtomicRng T} (h : AtomicRng.loops cfg ls .init = some (res, r)) :
    r.valid = true ↔ ∀ x ∈ res, x.valid = true := by
  obtain ⟨_, h2, _⟩ := loops_some hinj hbs hn ls [] _ r res hp (rngInv_init cfg) h
  rw [h2]
  simp [AtomicRng.init]

open Spec in
/-- **C51** If more calls are made than samples were drawn then some call is told that its
sample is invalid and the state of the generator is invalid. -/
theorem C51_reads_past_the_samples {T : Type} (cfg : RngConfig T)
    (hinj : Function.Injective cfg.gen) (hbs : 0 < cfg.blockSize) (hn : 0 < cfg.numComponents)
    (ls : List (RngLoop T)) (hp : ∀ l ∈ ls, PossibleLoop l) {res : List (AtResult T)}
    {r : AtomicRng T} (h : AtomicRng.loops cfg ls .init = some (res, r))
    (hmore : r.drawn < (ls.map numCalls).sum) :
    (∃ x ∈ res, x.valid = false) ∧ r.valid = false := by
  obtain ⟨h1, h2, h3⟩ := loops_some hinj hbs hn ls [] _ r res hp (rngInv_init cfg) h
  rw [List.nil_append] at h1
  have hex : ∃ x ∈ res, x.valid = false := by
    by_contra hcon
    push Not at hcon
    have hall : ∀ x ∈ res, x.valid = true := fun x hx => by simpa using hcon x hx
    have hfil : (res.filter fun r => r.valid) = res := by
      rw [List.filter_eq_self]; exact hall
    have hl : (validValues res).length = res.length := by simp [validValues, hfil]
    have hsub : validValues res ⊆ (List.range r.drawn).map cfg.gen := by
      intro v hv
      obtain ⟨k, hk, e⟩ := h1.usedDrawn v hv
      exact List.mem_map.mpr ⟨k, List.mem_range.mpr hk, e.symm⟩
    have := (List.subperm_of_subset h1.usedNodup hsub).length_le
    simp at this
    omega
  refine ⟨hex, ?_⟩
  cases hv : r.valid with
  | false => rfl
  | true =>
    obtain ⟨x, hx, hxv⟩ := hex
    have := (h2.1 hv).2 x hx
    rw [hxv] at this
    exact absurd this (by simp)

open Spec in
/-- **C51** If no loop makes more calls than the samples it is set up for then the run
succeeds, every call is answered with a valid sample and the state stays valid. -/
theorem C51_enough_samples {T : Type} (cfg : RngConfig T)
    (hinj : Function.Injective cfg.gen) (hbs : 0 < cfg.blockSize) (hn : 0 < cfg.numComponents)
    (ls : List (RngLoop T))
    (hp : ∀ l ∈ ls, PossibleLoop l ∧ l.particles * cfg.numComponents < intMax ∧
      (l.launches = 0 ∨ 0 < samplesWanted cfg l) ∧ numCalls l ≤ samplesWanted cfg l) :
    ∃ res r, AtomicRng.loops cfg ls .init = some (res, r) ∧ (∀ x ∈ res, x.valid = true) ∧
      res.length = (ls.map numCalls).sum ∧ r.valid = true := by
  obtain ⟨res, r, e, h1, h2, h3⟩ := loops_total hinj hbs hn ls [] _ hp (rngInv_init cfg)
  exact ⟨res, r, e, h1, h2, by rw [h3]; rfl⟩

/-- A generator that returns 100, 101, ... with blocks of 2. -/
def Ex.rng : RngConfig Nat := ⟨fun i => 100 + i, 2, 2, none, fun n => n + n / 10, 0⟩

/-- Uninitialised memory full of 7s. -/
def Ex.rngEnv : RngEnv Nat :=
  ⟨fun n => ⟨List.replicate n 7, by simp⟩, fun n => ⟨List.replicate n 7, by simp⟩,
    fun n => ⟨List.replicate n 7, by simp⟩, true, fun k i => (k + i) % 2 == 0, fun _ _ => true⟩

/-- Two loops; in the first two threads interleave, in the second four reads are made with
only two samples. -/
def Ex.rngLoops : List (RngLoop Nat) :=
  [⟨2, -1, 1, [0, 1, 1, 0, 0, 0], Ex.rngEnv⟩, ⟨1, -1, 2, [0, 1, 2, 3, 1, 3, 0, 2], Ex.rngEnv⟩]

example : ∀ l ∈ Ex.rngLoops, Spec.PossibleLoop l := by
  intro l hl
  simp only [Ex.rngLoops, List.mem_cons, List.not_mem_nil, or_false] at hl
  have hcount : ∀ (m : List Nat), (∀ c ∈ m, m.count c % 2 = 0) → ∀ c, m.count c % 2 = 0 := by
    intro m h c
    by_cases hc : c ∈ m
    · exact h c hc
    · rw [List.count_eq_zero_of_not_mem hc]
  rcases hl with rfl | rfl
  · exact ⟨hcount _ (by decide), by simp, by decide⟩
  · exact ⟨hcount _ (by decide), by simp, by decide⟩

-- thread 3 of the second loop reads past the end; the calls after that are refused as well
example : (AtomicRng.loops Ex.rng Ex.rngLoops .init).map
    (fun x => (x.1.map fun y => (y.thread, y.valid, y.value), x.2.valid, x.2.drawn)) =
    some ([(1, true, 101), (0, true, 100), (0, true, 102),
      (1, true, 105), (3, false, 0), (0, false, 0), (2, false, 0)], false, 6) := by
  decide

/-- **C51** A generator constructed for no components answers every call with an invalid
sample, and its state is invalid if a call was made. -/
theorem C51_no_components {T : Type} (cfg : RngConfig T) (hn : cfg.numComponents = 0)
    (ls : List (RngLoop T)) {res : List (AtResult T)} {r : AtomicRng T}
    (h : AtomicRng.loops cfg ls .init = some (res, r)) :
    (∀ x ∈ res, x.valid = false) ∧ (res ≠ [] → r.valid = false) := by
  obtain ⟨h1, _, h3⟩ := loops_zero hn ls .init r res (by simp [AtomicRng.init]) h
  exact ⟨h1, h3⟩

example : (AtomicRng.loops { Ex.rng with numComponents := 0 } Ex.rngLoops .init).map
    (fun x => (x.1.length, x.2.valid)) = some (7, false) := by decide

/-- A generator without components is not told apart from one that was read too often: a loop
that makes no reads can leave the state invalid, because the counter is never initialised. -/
theorem C51_no_components_spurious :
    ∃ (cfg : RngConfig Nat) (l : RngLoop Nat), cfg.numComponents = 0 ∧ Spec.PossibleLoop l ∧
      Spec.numCalls l = 0 ∧
      (AtomicRng.loops cfg [l] .init).map (fun x => (x.1.length, x.2.valid)) = some (0, false) :=
  ⟨{ Ex.rng with numComponents := 0 }, ⟨1, -1, 1, [], Ex.rngEnv⟩, rfl,
    ⟨by simp, by simp, by simp [Spec.numCalls]⟩, rfl, by decide⟩

/-! ## C52 -/

theorem particleRng_inv {T : Type} {cfg : RngConfig T} (hbs : 0 < cfg.blockSize)
    (hn : 0 < cfg.numComponents) :
    ∀ (ls : List (RngEnv T × Nat)) (r r' : ParticleRng T), r.internalState = 0 → BufOk r.buf →
      ParticleRng.loops cfg ls r = some r' → r'.internalState = 0 ∧ BufOk r'.buf := by
  intro ls
  induction ls with
  | nil =>
    intro r r' h1 h2 h
    simp only [ParticleRng.loops, Option.some.injEq] at h
    subst h; exact ⟨h1, h2⟩
  | cons x ls ih =>
    obtain ⟨env, n⟩ := x
    intro r r' h1 h2 h
    unfold ParticleRng.loops at h
    cases e : r.loop cfg env n with
    | none => rw [e] at h; simp at h
    | some y =>
      obtain ⟨a, r1⟩ := y
      rw [e] at h
      simp only [Option.bind_some] at h
      refine ih r1 r' ?_ ?_ h
      all_goals
        unfold ParticleRng.loop ParticleRng.preLoop at e
        rw [if_pos h1, if_pos hn] at e
        simp only at e
        obtain ⟨buf', re', ea, b1, b2, _⟩ := rngAllocate_ok cfg env.freshBuffer h2
          (n * cfg.numComponents) env.uninitialisedBool
        rw [ea] at e
        simp only [Option.bind_some] at e
        obtain ⟨buf2, ed, d1, d2, d3, d4, d5⟩ := rngDraw_ok cfg env.late env.freshBlock
          (n := n * cfg.numComponents) (dst := 0) (g := r.drawn) b1 hbs (by omega)
        rw [ed] at e
        simp only [Option.bind_some] at e
        by_cases hz : n = 0
        · rw [if_pos hz] at e
          simp only [Option.some.injEq, Prod.mk.injEq] at e
          obtain ⟨-, rfl⟩ := e
          first | rfl | exact d1
        · rw [if_neg hz] at e
          unfold ParticleRng.getConst at e
          rw [if_pos (Or.inl rfl), if_neg (by omega)] at e
          by_cases hm : n < intMax
          · rw [if_pos hm] at e
            rcases d1 with rfl | ⟨x, l, rfl, hh, hs⟩
            · simp at e
            · simp only [Option.bind_some, Option.some.injEq, Prod.mk.injEq] at e
              obtain ⟨-, rfl⟩ := e
              first | rfl | exact Or.inr ⟨x, l, rfl, hh, hs⟩
          · rw [if_neg hm] at e; simp at e

open Spec in
/-- **C52** After any run of loops, for a loop over cells `[cs, ce)` with `n` particles: the
generator is set up, and for every visited particle and every component the kernel reads a
sample that was drawn for this loop, different for each particle and component.  `s` is the
number of the sample that is read. -/
theorem C52_distinct_samples {T : Type} (cfg : RngConfig T) (hbs : 0 < cfg.blockSize)
    (hn : 0 < cfg.numComponents) (before : List (RngEnv T × Nat)) {r : ParticleRng T}
    (hr : ParticleRng.loops cfg before .init = some r) (env : RngEnv T) (npart : List Nat)
    {cs ce n : Nat} (hcs : cs ≤ ce) (hce : ce ≤ npart.length)
    (hnp : getLoopNpart npart npart.sum cs ce (cs == 0 && ce == npart.length) = some n)
    (hpos : 0 < n) (hmax : n < intMax) :
    ∃ args r', r.loop cfg env n = some (some args, r') ∧
      r'.drawn = r.drawn + n * cfg.numComponents ∧
      ∃ s : Nat × Nat × Nat → Nat,
      (∀ c k j, cs ≤ c → c < ce → IsParticle npart c k → j < cfg.numComponents →
        (loopLinearIndex npart cs c k).bind (fun i => perParticleAt args i (j : Int)) =
          some (cfg.gen (s (c, k, j))) ∧
        r.drawn ≤ s (c, k, j) ∧ s (c, k, j) < r'.drawn) ∧
      (∀ p q, s p = s q →
        (cs ≤ p.1 ∧ p.1 < ce ∧ IsParticle npart p.1 p.2.1 ∧ p.2.2 < cfg.numComponents) →
        (cs ≤ q.1 ∧ q.1 < ce ∧ IsParticle npart q.1 q.2.1 ∧ q.2.2 < cfg.numComponents) →
        p = q) := by
  obtain ⟨h1, h2⟩ := particleRng_inv hbs hn before _ r rfl (Or.inl rfl) hr
  obtain ⟨n', hn', hin, _, hord, _⟩ := C09_loop_linear_index npart hcs hce
  rw [hnp] at hn'
  cases hn'
  unfold ParticleRng.loop ParticleRng.preLoop
  rw [if_pos h1, if_pos hn]
  simp only
  obtain ⟨buf', re', ea, b1, b2, _⟩ := rngAllocate_ok cfg env.freshBuffer h2
    (n * cfg.numComponents) env.uninitialisedBool
  rw [ea]
  simp only [Option.bind_some]
  obtain ⟨buf2, ed, d1, d2, d3, d4, d5⟩ := rngDraw_ok cfg env.late env.freshBlock
    (n := n * cfg.numComponents) (dst := 0) (g := r.drawn) b1 hbs (by omega)
  rw [ed]
  simp only [Option.bind_some]
  rw [if_neg (by omega)]
  unfold ParticleRng.getConst
  rw [if_pos (Or.inl rfl), if_neg (by omega), if_pos hmax]
  have hposm : 0 < n * cfg.numComponents := Nat.mul_pos hpos hn
  rcases d1 with rfl | ⟨x, l, rfl, hh, hs⟩
  · have := d3 0 hposm
    simp [bufList] at this
  · simp only [Option.bind_some]
    rw [bufList_some hh] at d3
    refine ⟨_, _, rfl, rfl, fun p =>
      r.drawn + (p.2.2 * n + ((loopLinearIndex npart cs p.1 p.2.1).getD 0).toNat), ?_, ?_⟩
    · intro c k j hc1 hc2 hpk hj
      obtain ⟨i, ei, hi⟩ := hin c k hc1 hc2 hpk
      have hlt : j * n + i < n * cfg.numComponents := by
        have : (j + 1) * n ≤ cfg.numComponents * n := Nat.mul_le_mul_right n hj
        rw [Nat.mul_comm n]
        have e2 : (j + 1) * n = j * n + n := Nat.succ_mul j n
        omega
      simp only [ei, Option.bind_some, Option.getD_some, Int.toNat_natCast]
      refine ⟨?_, by omega, by simp only [ParticleRng.postLoop]; omega⟩
      unfold perParticleAt perParticleIndex
      rw [hh.1]
      simp only [Option.bind_some]
      have hidx : index ((j : Int) * (n : Int) + (i : Int)) = some (j * n + i) := by
        unfold index
        have : (j : Int) * (n : Int) + (i : Int) = ((j * n + i : Nat) : Int) := by push_cast; rfl
        rw [this, if_pos (Int.natCast_nonneg _), Int.toNat_natCast]
      rw [hidx]
      simp only [Option.bind_some, rd]
      have := d3 (j * n + i) hlt
      rwa [Nat.zero_add] at this
    · rintro ⟨c, k, j⟩ ⟨c', k', j'⟩ he ⟨a1, a2, a3, a4⟩ ⟨a1', a2', a3', a4'⟩
      obtain ⟨i, ei, hi⟩ := hin c k a1 a2 a3
      obtain ⟨i', ei', hi'⟩ := hin c' k' a1' a2' a3'
      simp only [ei, ei', Option.getD_some, Int.toNat_natCast] at he
      have he' : j * n + i = j' * n + i' := by omega
      have hj : j = j' := by
        have := congrArg (· / n) he'
        simp only [Nat.mul_comm _ n, Nat.mul_add_div hpos, Nat.div_eq_of_lt hi,
          Nat.div_eq_of_lt hi'] at this
        omega
      subst hj
      have hii : i = i' := by omega
      subst hii
      have o1 := hord (c, k) (c', k') _ _ a1 a2 a1' a2' a3 a3' ei ei'
      have o2 := hord (c', k') (c, k) _ _ a1' a2' a1 a2 a3' a3 ei' ei
      have n1 : ¬ Before (c, k) (c', k') := fun hb => absurd (o1.1 hb) (by omega)
      have n2 : ¬ Before (c', k') (c, k) := fun hb => absurd (o2.1 hb) (by omega)
      unfold Before at n1 n2
      simp only at n1 n2
      have : c = c' ∧ k = k' := by omega
      rw [this.1, this.2]

example : getLoopNpart [2, 0, 3] 5 0 3 true = some 5 ∧
    (ParticleRng.loops Ex.rng [(Ex.rngEnv, 2)] .init).isSome = true ∧
    ((ParticleRng.loops Ex.rng [(Ex.rngEnv, 2)] .init).bind fun r =>
      (r.loop Ex.rng Ex.rngEnv 5).bind fun x => x.1.bind fun a => perParticleAt a 3 1) =
      some 112 := by decide

end NP
