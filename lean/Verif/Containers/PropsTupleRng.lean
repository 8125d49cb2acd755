import Verif.Containers.LemmasTupleRng

/-!
# C108: loops with tuples of random number generators
-/

set_option autoImplicit false

namespace NP
open NP.Spec

/-- **C108** After any history of loops, a loop is accepted exactly if no generator occurs twice in its arguments, at any depth
of tuples, and none is used by a loop that was submitted and not waited for. -/
theorem C108_submit {s : RngPool} {running : List RngArg} (h : LoopsReach s running) (a : RngArg) (n : Nat) :
    (∃ r, s.submit a n = some r) ↔ (rngsIn a).Nodup ∧ ∀ b ∈ running, ∀ i ∈ rngsIn a, i ∉ rngsIn b := by
  rw [(rngSubmit_spec n s).1]
  have hi := (loopsReach_inv h).2
  refine and_congr_right fun _ => ⟨fun h0 b hb i ha hib => ?_, fun h0 i ha => ?_⟩
  · exact (hi i).mp (h0 i ha) (List.mem_flatMap.mpr ⟨b, hb, hib⟩)
  · refine (hi i).mpr fun hm => ?_
    obtain ⟨b, hb, hib⟩ := List.mem_flatMap.mp hm
    exact h0 b hb i ha hib

/-- **C108** In every block of the loop, the kernel finds at each index of the (nested) tuple the generator that the user put
there, with the samples drawn for this loop. -/
theorem C108_components {s s' : RngPool} {a : RngArg} {n : Nat} {ks : List KRng} (h : s.submit a n = some (ks, s')) :
    ks.length = n ∧ ∀ k ∈ ks, ∀ p i, Component a p i → k.at p = some (.rng i (s.draws i + 1)) := by
  obtain ⟨h1, h2, -, -⟩ := (rngSubmit_spec (a := a) n s).2 ks s' h
  refine ⟨by rw [h2, List.length_replicate], fun k hk p i hc => ?_⟩
  rw [h2] at hk
  rw [List.eq_of_mem_replicate hk, kernelOf_at _ hc, h1, if_pos (component_mem hc)]

/-- **C108** Each generator in the arguments draws samples once per loop, for any number of blocks; other generators draw
none, and neither does `wait`. -/
theorem C108_draws {s s' : RngPool} {a : RngArg} {n : Nat} {ks : List KRng} (h : s.submit a n = some (ks, s')) (i : Nat) :
    s'.draws i = (if i ∈ rngsIn a then s.draws i + 1 else s.draws i) ∧ ∀ b, (s'.post b).draws i = s'.draws i :=
  ⟨((rngSubmit_spec (a := a) n s).2 ks s' h).1 i, fun b => by rw [(rngPost_spec b s').1]⟩

/-- **C108** So a loop with any accepted arguments is accepted again after it was waited for. -/
theorem C108_again {s s' : RngPool} {running : List RngArg} (h : LoopsReach s running) {a : RngArg} {n : Nat}
    {ks : List KRng} (hs : s.submit a n = some (ks, s')) (m : Nat) : ∃ r, (s'.post a).submit a m = some r := by
  have hr : LoopsReach (s'.post a) running := .wait (l₁ := []) (.submit h hs)
  rw [C108_submit hr]
  exact (C108_submit h a n).mp ⟨_, hs⟩

namespace Ex

/-- A tuple of generator 3 and a tuple of generators 5 and 4, with a null generator between them. -/
def tupleArg : RngArg :=
  .pair (.rng 3) (.pair .null (.pair (.pair (.rng 5) (.pair (.rng 4) .unit)) .unit))

example : Component tupleArg [2, 1] 4 ∧ Component tupleArg [0] 3 :=
  ⟨.rest (.rest (.first (.rest (.first (.here 4))))), .first (.here 3)⟩

/-- Two blocks; both kernels read the second draw of generator 4 if it was used once before. -/
example : (((RngPool.init.submit (.rng 4) 1).bind fun r => ((r.2.post (.rng 4)).submit tupleArg 2)).map fun r =>
    r.1.map fun k => match k.at [2, 1] with
      | some (.rng i d) => some (i, d)
      | _ => none) = some [some (4, 2), some (4, 2)] := by decide +kernel

/-- Rejected: a generator twice in one loop, and loops that overlap. Accepted: overlapping loops with other generators. -/
example : (RngPool.init.submit (.pair tupleArg (.pair (.rng 4) .unit)) 1).isNone ∧
    ((RngPool.init.submit tupleArg 0).bind fun r => r.2.submit (.rng 5) 1).isNone ∧
    ((RngPool.init.submit tupleArg 0).bind fun r => r.2.submit (.rng 6) 1).isSome := by decide +kernel

/-- A reachable state with a loop that runs. -/
example : ∃ s, LoopsReach s [tupleArg] := by
  obtain ⟨r, hr⟩ := (C108_submit .init tupleArg 2).mpr (by decide +kernel)
  exact ⟨r.2, .submit .init hr⟩

end Ex

end NP
