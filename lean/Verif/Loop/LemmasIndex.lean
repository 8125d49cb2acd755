import Verif.Loop.Lemmas

/-! Helper lemmas about loop indices. -/

set_option autoImplicit false

namespace NP

open Spec

/-- Number of particles in the cells before cell `c`. -/
def before (npart : List Nat) (c : Nat) : Nat := (npart.take c).sum

theorem before_succ {npart : List Nat} {c n : Nat} (h : npart[c]? = some n) :
    before npart (c + 1) = before npart c + n := by
  unfold before
  rw [List.take_add_one, h]
  simp

theorem before_mono {npart : List Nat} {c d : Nat} (h : c ≤ d) :
    before npart c ≤ before npart d := by
  obtain ⟨e, rfl⟩ : ∃ e, d = c + e := ⟨d - c, by omega⟩
  unfold before
  have := sum_take_add (l := npart) (a := c) (k := c + e) (by omega)
  omega

theorem before_all {npart : List Nat} : before npart npart.length = npart.sum := by
  simp [before]

theorem rd_npartCellEs {npart : List Nat} {c : Nat} (h : c < npart.length) :
    rd (npartCellEs npart) c = some (before npart c) := by
  simp only [rd, npartCellEs]
  rw [getElem?_exclusiveFrom _ _ _ h]
  simp [before]

theorem lt_length_of_isParticle {npart : List Nat} {c k : Nat} (h : IsParticle npart c k) :
    c < npart.length := by
  obtain ⟨n, hn, _⟩ := h
  exact (List.getElem?_eq_some_iff.1 hn).1

theorem before_le {npart : List Nat} {c k d : Nat} (h : IsParticle npart c k) (hd : c < d) :
    before npart c + k < before npart d := by
  obtain ⟨n, hn, hk⟩ := h
  have := before_succ hn
  have := before_mono (npart := npart) (show c + 1 ≤ d by omega)
  omega

theorem before_order {npart : List Nat} {p q : Nat × Nat} (hp : IsParticle npart p.1 p.2)
    (hq : IsParticle npart q.1 q.2) :
    Before p q ↔ before npart p.1 + p.2 < before npart q.1 + q.2 := by
  unfold Before
  rcases Nat.lt_trichotomy p.1 q.1 with h | h | h
  · have := before_le hp h; omega
  · rw [h]; omega
  · have := before_le hq h; omega

theorem before_exists {npart : List Nat} {cs ce i : Nat} (hce : ce ≤ npart.length)
    (h1 : before npart cs ≤ i) (h2 : i < before npart ce) :
    ∃ c k, cs ≤ c ∧ c < ce ∧ IsParticle npart c k ∧ before npart c + k = i := by
  induction ce with
  | zero =>
    have := before_mono (npart := npart) (Nat.zero_le cs); omega
  | succ ce ih =>
    by_cases h : i < before npart ce
    · obtain ⟨c, k, a, b, d, e⟩ := ih (by omega) h
      exact ⟨c, k, a, by omega, d, e⟩
    · obtain ⟨n, hn⟩ := exists_count (npart := npart) (c := ce) (by omega)
      have := before_succ hn
      refine ⟨ce, i - before npart ce, ?_, by omega, ⟨n, hn, by omega⟩, by omega⟩
      by_contra hc
      have := before_mono (npart := npart) (show ce + 1 ≤ cs by omega)
      omega

theorem loopNpart_sum {npart : List Nat} {cs ce : Nat} (hcs : cs ≤ ce) (hce : ce ≤ npart.length) :
    forLoop cs ce (fun c s => (rd npart c).bind fun n => some (s + n)) 0 =
      some (before npart ce - before npart cs) := by
  have key := forLoop_invariant (a := cs) (b := ce) (s := 0)
    (step := fun c s => (rd npart c).bind fun n => some (s + n))
    (fun i s => s = before npart i - before npart cs) hcs ?_ ?_
  · obtain ⟨s, h1, h2⟩ := key
    rw [h1, h2]
  · intro i s h1 h2 h3
    obtain ⟨n, hn⟩ := exists_count (npart := npart) (c := i) (by omega)
    refine ⟨s + n, by simp [rd, hn], ?_⟩
    have := before_succ hn
    have := before_mono (npart := npart) h1
    omega
  · simp

/-- A duplicate free list with elements `0 .. n-1` has length `n`. -/
theorem length_of_nodup_range {l : List Nat} {n : Nat} (hnd : l.Nodup)
    (h : ∀ i, i ∈ l ↔ i < n) : l.length = n := by
  have : l.Perm (List.range n) :=
    (List.perm_ext_iff_of_nodup hnd List.nodup_range).2 (fun i => by simp [h])
  rw [this.length_eq, List.length_range]

end NP
