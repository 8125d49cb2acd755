import Verif.Containers.LemmasMHC
import Verif.Containers.PropsSerial

/-!
# Property C46: mesh hierarchy container
-/

set_option autoImplicit false

namespace NP

open Spec

/-- **C46** For any number of ranks, owners and contributions, and any history of collective
`gather` calls: everything succeeds, and for each cell a rank has asked for, `get` returns
exactly the objects contributed by all ranks to the cell (each once, by rank), and nothing
if the cell has no owner.  So repeated gathers change nothing. -/
theorem C46_get {T : Type} (I : Serial T) (default : T) (d : CellBuffer) (n : Nat)
    (owner : Int → Int) (data : Nat → List (Int × List T)) (hdata : DataOk I n data)
    (hist : List (Nat → List Int)) (hfit : ∀ cs ∈ hist, ∀ r, r < n → ∀ c ∈ cs r, Fits32 c) :
    ∃ w0 w, mhcCreate I d n owner data = some w0 ∧ gathers d n owner w0 hist = some w ∧
      ∀ r, r < n → ∀ c, (∃ cs ∈ hist, c ∈ cs r) →
        (HasOwner n owner c → (w r).get I default c = some (contributed n data c)) ∧
        (¬ HasOwner n owner c → (w r).get I default c = some []) := by
  obtain ⟨w0, e0, ok0⟩ := create_ok (owner := owner) d hdata
  obtain ⟨w, e, ok⟩ := gathers_ok d hdata hist ok0 hfit
  refine ⟨w0, w, e0, e, fun r hr c hc => ?_⟩
  obtain ⟨cs, hcs, hcc⟩ := hc
  have hf := hfit cs hcs r hr c hcc
  have hask := ok.asked r c hr (Or.inr ⟨cs, hcs, hcc⟩)
  unfold MHCRank.get
  rw [if_pos hask, toInt32_eq hf]
  constructor
  · intro ho
    have hg : c ∈ (w r).gathered := by
      rcases hask with h | h
      · exact h
      · exact absurd ho (ok.own r c hr h)
    rw [if_pos hg]
    have h1 := (ok.some_ r c hr hf hg).1
    have h2 := ok.have_ r c hr hf ho (Or.inl hg)
    obtain ⟨b, hb⟩ := Option.isSome_iff_exists.mp h1
    rw [hb] at h2 ⊢
    simp only [Option.getD_some] at h2
    subst h2
    exact serialGet_eq I default _ (hdata.contrib_good c)
  · intro ho
    have hg : c ∉ (w r).gathered := fun h => ho (ok.some_ r c hr hf h).2
    rw [if_neg hg]

/-- **C46** `get` for a cell that was not asked for is rejected, unless the rank owns the cell
and something was contributed to it. -/
theorem C46_not_gathered {T : Type} (I : Serial T) (default : T) (d : CellBuffer) (n : Nat)
    (owner : Int → Int) (data : Nat → List (Int × List T)) (hdata : DataOk I n data)
    (hist : List (Nat → List Int)) (hfit : ∀ cs ∈ hist, ∀ r, r < n → ∀ c ∈ cs r, Fits32 c)
    (w0 w : Nat → MHCRank) (h0 : mhcCreate I d n owner data = some w0)
    (h1 : gathers d n owner w0 hist = some w) (r : Nat) (hr : r < n) (c : Int)
    (hc : ¬ ∃ cs ∈ hist, c ∈ cs r)
    (ho : ¬ (owner c = r ∧ ∃ q, q < n ∧ ∃ p ∈ data q, p.1 = c)) :
    (w r).get I default c = none := by
  obtain ⟨w0', e0, ok0⟩ := create_ok (owner := owner) d hdata
  obtain ⟨w', e, ok⟩ := gathers_ok d hdata hist ok0 hfit
  rw [e0] at h0; cases h0
  rw [e] at h1; cases h1
  unfold MHCRank.get
  rw [if_neg]
  intro hg
  rcases ok.only r c hr hg with (h | h) | h
  · exact h
  · exact hc h
  · exact ho h

/-- **C46** The condition that cell indices fit into an `int` is needed: the buffers are
stored with an `int` as key, so the objects of the cells 0 and 2^32 get mixed. -/
theorem C46_large_cells_mixed :
    ∃ w, mhcCreate Ex.rawSerial ⟨0, []⟩ 1 (fun _ => 0)
        (fun _ => [(0, [[1]]), (2 ^ 32, [[2]])]) = some w ∧
      (w 0).get Ex.rawSerial [] 0 = some [[1], [2]] ∧
      contributed 1 (fun _ => [((0 : Int), [[(1 : Byte)]]), (2 ^ 32, [[2]])]) 0 = [[1]] := by
  refine ⟨_, rfl, by decide, by decide⟩

/-- Owners of the example: rank `c` for `c < 2`, no owner otherwise. -/
def Ex.mhcOwner (c : Int) : Int := if 0 ≤ c ∧ c < 2 then c else -1

/-- Contributions of the example (two ranks). -/
def Ex.mhcData (r : Nat) : List (Int × List (List Byte)) :=
  if r = 0 then [(0, [[5], [6, 7]]), (1, [[8]]), (3, [[9]])] else [(0, [[1, 2]]), (1, [])]

-- Two ranks; rank 1 asks twice for cell 0 and once for the unowned cell 3.
example : DataOk Ex.rawSerial 2 Ex.mhcData ∧
    (((mhcCreate Ex.rawSerial ⟨0, []⟩ 2 Ex.mhcOwner Ex.mhcData).bind fun w =>
      gathers ⟨0, []⟩ 2 Ex.mhcOwner w [fun r => if r = 1 then [0] else [1],
        fun r => if r = 1 then [3, 0] else []]).bind fun w =>
      some [(w 1).get Ex.rawSerial [] 0, (w 1).get Ex.rawSerial [] 3, (w 0).get Ex.rawSerial [] 1,
        (w 0).get Ex.rawSerial [] 5]) =
    some [some [[5], [6, 7], [1, 2]], some [], some [[8]], none] := by
  refine ⟨⟨?_, ?_, ?_⟩, by decide⟩
  · intro r hr p hp t ht
    refine ⟨?_, t, by simp [Ex.rawSerial], rfl, by simp [Ex.rawSerial]⟩
    have hall : ∀ r, r < 2 → ∀ p ∈ Ex.mhcData r, ∀ t ∈ p.2, t.length ≤ 2 := by decide
    have := hall r hr p hp t ht
    have h2 : (2 : Nat) < sizeTMax := by decide
    exact Nat.lt_of_le_of_lt this h2
  · unfold Fits32; decide
  · intro c
    have h2 : (100 : Nat) < sizeTMax := by decide
    refine Nat.lt_trans ?_ h2
    have hr : List.range 2 = [0, 1] := by decide
    unfold contributed
    rw [hr]
    simp only [List.flatMap_cons, List.flatMap_nil, Ex.mhcData, if_true, List.append_nil]
    by_cases h0 : c = 0
    · subst h0; decide
    · by_cases h1 : c = 1
      · subst h1; decide
      · by_cases h3 : c = 3
        · subst h3; decide
        · have a0 : ¬ (0 : Int) = c := fun e => h0 e.symm
          have a1 : ¬ (1 : Int) = c := fun e => h1 e.symm
          have a3 : ¬ (3 : Int) = c := fun e => h3 e.symm
          simp [a0, a1, a3, serialBytes]

end NP
