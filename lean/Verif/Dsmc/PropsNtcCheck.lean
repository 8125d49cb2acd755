import Verif.Dsmc.PropsNtc
import Verif.Pair.PropsCheck

/-!
# Lists of sampled pairs are valid

Model: Dsmc/ModelNtc.lean, Pair/ModelCheck.lean. Specification: Dsmc/SpecNtc.lean,
Pair/SpecCheck.lean.
-/

set_option autoImplicit false

namespace NP

open Spec

/-- A list in which pairs in the same wave have no particle in common, and in which no pair has the
same particle twice, has no races. -/
theorem raceFree_stored {bs : Nat} {l : List ((Nat × Nat) × Nat)} (h : ConflictFree bs l)
    (hne : ∀ x ∈ l, x.1.1 ≠ x.1.2) : RaceFree bs (storedWaves l) := by
  have hget : ∀ (k : Nat) (x : Int × Int) (w : Nat), (storedWaves l)[k]? = some (x, w) →
      ∃ y, l[k]? = some (y, w) ∧ x = ((y.1 : Int), (y.2 : Int)) := by
    intro k x w hk
    rw [storedWaves, List.getElem?_map, Option.map_eq_some_iff] at hk
    obtain ⟨⟨y, w'⟩, h1, h2⟩ := hk
    obtain ⟨rfl, rfl⟩ := Prod.mk.inj h2
    exact ⟨y, h1, rfl⟩
  constructor
  · intro x hx
    obtain ⟨k, hk⟩ := List.mem_iff_getElem?.1 hx
    obtain ⟨y, h1, h2⟩ := hget k x.1 x.2 hk
    have := hne _ (List.mem_of_getElem? h1)
    rw [h2]
    dsimp only at this ⊢
    omega
  · intro k k' x y w hx hy hb hk
    obtain ⟨x', hx', rfl⟩ := hget k x w hx
    obtain ⟨y', hy', rfl⟩ := hget k' y w hy
    have := h k k' x' y' w hx' hy' hb hk
    unfold SharesParticle at this
    dsimp only
    omega

/-- The list that `sample` returns passes `validate_pair_list`, if the two sub groups are the same
or have no particle in common. -/
theorem C79_ntc_validates {α : Type} (e : NtcEnv) (draw : Fresh α) {conv : α → Int → Int}
    (hconv : ∀ u n, 0 ≤ n → 0 ≤ conv u n) {blockSize localMem : Nat} (hbs : 0 < blockSize)
    {npart : List Nat} (hlocal : ∀ n ∈ npart, n + 1 ≤ localMem) (hpos : 0 < localMem)
    {sA sB : Selection} (hA : Built npart (.sub sA)) (hB : Built npart (.sub sB)) {aIsB : Bool}
    (hab : aIsB = true → sA = sB) {counts : List Nat} (hlen : counts.length = npart.length)
    (henough : ∀ (c n : Nat), counts[c]? = some n → EnoughForPairs npart (.sub sA) (.sub sB) aIsB c n)
    (hdis : aIsB = true ∨ ∀ c l, InParent npart (.sub sA) c l → ¬ InParent npart (.sub sB) c l) :
    ∃ v, ntcSample e draw conv npart.length blockSize localMem npart (.sub sA) (.sub sB) aIsB counts =
        some v ∧ ∀ sched, v.validate sched = some true := by
  obtain ⟨v, L, h1, h2, h3, h4, h5⟩ := C55_sample_partial e draw hconv hbs hlocal hpos hA hB hab hlen
    henough
  refine ⟨v, h1, fun sched => ?_⟩
  obtain ⟨rfl⟩ := h2.blockSize
  have hc := h2.cells
  rw [← hc] at h2 h4
  obtain ⟨b, k1, k2⟩ := C79_validate h2 hbs sched
  rw [k1, k2.2 ⟨h3, ?_, h4⟩]
  intro c hcc
  have hn : counts[c]? = some counts[c] := List.getElem?_eq_getElem (by omega)
  obtain ⟨-, g1, g2, -⟩ := h5 c _ hn
  refine raceFree_stored g2 fun x hx => ?_
  obtain ⟨q1, q2, q3⟩ := g1 x hx
  rcases hdis with h | h
  · exact q3 h
  · intro he
    exact h c _ q1 (he ▸ q2)

example (cpu : Bool) : ∃ v, ntcSample (Ex.ntcEnv cpu) Ex.ntcDraw Ex.ntcConv 3 2 100 Ex.subCounts
    (.sub Ex.subSel) (.sub Ex.subSel) true [5, 0, 0] = some v ∧
    ∀ sched, v.validate sched = some true :=
  C79_ntc_validates (Ex.ntcEnv cpu) Ex.ntcDraw Ex.ntcConv_ok (by decide) (by decide) (by decide)
    Ex.subSel_built Ex.subSel_built (fun _ => rfl) (by decide) Ex.subSel_enough (Or.inl rfl)

end NP
