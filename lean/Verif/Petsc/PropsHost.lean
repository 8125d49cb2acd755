import Verif.Petsc.LemmasHost
import Mathlib.Data.Rat.Defs
import Mathlib.Algebra.Order.Ring.Rat
import Mathlib.Tactic.NormNum
import Mathlib.Tactic.Linarith

/-!
# Property C93: particles of unstructured meshes of any dimension are given the cell and rank that
PETSc finds
-/

set_option autoImplicit false

namespace NP

open Spec

variable {R : Type}

/-- For any order in which the kernels run and whatever is in fresh memory: the map of all particles,
or of those of one cell, completes, leaves every particle where it is and gives each of the mapped
particles the cell and rank found for its own position. The other particles, and the other components
of the properties, keep their values. -/
theorem C93_map (s1 s2 : Sched) (fi : Fresh Int) (fr : Fresh R) (m : HostMesh R) (hm : HaloKnown m)
    (mapCell : Int) (cells : List (List (HostPart R))) (hc : mapCell < cells.length)
    (hp : ∀ ps ∈ cells, ∀ p ∈ ps, m.ndim ≤ p.pos.length ∧ 1 ≤ p.cell.length ∧ 2 ≤ p.rank.length) :
    ∃ out, hostMap s1 s2 fi fr m mapCell cells = some out ∧ out.length = cells.length ∧
      ∀ (c : Nat) (ps : List (HostPart R)), cells[c]? = some ps → ∃ qs, out[c]? = some qs ∧
        qs.length = ps.length ∧ ∀ (l : Nat) (p : HostPart R), ps[l]? = some p →
          (¬ Mapped mapCell c → qs[l]? = some p) ∧
          (Mapped mapCell c → ∃ k r, HostFound m (p.pos.take m.ndim) k r ∧
            qs[l]? = some { p with cell := p.cell.set 0 k, rank := p.rank.set 1 r }) := by
  obtain ⟨n, items, hn, hi⟩ := items_exists hc
  have hlin := items_linear hn hi
  have hmem := items_mem hi
  have hget : ∀ cl p, hostGet cells cl = some p →
      m.ndim ≤ p.pos.length ∧ 1 ≤ p.cell.length ∧ 2 ≤ p.rank.length := by
    intro cl p h
    unfold hostGet rd at h
    obtain ⟨ps, h1, h2⟩ := Option.bind_eq_some_iff.1 h
    exact hp ps (List.mem_of_getElem? h1) p (List.mem_of_getElem? h2)
  have hitem : ∀ cl ∈ items, ∃ p, hostGet cells cl = some p := fun cl hcl => ((hmem cl.1 cl.2).1 hcl).2
  obtain ⟨v, e1, e2, e3⟩ := interlace_spec s1 (buf := (fr (n * m.ndim)).1) (fr (n * m.ndim)).2 hlin
    (fun cl hcl => by
      obtain ⟨p, h⟩ := hitem cl hcl
      exact ⟨p, h, (hget cl p h).1⟩)
  obtain ⟨cs, rs, f1, f2⟩ := hostSearch_spec fi fr hm e2
  obtain ⟨out, o1, o2, o3, o4⟩ := deinterlace_spec s2 (cs := cs) (rs := rs) hlin
    (fun k hk => by
      obtain ⟨c, r, h1, h2, -⟩ := f2 k hk
      exact ⟨c, r, h1, h2⟩)
    (fun cl hcl => by
      obtain ⟨p, h⟩ := hitem cl hcl
      exact ⟨p, h, (hget cl p h).2⟩)
  refine ⟨out, ?_, by simpa using congrArg List.length o2, fun c ps hcps => ?_⟩
  · unfold hostMap
    dsimp only
    rw [hn, Option.bind_some, hi, Option.bind_some, e1, Option.bind_some, f1, Option.bind_some]
    exact o1
  · have hlen : (out.map List.length)[c]? = some ps.length := by
      rw [o2, List.getElem?_map, hcps]
      rfl
    rw [List.getElem?_map] at hlen
    obtain ⟨qs, hq, hql⟩ := Option.map_eq_some_iff.1 hlen
    refine ⟨qs, hq, hql, fun l p hl => ?_⟩
    have hg : hostGet cells (c, l) = some p := by
      unfold hostGet rd
      rw [hcps, Option.bind_some]
      exact hl
    have hgo : hostGet out (c, l) = qs[l]? := by
      unfold hostGet rd
      rw [hq, Option.bind_some]
    refine ⟨fun hnm => ?_, fun hma => ?_⟩
    · rw [← hgo, o3 (c, l) fun hh => hnm ((hmem c l).1 hh).1]
      exact hg
    · have hin : (c, l) ∈ items := (hmem c l).2 ⟨hma, p, hg⟩
      have hk : hostLinear (cells.map List.length) mapCell (c, l) < n := by
        have : hostLinear (cells.map List.length) mapCell (c, l) ∈
            items.map (hostLinear (cells.map List.length) mapCell) := List.mem_map_of_mem hin
        rw [hlin] at this
        exact List.mem_range.1 this
      obtain ⟨k, r, g1, g2, g3⟩ := f2 _ hk
      rw [e3 (c, l) hin p hg] at g3
      exact ⟨k, r, g3, by rw [← hgo]; exact o4 (c, l) hin p k r hg g1 g2⟩

/-- When PETSc finds points correctly, every cell of the mesh of the rank is one of its own, numbered
from zero, and the halo cells are copies of cells of other ranks: the cell and rank that are found are
those of a cell that contains the point, or the point is neither in a cell of the rank nor in one of
the halo and gets the cell and rank -1. `W r k` are the points of the cell `k` of rank `r`. -/
theorem C93_contains (m : HostMesh R) (W : Int → Int → List R → Prop) (n : Nat)
    (hown : LocatesIn ((List.range n).map Int.ofNat) (W m.rank) m.locate) (hpoints : List Int)
    (hhalo : ∀ loc, m.haloLocate = some loc → LocatesIn hpoints
      (fun h x => ∃ r k g, omGet m.lids h = some (r, k, g) ∧ W r k x) loc)
    {x : List R} {k r : Int} (h : HostFound m x k r) :
    W r k x ∨ (k = -1 ∧ r = -1 ∧ (∀ c < n, ¬ W m.rank (c : Nat) x) ∧
      (m.haloLocate ≠ none → ∀ h ∈ hpoints, ∀ r' k' g, omGet m.lids h = some (r', k', g) → ¬ W r' k' x)) := by
  cases h with
  | own h0 => exact Or.inl (hown.1 x h0).2
  | halo loc _ _ g h1 h2 h3 h4 =>
    left
    obtain ⟨-, r', k', g', e, hw⟩ := (hhalo loc h2).1 x h3
    rw [h4] at e
    cases e
    exact hw
  | lost h1 h2 =>
    right
    refine ⟨rfl, rfl, fun c hc => hown.2 x h1 c (List.mem_map.2 ⟨c, List.mem_range.2 hc, rfl⟩), ?_⟩
    intro hne h hh r' k' g e hw
    cases hl : m.haloLocate with
    | none => exact hne hl
    | some loc => exact (hhalo loc hl).2 x (h2 loc hl) h hh ⟨r', k', g, e, hw⟩

/-- A cell that the rank does not have is an error. -/
theorem C93_bad_cell (s1 s2 : Sched) (fi : Fresh Int) (fr : Fresh R) (m : HostMesh R) (mapCell : Int)
    (cells : List (List (HostPart R))) (hc : cells.length ≤ mapCell) :
    hostMap s1 s2 fi fr m mapCell cells = none := by
  unfold hostMap
  dsimp only
  rw [if_pos (by omega)]
  have : rd (cells.map List.length) mapCell.toNat = none :=
    List.getElem?_eq_none (by rw [List.length_map]; omega)
  rw [this]
  rfl

namespace Ex

/-- Rank 7 of a mesh on a line: cells `[0, 1]` and `[1, 2]`, and a halo cell `[2, 3]` (point 0 of the
halo) that is cell 4 of rank 8. -/
def hostMesh : HostMesh ℚ where
  ndim := 1
  rank := 7
  locate x := match x with
    | [x] => if x < 0 then -1 else if x ≤ 1 then 0 else if x ≤ 2 then 1 else -1
    | _ => -1
  haloLocate := some fun x => match x with
    | [x] => if x < 2 then -1 else if x ≤ 3 then 0 else -1
    | _ => -1
  lids := [(0, (8, 4, 11))]

def freshI : Fresh Int := fun n => ⟨List.replicate n 99, by simp⟩
def freshQ : Fresh ℚ := fun n => ⟨List.replicate n 99, by simp⟩

theorem hostMesh_known : HaloKnown hostMesh := by
  intro loc x h hx
  cases h
  refine ⟨(8, 4, 11), ?_⟩
  revert hx
  dsimp only
  split
  · split_ifs <;> intro hx
    · omega
    · rfl
    · omega
  · intro hx; omega

def hostCells : List (List (HostPart ℚ)) :=
  [[⟨[5 / 2], [0], [7, -1]⟩, ⟨[1 / 2], [0], [7, -1]⟩], [], [⟨[3 / 2], [2], [7, -1]⟩, ⟨[9], [2], [7, -1]⟩]]

example : ∃ out, hostMap .reversed .inOrder freshI freshQ hostMesh (-1) hostCells = some out ∧
    out.length = 3 := by
  obtain ⟨out, h1, h2, -⟩ := C93_map .reversed .inOrder freshI freshQ hostMesh hostMesh_known (-1) hostCells
    (by decide) (by
      intro ps hps p hp
      simp only [hostCells, List.mem_cons, List.not_mem_nil, or_false] at hps
      rcases hps with rfl | rfl | rfl <;> simp only [List.mem_cons, List.not_mem_nil, or_false] at hp
      · rcases hp with rfl | rfl <;> decide
      · rcases hp with rfl | rfl <;> decide)
  exact ⟨out, h1, h2⟩

/-- One particle is in the halo, one in each of the cells and one is lost. -/
example : (hostMap .reversed .inOrder freshI freshQ hostMesh (-1) hostCells).map (fun out =>
    out.map fun ps => ps.map fun p => (p.cell, p.rank)) =
    some [[([4], [7, 8]), ([0], [7, 7])], [], [([1], [7, 7]), ([-1], [7, -1])]] := by decide +kernel

/-- Only the last cell. -/
example : (hostMap .reversed .inOrder freshI freshQ hostMesh 2 hostCells).map (fun out =>
    out.map fun ps => ps.map fun p => (p.cell, p.rank)) =
    some [[([0], [7, -1]), ([0], [7, -1])], [], [([1], [7, 7]), ([-1], [7, -1])]] := by decide +kernel

example : hostMap .reversed .inOrder freshI freshQ hostMesh 3 hostCells = none :=
  C93_bad_cell _ _ _ _ _ _ _ (by decide)

/-- The cells of the example, and the point `5 / 2`. -/
def hostW (r k : Int) (x : List ℚ) : Prop := ∃ y, x = [y] ∧
  ((r = 7 ∧ k = 0 ∧ 0 ≤ y ∧ y ≤ 1) ∨ (r = 7 ∧ k = 1 ∧ 1 ≤ y ∧ y ≤ 2) ∨ (r = 8 ∧ k = 4 ∧ 2 ≤ y ∧ y ≤ 3))

example : hostW 8 4 [5 / 2] := by
  have hf : HostFound hostMesh [5 / 2] 4 8 :=
    HostFound.halo _ 4 8 11 (by decide +kernel) rfl (by decide +kernel) (by decide +kernel)
  refine Or.elim (C93_contains hostMesh hostW 2 ⟨?_, ?_⟩ [0] ?_ hf) id fun h => absurd h.1 (by decide)
  · intro x hx
    revert hx
    unfold hostMesh hostW
    dsimp only
    split
    · rename_i y
      split_ifs with h1 h2 h3 <;> intro hx
      · omega
      · exact ⟨by decide, y, rfl, Or.inl ⟨rfl, rfl, not_lt.1 h1, h2⟩⟩
      · exact ⟨by decide, y, rfl, Or.inr (Or.inl ⟨rfl, rfl, le_of_lt (not_le.1 h2), h3⟩)⟩
      · omega
    · intro hx; omega
  · rintro x hx c - ⟨y, rfl, h⟩
    revert hx
    unfold hostMesh at *
    dsimp only at *
    rcases h with ⟨-, -, h1, h2⟩ | ⟨-, -, h1, h2⟩ | ⟨h, -⟩
    · rw [if_neg (not_lt.2 h1), if_pos h2]; omega
    · rw [if_neg (by linarith)]
      split_ifs <;> omega
    · omega
  · intro loc hl
    cases hl
    constructor
    · intro x hx
      revert hx
      dsimp only
      split
      · rename_i y
        split_ifs with h1 h2 <;> intro hx
        · omega
        · exact ⟨by decide, 8, 4, 11, rfl, y, rfl, Or.inr (Or.inr ⟨rfl, rfl, not_lt.1 h1, h2⟩)⟩
        · omega
      · intro hx; omega
    · rintro x hx c hc ⟨r, k, g, e, y, rfl, h⟩
      simp only [List.mem_singleton] at hc
      subst hc
      dsimp only at hx
      cases e
      revert hx
      rcases h with ⟨h, -⟩ | ⟨h, -⟩ | ⟨-, -, h1, h2⟩
      · omega
      · omega
      · rw [if_neg (not_lt.2 h1), if_pos h2]; omega

/-- A mesh on a line that was distributed with an overlap: the cells are the points 0 and 1, and the
first is owned by another rank. -/
def hostPlex : Plex where
  depth := 1
  points := [⟨0, [2, 3], [0, 0], []⟩, ⟨0, [3, 4], [0, 0], []⟩, ⟨1, [], [], []⟩, ⟨1, [], [], []⟩, ⟨1, [], [], []⟩]
  numbers := [-1, 5, -3, -4, 6]

/-- Point location in `hostPlex`: the cells are `[0, 1]` and `[1, 2]`. -/
def hostOverlap : HostMesh ℚ := { hostMesh with haloLocate := none }

end Ex

/-- A mesh with cells of other ranks (`generic_distribute` with an overlap): cells are numbered without
those, so the only cell is the PETSc point 1, `[1, 2]`. The mapper gives the particle at `3 / 2` the
cell 1, which does not exist, and the one at `1 / 2`, which is in a cell of another rank, the cell 0
of this rank. -/
theorem C93_overlap : plexCells Ex.hostPlex = [1] ∧
    (hostMap .inOrder .inOrder Ex.freshI Ex.freshQ Ex.hostOverlap (-1)
      [[⟨[3 / 2], [0], [7, -1]⟩, ⟨[1 / 2], [0], [7, -1]⟩]]).map (fun out =>
        out.map fun ps => ps.map fun p => (p.cell, p.rank)) = some [[([1], [7, 7]), ([0], [7, 7])]] := by
  constructor
  · decide +kernel
  · decide +kernel

end NP
