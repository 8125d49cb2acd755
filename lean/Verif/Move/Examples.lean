import Verif.Group.Examples
import Verif.Move.PropsLocal
import Verif.Move.PropsPack
import Verif.Move.PropsIdentify

/-!
# Examples for C26, C27, C28 and C30

Three ranks, each with the group of five particles of `Ex.group`; the rank property of the particle
in row `k` of cell `c` on rank `r` has the values `dest r c 0 k` and `dest r c 1 k`.
-/

set_option autoImplicit false

namespace NP.Ex

open Spec

def moveMem (dest : Nat → Nat → Nat → Int) : Mem := fun k =>
  if k.row < 4 then
    some (if k.sym = 1 then (k.cell : Int)
      else if k.sym = 2 then dest k.cell k.comp k.row
      else (1000 * k.sym + 100 * k.cell + 10 * k.comp + k.row : Nat))
  else none

def moveGroup (dest : Nat → Nat → Nat → Int) : Group :=
  { group home with mem := moveMem dest }

theorem moveGroup_ok (dest : Nat → Nat → Nat → Int) : Consistent (moveGroup dest) := by
  have h := group_ok home
  refine ⟨h.len, h.device, h.es_len, h.es, h.total, h.nodup, ?_, h.pos, h.rank, h.cell⟩
  intro d hd
  have h1 := h.dats d hd
  refine ⟨h1.mem.congr_isSome ?_, h1.host, h1.device, h1.rows, h1.exact⟩
  intro k hk
  simp only [group, moveGroup, moveMem] at hk ⊢
  by_cases hr : k.row < 4
  · rw [if_pos hr]; rfl
  · rw [if_neg hr] at hk; simp at hk

theorem moveGroup_canMove (n own comp : Nat) (dest : Nat → Nat → Nat → Int) (hc : comp < 2) :
    CanMove n own comp env (List.replicate n 9) (moveGroup dest) := by
  refine ⟨env_ok, moveGroup_ok dest, group_small home, ⟨⟨2, 2, [3, 2], [4, 4], [3, 2], [3, 2]⟩,
    by simp [moveGroup, group], rfl, hc⟩, by simp, by simp [moveGroup, group], ?_⟩
  intro c k hc hk _
  have := group_lt (ids := home) hc hk
  refine ⟨(c : Int), ?_, by omega⟩
  simp [cellId, moveGroup, moveMem, group, this]

/-- Destinations on rank `r`: some particles name the own rank and some a rank that does not
exist, these stay. -/
def dest (r c comp k : Nat) : Int := if comp = 0 then (r + 2 * c + k : Nat) % 4 else
  if k = 1 then (r + 1 : Nat) % 3 else -1

def ranksGroup (r : Nat) : Group := moveGroup (dest r)

/-- Every rank names the next one, itself and, twice, the next one again. -/
def neighbours (r : Nat) : List Int := [((r + 1) % 3 : Nat), (r : Nat), ((r + 1) % 3 : Nat)]

example : ((List.range 3).map fun r => (List.range 3).map (sendCount 3 r 0 (ranksGroup r))) =
    [[0, 1, 2], [1, 0, 1], [2, 1, 0]] := by decide +kernel

example : ((List.range 3).map fun r => (List.range 3).map (sendCount 3 r 1 (ranksGroup r))) =
    [[0, 2, 0], [0, 0, 2], [2, 0, 0]] := by decide +kernel

/-- C26 -/
example : ∃ d sel, identify env 3 1 (ranksGroup 1) 0 [9, 9, 9] = some d ∧
    Identified 3 1 0 (ranksGroup 1) d sel ∧ (0 = 0 → RanksListed 3 1 0 (ranksGroup 1) d) ∧
      (0 ≠ 0 → d.numRanks = 0 ∧ d.rankMap = [9, 9, 9]) :=
  C26_identify env_ok (moveGroup_ok _) (group_small home) (by decide)
    ⟨⟨2, 2, [3, 2], [4, 4], [3, 2], [3, 2]⟩, by simp [ranksGroup, moveGroup, group], rfl,
      by decide⟩ rfl

/-- C27: five words for each particle, two particles arrive. -/
example : ∃ g', ((unpack env (ranksGroup 0) 3 2 [1, 2, 3, 4, 5, 6, 7, 8, 9, 10]).bind
      setNpartCellFromDat) = some g' ∧ Consistent g' ∧ SameShape (ranksGroup 0) g' ∧
    contents g' 0 = contents (ranksGroup 0) 0 ++
      [[1, 2, 3, 4, 5].map some, [6, 7, 8, 9, 10].map some] ∧
    ∀ c, 0 < c → c < (ranksGroup 0).ncell → contents g' c = contents (ranksGroup 0) c :=
  C27_unpack (e := env) (g := ranksGroup 0) (moveGroup_ok _) (by decide)
    (ws := [[1, 2, 3, 4, 5], [6, 7, 8, 9, 10]]) (by decide) 3

/-- C27: the hypotheses of the packing theorem are met by every identified set of particles of
a rank that sends. -/
example : ∃ d sel, Identified 3 2 0 (ranksGroup 2) d sel ∧
    SendOk 3 2 0 (ranksGroup 2) [1, 0] [1, 2] [1, 0, 9] := by
  obtain ⟨d, sel, -, h, -, -⟩ := C26_identify (own := 2) env_ok (moveGroup_ok (dest 2))
    (group_small home) (size := 3) (comp := 0) (by decide)
    ⟨⟨2, 2, [3, 2], [4, 4], [3, 2], [3, 2]⟩, by simp [moveGroup, group], rfl, by decide⟩
    (map0 := [9, 9, 9]) rfl
  refine ⟨d, sel, h, rfl, by decide, ?_, ?_, ?_⟩
  · intro i r hr
    match i with
    | 0 => simp at hr; subst hr; decide +kernel
    | 1 => simp at hr; subst hr; decide +kernel
    | i + 2 => simp at hr
  · intro i r hr
    match i with
    | 0 => simp at hr; subst hr; rfl
    | 1 => simp at hr; subst hr; rfl
    | i + 2 => simp at hr
  · intro r hr
    have hlt : r < 3 := by
      obtain ⟨⟨c, k⟩, hm⟩ : ∃ p, p ∈ (particlesOf (ranksGroup 2)).filter fun p =>
          destination 3 2 0 (ranksGroup 2) p.1 p.2 == some r := List.exists_mem_of_length_pos hr
      rw [List.mem_filter] at hm
      exact (destination_eq_some.1 (by simpa using hm.2)).1
    match r, hlt with
    | 0, _ => decide
    | 1, _ => decide
    | 2, _ => revert hr; decide +kernel

/-- C28 -/
example : ∃ out, globalMove 3 Sched.reversed (fun _ => Sched.reversed) (fun _ => Sched.inOrder)
      (fun _ => env) false 3 (fun _ => List.replicate 3 9) ranksGroup = some out ∧
    Moved 3 0 ranksGroup out :=
  C28_global_move Sched.reversed (fun _ => Sched.reversed) (fun _ => Sched.inOrder) false 3
    (fun r _ => moveGroup_canMove 3 r 0 (dest r) (by decide)) (fun _ _ _ _ => rfl)

/-- C28: the particle in row 1 of cell 0 of rank 0 is in cell 0 of rank 1 afterwards. -/
example : particle (ranksGroup 0) 0 1 ∈ arriving 3 0 ranksGroup 1 := by decide +kernel

/-- C30: construction, local move and conservation. -/
example : ∃ pats out, localSetup 3 Sched.reversed (fun _ => Sched.reversed)
      (fun _ => List.replicate 3 9) neighbours = some pats ∧
    localMove 3 (fun _ => Sched.reversed) (fun _ => Sched.inOrder) (fun _ => env) true 3
      (fun _ => List.replicate 3 9) (fun r => pats.getD r default) ranksGroup = some out ∧
    Moved 3 1 ranksGroup out := by
  have hr : ∀ r, r < 3 → ∀ x ∈ neighbours r, 0 ≤ x ∧ x < ((3 : Nat) : Int) := by
    intro r hr x hx
    simp only [neighbours, List.mem_cons, List.not_mem_nil, or_false] at hx
    omega
  obtain ⟨pats, h1, -, h2⟩ := C30_setup Sched.reversed (fun _ => Sched.reversed)
    (fresh := fun _ => List.replicate 3 9) (fun _ _ => rfl) hr
  have hp : ∀ r, r < 3 → PatternOk 3 neighbours r (pats.getD r default) := by
    intro r hr
    obtain ⟨p, hp, ho⟩ := h2 r hr
    rw [List.getD_eq_getElem?_getD, hp]
    exact ho
  obtain ⟨out, h3, h4⟩ := C30_local_move (fun _ => Sched.reversed) (fun _ => Sched.inOrder) true 3
    (fun r _ => moveGroup_canMove 3 r 1 (dest r) (by decide)) (fun _ _ _ _ => rfl) hr hp
    (by
      intro r c k t hr hc hk hd
      have hrow := group_lt (ids := home) hc hk
      have hv := (destination_eq_some.1 hd).2.2
      simp only [moveGroup, moveMem, group, hrow, if_true, dest] at hv
      simp only [neighbours, List.mem_cons]
      by_cases hk1 : k = 1
      · simp [hk1] at hv
        left
        omega
      · simp [hk1] at hv)
  exact ⟨pats, out, h1, h3, h4⟩

/-- C30: rank 0 has a particle for rank 1 and named only rank 2. -/
example : localMove 3 (fun _ => Sched.reversed) (fun _ => Sched.inOrder) (fun _ => env) true 3
    (fun _ => List.replicate 3 9)
    (fun r => if r = 0 then ⟨[2], [], [9, 9, 0]⟩ else if r = 2 then ⟨[], [0], [9, 9, 9]⟩
      else ⟨[], [], [9, 9, 9]⟩) ranksGroup = none := by
  refine C30_unreachable (ranks := fun r => if r = 0 then [2] else []) _ _ true 3 ?_ ?_ (r := 0)
    (by decide) (moveGroup_canMove 3 0 1 (dest 0) (by decide)) (c := 0) (k := 1) (t := 1)
    (by decide) (by decide) (by decide +kernel) (by decide)
  · intro r _ x hx
    by_cases h : r = 0
    · simp [h] at hx; omega
    · simp [h] at hx
  · intro r hr
    match r, hr with
    | 0, _ =>
      refine ⟨by decide, ?_, by decide, ?_, ?_⟩
      · intro t; simp; omega
      · intro s; simp
      · intro i t ht
        match i with
        | 0 => simp at ht; subst ht; rfl
        | i + 1 => simp at ht
    | 1, _ =>
      refine ⟨by decide, ?_, by decide, ?_, ?_⟩
      · intro t; simp
      · intro s; simp
      · intro i t ht; simp at ht
    | 2, _ =>
      refine ⟨by decide, ?_, by decide, ?_, ?_⟩
      · intro t; simp
      · intro s; simp; constructor
        · intro h; subst h; simp
        · rintro ⟨-, -, h⟩
          by_cases h0 : s = 0
          · exact h0
          · simp [h0] at h
      · intro i t ht; simp at ht

end NP.Ex
