import Verif.Group.SpecAdd

/-!
# Concrete groups

Used beside the theorems to show that their hypotheses are met, and as witnesses.
-/

set_option autoImplicit false

namespace NP.Ex

open Spec

/-- Run items in reverse order, small local sizes. -/
def env : Env where
  sched := fun i => if i % 2 = 0 then Sched.reversed else Sched.inOrder
  freshN := fun _ n => ⟨List.replicate n 7, by simp⟩
  freshI := fun _ n => ⟨List.replicate n (-7), by simp⟩
  junk := fun _ => -5
  over := fun _ n => n + n / 10
  scanLocalSize := 2
  computeUnits := 2
  loop := ⟨1024, 2, 2⟩

theorem env_ok : EnvOk env := ⟨by decide, by decide, by decide, by decide⟩

/-- A group with two cells that hold three and two particles, with the properties
positions (0, two components), cell ids (1) and ranks (2, two components); `ids` are the
cell ids. Four rows are allocated in each cell. -/
def group (ids : Nat → Nat → Int) : Group where
  ncell := 2
  dats := [⟨0, 2, [3, 2], [4, 4], [3, 2], [3, 2]⟩, ⟨1, 1, [3, 2], [4, 4], [3, 2], [3, 2]⟩,
    ⟨2, 2, [3, 2], [4, 4], [3, 2], [3, 2]⟩]
  posSym := 0
  rankSym := 2
  cellSym := 1
  mem := fun k => if k.row < 4 then
      some (if k.sym = 1 then ids k.cell k.row
        else (1000 * k.sym + 100 * k.cell + 10 * k.comp + k.row : Nat))
    else none
  hNpart := [3, 2]
  dNpart := [3, 2]
  npartEs := [0, 3]
  npartLocal := 5
  hint := 0
  version := 4

theorem group_ok (ids : Nat → Nat → Int) : Consistent (group ids) where
  len := rfl
  device := rfl
  es_len := rfl
  es := by intro c hc; match c, hc with | 0, _ => rfl | 1, _ => rfl
  total := rfl
  nodup := by simp [group]
  dats := by
    have key : ∀ s n, DatOk (group ids) ⟨s, n, [3, 2], [4, 4], [3, 2], [3, 2]⟩ := by
      intro s n
      refine ⟨⟨rfl, rfl, ?_, ?_⟩, rfl, rfl, ?_, fun _ => rfl⟩
      · intro c r a h1 h2
        match c with
        | 0 => simp at h1 h2; omega
        | 1 => simp at h1 h2; omega
        | c + 2 => simp at h1
      · intro c a j k h1 _ h3
        have : a = 4 := by
          match c with
          | 0 => simp at h1; omega
          | 1 => simp at h1; omega
          | c + 2 => simp at h1
        subst this
        simp only [group]
        rw [if_pos h3]; rfl
      · intro c n r h1 h2
        simp only [group] at h1 h2
        rw [h1] at h2
        simp only [Option.some.injEq] at h2
        omega
    intro d hd
    simp only [group, List.mem_cons, List.not_mem_nil, or_false] at hd
    rcases hd with rfl | rfl | rfl <;> exact key _ _
  pos := by simp [group]
  rank := by simp [group]
  cell := ⟨⟨1, 1, [3, 2], [4, 4], [3, 2], [3, 2]⟩, by simp [group], rfl, by decide⟩

theorem group_small (ids : Nat → Nat → Int) : SmallCounts (group ids) := by
  intro n hn
  simp only [group, List.mem_cons, List.not_mem_nil, or_false] at hn
  rcases hn with rfl | rfl <;> decide

/-- Cell ids that name the cell the particle is in. -/
def home : Nat → Nat → Int := fun c _ => c

theorem group_lt {ids : Nat → Nat → Int} {c k : Nat} (hc : c < (group ids).ncell)
    (hk : k < count (group ids) c) : k < 4 := by
  match c, hc with
  | 0, _ => simp [count, group] at hk; omega
  | 1, _ => simp [count, group] at hk; omega

theorem group_cellId {ids : Nat → Nat → Int} {c k : Nat} (hc : c < (group ids).ncell)
    (hk : k < count (group ids) c) : cellId (group ids) c k = some (ids c k) := by
  have := group_lt hc hk
  simp [cellId, group, this]

end NP.Ex
