import Verif.Io.Props
import Verif.Group.ExamplesGet

/-! # Concrete cases for property C75 -/

set_option autoImplicit false

namespace NP.Ex

open Spec

/-- Rank 0 writes a sub group of three particles. -/
def ioRank0 : IoRank := ⟨group home, .sub getSub, ⟨1024, 2, 2⟩, fun _ => Sched.reversed,
  fun _ n => ⟨List.replicate n 7, by simp⟩⟩

/-- Rank 1 writes a whole group of five particles. -/
def ioRank1 : IoRank := ⟨group home, .whole, ⟨1024, 2, 2⟩, fun _ => Sched.inOrder,
  fun _ n => ⟨List.replicate n 9, by simp⟩⟩

def ioRanks : List IoRank := [ioRank0, ioRank1]

def ioLists : List (List (List Nat)) := [[[2, 0], [0]], [[0, 1, 2], [0, 1]]]

/-- A new writer of the positions `x`, the cell ids `x_0` and the ranks. -/
def ioPart : H5Part :=
  ⟨fun s => if s = 0 then ['x'] else if s = 1 then ['x', '_', '0'] else ['r'], [0], [1, 2], 0, []⟩

def ioNcomp : Nat → Nat := fun s => if s = 1 then 1 else 2

theorem ioRanks_ok : ∀ r ∈ ioRanks, IoOk r := by
  intro r hr
  simp only [ioRanks, List.mem_cons, List.not_mem_nil, or_false] at hr
  rcases hr with rfl | rfl
  · exact ⟨group_ok _, getSub_built, group_small _, by decide, by decide, by decide⟩
  · exact ⟨group_ok _, .whole, group_small _, by decide, by decide, by decide⟩

theorem ioLists_ok : List.Forall₂ Writes ioRanks ioLists :=
  .cons (show ParentLists _ (.sub getSub) _ from getSub_lists) (.cons rfl .nil)

theorem ioSame : SameProps ioRanks 0 ioNcomp := by
  intro r hr
  simp only [ioRanks, List.mem_cons, List.not_mem_nil, or_false] at hr
  rcases hr with rfl | rfl <;> exact ⟨rfl, by decide⟩

theorem ioHas : ∀ r ∈ ioRanks, ∀ s ∈ 0 :: ioPart.reals ++ ioPart.ints,
    (r.g.dat? s).isSome = true := by
  intro r hr
  simp only [ioRanks, List.mem_cons, List.not_mem_nil, or_false] at hr
  rcases hr with rfl | rfl <;> decide

/-- The step that is written. -/
def ioStep : StepData :=
  [(['x'], ⟨true, [some 2, some 0, some 100, some 0, some 1, some 2, some 100, some 101]⟩),
   (['y'], ⟨true, [some 12, some 10, some 110, some 10, some 11, some 12, some 110, some 111]⟩),
   (['x', '_', '0'], ⟨true, [some 2, some 0, some 100, some 0, some 1, some 2, some 100,
     some 101]⟩),
   (['x', '_', '1'], ⟨true, [some 12, some 10, some 110, some 10, some 11, some 12, some 110,
     some 111]⟩),
   (['x', '_', '0', '_', '0'], ⟨false, [some 0, some 0, some 1, some 0, some 0, some 0, some 1,
     some 1]⟩),
   (['r', '_', '0'], ⟨false, [some 2002, some 2000, some 2100, some 2000, some 2001, some 2002,
     some 2100, some 2101]⟩),
   (['r', '_', '1'], ⟨false, [some 2012, some 2010, some 2110, some 2010, some 2011, some 2012,
     some 2110, some 2111]⟩)]

/-- C75_write: the theorem applies, and gives the expected file. -/
example := C75_write Sched.reversed ioPart ioRanks_ok ioLists_ok ioSame (by decide) ioHas (-1)

example : (ioPart.write Sched.reversed ioRanks 4).map H5Part.step = some 5 := by decide +kernel

example : ((ioPart.write Sched.reversed ioRanks 4).map H5Part.file).getD [] = [(4, ioStep)] := by
  decide +kernel

/-- C75_names_distinct. -/
example : ((stepEntries ioPart ioRanks ioLists 0 ioNcomp).map (·.1)).Nodup :=
  C75_names_distinct _ _ (by decide) (by decide)

/-- A writer of a REAL and an INT property with the same name. -/
def ioClash : H5Part := ⟨fun _ => ['v'], [0], [1], 0, []⟩

/-- C75_same_name_rejected. -/
example : ioClash.write Sched.inOrder ioRanks (-1) = none :=
  C75_same_name_rejected Sched.inOrder ioClash ioRanks_ok ioLists_ok ioSame (by decide)
    (fun r hr s hs => ioHas r hr s (by
      revert s; decide)) (by decide) (by decide) (by decide) (-1)

/-- C75_missing_property_rejected. -/
example : H5Part.write Sched.inOrder ⟨fun _ => ['v'], [0, 8], [1], 0, []⟩ ioRanks (-1) = none :=
  C75_missing_property_rejected Sched.inOrder _ (r := ioRank0) (s := 8) (by simp [ioRanks])
    (by simp) rfl (-1)

/-- What is read: the positions from `x`, `y` and the ranks. -/
def ioSpec : List ReadProp := [⟨0, 2, true, true⟩, ⟨2, 1, false, false⟩]

theorem ioSpec_ok : ∀ p ∈ ioSpec, (p.ncomp ≤ ioNcomp (sourceSym 0 true p)) ∧
    (p.isReal = true ∧ p.positions = true ∧ true = true ∨
      p.sym ∈ if p.isReal then ioPart.reals else ioPart.ints) := by
  intro p hp
  simp only [ioSpec, List.mem_cons, List.not_mem_nil, or_false] at hp
  rcases hp with rfl | rfl <;> decide

/-- C75_round_trip, with three readers. -/
example := C75_round_trip Sched.reversed ioPart ioRanks_ok ioLists_ok ioSame (by decide) ioHas
  (by decide) (by decide) (stepIn := 4) rfl (by decide) (size := 3) (by decide) true
  (by decide) ioSpec_ok

theorem ioWritten : WrittenStep ioPart ioRanks ioLists 0 ioNcomp 4 [(4, ioStep)] :=
  ⟨ioRanks_ok, ioLists_ok, ioSame, by decide, ioHas, by decide, by decide, by decide +kernel⟩

/-- C75_read. -/
example := C75_read ioWritten (size := 3) (q := 1) (a := 3) (b := 6) (by decide) (by decide)
  (by decide +kernel) true (by decide) ioSpec_ok

example : h5Read ioPart.names [(4, ioStep)] 3 1 ioSpec 4 true =
    some ⟨3, [⟨0, 2, [0, 1, 2, 10, 11, 12]⟩, ⟨2, 1, [2000, 2001, 2002]⟩]⟩ := by decide +kernel

/-- C75_earlier_steps_kept, C75_history and C75_step_numbers: two more steps are written. -/
example : ∃ h', ({ ioPart with step := 5, file := [(4, ioStep)] } : H5Part).writes
    [(Sched.inOrder, ioRanks, -1), (Sched.reversed, [ioRank1], -1)] = some h' ∧
    h'.step = 7 ∧ h'.file.map (·.1) = [4, 5, 6] ∧
    h5Read h'.names h'.file 3 1 ioSpec 4 true = h5Read ioPart.names [(4, ioStep)] 3 1 ioSpec 4 true
    := by
  have hs : (({ ioPart with step := 5, file := [(4, ioStep)] } : H5Part).writes
    [(Sched.inOrder, ioRanks, -1), (Sched.reversed, [ioRank1], -1)]).isSome = true := by
    decide +kernel
  obtain ⟨h', e⟩ := Option.isSome_iff_exists.1 hs
  obtain ⟨a1, a2⟩ := C75_step_numbers (by decide) e
  exact ⟨h', e, a1, a2, (C75_history e (step := 4) (by decide) 3 1 ioSpec true).2⟩

/-- A group without particles. -/
def ioEmpty : Group := { group home with
  dats := [⟨0, 2, [0, 0], [4, 4], [0, 0], [0, 0]⟩, ⟨1, 1, [0, 0], [4, 4], [0, 0], [0, 0]⟩,
    ⟨2, 2, [0, 0], [4, 4], [0, 0], [0, 0]⟩]
  hNpart := [0, 0], dNpart := [0, 0], npartEs := [0, 0], npartLocal := 0 }

example : ((ioPart.write Sched.inOrder [{ ioRank1 with g := ioEmpty }] (-1)).map
    H5Part.file).getD [] = [(0, [])] := by decide +kernel

/-- C75_empty_step_unreadable. -/
example : ∃ h', ioPart.write Sched.inOrder [] 3 = some h' ∧ 3 ∈ h'.file.map (·.1) ∧
    ∀ (size q : Nat) (spec : List ReadProp) (useXyz : Bool),
      h5Read h'.names h'.file size q spec 3 useXyz = none :=
  C75_empty_step_unreadable Sched.inOrder ioPart (ranks := []) (by simp) .nil
    (pos := 0) (ncomp := ioNcomp) (by intro r hr; simp at hr) (by decide) (by simp) rfl rfl
    (by decide)

end NP.Ex
