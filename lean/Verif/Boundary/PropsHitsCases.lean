import Verif.Boundary.PropsHits
import Verif.Boundary.PropsWallCases
import Verif.Boundary.PropsSurfaceCases

/-!
# C71: cases of the theorems, and what happens when a side is given twice
-/

set_option autoImplicit false

namespace NP

open Spec

namespace Ex

def hitSee : SeeEnv where
  P := ⟨1024, 4, 1⟩
  order := Sched.reversed
  fresh := fun n => ⟨List.replicate n 77, by simp⟩
  over := 1
  garbage := fun _ => ⟨99, some 3, some 5, [true, true, true, true], [9, 9, 9, 9]⟩

def hitRank : HitRank 2 := ⟨wallEnv 3 2, subCounts, .whole, wallRows, fun _ => hitSee⟩

/-- Every one of the four ranks has the particles of `wallRows`. -/
def hitStep : HitStep 2 := ⟨List.replicate 4 hitRank, fun _ => surfMpi, fun _ => surfMem⟩

theorem hitGroups_ok : GroupsOk cartMesh wallGroups := by
  refine ⟨?_, ?_, ?_⟩ <;> decide

theorem hitStep_ok : HitStepOk cartMesh 1 (1/100) wallGroups 4 hitStep := by
  have hx : ∀ x ∈ hitStep.ranks, x = hitRank := fun x hx => List.eq_of_mem_replicate hx
  refine ⟨rfl, fun x h => ?_, fun x h g _ => ?_⟩
  · rw [hx x h]; exact wallCall
  · rw [hx x h]
    exact ⟨by show 0 < 1; decide, by show 1 < 2 ^ 31; decide, by show 0 < 4; decide,
      fun _ => ⟨rfl, rfl⟩⟩

theorem hitSteps_ok : ∀ s ∈ [hitStep, hitStep], HitStepOk cartMesh 1 (1/100) wallGroups 4 s := by
  intro s hs
  rw [List.eq_of_mem_replicate (n := 2) (a := hitStep) hs]
  exact hitStep_ok

theorem getD_of_lt {α : Type} {l : List α} {i : Nat} {d : α} (h : i < l.length) :
    l[i]? = some (l.getD i d) := by
  rw [List.getD_eq_getElem?_getD, List.getElem?_eq_getElem h]
  rfl

def hitStart : HitWorld × List (List (List Int)) := (hitNew cartMesh wallGroups).getD (⟨[], [], []⟩, [])

def hitEnd : HitWorld × List (List HitOut) :=
  (hitRun cartMesh 1 (1/100) wallGroups 4 [hitStep, hitStep] hitStart.1).getD (⟨[], [], []⟩, [])

/-- Values of particles of group 5, which hit face 2. -/
def hitParts : List (Option (List (Int × ℚ))) := [some [(2, 3)], none, some [(2, 4), (2, 5)], some [(2, 7)]]

/-- The same call for groups where side 0 is given twice. -/
def hitTwice : List (Int × List Int) := [(5, [0, 0]), (7, [1])]

theorem hitStart_eq : hitNew cartMesh wallGroups = some hitStart := by
  obtain ⟨w, owned, h, -⟩ := C71_owned cartMesh_valid (Or.inl rfl) hitGroups_ok
  unfold hitStart
  rw [h]
  rfl

theorem hitEnd_eq : hitRun cartMesh 1 (1/100) wallGroups 4 [hitStep, hitStep] hitStart.1 = some hitEnd := by
  obtain ⟨w, owned, w', outs, h1, h2, -⟩ := C71_registered (tw := 4) cartMesh_valid (Or.inl rfl) hitGroups_ok
    (by decide) [hitStep, hitStep] hitSteps_ok
  rw [hitStart_eq] at h1
  rw [show hitStart.1 = w from by rw [Option.some.inj h1]]
  unfold hitEnd
  rw [show hitStart.1 = w from by rw [Option.some.inj h1], h2]
  rfl

-- The faces of the two groups on the four ranks.
example : hitStart.2 = [[[0, 1], [10, 11], [2, 3], [12, 13]], [[], [], [4, 5, 6], [7, 8, 9]]] := by
  decide +kernel

-- The faces that are announced have an index.
example : hitEnd.1.ifaces.map (fun i => i.map fun a => (surfSeqOf a 2, surfSeqOf a 11, surfSeqOf a 5)) =
    [List.replicate 4 (some 0, some 1, none), List.replicate 4 (none, none, some 0)] := by
  decide +kernel

-- The faces in the metadata of the particles returned on each rank, in each call.
example : hitEnd.2.map (fun o => o.map fun h => h.map fun x => (x.1, x.2.2.map fun c => c.map (·.info))) =
    List.replicate 2 (List.replicate 4
      [(5, [[[5, 2]], [], [[5, 11]]]), (7, [[[7, 5]], [], []])]) := by
  decide +kernel

theorem everHit_two : ∀ r < 4, EverHit hitEnd.2 r 0 2 := by
  intro r hr
  have h : ∀ r < 4, (((((hitEnd.2[0]?.bind fun o => o[r]?).bind fun h => h[0]?).bind fun o =>
      rowAt o.2.2 0 0).bind fun row => row.info[1]?)) = some 2 := by decide +kernel
  obtain ⟨row, hrow, hi⟩ := Option.bind_eq_some_iff.1 (h r hr)
  obtain ⟨o, ho, hrow⟩ := Option.bind_eq_some_iff.1 hrow
  obtain ⟨out, hout, ho⟩ := Option.bind_eq_some_iff.1 ho
  obtain ⟨a, ha, hout⟩ := Option.bind_eq_some_iff.1 hout
  exact ⟨a, List.mem_of_getElem? ha, out, hout, o, 0, 0, row, ho, hrow, hi⟩

theorem hitParts_ok : HitParts hitEnd.2 cartMesh.comm.dims.prod 0 hitParts := by
  refine ⟨rfl, fun r ps hr p hp => ?_⟩
  have hlt : r < 4 := (List.getElem?_eq_some_iff.1 hr).1
  have h : ∀ r < 4, ∀ p ∈ (hitParts.getD r none).getD [], p.1 = 2 := by decide +kernel
  rw [h r hlt p (by rw [List.getD_eq_getElem?_getD, hr]; exact hp)]
  exact everHit_two r hlt

end Ex

-- The hypotheses of `C71_project` are met.
example : ∃ fs, funcProject Ex.funcEnv 2 Ex.hitParts (Ex.hitEnd.1.ifaces.getD 0 [])
      (funcsNew (Ex.funcMem 5) (Ex.hitStart.2.getD 0 [])) = some fs ∧
    ∀ q face, q < Ex.cartMesh.comm.dims.prod → GroupFace Ex.cartMesh (5, [0, 2]) q face →
      ∃ (i : Nat) (faces : List Int) (f : SurfFunc), (Ex.hitStart.2.getD 0 [])[q]? = some faces ∧
        faces[i]? = some face ∧ fs[q]? = some f ∧
        (funcGet f)[i]? = some (2 * faceTotal Ex.hitParts face) := by
  obtain ⟨fs, h1, h2, -⟩ := C71_project (tw := 4) (j := 0) (g := (5, [0, 2]))
    (ow := Ex.hitStart.2.getD 0 []) (iface := Ex.hitEnd.1.ifaces.getD 0 []) Ex.cartMesh_valid (Or.inl rfl)
    Ex.hitGroups_ok (by decide) [Ex.hitStep, Ex.hitStep] Ex.hitSteps_ok Ex.hitStart_eq Ex.hitEnd_eq rfl (by decide +kernel)
    (Ex.getD_of_lt (by decide +kernel)) (Ex.funcMem 5) Ex.funcEnv Ex.funcEnv 2 Ex.hitParts_ok Ex.hitParts_ok rfl
  exact ⟨fs, h1, h2⟩

-- What is computed.
example : (funcProject Ex.funcEnv 2 Ex.hitParts (Ex.hitEnd.1.ifaces.getD 0 [])
    (funcsNew (Ex.funcMem 5) (Ex.hitStart.2.getD 0 []))).map (fun fs => fs.map funcGet) =
    some [[0, 0], [0, 0], [38, 0], [0, 0]] := by
  decide +kernel

/-- **C71 (violated when a side is given twice).** The constructor accepts a group that lists a side
twice. Each face on the side then has two values on its rank: after a projection that completes, the
second has the sum and the first is zero, although particles hit the face. -/
theorem C71_repeated_side : ∃ w owned w' outs ow iface fs,
    hitNew Ex.cartMesh Ex.hitTwice = some (w, owned) ∧
    hitRun Ex.cartMesh 1 (1/100) Ex.hitTwice 4 [Ex.hitStep] w = some (w', outs) ∧
    owned[0]? = some ow ∧ w'.ifaces[0]? = some iface ∧
    ow = [[0, 1, 0, 1], [], [2, 3, 2, 3], []] ∧
    funcProject Ex.funcEnv 2 Ex.hitParts iface (funcsNew (Ex.funcMem 5) ow) = some fs ∧
    fs.map funcGet = [[0, 0, 0, 0], [], [0, 0, 38, 0], []] ∧ faceTotal Ex.hitParts 2 = 19 := by
  have key : ((hitNew Ex.cartMesh Ex.hitTwice).bind fun a =>
      (hitRun Ex.cartMesh 1 (1/100) Ex.hitTwice 4 [Ex.hitStep] a.1).bind fun b =>
      a.2[0]?.bind fun ow => b.1.ifaces[0]?.bind fun iface =>
      (funcProject Ex.funcEnv 2 Ex.hitParts iface (funcsNew (Ex.funcMem 5) ow)).bind fun fs =>
      some (ow, fs.map funcGet)) =
      some ([[0, 1, 0, 1], [], [2, 3, 2, 3], []], [[0, 0, 0, 0], [], [0, 0, 38, 0], []]) := by
    decide +kernel
  obtain ⟨⟨w, owned⟩, h1, key⟩ := Option.bind_eq_some_iff.1 key
  obtain ⟨⟨w', outs⟩, h2, key⟩ := Option.bind_eq_some_iff.1 key
  obtain ⟨ow, h3, key⟩ := Option.bind_eq_some_iff.1 key
  obtain ⟨iface, h4, key⟩ := Option.bind_eq_some_iff.1 key
  obtain ⟨fs, h5, key⟩ := Option.bind_eq_some_iff.1 key
  obtain ⟨rfl, h6⟩ := Prod.mk.inj (Option.some.inj key)
  exact ⟨w, owned, w', outs, _, iface, fs, h1, h2, h3, h4, rfl, h5, h6, by decide +kernel⟩

end NP
