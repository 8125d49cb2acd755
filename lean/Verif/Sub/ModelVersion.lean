import Verif.Common.Kernel
import Mathlib.Logic.Function.Basic

/-!
# Model: versions of particle data and the refreshing of sub groups

Models `particle_dat_versions` and `particle_group_version` of `ParticleGroup` and of the
selectors, and when a `ParticleSubGroup` is created anew. What a selector computes is a
parameter here (`make`); it is modelled in Sub/Model.lean.

Versions are unbounded integers; the code uses `int64_t`. A sub group is a number, its index in
the order in which the sub groups were made, so that parents have smaller numbers. In the code
parents are held by shared pointers, which exist before the child.

Simplification: when a selector is run, each parent is brought up to date once, before the
parent's selection is used. In the code each of the selector's loops does this again.
-/

set_option autoImplicit false

namespace NP

/-- A `ParticleSubGroup` with its selector. `D` are contents of particle dats, `S` describes the
particles in cells and layers, `X` are selections. -/
structure SubNode (D S X : Type) where
  /-- the sub groups the selector uses; none if its parent is the whole group -/
  parents : List Nat
  /-- the particle properties the selector's kernel reads -/
  own : List Nat
  /-- the selector's computation: the number of the run (standing for its schedule), the
  selections of the parents, the dats and the cells -/
  make : Nat → List X → (Nat → D) → S → X
  /-- `SubGroupSelectorBase::particle_dat_versions` -/
  tracker : List (Nat × Int)
  /-- `SubGroupSelectorBase::particle_group_version` -/
  groupVersion : Int
  /-- `is_static` -/
  static : Bool
  /-- `selection`, once it was made -/
  sel : Option X

/-- A `ParticleGroup` with its sub groups. -/
structure GroupWorld (D S X : Type) where
  data : Nat → D
  cells : S
  /-- `particle_dat_versions`: the version and whether sub groups are always to be made anew -/
  version : Nat → Int × Bool
  /-- `particle_group_version` -/
  groupVersion : Int
  subs : List (SubNode D S X)
  /-- number of selector runs so far -/
  runs : Nat

variable {D S X : Type}

/-- A group without sub groups: versions start at 1, particle_group.hpp:296-302 and
particle_group.hpp:435. -/
def GroupWorld.init (data : Nat → D) (cells : S) : GroupWorld D S X :=
  ⟨data, cells, fun _ => (1, false), 1, [], 0⟩

/-- `invalidate_callback_inner`, particle_group.hpp:253-257. -/
def bumpVersion (v : Int × Bool) (mode : Nat) : Int × Bool := (v.1 + 1, decide (mode ≠ 0))

/-- `invalidate_group_version`, particle_group.hpp:349-355. -/
def bumpGroup (v : Int) : Int := if v + 1 = 0 then v + 1 + 1 else v + 1

/-- `check_validation` of the particle dat versions, particle_group.cpp:34-64, with
`update_to_check`: the new tracker and whether an update is needed. -/
def checkDats (version : Nat → Int × Bool) : List (Nat × Int) → List (Nat × Int) × Bool
  | [] => ([], false)
  | (s, v) :: t =>
    let r := checkDats version t
    let l := version s
    ((s, if l.1 ≠ v then l.1 else v) :: r.1, (decide (l.1 ≠ v) || l.2) || r.2)

/-- `check_validation` of the group version, particle_group.cpp:64-72, with
`update_to_check`. -/
def checkGroup (current tracked : Int) : Int × Bool :=
  (if current ≠ tracked then current else tracked, decide (current ≠ tracked))

/-- `is_valid`, particle_sub_group_base.cpp:128-134. -/
def isValid (w : GroupWorld D S X) (n : SubNode D S X) : Bool :=
  if n.static then !(checkGroup w.groupVersion n.groupVersion).2 else true

/-- Replaces a sub group. -/
def setSub (w : GroupWorld D S X) (i : Nat) (n : SubNode D S X) : GroupWorld D S X :=
  { w with subs := w.subs.set i n }

/-- The selections of the parents. -/
def parentSels (w : GroupWorld D S X) : List Nat → Option (List X)
  | [] => some []
  | p :: ps => (rd w.subs p).bind fun n => n.sel.bind fun x =>
      (parentSels w ps).bind fun xs => some (x :: xs)

/-- `create_if_required`, particle_sub_group_base.cpp:136-143, with `create_inner`, 44-59, and
`SubGroupSelectorBase::get`, sub_group_selector_base.cpp:75-94. The first argument bounds the
depth of the nesting. `none` if an assertion fails. -/
def refresh : Nat → Nat → GroupWorld D S X → Option (GroupWorld D S X)
  | 0, _, _ => none
  | d + 1, i, w =>
    (rd w.subs i).bind fun n =>
    if isValid w n then
      if n.static then some w
      else
        let dats := checkDats w.version n.tracker
        let grp := checkGroup w.groupVersion n.groupVersion
        let w1 := setSub w i { n with tracker := dats.1, groupVersion := grp.1 }
        if dats.2 || grp.2 then
          (runItems (refresh d) n.parents w1).bind fun w2 =>
          (parentSels w2 n.parents).bind fun xs =>
          some { setSub w2 i { n with tracker := dats.1, groupVersion := grp.1,
                                      sel := some (n.make w2.runs xs w2.data w2.cells) } with
            runs := w2.runs + 1 }
        else some w1
    else none

/-- Using a sub group: any function that calls `create_if_required` and then reads the
selection. -/
def useSub (w : GroupWorld D S X) (i : Nat) : Option (GroupWorld D S X × X) :=
  (refresh (i + 1) i w).bind fun w' => (rd w'.subs i).bind fun n => n.sel.bind fun x =>
    some (w', x)

/-- What a program can do to a group and its sub groups. -/
inductive SubOp (D S X : Type) where
  /-- a new sub group with a new selector -/
  | add (parents own : List Nat) (make : Nat → List X → (Nat → D) → S → X)
  /-- a write to a particle dat by a loop or by `set_cell`, which calls the write callback with
  mode 0: cell_dat.hpp:207-211, 570-600, particle_dat.hpp:426-805 -/
  | write (sym : Nat) (v : D)
  /-- `device_ptr`, cell_dat.hpp:629-633: the callback with mode 1 -/
  | takePointer (sym : Nat)
  /-- a write through a pointer obtained earlier, without a callback -/
  | poke (sym : Nat) (v : D)
  /-- a property removed and added again, with the value `v` for all particles:
  `remove_particle_dat_common`, particle_group.hpp:280-285, which erases the version, and
  `add_particle_dat_common`, particle_group.hpp:287-311. Simplification: the two happen at once.
  In between, using a sub group that depends on the property fails. -/
  | replace (sym : Nat) (v : D)
  /-- particles added, removed or moved: `invalidate_group_version`, particle_group.cpp:250,
  298, 444, 700, 800, 810, 1089, 1095, 1117, 1128, particle_group_impl.hpp:34 -/
  | change (data : Nat → D) (cells : S)
  /-- use of a sub group -/
  | use (i : Nat)
  /-- `static_status`, particle_sub_group_base.cpp:111-124 -/
  | setStatic (i : Nat) (b : Bool)

/-- The dependencies of a new selector: those of its parents and its own properties, with
version 0; `add_parent_dependencies`, sub_group_selector_base.cpp:139-152, and
`add_sym_dependency`, 32-43. The code uses a map with one entry per property. -/
def newTracker (w : GroupWorld D S X) (parents own : List Nat) : Option (List (Nat × Int)) :=
  (collectM (fun p => (rd w.subs p).bind fun n => some (n.tracker.map Prod.fst)) parents).bind
    fun deps => some (((deps ++ own).eraseDups).map fun s => (s, 0))

/-- One operation. -/
def stepSub (op : SubOp D S X) (w : GroupWorld D S X) : Option (GroupWorld D S X) :=
  match op with
  | .add parents own make =>
    (newTracker w parents own).bind fun t =>
      some { w with subs := w.subs ++ [⟨parents, own, make, t, 0, false, none⟩] }
  | .write s v => some { w with
      data := Function.update w.data s v
      version := Function.update w.version s (bumpVersion (w.version s) 0) }
  | .takePointer s => some { w with
      version := Function.update w.version s (bumpVersion (w.version s) 1) }
  | .poke s v => some { w with data := Function.update w.data s v }
  | .replace s v => some { w with
      data := Function.update w.data s v
      version := Function.update w.version s (1, false) }
  | .change data cells => some { w with
      data := data
      cells := cells
      groupVersion := bumpGroup w.groupVersion }
  | .use i => refresh (i + 1) i w
  | .setStatic i b =>
    (rd w.subs i).bind fun n =>
    if n.static = b then some w
    else (if b then refresh (i + 1) i w else some w).bind fun w1 =>
      (rd w1.subs i).bind fun n1 => some (setSub w1 i { n1 with static := b })

end NP
