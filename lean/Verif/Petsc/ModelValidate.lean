import Verif.Petsc.ModelHalo
import Mathlib.Data.Rat.Init
import Mathlib.Algebra.Order.Ring.Unbundled.Rat

/-!
# Model: validation of the halo of an unstructured mesh

Models `DMPlexInterface::validate_halos`, `dmplex_interface.cpp:268-439`.  All ranks of
`MPI_COMM_WORLD` are assumed to be ranks of the mesh (the function reduces over
`MPI_COMM_WORLD`).  The lowest number of a type, with which the arrays are filled, is
`none`; no number of the mesh is the lowest one.  A failed assertion (with `fatal`) or
`at` outside of a container on any rank is `none` for all ranks: the reductions do not
complete or the program ends.
-/

set_option autoImplicit false

namespace NP

/-- What is read of a point: `DMPlexGetPointDepth`, `DMPlexGetCone` and
`DMPlexGetCellCoordinates`. -/
structure ValPoint where
  depth : Nat
  cone : List Nat
  coords : List ℚ
deriving DecidableEq

/-- A rank: the points of its mesh and their (signed) global numbers, and if there is a
halo its points and `map_local_lid_remote_lid`. -/
structure ValRank where
  points : List ValPoint
  numbers : List Int
  halo : Option (List ValPoint × LidMap)

/-- `std::vector::at` with an `int` index. -/
def atGet {α : Type} (t : List α) (i : Int) : Option α := if 0 ≤ i then t[i.toNat]? else none

/-- Assignment through `std::vector::at` with an `int` index. -/
def atPut {α : Type} (t : List α) (i : Int) (v : α) : Option (List α) :=
  if 0 ≤ i then st t i.toNat v else none

/-- `lambda_assert_true` and `lambda_assert_eq`, `dmplex_interface.cpp:271-282`. -/
def valCheck (fatal valid cond : Bool) : Option Bool :=
  if fatal && !cond then none else some (valid && cond)

/-- `get_point_global_index(point)`, `dmplex_helper.cpp:337-348`. -/
def valGlobal (R : ValRank) (p : Nat) : Option Int :=
  if p < R.points.length then (R.numbers[p]?).map unsignedId else none

/-- Lines 292-297: the greatest global index of a rank. -/
def valMaxGlobal (R : ValRank) : Option Int :=
  forLoop 0 R.points.length (fun p s => (valGlobal R p).bind fun g => some (max s g)) 0

/-- The arrays `int_data`, `real_data` and the flag `valid`. -/
structure ValState where
  ints : List (Option Int)
  reals : List (Option ℚ)
  valid : Bool

/-- The loop body of lines 325-367. -/
def valWrite (fatal : Bool) (rank : Nat) (R : ValRank) (p : Nat) (s : ValState) :
    Option ValState :=
  (R.numbers[p]?).bind fun g =>
  if g > -1 then
    (R.points[p]?).bind fun x =>
    (atPut s.ints (g * 7 + 0) (some (x.depth : Int))).bind fun t =>
    (atPut t (g * 7 + 1) (some (x.cone.length : Int))).bind fun t =>
    (valCheck fatal s.valid (decide (x.cone.length < 5))).bind fun v =>
    (forLoop 0 x.cone.length (fun c t => (x.cone[c]?).bind fun q =>
      (valGlobal R q).bind fun gq => atPut t (g * 7 + (2 + c)) (some gq)) t).bind fun t =>
    (atPut t (g * 7 + 6) (some (rank : Int))).bind fun t =>
    (valCheck fatal v (decide (x.coords.length ≤ 8))).bind fun v =>
    (forLoop 0 x.coords.length (fun c t => (x.coords[c]?).bind fun q =>
      atPut t (g * 8 + c) (some q)) s.reals).bind fun u =>
    some ⟨t, u, v⟩
  else some s

/-- Lines 303-367 on one rank. -/
def valLocal (fatal : Bool) (np : Nat) (rank : Nat) (R : ValRank) : Option ValState :=
  forLoop 0 R.points.length (valWrite fatal rank R)
    ⟨List.replicate (np * 7) none, List.replicate (np * 8) none, true⟩

/-- `MPI_MAX`, where `none` is the lowest number. -/
def lowMax {α : Type} [Max α] : Option α → Option α → Option α
  | none, b => b
  | a, none => a
  | some a, some b => some (max a b)

/-- `MPI_Allreduce` with `MPI_MAX` of arrays of `n` numbers, lines 369-372. -/
def valReduce {α : Type} [Max α] (n : Nat) (ts : List (List (Option α))) : List (Option α) :=
  ts.foldl (List.zipWith lowMax) (List.replicate n none)

/-- The comparison of the coordinates, lines 419-425: two `std::set`s of pairs. -/
def valCoords (reals : List (Option ℚ)) (g : Int) (coords : List ℚ) : Option Bool :=
  (forLoop 0 ((coords.length + 1) / 2) (fun k s =>
    (atGet reals (g * 8 + 2 * k)).bind fun a => (atGet reals (g * 8 + (2 * k + 1))).bind fun b =>
    (coords[2 * k]?).bind fun c => (coords[2 * k + 1]?).bind fun d =>
    some (s.1 ++ [(a, b)], s.2 ++ [(some c, some d)])) ([], [])).bind fun s =>
  some (decide ((∀ x ∈ s.2, x ∈ s.1) ∧ ∀ x ∈ s.1, x ∈ s.2))

/-- The loop body of lines 387-430. -/
def valPoint (fatal : Bool) (ints : List (Option Int)) (reals : List (Option ℚ))
    (H : List ValPoint × LidMap) (h : Nat) (v : Bool) : Option Bool :=
  (omGet H.2 h).bind fun e => (H.1[h]?).bind fun x =>
  let g := e.2.2
  (atGet ints (g * 7 + 0)).bind fun a =>
  (valCheck fatal v (decide (a = some (x.depth : Int)))).bind fun v =>
  (atGet ints (g * 7 + 1)).bind fun a =>
  (valCheck fatal v (decide (a = some (x.cone.length : Int)))).bind fun v =>
  (forLoop 0 x.cone.length (fun c v => (x.cone[c]?).bind fun q =>
    (atGet ints (g * 7 + (2 + c))).bind fun a => (omGet H.2 q).bind fun eq =>
    valCheck fatal v (decide (a = some eq.2.2))) v).bind fun v =>
  (if x.depth = 2 then (atGet ints (g * 7 + 6)).bind fun a =>
    valCheck fatal v (decide (some e.1 = a)) else some v).bind fun v =>
  (valCheck fatal v (decide (x.coords.length ≤ 8))).bind fun v =>
  (valCoords reals g x.coords).bind fun same => valCheck fatal v same

/-- `validate_halos` on all ranks: what it returns on each. -/
def validateHalos (fatal : Bool) (ranks : List ValRank) : Option (List Bool) :=
  (ranks.mapM valMaxGlobal).bind fun gs =>
  let np := (gs.foldl max 0).toNat + 1
  ((List.range ranks.length).mapM fun r => (ranks[r]?).bind (valLocal fatal np r)).bind fun ss =>
  let ints := valReduce (np * 7) (ss.map ValState.ints)
  let reals := valReduce (np * 8) (ss.map ValState.reals)
  (List.range ranks.length).mapM fun r => (ranks[r]?).bind fun R => (ss[r]?).bind fun s =>
    match R.halo with
    | none => some s.valid
    | some H => forLoop 0 H.1.length (valPoint fatal ints reals H) s.valid

end NP
