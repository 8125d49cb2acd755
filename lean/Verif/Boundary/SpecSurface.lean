import Verif.Boundary.ModelSurface
import Verif.Boundary.SpecExchange
import Mathlib.Algebra.BigOperators.Group.List.Basic
import Mathlib.Algebra.Order.Field.Rat

/-!
# What functions on the faces of a boundary promise
-/

set_option autoImplicit false

namespace NP.Spec

/-- Where a user is with a projection: outside of one; in one, with contributions up to date; in
one, after `post_integration` and before the next contribution. -/
inductive FuncPhase
  | idle
  | ready
  | extended

/-- The phase after `post_integration`. -/
def FuncPhase.afterExtend : FuncPhase → FuncPhase
  | .idle => .idle
  | _ => .extended

/-- There is a sub group, or none, on every rank, and the faces of its particles have been
announced on that rank. -/
def PartsOk (owned : List (List Int)) (calls : List SurfCall) (parts : List (Option (List (Int × ℚ)))) :
    Prop :=
  parts.length = owned.length ∧
    ∀ (s : Nat) ps, parts[s]? = some (some ps) → ∀ p ∈ ps, Announced calls s p.1

/-- The histories of collective calls: between `function_project_initialise` and
`function_project_finalise` there are only contributions and extensions; there is a contribution
between an extension and `function_project_finalise`. `calls` are all extensions up to now. -/
inductive FuncHistory (owned : List (List Int)) (before : List SurfCall) :
    List FuncOp → List SurfCall → FuncPhase → Prop
  | nil : FuncHistory owned before [] before .idle
  | extend {ops calls ph} (c : SurfCall) : FuncHistory owned before ops calls ph →
      PairsOk owned c.pairs → FuncHistory owned before (ops ++ [.extend c]) (calls ++ [c]) ph.afterExtend
  | fill {ops calls} (vs : List ℚ) : FuncHistory owned before ops calls .idle →
      vs.length = owned.length → FuncHistory owned before (ops ++ [.fill vs]) calls .idle
  | set {ops calls} (vs : List (List ℚ)) : FuncHistory owned before ops calls .idle →
      vs.map List.length = owned.map List.length → FuncHistory owned before (ops ++ [.set vs]) calls .idle
  | init {ops calls ph} (e : FuncEnv) : FuncHistory owned before ops calls ph →
      FuncHistory owned before (ops ++ [.init e]) calls .ready
  | add {ops calls ph} (e : FuncEnv) (inv : ℚ) (parts : List (Option (List (Int × ℚ)))) :
      FuncHistory owned before ops calls ph → ph ≠ .idle → PartsOk owned calls parts →
      FuncHistory owned before (ops ++ [.add e inv parts]) calls .ready
  | final {ops calls} (e : FuncEnv) : FuncHistory owned before ops calls .ready →
      FuncHistory owned before (ops ++ [.final e]) calls .idle
  | eval {ops calls} (e : FuncEnv) (parts : List (Option (List (Int × ℚ)))) :
      FuncHistory owned before ops calls .idle → PartsOk owned calls parts →
      (e.aware || e.host) = true → FuncHistory owned before (ops ++ [.eval e parts]) calls .idle

/-- `v` is the value for the face among the values of all owners: `dofs` are the results of
`get_dofs` on each rank. -/
def FaceDof (owned : List (List Int)) (dofs : List (List ℚ)) (face : Int) (v : ℚ) : Prop :=
  ∃ (q i : Nat) (faces : List Int) (d : List ℚ), owned[q]? = some faces ∧ faces[i]? = some face ∧ dofs[q]? = some d ∧ d[i]? = some v

/-- The sum of the values of the particles, on all ranks, which hit the face. -/
def faceTotal (parts : List (Option (List (Int × ℚ)))) (face : Int) : ℚ :=
  (((parts.flatMap fun ps => ps.getD []).filter fun p => p.1 = face).map fun p => p.2).sum

end NP.Spec

namespace NP.Spec

/-- A part of a projection: calls of `post_integration` and then a contribution. -/
structure FuncRound where
  calls : List SurfCall
  env : FuncEnv
  parts : List (Option (List (Int × ℚ)))

/-- The calls of the parts of a projection. -/
def roundOps (inv : ℚ) (rounds : List FuncRound) : List FuncOp :=
  rounds.flatMap fun r => r.calls.map .extend ++ [.add r.env inv r.parts]

/-- The parts are well formed, after the extensions `calls`. -/
def RoundsOk (owned : List (List Int)) : List SurfCall → List FuncRound → Prop
  | _, [] => True
  | calls, r :: rs => (∀ c ∈ r.calls, PairsOk owned c.pairs) ∧ PartsOk owned (calls ++ r.calls) r.parts ∧
      RoundsOk owned (calls ++ r.calls) rs

end NP.Spec
