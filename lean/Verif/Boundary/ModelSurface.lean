import Verif.Boundary.ModelExchange
import Mathlib.Data.Rat.Defs

/-!
# Model: functions on the faces of a boundary group

Models `src/cartesian_mesh/cartesian_h_mesh_function.cpp` and the functions of
`src/cartesian_mesh/cartesian_trajectory_intersection.cpp` which project onto and evaluate them.
All ranks are modelled together, as in `ModelExchange`. Functions are of order 0, which is all
that the library accepts: there is one degree of freedom per face (`cell_dof_count` is 1). `REAL`
is exact. A particle loop over a sub group calls the kernel once for each of its particles, in any
order (this is the subject of other properties): a particle of the sub group is a pair of the face
id in its metadata and of its value. Assertions about the existence of properties are left out.
-/

set_option autoImplicit false

namespace NP

/-- `CartesianHMeshFunction` on one rank: `d_dofs`, `d_dofs_stage` and `version`. -/
structure SurfFunc where
  dofs : List ℚ
  stage : List ℚ
  version : Nat
deriving DecidableEq, Inhabited

/-- The constructor for `n` owned faces, src/cartesian_mesh/cartesian_h_mesh_function.cpp:5-27;
`create_function` passes the faces passed to the `BoundaryMeshInterface`,
src/cartesian_mesh/cartesian_trajectory_intersection.cpp:95-104 and 134-142. -/
def funcNew (mem : Fresh ℚ) (n : Nat) : SurfFunc where
  dofs := List.replicate n 0
  stage := (mem (max n 1)).1
  version := 0

/-- `fill`, src/cartesian_mesh/cartesian_h_mesh_function.cpp:73-82. -/
def funcFill (v : ℚ) (f : SurfFunc) : SurfFunc :=
  { f with dofs := List.replicate f.dofs.length v, version := 0 }

/-- `set_dofs`, src/cartesian_mesh/cartesian_h_mesh_function.cpp:95-106. -/
def funcSet (vs : List ℚ) (f : SurfFunc) : Option SurfFunc :=
  if vs.length = f.dofs.length then some { f with dofs := vs, version := 0 } else none

/-- `get_dofs`, src/cartesian_mesh/cartesian_h_mesh_function.cpp:84-93. -/
def funcGet (f : SurfFunc) : List ℚ := f.dofs

/-- `realloc_no_copy` without a factor, include/neso_particles/device_buffers.hpp:73-91. A buffer
of size 0 is not allocated and cannot grow. -/
def stageNoCopy (mem : Fresh ℚ) (n : Nat) (buf : List ℚ) : Option (List ℚ) :=
  if buf.length < n then (if buf.length = 0 then none else some (mem n).1) else some buf

/-- `realloc` without a factor, include/neso_particles/device_buffers.hpp:103-124, likewise. -/
def stageCopy (mem : Fresh ℚ) (n : Nat) (buf : List ℚ) : Option (List ℚ) :=
  if buf.length < n then
    (if buf.length = 0 then none else some (buf ++ (mem n).1.drop buf.length))
  else some buf

/-- `function_project_initialise` on one rank,
src/cartesian_mesh/cartesian_trajectory_intersection.cpp:148-173. -/
def funcInit (mem : Fresh ℚ) (a : SurfRank) (f : SurfFunc) : Option SurfFunc :=
  let n := surfNumGeoms a
  (stageNoCopy mem n f.stage).bind fun buf =>
  (stRange buf 0 (List.replicate n 0)).bind fun buf =>
  some (funcFill 0 { f with stage := buf })

/-- The kernel of `function_project_contribute`,
src/cartesian_mesh/cartesian_trajectory_intersection.cpp:232-252. The tree has no root if it is
empty. `debug`: the assertions in the kernels are compiled in (`NDEBUG` is not defined). -/
def funcAddKernel (debug : Bool) (inv : ℚ) (a : SurfRank) (p : Int × ℚ) (buf : List ℚ) :
    Option (List ℚ) :=
  if surfNumGeoms a = 0 then some buf else
  match surfSeqOf a p.1 with
  | none => if debug then none else some buf
  | some i => if debug && !decide (i < surfNumGeoms a) then none else
      (rd buf i).bind fun old => st buf i (old + inv * p.2)

/-- `function_project_contribute` on one rank,
src/cartesian_mesh/cartesian_trajectory_intersection.cpp:175-272. `parts` is `none` for a null
sub group. -/
def funcAdd (mem : Fresh ℚ) (order : Sched) (debug : Bool) (inv : ℚ) (a : SurfRank)
    (parts : Option (List (Int × ℚ))) (f : SurfFunc) : Option SurfFunc :=
  let n := surfNumGeoms a
  let cur := f.stage.length
  (if cur < n then (stageCopy mem n f.stage).bind fun buf =>
      stRange buf cur (List.replicate (n - cur) 0)
    else some f.stage).bind fun buf =>
  if n ≤ buf.length then
    match parts with
    | none => some { f with stage := buf }
    | some ps => (runItems (funcAddKernel debug inv a) (order.order ps) buf).bind fun buf =>
        some { f with stage := buf }
  else none

/-- The kernel of `function_evaluate`,
src/cartesian_mesh/cartesian_trajectory_intersection.cpp:350-367: the new value of the property of
a particle with face id `p.1` and old value `p.2`. -/
def funcEvalKernel (debug : Bool) (a : SurfRank) (buf : List ℚ) (p : Int × ℚ) : Option ℚ :=
  if surfNumGeoms a = 0 then some p.2 else
  match surfSeqOf a p.1 with
  | none => if debug then none else some p.2
  | some i => rd buf i

/-- The loop of `function_evaluate` on one rank,
src/cartesian_mesh/cartesian_trajectory_intersection.cpp:333-381: the new values of the property of
the particles. A particle writes its own value, so the order does not matter. -/
def funcEvalRank (debug : Bool) (a : SurfRank) (parts : Option (List (Int × ℚ))) (f : SurfFunc) :
    Option (Option (List ℚ)) :=
  match parts with
  | none => some none
  | some ps => (ps.mapM (funcEvalKernel debug a f.stage)).bind fun vs => some (some vs)

/-! ## All ranks -/

/-- What one call depends on: memory, order of the particles and the environment of the exchange. -/
structure FuncEnv where
  mem : Nat → Fresh ℚ
  order : Nat → Sched
  exch : SurfEnv ℚ
  debug : Bool
  /-- MPI is device aware. -/
  aware : Bool
  /-- kernels can read host memory. -/
  host : Bool

/-- An operation on each rank, given the interface and the function of that rank. -/
def funcOnRanks {A : Type} (w : List SurfRank) (fs : List SurfFunc) (op : Nat → SurfRank → SurfFunc → Option A) :
    Option (List A) :=
  mapRanks w fun r a => (rd fs r).bind fun f => op r a f

/-- `function_project_initialise`. -/
def funcInits (e : FuncEnv) (w : List SurfRank) (fs : List SurfFunc) : Option (List SurfFunc) :=
  funcOnRanks w fs fun r a f => funcInit (e.mem r) a f

/-- `function_project_contribute`. -/
def funcAdds (e : FuncEnv) (inv : ℚ) (parts : List (Option (List (Int × ℚ)))) (w : List SurfRank)
    (fs : List SurfFunc) : Option (List SurfFunc) :=
  funcOnRanks w fs fun r a f => (rd parts r).bind fun ps => funcAdd (e.mem r) (e.order r) e.debug inv a ps f

/-- `function_project_finalise`,
src/cartesian_mesh/cartesian_trajectory_intersection.cpp:274-288. -/
def funcFinals (e : FuncEnv) (w : List SurfRank) (fs : List SurfFunc) : Option (List SurfFunc) :=
  (surfForward e.exch 1 w (fs.map SurfFunc.stage) (fs.map SurfFunc.dofs)).bind fun out =>
  funcOnRanks w fs fun r _ f => (rd out r).bind fun d => some { f with dofs := d, version := 0 }

/-- `function_project`, src/cartesian_mesh/cartesian_trajectory_intersection.cpp:291-304. -/
def funcProject (e : FuncEnv) (inv : ℚ) (parts : List (Option (List (Int × ℚ)))) (w : List SurfRank)
    (fs : List SurfFunc) : Option (List SurfFunc) :=
  (funcInits e w fs).bind fun fs => (funcAdds e inv parts w fs).bind fun fs => funcFinals e w fs

/-- The update of the staging buffer in `function_evaluate`,
src/cartesian_mesh/cartesian_trajectory_intersection.cpp:324-331. The exchange is a collective
operation: if it is not called by all ranks then it does not complete (`none`). -/
def funcRefresh (e : FuncEnv) (w : List SurfRank) (fs : List SurfFunc) : Option (List SurfFunc) :=
  (funcOnRanks w fs fun _ a f => some (decide (f.version < a.version))).bind fun need =>
  if need.all id then
    (funcOnRanks w fs fun r a f => stageNoCopy (e.mem r) (surfNumGeoms a) f.stage).bind fun bufs =>
    (surfBackward e.exch e.aware e.host 1 w (fs.map SurfFunc.dofs) bufs).bind fun out =>
    funcOnRanks w fs fun r a f => (rd out r).bind fun s => some { f with stage := s, version := a.version }
  else if need.any id then none
  else some fs

/-- `function_evaluate`, src/cartesian_mesh/cartesian_trajectory_intersection.cpp:307-384: the
functions and the new values of the property of the particles. -/
def funcEvals (e : FuncEnv) (parts : List (Option (List (Int × ℚ)))) (w : List SurfRank)
    (fs : List SurfFunc) : Option (List SurfFunc × List (Option (List ℚ))) :=
  (funcRefresh e w fs).bind fun fs =>
  (funcOnRanks w fs fun r a f => (rd parts r).bind fun ps => funcEvalRank e.debug a ps f).bind
    fun outs => some (fs, outs)

/-! ## Histories -/

/-- The calls, on all ranks, which concern one boundary group and one function on it.
`extend_exchange_pattern` is called by `post_integration`. -/
inductive FuncOp
  | extend (c : SurfCall)
  | fill (vs : List ℚ)
  | set (vs : List (List ℚ))
  | init (e : FuncEnv)
  | add (e : FuncEnv) (inv : ℚ) (parts : List (Option (List (Int × ℚ))))
  | final (e : FuncEnv)
  | eval (e : FuncEnv) (parts : List (Option (List (Int × ℚ))))

/-- The effect of a call on the interfaces and functions of the ranks. -/
def funcStep (op : FuncOp) (s : List SurfRank × List SurfFunc) :
    Option (List SurfRank × List SurfFunc) :=
  match op with
  | .extend c => (surfExtend c.mpi c.mem c.pairs s.1).bind fun w => some (w, s.2)
  | .fill vs => (funcOnRanks s.1 s.2 fun r _ f => (rd vs r).bind fun v => some (funcFill v f)).bind fun fs =>
      some (s.1, fs)
  | .set vs => (funcOnRanks s.1 s.2 fun r _ f => (rd vs r).bind fun v => funcSet v f).bind fun fs =>
      some (s.1, fs)
  | .init e => (funcInits e s.1 s.2).bind fun fs => some (s.1, fs)
  | .add e inv parts => (funcAdds e inv parts s.1 s.2).bind fun fs => some (s.1, fs)
  | .final e => (funcFinals e s.1 s.2).bind fun fs => some (s.1, fs)
  | .eval e parts => (funcEvals e parts s.1 s.2).bind fun r => some (s.1, r.1)

/-- A new function, created after the interfaces. -/
def funcsNew (mem : Nat → Fresh ℚ) (owned : List (List Int)) : List SurfFunc :=
  owned.zipIdx.map fun x => funcNew (mem x.2) x.1.length

/-- A history of calls. `before` are the extensions made before the function was created. -/
def funcRun (owned : List (List Int)) (before : List SurfCall) (mem : Nat → Fresh ℚ) (ops : List FuncOp) :
    Option (List SurfRank × List SurfFunc) :=
  (surfRun owned before).bind fun w => runItems funcStep ops (w, funcsNew mem owned)

end NP
