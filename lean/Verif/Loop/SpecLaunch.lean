import Verif.Loop.Model
import Verif.Loop.Spec

/-! Specification vocabulary for launches and for traces of loop events. -/

set_option autoImplicit false

namespace NP

/-- Preconditions of a loop launch: the local size and the number of bins are
positive, the number of particles of each cell is a positive `int`, and the group
does not report zero particles although the loop bounds are not all zero. -/
structure LaunchOk (P : LoopParams) (npartLb : List Nat) (hasGroup : Bool)
    (npartLocal : Nat) : Prop where
  localSize_pos : 0 < P.localSize
  localSize_int : P.localSize < 2 ^ 31
  nbin_pos : 0 < P.nbin
  counts_int : ∀ n ∈ npartLb, n < 2 ^ 31
  local_count : hasGroup = true → npartLocal = 0 → ∀ n ∈ npartLb, n = 0

/-- The pre and post loop hooks in a trace. -/
def hooksOf (t : List LoopEvent) : List LoopEvent := t.filter (fun e => e = .pre ∨ e = .post)

/-- Number of calls of a history that start the loop. -/
def numStarts (cs : List LoopCall) : Nat := (cs.filter (fun c => c ≠ .wait)).length

/-- Number of calls of a history that wait for the loop. -/
def numWaits (cs : List LoopCall) : Nat :=
  (cs.filter (fun c => match c with | .submit _ _ => false | _ => true)).length

/-- All starts of the history are for the whole loop. -/
def WholeLoop (cs : List LoopCall) : Prop :=
  ∀ c ∈ cs, match c with | .submit cw _ => cw = false | .execute cw _ => cw = false | .wait => True

/-- The hooks alternate, beginning with a pre loop hook. -/
def Alternates (l : List LoopEvent) : Prop :=
  ∀ (i : Nat) e, l[i]? = some e → ((e = .pre) ↔ i % 2 = 0)

/-- Kernels launched after the last time the loop was completed. -/
def launchedSince : List LoopEvent → Nat → Nat
  | [], n => n
  | .launch k :: t, n => launchedSince t (n + k)
  | .complete :: t, _ => launchedSince t 0
  | _ :: t, n => launchedSince t n

end NP
