import Verif.Comm.Mpi
import Verif.Basics.Model

/-!
# Model: unions of sets over all ranks

Models `include/neso_particles/communication/communication_utility.hpp`, lines 109-299, for
`T = int`, the only type for which the functions are instantiated
(src/communication/communication_utility.cpp:45-51).
-/

set_option autoImplicit false

namespace NP

/-- The messages of `set_send`. -/
inductive SetMsg where
  | count (n : Nat)
  | data (l : List Int)

/-- `std::set<int>::insert`. A set is the list of its elements in increasing order, which is
the order of iteration. -/
def rankSetInsert (x : Int) : List Int → List Int
  | [] => [x]
  | y :: l => if x < y then x :: y :: l else if x = y then y :: l else y :: rankSetInsert x l

/-- Inserts the elements of a container one by one. -/
def rankSetInsertAll (s l : List Int) : List Int := l.foldl (fun s x => rankSetInsert x s) s

variable {R : Type}

/-- `set_send`, communication_utility.hpp:124-140. Simplification: the size of the set is not
larger than the largest `int`. -/
def setSend (s : List Int) (dst tag : Nat) (k : Proc SetMsg R) : Proc SetMsg R :=
  .send dst tag (.count s.length) (if s.length ≠ 0 then .send dst tag (.data s) k else k)

/-- `set_recv`, communication_utility.hpp:150-167. A message that does not have the expected
length is an error in the model. -/
def setRecv (src tag : Nat) (k : List Int → Proc SetMsg R) : Proc SetMsg R :=
  .recv src tag fun m => match m with
    | .count n =>
      if n ≠ 0 then .recv src tag fun m => match m with
        | .data l => if l.length = n then k (rankSetInsertAll [] l) else .fail
        | .count _ => .fail
      else k []
    | .data _ => .fail

/-- The loop of communication_utility.hpp:255-266; `k` is what follows it. -/
def reduceTree (s rank : Nat) (w : List Int) (k : List Int → Proc SetMsg R) : Proc SetMsg R :=
  if h : s > 0 then
    if rank < s then
      setRecv (rank + s) 0 fun t => reduceTree (s / 2) rank (rankSetInsertAll w t) k
    else if rank ≥ s ∧ rank < 2 * s then
      setSend w (rank - s) 0 (reduceTree (s / 2) rank w k)
    else reduceTree (s / 2) rank w k
  else k w
termination_by s
decreasing_by all_goals omega

/-- Lines 269-282. -/
def reduceRoot (root rank : Nat) (w : List Int) : Proc SetMsg (List Int) :=
  let ret := fun w : List Int => if rank = root then Proc.done w else .done []
  if root ≠ 0 then
    if rank = 0 then setSend w root 0 (ret w)
    else if rank = root then setRecv 0 0 ret
    else ret w
  else ret w

/-- `set_reduce_union` on one rank, communication_utility.hpp:221-282. -/
def reduceProc (size root rank : Nat) (input : List Int) : Proc SetMsg (List Int) :=
  let w := rankSetInsertAll [] input
  if size = 1 then .done w
  else if isPowerOfTwo size then reduceTree (size / 2) rank w (reduceRoot root rank)
  else match getPrevPowerOfTwo size with
    | none => .fail
    | some r =>
      let rest := fun w => reduceTree (r / 2) rank w (reduceRoot root rank)
      if rank < size - r then setRecv (r + rank) 0 fun t => rest (rankSetInsertAll w t)
      else if rank ≥ r then setSend w (rank - r) 0 (rest w)
      else rest w

/-- All ranks call `set_reduce_union`; there are no other messages. -/
def reduceNet (size root : Nat) (input : Nat → List Int) : Net SetMsg (List Int) :=
  ⟨fun rank => if rank < size then reduceProc size root rank (input rank) else .done [],
    fun _ _ _ => []⟩

/-- `set_bcast` by all ranks, communication_utility.hpp:181-206: `MPI_Bcast` gives every rank
the number and the elements of the root's set. -/
def setBcast (root : Nat) (sets : Nat → List Int) (_rank : Nat) : List Int :=
  rankSetInsertAll [] (sets root)

/-- `set_all_reduce_union`, communication_utility.hpp:295-299: a broadcast of the results of the
reduction. -/
def setAllReduce (results : Nat → List Int) (rank : Nat) : List Int := setBcast 0 results rank

end NP
