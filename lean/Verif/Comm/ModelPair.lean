import Verif.Basics.ModelLimits

/-!
# Model: communicators of nodes and the choice of devices

Models `CommPair`, `include/neso_particles/communication/comm_pair.hpp:55-79`, `get_local_mpi_rank`, `src/compute_target.cpp:5-26`, and
the choice of the device in the constructor of `SYCLTarget`, `src/compute_target.cpp:141-149`.

Simplifications. `node r` is the node of rank `r` of the parent communicator, which has `P` ranks. `MPI_Comm_split` with equal keys
orders the ranks of a new communicator as in the parent, as the MPI standard says, and so does `MPI_Comm_split_type`. Environment
variables are given by the integer that `std::stoi` reads. `none`: an exception or undefined behaviour.
-/

set_option autoImplicit false

namespace NP

/-- `MPI_Comm_split` with equal keys: the rank in the new communicator and its size, or nothing for the colour
`MPI_UNDEFINED`. -/
def mpiSplit (P : Nat) (colour : Nat → Option Nat) (r : Nat) : Option (Nat × Nat) :=
  (colour r).map fun c =>
    (((List.range r).filter fun q => colour q = some c).length, ((List.range P).filter fun q => colour q = some c).length)

/-- The members of a `CommPair` on one rank, comm_pair.hpp:24-41; `inter` is not set on ranks for which `comm_inter` is
`MPI_COMM_NULL`. -/
structure CommPairRank where
  rankParent : Nat
  sizeParent : Nat
  rankIntra : Nat
  sizeIntra : Nat
  inter : Option (Nat × Nat)
  deriving DecidableEq

/-- `colour_intra`, comm_pair.hpp:65. -/
def colourInter (P : Nat) (node : Nat → Nat) (r : Nat) : Option Nat :=
  match mpiSplit P (fun q => some (node q)) r with
  | some (rankIntra, _) => if rankIntra = 0 then some 1 else none
  | none => none

/-- The constructor of `CommPair` on rank `r`, comm_pair.hpp:55-79. -/
def commPair (P : Nat) (node : Nat → Nat) (r : Nat) : Option CommPairRank :=
  (mpiSplit P (fun q => some (node q)) r).bind fun intra =>
  some ⟨r, P, intra.1, intra.2, mpiSplit P (colourInter P node) r⟩

/-- `std::stoi` without a handler, src/compute_target.cpp:9. -/
def stoiEnv : EnvVar → Option Int
  | .number v => if -2 ^ 31 ≤ v ∧ v < 2 ^ 31 then some v else none
  | _ => none

/-- `get_local_mpi_rank`, src/compute_target.cpp:5-26; `intra` is the rank on the node. -/
def getLocalMpiRank (e1 e2 e3 : EnvVar) (intra : Nat) (default : Int) : Option Int :=
  match e1 with
  | .unset =>
    match e2 with
    | .unset =>
      match e3 with
      | .unset => if default < 0 then some (intra : Int) else some default
      | e => stoiEnv e
    | e => stoiEnv e
  | e => stoiEnv e

/-- The index of the device, src/compute_target.cpp:141-149: the remainder of `int`, which has the sign of the local rank. No device is a
division by zero, and a negative index is out of bounds. -/
def deviceIndex (localRank : Int) (e1 e2 e3 : EnvVar) (c : CommPairRank) (numDevices : Nat) : Option Nat :=
  (if localRank < 0 then getLocalMpiRank e1 e2 e3 c.rankIntra c.rankIntra else some localRank).bind fun lr =>
  if numDevices = 0 then none
  else
    let i := lr.tmod numDevices
    if i < 0 then none else some i.toNat

end NP
