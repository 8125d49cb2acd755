import Verif.Mesh.ModelCart

/-!
# The choice of the grid of ranks

Model of `get_cart_dims`, `get_reordered_cart_decomp`, `get_lower_dimension_cart_decomp` and
`get_single_dimension_cart_decomp` in `src/communication/communication_utility.cpp:188-275` and
of their use in `src/cartesian_mesh/cartesian_h_mesh.cpp:38-96`. Integers are unbounded.
-/

set_option autoImplicit false

namespace NP

/-- What is not determined by the code: `MPI_Dims_create` and the order in which `std::sort`
leaves indices with equal keys. -/
structure GridEnv where
  /-- `MPI_Dims_create(size, ndim, {0, ...})`. -/
  dimsCreate : Int → Nat → List Int
  /-- The result of `std::sort` in `reverse_argsort`. -/
  argsort : List Int → List Nat

/-- `get_cart_dims`, src/communication/communication_utility.cpp:188-195. -/
def GridEnv.cartDims (e : GridEnv) (size : Int) (ndim : Nat) : List Int :=
  if ndim > 0 then e.dimsCreate size ndim else []

/-- Insertion into a list in descending order. -/
def insertDesc (x : Int) : List Int → List Int
  | [] => [x]
  | y :: ys => if y < x then x :: y :: ys else y :: insertDesc x ys

/-- `std::sort(..., std::greater<int>())` of integers (where equal elements cannot be told
apart). -/
def sortDesc : List Int → List Int
  | [] => []
  | x :: xs => insertDesc x (sortDesc xs)

/-- `get_reordered_cart_decomp`, src/communication/communication_utility.cpp:197-210.
`reverse_argsort` is in include/neso_particles/typedefs.hpp:141-151. -/
def GridEnv.reordered (e : GridEnv) (ndim : Nat) (dims counts : List Int) : Option (List Int) :=
  let ordering := e.argsort counts
  let sorted := sortDesc dims
  forLoop 0 ndim (fun d out => (rd ordering d).bind fun i => (rd sorted d).bind fun v => st out i v)
    (List.replicate ndim 0)

/-- The loop in src/communication/communication_utility.cpp:225-234: `effective_size`,
`known_dims`, `reduced_space`; `effective_ndim` is the length of `reduced_space`. -/
def lowerLoop : Int → List Int → Option (Int × List Int × List Int)
  | size, [] => some (size, [], [])
  | size, c :: cs =>
    if c = 0 then none
    else if size.tmod c = 0 then
      (lowerLoop (size.tdiv c) cs).bind fun (s, known, red) => some (s, c :: known, red)
    else (lowerLoop size cs).bind fun (s, known, red) => some (s, -1 :: known, c :: red)

/-- The loop in src/communication/communication_utility.cpp:247-253. -/
def fillKnown : List Int → List Int → Option (List Int)
  | [], _ => some []
  | k :: ks, ts =>
    if k < 1 then ts.head?.bind fun t => (fillKnown ks ts.tail).bind fun r => some (t :: r)
    else (fillKnown ks ts).bind fun r => some (k :: r)

/-- `get_lower_dimension_cart_decomp`, src/communication/communication_utility.cpp:212-260. -/
def GridEnv.lower (e : GridEnv) (size : Int) (ndim : Nat) (counts : List Int) :
    Option (List Int) :=
  (lowerLoop size counts).bind fun (effSize, known, red) =>
  if red.length = 0 then some known
  else if red.length ≠ ndim then
    (e.reordered red.length (e.cartDims effSize red.length) red).bind fun tmp =>
    fillKnown known tmp
  else e.reordered ndim (e.cartDims size ndim) counts

/-- `std::max_element`: the index of the first greatest element, none for the empty list. -/
def maxElement : List Int → Option Nat
  | [] => none
  | x :: xs => match maxElement xs with
    | none => some 0
    | some i => if (xs[i]?).getD x > x then some (i + 1) else some 0

/-- `get_single_dimension_cart_decomp`,
src/communication/communication_utility.cpp:262-275. -/
def singleDim (size : Int) (ndim : Nat) (counts : List Int) : Option (List Int) :=
  (maxElement counts).bind fun i => st (List.replicate ndim 1) i size

/-- `lambda_valid_decomp`, src/cartesian_mesh/cartesian_h_mesh.cpp:41-58. -/
def validDecomp (size : Int) (counts grid : List Int) : Bool :=
  grid.prod = size && (List.zipWith (fun g c => decide (¬ g > c)) grid counts).all id

/-- The choice of the grid, src/cartesian_mesh/cartesian_h_mesh.cpp:60-96. `parent` is the grid
of the given communicator if that is Cartesian. -/
def GridEnv.choose (e : GridEnv) (parent : Option (List Int)) (size : Int) (ndim : Nat)
    (counts : List Int) : Option (List Int) :=
  (match parent with
    | some dims => some dims
    | none =>
      (e.reordered ndim (e.cartDims size ndim) counts).bind fun g0 =>
      (if validDecomp size counts g0 then some g0 else e.lower size ndim counts).bind fun g1 =>
      if validDecomp size counts g1 then some g1 else singleDim size ndim counts).bind fun g =>
  if validDecomp size counts g then some g else none

end NP
