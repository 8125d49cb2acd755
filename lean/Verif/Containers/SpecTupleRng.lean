import Verif.Containers.ModelTupleRng

/-!
# Specification: histories of loops with random number generators
-/

set_option autoImplicit false

namespace NP.Spec

/-- The generators in an argument, however deep in tuples. -/
def rngsIn : RngArg → List Nat
  | .rng i => [i]
  | .null => []
  | .unit => []
  | .pair a b => rngsIn a ++ rngsIn b

/-- `Component a p i`: the component of `a` with the indices `p` is generator `i`. -/
inductive Component : RngArg → List Nat → Nat → Prop
  | here (i : Nat) : Component (.rng i) [] i
  | first {a b : RngArg} {p : List Nat} {i : Nat} : Component a p i → Component (.pair a b) (0 :: p) i
  | rest {a b : RngArg} {k : Nat} {p : List Nat} {i : Nat} : Component b (k :: p) i →
      Component (.pair a b) ((k + 1) :: p) i

/-- The generators, and the arguments of the loops that run, after any history of submits and waits. -/
inductive LoopsReach : RngPool → List RngArg → Prop
  | init : LoopsReach RngPool.init []
  | submit {s s' : RngPool} {running : List RngArg} {a : RngArg} {n : Nat} {ks : List KRng} :
      LoopsReach s running → s.submit a n = some (ks, s') → LoopsReach s' (a :: running)
  | wait {s : RngPool} {l₁ l₂ : List RngArg} {a : RngArg} : LoopsReach s (l₁ ++ a :: l₂) →
      LoopsReach (s.post a) (l₁ ++ l₂)

end NP.Spec
