import Verif.Comm.ModelExchange

/-! # Specifications for exchanges between ranks -/

set_option autoImplicit false

namespace NP.Spec

/-- Edge `i` of rank `a` and edge `j` of rank `b` are the same edge from `a` to `b`: they name
each other's rank, and as many edges of `a` to `b` precede `i` as edges of `b` from `a`
precede `j`. -/
def SameEdge (dests sources : Nat → List Nat) (a i b j : Nat) : Prop :=
  (dests a)[i]? = some b ∧ (sources b)[j]? = some a ∧
    ((dests a).take i).count b = ((sources b).take j).count a

/-- The edge lists of all ranks describe one graph. -/
structure GraphOk (n : Nat) (dests sources : Nat → List Nat) : Prop where
  dests_lt : ∀ a, a < n → ∀ b ∈ dests a, b < n
  sources_lt : ∀ b, b < n → ∀ a ∈ sources b, a < n
  count : ∀ a b, a < n → b < n → (dests a).count b = (sources b).count a

/-- The pairs (rank, value) of the ranks that name `r`, with the value each gave for `r`. -/
def namedBy {β : Type} (n : Nat) (targets : Nat → List Nat) (values : Nat → List β) (r : Nat) :
    List (Nat × β) :=
  (List.range n).flatMap fun s => (((targets s).zip (values s)).filter fun tv => tv.1 = r).map
    fun tv => (s, tv.2)

end NP.Spec
