import Verif.Containers.ModelCas
import Mathlib.Order.MinMax

/-!
# Specification: atomic operations on an address
-/

set_option autoImplicit false

namespace NP.Spec

/-- What a call does if nothing else happens meanwhile: it replaces the number in memory by this one and
returns the number that was there. -/
def fetchOp {T : Type} [LinearOrder T] (mem : T) : CasCall T → T
  | .fetchMax _ value => max mem value
  | .fetchMin _ value => min mem value
  | .native f => f mem

/-- The calls `order` one after the other, each without interruption, take the memory from `m` to `m'`, and
return the numbers `results`. -/
inductive OneByOne {T : Type} [LinearOrder T] (calls : List (CasCall T)) :
    T → List Nat → List T → T → Prop
  | nil (m : T) : OneByOne calls m [] [] m
  | cons (m : T) (i : Nat) (c : CasCall T) (order : List Nat) (results : List T) (m' : T) :
      calls[i]? = some c → OneByOne calls (fetchOp m c) order results m' →
      OneByOne calls m (i :: order) (m :: results) m'

/-- Call `i` has returned. -/
def Returned {T : Type} (s : CasSystem T) (i : Nat) : Prop := ∃ r, s.calls[i]? = some (.done r)

end NP.Spec
