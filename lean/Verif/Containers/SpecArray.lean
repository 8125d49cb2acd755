import Verif.Containers.ModelArray
import Verif.Loop.SpecLaunch

/-!
# Specification: what particle loops add to arrays
-/

set_option autoImplicit false

namespace NP

open Spec

variable {α : Type}

namespace Spec

/-- Whether a cell is one the loop was asked to visit can be decided. -/
instance instDecidableCellRequested : (cs ce : Option Int) → (c : Nat) →
    Decidable (CellRequested cs ce c)
  | none, none, _ => isTrue trivial
  | some s, none, c => inferInstanceAs (Decidable ((c : Int) = s))
  | some s, some e, c => inferInstanceAs (Decidable (s ≤ c ∧ (c : Int) < e))
  | none, some _, _ => isFalse id

/-- The values passed to `add` for component `i` by the particles of cell `c`, row by
row. -/
def addsOfCell (adds : Nat → Nat → List (Int × α)) (i c n : Nat) : List α :=
  (List.range n).flatMap fun k => ((adds c k).filter fun a => a.1 = (i : Int)).map (·.2)

/-- The sum of all values the kernel of a launch adds to component `i`: over all cells
the loop is asked to visit and all particles of these cells. -/
def launchSum [AddCommMonoid α] (L : GaLaunch α) (i : Nat) : α :=
  ((L.npart.zipIdx.filter fun nc => CellRequested L.cs L.ce nc.2).map
    fun nc => (addsOfCell L.adds i nc.2 nc.1).sum).sum

/-- The sum of the contributions of `n` ranks. -/
def totalSum [AddCommMonoid α] (n : Nat) (on : Nat → GaLaunch α) (i : Nat) : α :=
  ((List.range n).map fun r => launchSum (on r) i).sum

/-- What a user does with an array: run loops which add to it, and fill it. -/
inductive ArrayStep (α : Type) where
  /-- `execute` of loop `l` on all ranks -/
  | execute (l : Nat) (on : Nat → GaLaunch α) (env : Nat → GaEnv α)
  /-- `fill(v)` on rank `r` -/
  | fill (r : Nat) (v : α)

/-- The effect of a step on the value of component `i` seen by rank `r`, if there are
`n` ranks. -/
def arrayStep [AddCommMonoid α] (n i r : Nat) (x : α) : ArrayStep α → α
  | .execute _ on _ => x + totalSum n on i
  | .fill r' v => if r' = r then v else x

/-- The effect of a call on the value of component `i` of a `LocalArray`; `none` if the
value is not specified. -/
def localStep [AddCommMonoid α] (i : Nat) (x : Option α) : LaCall α → Option α
  | .submit _ L => x.map (· + launchSum L i)
  | .wait _ => x
  | .fill v => some v
  | .set d => d[i]?
  | .realloc _ _ => none

/-- Is loop `l` in flight after the call: submitted and not waited for? -/
def flightStep (l : Nat) (f : Bool) : LaCall α → Bool
  | .submit m _ => m == l || f
  | .wait m => m != l && f
  | _ => f

/-- The call is one the API accepts: no second submission of a loop over all cells, no wait
without a submission, data of the right size. -/
def LaAccepts (size : Nat) (inFlight : Nat → Bool) : LaCall α → Prop
  | .submit l L => ¬ (inFlight l = true ∧ L.cs = none)
  | .wait l => inFlight l = true
  | .set d => d.length = size
  | _ => True

/-- Follow the values returned by `fetch_add` for component `i`: every call returns the
value before the call. -/
def FetchTrace [Add α] (i : Nat) : α → List ((Int × α) × α) → Prop
  | _, [] => True
  | x, (a, v) :: t => if a.1 = (i : Int) then v = x ∧ FetchTrace i (x + a.2) t
      else FetchTrace i x t

/-- The calls of `add` for the particles of the requested cells, cell by cell. -/
def launchCalls (L : GaLaunch α) : List (Int × α) :=
  (L.npart.zipIdx.filter fun nc => CellRequested L.cs L.ce nc.2).flatMap
    fun nc => (List.range nc.1).flatMap fun k => L.adds nc.2 k

end Spec

/-- The buffer of a `LocalArray` is large enough. -/
def LaOk (g : LaRank α) : Prop := g.size ≤ g.buf.length

/-- The value of component `i` of a `LocalArray` as returned by `get`. -/
def laVal (g : LaRank α) (i : Nat) : Option α := (laGet g).bind fun v => v[i]?

/-- The launch is accepted and adds to existing components only. -/
structure GaLaunchOk (size : Nat) (L : GaLaunch α) : Prop where
  launch : LaunchOk L.P L.npart L.hasGroup L.npartLocal
  cells : CellArgsOk L.npart.length L.cs L.ce
  /-- every component the kernel adds to exists -/
  comps : ∀ c k, IsParticle L.npart c k → ∀ a ∈ L.adds c k, 0 ≤ a.1 ∧ a.1 < size

/-- All ranks hold an array of `size` elements. -/
def GaOk (size : Nat) (w : List (GaRank α)) : Prop :=
  ∀ g ∈ w, g.size = size ∧ g.buf.length = size

/-- No loop is running. -/
def GaIdle (w : List (GaRank α)) : Prop := ∀ g ∈ w, ∀ l, g.running l = false

/-- The value of component `i` on rank `r` as returned by `get`. -/
def gaVal (w : List (GaRank α)) (r i : Nat) : Option α := (gaGet r w).bind fun v => v[i]?

/-- The calls a step consists of. -/
def arrayCalls : Spec.ArrayStep α → List (GaCall α)
  | .execute l on env => [.submit l on, .wait l env]
  | .fill r v => [.fill r v]

/-- The step is one the API accepts if there are `n` ranks and `size` components. -/
def ArrayStepOk (n size : Nat) : Spec.ArrayStep α → Prop
  | .execute _ on _ => ∀ r < n, GaLaunchOk size (on r)
  | .fill r _ => r < n

/-- All launches of the call are accepted and it does not change the size. -/
def LaCallOk (size : Nat) : LaCall α → Prop
  | .submit _ L => GaLaunchOk size L
  | .realloc _ _ => False
  | _ => True

end NP
