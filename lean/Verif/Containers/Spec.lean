import Verif.Containers.Model

/-!
# Specification: lookup table, multi dimensional index, resource stack, buffers
-/

set_option autoImplicit false

namespace NP.Spec

/-- The value of the last pair with this key. -/
def lastAdded {K V : Type} [DecidableEq K] : List (K × V) → K → Option V
  | [], _ => none
  | (k, v) :: rest, key =>
    match lastAdded rest key with
    | some w => some w
    | none => if k = key then some v else none

/-- Adds to a lookup table, one after the other. -/
def addAll {V : Type} (t : LookupTable V) : List (Int × V) → Option (LookupTable V)
  | [] => some t
  | (k, v) :: rest => (t.add k v).bind fun t => addAll t rest

/-- An index tuple inside a shape. -/
inductive InShape : List Int → List Int → Prop
  | nil : InShape [] []
  | cons {s i : Int} {ss is : List Int} :
      0 ≤ i → i < s → InShape ss is → InShape (s :: ss) (i :: is)

/-- Lexicographic order of index tuples (first index most significant). -/
inductive LexLt : List Int → List Int → Prop
  | head {i j : Int} {is js : List Int} : i < j → LexLt (i :: is) (j :: js)
  | tail {i : Int} {is js : List Int} : LexLt is js → LexLt (i :: is) (i :: js)

/-- Things a user does with a resource stack: the two operations of the stack, and copying,
dropping and using of the pointers the user holds. -/
inductive StackCall
  | get
  | restore (r : Nat)
  | copy (r : Nat)
  | drop (r : Nat)
  | use (r : Nat)
  | free

/-- What an observer sees of a call. -/
inductive StackEvent
  | got (r : Nat)
  | restored (r : Nat)
  | freed
  | other

/-- One call. -/
def stackCall (s : StackState) : StackCall → Option (StackEvent × StackState)
  | .get => some (.got s.get.1, s.get.2)
  | .restore r => (s.restore r).map fun s => (.restored r, s)
  | .copy r => (s.copyRef r).map fun s => (.other, s)
  | .drop r => (s.dropRef r).map fun s => (.other, s)
  | .use r => (s.useRef r).map fun s => (.other, s)
  | .free => s.free.map fun s => (.freed, s)

/-- All events of a history of calls and the state after it. -/
def stackCalls (s : StackState) : List StackCall → Option (List StackEvent × StackState)
  | [] => some ([], s)
  | c :: cs => (stackCall s c).bind fun (e, s) => (stackCalls s cs).bind fun (es, s) =>
      some (e :: es, s)

/-- The resources that were handed out and not given back, according to the events. -/
def heldAfter (held : List Nat) : List StackEvent → List Nat
  | [] => held
  | .got r :: es => heldAfter (r :: held) es
  | .restored r :: es => heldAfter (held.erase r) es
  | _ :: es => heldAfter held es

/-- An allocated buffer with `l` as content. -/
def Holds {α : Type} (b : Buffer α) (l : List α) : Prop := b.ptr = some l ∧ b.size = l.length

end NP.Spec
