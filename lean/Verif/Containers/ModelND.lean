import Verif.Containers.Model
import Verif.Common.Kernel
import Mathlib.Algebra.Group.Defs

/-!
# Model: arrays with several dimensions

Models `NDLocalArray` and its access types, `containers/nd_local_array.hpp`, with the
helpers of `containers/tuple.hpp`.  Kernels of a particle loop or a pair loop are the
sequence of their accesses in the order in which they take effect.  Asynchronous copies
are complete when they are used.
-/

set_option autoImplicit false

namespace NP

/-- An argument of an access in a kernel: an integer or a value of the type of the
elements. -/
inductive NDArg (α : Type) where
  | ix (i : Int)
  | val (v : α)
deriving DecidableEq

/-- The array: shape and device buffer. -/
structure NDArr (α : Type) where
  shape : List Int
  mem : List α
deriving DecidableEq

/-- An element `ptr[index]` of the buffer; `none` outside of the buffer. -/
def ndPtr {α : Type} (mem : List α) (n : Int) : Option Nat :=
  if 0 ≤ n ∧ n < mem.length then some n.toNat else none

/-- `fill`, `nd_local_array.hpp:303-308`: `size` elements are written; none if there are
none. -/
def ndFill {α : Type} (a : NDArr α) (v : α) : Option (NDArr α) :=
  (ndSize a.shape).bind fun size =>
  if size > 0 then
    (forLoop 0 size.toNat (fun i m => st m i v) a.mem).bind fun m => some { a with mem := m }
  else some a

/-- The constructor, lines 287-296; `garbage` is what the new buffer contains. -/
def ndCreate {α : Type} (zero : α) (shape : List Int) (garbage : Nat → α) : Option (NDArr α) :=
  (ndSize shape).bind fun size =>
  ndFill ⟨shape, (List.range size.toNat).map garbage⟩ zero

/-- `set`, lines 316-338: the size is asserted. -/
def ndSet {α : Type} (a : NDArr α) (data : List α) : Option (NDArr α) :=
  (ndSize a.shape).bind fun size =>
  if (data.length : Int) = size then
    (forLoop 0 size.toNat (fun i m => (data[i]?).bind fun v => st m i v) a.mem).bind fun m =>
    some { a with mem := m }
  else none

/-- `get()`, lines 346-377: a vector of `size` elements is filled. -/
def ndGet {α : Type} (a : NDArr α) : Option (List α) :=
  (ndSize a.shape).bind fun size => (List.range size.toNat).mapM fun i => a.mem[i]?

/-- `Read::at`, lines 30-32. -/
def ndAt {α : Type} (a : NDArr α) (idx : List Int) : Option α :=
  (getLinearIndex a.shape idx).bind fun n => (ndPtr a.mem n).bind fun k => a.mem[k]?

/-- An assignment to `Write::at`, lines 43-45. -/
def ndWrite {α : Type} (a : NDArr α) (idx : List Int) (v : α) : Option (NDArr α) :=
  (getLinearIndex a.shape idx).bind fun n => (ndPtr a.mem n).bind fun k =>
  (st a.mem k v).bind fun m => some { a with mem := m }

/-- An argument used as an index (values of the type of the elements that are not
integers are not modelled as indices). -/
def NDArg.index {α : Type} : NDArg α → Option Int
  | .ix i => some i
  | .val _ => none

/-- An argument converted to the type of the elements. -/
def NDArg.value {α : Type} (cast : Int → α) : NDArg α → α
  | .ix i => cast i
  | .val v => v

/-- `Tuple::apply_truncated<N>` after `Tuple::to_tuple`, `tuple.hpp:72-75, 91-95`: the
first `N` arguments; too few are refused by the compiler (`static_assert` in `get`). -/
def truncatedArgs {β : Type} (n : Nat) (args : List β) : Option (List β) :=
  if n ≤ args.length then some (args.take n) else none

/-- `Tuple::get_last_arg`, `tuple.hpp:97-108`. -/
def lastArg {β : Type} : List β → Option β
  | [] => none
  | [u] => some u
  | _ :: t => lastArg t

/-- `Add::fetch_add`, `nd_local_array.hpp:56-68`: the new array and the old value. -/
def ndFetchAdd {α : Type} [Add α] (cast : Int → α) (a : NDArr α) (args : List (NDArg α)) :
    Option (NDArr α × α) :=
  (truncatedArgs a.shape.length args).bind fun t => (t.mapM NDArg.index).bind fun idx =>
  (getLinearIndex a.shape idx).bind fun n => (lastArg args).bind fun l =>
  (ndPtr a.mem n).bind fun k => (a.mem[k]?).bind fun old =>
  (st a.mem k (old + l.value cast)).bind fun m => some ({ a with mem := m }, old)

/-- The calls of `fetch_add` of a loop in the order in which they take effect. -/
def ndFetchAdds {α : Type} [Add α] (cast : Int → α) :
    List (List (NDArg α)) → NDArr α → Option (NDArr α × List α)
  | [], a => some (a, [])
  | c :: cs, a => (ndFetchAdd cast a c).bind fun r => (ndFetchAdds cast cs r.1).bind fun q =>
    some (q.1, r.2 :: q.2)

/-- What a user calls: indices and then the value. -/
def callArgs {α : Type} (c : List Int × α) : List (NDArg α) := c.1.map NDArg.ix ++ [NDArg.val c.2]

/-- Uses of the array; `adds` is a loop with add access, `write` an assignment in a
kernel. -/
inductive NDOp (α : Type) where
  | fill (v : α)
  | set (data : List α)
  | adds (calls : List (List Int × α))
  | write (idx : List Int) (v : α)

/-- One use. -/
def ndOp {α : Type} [Add α] (cast : Int → α) (a : NDArr α) : NDOp α → Option (NDArr α)
  | .fill v => ndFill a v
  | .set data => ndSet a data
  | .adds calls => (ndFetchAdds cast (calls.map callArgs) a).map (·.1)
  | .write idx v => ndWrite a idx v

/-- A history of uses. -/
def ndRun {α : Type} [Add α] (cast : Int → α) (ops : List (NDOp α)) (a : NDArr α) :
    Option (NDArr α) := ops.foldlM (ndOp cast) a

end NP
