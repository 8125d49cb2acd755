import Verif.Common.Kernel

/-!
# Model: lookup table, multi dimensional index, resource stack, buffers

Models `include/neso_particles/containers/lookup_table.hpp`, `nd_index.hpp`,
`resource_stack.hpp` and `include/neso_particles/device_buffers.hpp`.
-/

set_option autoImplicit false

namespace NP

/-! ## LookupTable -/

/-- A `LookupTable`: the flags (`int`) and the entries, `containers/lookup_table.hpp:59-67`.
The values are opaque. -/
structure LookupTable (V : Type) where
  size : Nat
  exist : List Int
  entries : List V

/-- Constructor, `containers/lookup_table.hpp:76-92`; the entries are uninitialised. -/
def LookupTable.create {V : Type} (fresh : Fresh V) (size : Nat) : LookupTable V :=
  ⟨size, List.replicate size 0, (fresh size).1⟩

/-- `LookupTable::add`, `containers/lookup_table.hpp:100-109`. `none`: bad key. -/
def LookupTable.add {V : Type} (t : LookupTable V) (key : Int) (v : V) : Option (LookupTable V) :=
  if key > -1 ∧ key < t.size then
    (index key).bind fun k =>
    (st t.exist k 1).bind fun ex => (st t.entries k v).bind fun en =>
      some { t with exist := ex, entries := en }
  else none

/-- `LookupTableNode::get`, `containers/lookup_table.hpp:28-52` (on the device). The outer
`none` is undefined behaviour, the inner one means that the key was not found. -/
def LookupTable.get {V : Type} (t : LookupTable V) (key : Int) : Option (Option V) :=
  if -1 < key ∧ key < t.size then
    (index key).bind fun k => (rd t.exist k).bind fun ex =>
      if ex > 0 then (rd t.entries k).bind fun v => some (some v) else some none
  else some none

/-- `LookupTable::host_get`, `containers/lookup_table.hpp:118-135`. -/
def LookupTable.hostGet {V : Type} (t : LookupTable V) (key : Int) : Option (Option V) :=
  if ¬ (-1 < key ∧ key < t.size) then some none else
    (index key).bind fun k => (rd t.exist k).bind fun ex =>
      if ex = 0 then some none else (rd t.entries k).bind fun v => some (some v)

/-! ## NDIndex -/

/-- `NDIndex::linearise_inner`, `containers/nd_index.hpp:15-27`: `none` if the numbers of
arguments and dimensions differ (rejected by the compiler).  Integers do not overflow. -/
def lineariseInner : Int → List Int → List Int → Option Int
  | index, [], [] => some index
  | index, s :: ss, i :: is => lineariseInner (index * s + i) ss is
  | _, _, _ => none

/-- `NDIndex::get_linear_index`, `containers/nd_index.hpp:40-45`. -/
def getLinearIndex (shape args : List Int) : Option Int := lineariseInner 0 shape args

/-- `NDIndex::size`, `containers/nd_index.hpp:50-56`; `none` for no dimensions. -/
def ndSize : List Int → Option Int
  | [] => none
  | s :: ss => some (ss.foldl (fun a b => a * b) s)

/-! ## ResourceStack -/

/-- State of a `ResourceStack` and of its users.  Resources are numbers.  `refs` has one
entry for each `std::shared_ptr` that user code holds; `clean r` tells if nothing was done
with `r` since it was constructed or cleaned; `freed` are the resources passed to
`ResourceStackInterface::free`. -/
structure StackState where
  next : Nat
  stack : List Nat
  managed : Nat
  refs : List Nat
  clean : Nat → Bool
  freed : List Nat

/-- Constructor, `containers/resource_stack.hpp:46-56`. -/
def StackState.init : StackState := ⟨0, [], 0, [], fun _ => true, []⟩

/-- `ResourceStack::get`, `containers/resource_stack.hpp:66-78`.  `construct` gives a new
object. -/
def StackState.get (s : StackState) : Nat × StackState :=
  match s.stack with
  | [] => (s.next, { s with
      next := s.next + 1
      managed := s.managed + 1
      refs := s.next :: s.refs })
  | r :: rest => (r, { s with
      stack := rest
      refs := r :: s.refs })

/-- `ResourceStack::restore`, `containers/resource_stack.hpp:88-102`, of a pointer held by
the user.  `use_count() == 1`: no other pointer of a user and none in the stack.  `none`:
an assertion fails. -/
def StackState.restore (s : StackState) (r : Nat) : Option StackState :=
  if r ∈ s.refs then
    let refs := s.refs.erase r
    if 1 + refs.count r + s.stack.count r = 1 then
      some { s with
        refs := refs
        clean := fun x => if x = r then true else s.clean x
        stack := r :: s.stack }
    else none
  else none

/-- `ResourceStack::free`, `containers/resource_stack.hpp:108-118`. `none`: the assertion
fails. -/
def StackState.free (s : StackState) : Option StackState :=
  if s.stack.length = s.managed then
    some { s with
      stack := []
      managed := 0
      freed := s.freed ++ s.stack }
  else none

/-- What user code does between calls: copy a pointer, drop one, use the resource. -/
def StackState.copyRef (s : StackState) (r : Nat) : Option StackState :=
  if r ∈ s.refs then some { s with refs := r :: s.refs } else none

/-- See `copyRef`. -/
def StackState.dropRef (s : StackState) (r : Nat) : Option StackState :=
  if r ∈ s.refs then some { s with refs := s.refs.erase r } else none

/-- See `copyRef`. -/
def StackState.useRef (s : StackState) (r : Nat) : Option StackState :=
  if r ∈ s.refs then some { s with clean := fun x => if x = r then false else s.clean x }
  else none

/-! ## Buffers -/

/-- A `BufferBase`: allocation (`none` is the null pointer) and size,
`device_buffers.hpp:43-53`. -/
structure Buffer (α : Type) where
  ptr : Option (List α)
  size : Nat

/-- Construction with `generic_init`, `device_buffers.hpp:19-25`. -/
def Buffer.create {α : Type} (fresh : Fresh α) (size : Nat) : Buffer α :=
  ⟨if size > 0 then some (fresh size).1 else none, size⟩

/-- `max_size` in `realloc` and `realloc_no_copy`, `device_buffers.hpp:79-81` and
`109-112`.  `factor n` is the truncated product of the factor and `n`. -/
def Buffer.maxSize {α : Type} (b : Buffer α) (factor : Option (Nat → Nat)) (size : Nat) : Nat :=
  max size (match factor with
    | some f => f size
    | none => b.size)

/-- `BufferBase::realloc_no_copy`, `device_buffers.hpp:72-91`; returns the size.  `none`: the
buffer is not allocated. -/
def Buffer.reallocNoCopy {α : Type} (fresh : Fresh α) (b : Buffer α) (size : Nat)
    (factor : Option (Nat → Nat)) : Option (Nat × Buffer α) :=
  if size = 0 then some (b.size, b) else
  if size > b.size ∨ b.size > b.maxSize factor size then
    match b.ptr with
    | none => none
    | some _ => some (size, ⟨some (fresh size).1, size⟩)
  else some (b.size, b)

/-- `memcpy_wrapper(dst, src, n)`: `none` if it reads or writes outside an allocation. -/
def memcpyFront {α : Type} (dst src : List α) (n : Nat) : Option (List α) :=
  forLoop 0 n (fun i d => (rd src i).bind fun v => st d i v) dst

/-- `BufferBase::realloc`, `device_buffers.hpp:103-124`; returns the size.  `none`: the
buffer is not allocated, or the copy is out of bounds. -/
def Buffer.realloc {α : Type} (fresh : Fresh α) (b : Buffer α) (size : Nat)
    (factor : Option (Nat → Nat)) : Option (Nat × Buffer α) :=
  if size = 0 then some (b.size, b) else
  if size > b.size ∨ b.size > b.maxSize factor size then
    match b.ptr with
    | none => none
    | some old => (memcpyFront (fresh size).1 old b.size).bind fun new =>
        some (size, ⟨some new, size⟩)
  else some (b.size, b)

/-- `BufferBase::set`, `device_buffers.hpp:132-154`. `none`: an assertion fails. -/
def Buffer.set {α : Type} (b : Buffer α) (data : List α) : Option (Buffer α) :=
  if data.length ≤ b.size then
    if data.length > 0 then
      match b.ptr with
      | none => none
      | some p => (memcpyFront p data data.length).bind fun p => some { b with ptr := some p }
    else some b
  else none

/-- `BufferBase::get`, `device_buffers.hpp:162-185`, into a vector of the right size.
`none`: an assertion fails or the memory is not there. -/
def Buffer.get {α : Type} (b : Buffer α) (data : List α) : Option (List α) :=
  if data.length = b.size then
    if b.size > 0 then
      match b.ptr with
      | none => none
      | some p => memcpyFront data p b.size
    else some data
  else none

end NP
