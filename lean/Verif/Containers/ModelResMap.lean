import Verif.Common.Kernel

/-!
# Model: temporary resources that are shared by key

Models `ResourceStackMap`, `get_resource_stack`, `get_resource` and `restore_resource`,
`include/neso_particles/containers/resource_stack_map.hpp:16-186`, with the stacks of
`include/neso_particles/containers/resource_stack.hpp:66-118`.

Simplifications. Resources, keys, C++ types and interface objects are numbers. User code holds one pointer to each
resource that it got and does not copy it (copies are in C50). `info` records for each resource the key, the type and the
interface it was constructed with; it is not in the code and no function reads it. The order of the entries of the
`unordered_map` is an argument of `free`. `none` is a failed assertion.
-/

set_option autoImplicit false

namespace NP

/-- A `ResourceStack<T>`: the type `T`, the interface object, the stack and `num_managed_objects`. -/
structure ResStack where
  ty : Nat
  iface : Nat
  stack : List Nat
  managed : Nat

/-- A `ResourceStackMap` with its users: the keys and the stack of each, the resources held by users, those passed to
`free` of an interface, and the number of resources constructed so far. -/
structure ResMap where
  keys : List Nat
  stacks : Nat → ResStack
  held : List Nat
  freed : List Nat
  next : Nat
  info : List (Nat × Nat × Nat)

/-- The constructor, resource_stack_map.hpp:21-23. -/
def ResMap.init : ResMap := ⟨[], fun _ => ⟨0, 0, [], 0⟩, [], [], 0, []⟩

/-- The stack of one key replaced. -/
def ResMap.put (s : ResMap) (key : Nat) (x : ResStack) : ResMap :=
  { s with stacks := fun k => if k = key then x else s.stacks k }

/-- `get_resource_stack` up to the cast, resource_stack_map.hpp:146-152 with `set`, lines 91-100. -/
def ResMap.ensure (s : ResMap) (key ty iface : Nat) : ResMap :=
  if key ∈ s.keys then s else { (s.put key ⟨ty, iface, [], 0⟩) with keys := key :: s.keys }

/-- `get_resource<T, U>(map, key, args)`, resource_stack_map.hpp:165-170, with the cast of `get`, lines 108-118, and
`ResourceStack::get`, resource_stack.hpp:66-78. -/
def ResMap.get (s : ResMap) (key ty iface : Nat) : Option (Nat × ResMap) :=
  let s := s.ensure key ty iface
  let x := s.stacks key
  if x.ty = ty then
    match x.stack with
    | [] => some (s.next, { (s.put key { x with managed := x.managed + 1 }) with
        next := s.next + 1, held := s.next :: s.held, info := s.info ++ [(key, x.ty, x.iface)] })
    | r :: rest => some (r, { (s.put key { x with stack := rest }) with held := r :: s.held })
  else none

/-- `restore_resource(map, key, resource)` for a resource of type `ty`, resource_stack_map.hpp:181-186, with
`ResourceStack::restore`, resource_stack.hpp:88-102. -/
def ResMap.restore (s : ResMap) (key ty r : Nat) : Option ResMap :=
  if key ∈ s.keys then
    let x := s.stacks key
    if x.ty = ty then
      if r ∈ s.held then
        some { (s.put key { x with stack := r :: x.stack }) with held := s.held.erase r }
      else none
    else none
  else none

/-- `ResourceStackMap::free`, resource_stack_map.hpp:28-33, with `ResourceStack::free`, resource_stack.hpp:108-118; `order` is
the order of the entries. -/
def ResMap.free (s : ResMap) (order : List Nat) : Option ResMap :=
  (runItems (fun k (s : ResMap) =>
    let x := s.stacks k
    if x.stack.length = x.managed then
      some { (s.put k { x with stack := [], managed := 0 }) with freed := s.freed ++ x.stack }
    else none) order s).bind fun s => some { s with keys := [] }

end NP
