import Verif.Common.Kernel

/-!
# Model: blocked binary tree

Models `include/neso_particles/containers/blocked_binary_tree.hpp`.  Device memory is a
list of nodes, a pointer is an index into it or null (`none`).  Loops that follow pointers
are given a number of steps; running out of it (the loop does not end) is `none`.
-/

set_option autoImplicit false

namespace NP

/-- `BlockedBinaryNode`, `containers/blocked_binary_tree.hpp:18-36`. -/
structure TreeNode (V : Type) where
  key : Int
  lhs : Option Nat
  rhs : Option Nat
  exist : List Bool
  data : List V

/-- `get_node_key`, `containers/blocked_binary_tree.hpp:57-65`; integer division truncates. -/
def getNodeKey (width key : Int) : Int :=
  if key < 0 then -(Int.tdiv (-key - 1) width + 1) else Int.tdiv key width

/-- `get_leaf_key`, `containers/blocked_binary_tree.hpp:75-82`. -/
def getLeafKey (width key : Int) : Int :=
  if key < 0 then width - 1 - (Int.tmod (-key - 1) width) else Int.tmod key width

/-- `BlockedBinaryNode::reset`, `containers/blocked_binary_tree.hpp:41-47`. -/
def TreeNode.reset {V : Type} (width : Nat) (n : TreeNode V) : Option (TreeNode V) :=
  (forLoop 0 width (fun ix e => st e ix false) n.exist).bind fun e =>
    some { n with lhs := none, rhs := none, exist := e }

/-- `BlockedBinaryNode::next`, `containers/blocked_binary_tree.hpp:102-111`; `p` is the
address of the node. -/
def TreeNode.next {V : Type} (n : TreeNode V) (p : Nat) (nodeKey : Int) : Option Nat :=
  if nodeKey < n.key then n.lhs else if nodeKey > n.key then n.rhs else some p

/-- The loop of `get_location`, `containers/blocked_binary_tree.hpp:134-139`: the flag
`node_found` and the pointer after the loop. -/
def locationLoop {V : Type} (heap : List (TreeNode V)) (nodeKey : Int) :
    Nat → Bool → Option Nat → Option (Bool × Option Nat)
  | 0, _, _ => none
  | fuel + 1, found, ptr =>
    if found then some (found, ptr) else
    match ptr with
    | none => some (found, none)
    | some p => (rd heap p).bind fun n =>
        if n.key = nodeKey then locationLoop heap nodeKey fuel true (some p)
        else locationLoop heap nodeKey fuel false (n.next p nodeKey)

/-- `BlockedBinaryNode::get_location`, `containers/blocked_binary_tree.hpp:126-147`, called on
the node at `root`: the address of the node, if there is one. -/
def getLocation {V : Type} (heap : List (TreeNode V)) (root : Nat) (nodeKey : Int) :
    Option (Option Nat) :=
  (rd heap root).bind fun r =>
  (locationLoop heap nodeKey (heap.length + 2) (decide (r.key = nodeKey)) (some root)).bind
    fun (found, ptr) => if found then ptr.map some else some none

/-- `BlockedBinaryNode::get`, `containers/blocked_binary_tree.hpp:156-186`: the inner `none`
is `false`. -/
def nodeGet {V : Type} (heap : List (TreeNode V)) (root : Nat) (width key : Int) :
    Option (Option V) :=
  (getLocation heap root (getNodeKey width key)).bind fun loc =>
    match loc with
    | none => some none
    | some p => (rd heap p).bind fun n => (index (getLeafKey width key)).bind fun leaf =>
        (rd n.exist leaf).bind fun ex =>
        if ex then (rd n.data leaf).bind fun v => some (some v) else some none

/-- `BlockedBinaryNode::set`, `containers/blocked_binary_tree.hpp:199-210`: the flag returned
and the memory. -/
def nodeSet {V : Type} (heap : List (TreeNode V)) (root : Nat) (width key : Int) (v : V) :
    Option (Bool × List (TreeNode V)) :=
  (getLocation heap root (getNodeKey width key)).bind fun loc =>
    match loc with
    | none => some (false, heap)
    | some p => (rd heap p).bind fun n => (index (getLeafKey width key)).bind fun leaf =>
        (st n.data leaf v).bind fun d => (st n.exist leaf true).bind fun e =>
        (st heap p { n with data := d, exist := e }).bind fun heap => some (true, heap)

/-- The loop of `add_node`, `containers/blocked_binary_tree.hpp:222-229`: the last node. -/
def addLoop {V : Type} (heap : List (TreeNode V)) (nodeKey : Int) : Nat → Nat → Option Nat
  | 0, _ => none
  | fuel + 1, p => (rd heap p).bind fun n =>
    match n.next p nodeKey with
    | none => some p
    | some q => addLoop heap nodeKey fuel q

/-- `BlockedBinaryNode::add_node`, `containers/blocked_binary_tree.hpp:218-237`. -/
def addNode {V : Type} (heap : List (TreeNode V)) (root node : Nat) : Option (List (TreeNode V)) :=
  (rd heap node).bind fun nd => (addLoop heap nd.key (heap.length + 2) root).bind fun p =>
  (rd heap p).bind fun cur =>
    if nd.key < cur.key then st heap p { cur with lhs := some node }
    else st heap p { cur with rhs := some node }

/-- `BlockedBinaryTree`, `containers/blocked_binary_tree.hpp:244-254`: device memory, the
map from node keys to nodes and the root. -/
structure BlockedTree (V : Type) where
  heap : List (TreeNode V)
  nodes : List (Int × Nat)
  root : Option Nat

/-- Constructor, `containers/blocked_binary_tree.hpp:282-293`. -/
def BlockedTree.create (V : Type) : BlockedTree V := ⟨[], [], none⟩

/-- `BlockedBinaryTree::add`, `containers/blocked_binary_tree.hpp:301-349`. `garbage` is the
content of the newly allocated node. -/
def BlockedTree.add {V : Type} (width : Nat) (t : BlockedTree V) (garbage : TreeNode V)
    (key : Int) (v : V) : Option (BlockedTree V) :=
  let nodeKey := getNodeKey width key
  let leafKey := getLeafKey width key
  if t.nodes.any (fun p => p.1 = nodeKey) then
    t.root.bind fun root => (nodeSet t.heap root width key v).bind fun (_, heap) =>
      some { t with heap := heap }
  else
    let new := t.heap.length
    (garbage.reset width).bind fun nd => (index leafKey).bind fun leaf =>
    (st nd.exist leaf true).bind fun e => (st nd.data leaf v).bind fun d =>
    let nd := { nd with key := nodeKey, exist := e, data := d }
    let heap := t.heap ++ [nd]
    let nodes := (nodeKey, new) :: t.nodes
    match t.root with
    | none => some ⟨heap, nodes, some new⟩
    | some root => (addNode heap root new).bind fun heap => some ⟨heap, nodes, some root⟩

/-- `BlockedBinaryTree::host_get`, `containers/blocked_binary_tree.hpp:358-380`. -/
def BlockedTree.hostGet {V : Type} (width : Nat) (t : BlockedTree V) (key : Int) :
    Option (Option V) :=
  match t.root with
  | none => some none
  | some root => nodeGet t.heap root width key

end NP
